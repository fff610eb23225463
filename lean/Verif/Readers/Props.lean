import Verif.Readers.Lemmas2

/-!
# Reading properties C12 to C15
-/

namespace Sorcha.Readers.Props
open Sorcha.Readers Sorcha.Readers.Spec

variable {C : Type}

/-- The assumptions on the input of a run: each file holds its table (no blank lines), IDs are unique and survive number
inference, and the auxiliary files list the same objects as the orbit file, in any order. -/
structure Consistent (P : IdParse) (orbitFile : List (Line C)) (orbits : List (Rec C)) (auxFiles : List (List (Line C)))
    (auxs : List (List (Rec C))) : Prop where
  orbit : Holds orbitFile orbits
  stable : StableIds P orbits
  unique : (idsOf orbits).Nodup
  some_aux : auxFiles ≠ []
  aux : List.Forall₂ (fun f t => Holds f t ∧ StableIds P t) auxFiles auxs
  same : ∀ t ∈ auxs, (idsOf t).Perm (idsOf orbits)

section helpers
theorem Consistent.good {P : IdParse} {fo : List (Line C)} {orb : List (Rec C)} {fs : List (List (Line C))}
    {ts : List (List (Rec C))} (h : Consistent P fo orb fs ts) : Good P fs ts := by
  have h2 := h.aux
  have h3 := h.same
  have h4 := h.unique
  clear h
  unfold Good
  induction h2 with
  | nil => exact .nil
  | cons ha _ ih =>
    exact .cons ⟨ha.1, ha.2, (h3 _ (by simp)).nodup_iff.2 h4⟩ (ih fun t ht => h3 t (List.mem_cons_of_mem _ ht))

theorem mapM_idMap (P : IdParse) (fs : List (List (Line C))) (ts : List (List (Rec C)))
    (h : List.Forall₂ (fun f t => Holds f t ∧ StableIds P t) fs ts) :
    fs.mapM (buildIdMap P) = .ok (ts.map idsOf) := by
  induction h with
  | nil => rfl
  | cons ha _ ih =>
    rw [List.mapM_cons, buildIdMap_holds P _ _ ha.1 ha.2, ih]; rfl

theorem check_files (P : IdParse) (fs : List (List (Line C))) (ts : List (List (Rec C)))
    (h : List.Forall₂ (fun f t => Holds f t ∧ StableIds P t) fs ts) :
    checkAuxObjectIds P fs = checkIdTables (ts.map idsOf) := by
  unfold checkAuxObjectIds
  rw [mapM_idMap P fs ts h]; rfl

theorem Consistent.check {P : IdParse} {fo : List (Line C)} {orb : List (Rec C)} {fs : List (List (Line C))}
    {ts : List (List (Rec C))} (h : Consistent P fo orb fs ts) : checkAuxObjectIds P (fo :: fs) = .ok () := by
  rw [check_files P (fo :: fs) (orb :: ts) (.cons ⟨h.orbit, h.stable⟩ h.aux)]
  have h1 := h.some_aux
  have h2 := h.aux
  have h3 := h.same
  cases h2 with
  | nil => exact absurd rfl h1
  | cons _ _ =>
    rw [List.map_cons, List.map_cons, checkIdTables_iff, ← List.map_cons]
    intro x hx
    obtain ⟨t, ht, rfl⟩ := List.mem_map.1 hx
    exact (h3 t ht).symm

theorem Consistent.ids {P : IdParse} {fo : List (Line C)} {orb : List (Rec C)} {fs : List (List (Line C))}
    {ts : List (List (Rec C))} (h : Consistent P fo orb fs ts) : ∀ t ∈ ts, ∀ i ∈ idsOf orb, i ∈ idsOf t :=
  fun t ht _ hi => (h.same t ht).mem_iff.2 hi

theorem range'_zero_map {α β : Type} (l : List α) (c : ℕ) (F : List α → β) :
    (List.range' 0 ((l.length + c - 1) / c - 0)).map (fun j => F (chunk l c j)) = (chunks l c).map F := by
  rw [Nat.sub_zero, ← List.range_eq_range', chunks, List.map_map]; rfl

theorem perm_filter_or {α : Type} (l : List α) (p q : α → Bool) (h : ∀ a, p a = true → q a = true → False) :
    (l.filter p ++ l.filter q).Perm (l.filter fun a => p a || q a) := by
  induction l with
  | nil => simp
  | cons a l ih =>
    cases hp : p a <;> cases hq : q a
    · simpa [hp, hq] using ih
    · simpa [hp, hq] using List.perm_middle.trans (ih.cons a)
    · simpa [hp, hq] using ih.cons a
    · exact (h a hp hq).elim
end helpers

/-! ## C12: every object is processed exactly once -/

/-- C12 (with generated ephemerides): the loop terminates after `⌈n/c⌉` rounds and round `k` works on exactly the objects
`k*c ... k*c+c-1` of the orbit file, each extended by its own rows of the other files. -/
theorem C12_generated (P : IdParse) (missing : List C) (fo : List (Line C)) (orb : List (Rec C)) (fs : List (List (Line C)))
    (ts : List (List (Rec C))) (h : Consistent P fo orb fs ts) (c : ℕ) (hc : 1 ≤ c) (fuel : ℕ)
    (hf : (orb.length + c - 1) / c ≤ fuel) :
    runAux P missing fo fs c fuel = some (.ok ((chunks orb c).map fun blk => blk.map (extend ts))) := by
  unfold runAux
  rw [h.check]
  simp only
  rw [buildIdMap_holds P fo orb h.orbit h.stable]
  simp only [List.length_map]
  have := chunkLoop_good (readAuxBlock P missing ⟨fo, false, none⟩ (fs.map fun f => ⟨f, false, none⟩)) orb c hc
    (fun blk => blk.map (extend ts))
    (fun b => readAuxBlock_good P missing fo fs orb ts (Holds.loosely h.orbit) h.stable h.good h.ids b c) fuel 0 0 (by omega) (by simp)
  rw [range'_zero_map] at this
  simpa using this

/-- The chunks are a partition of the file in order: no object is skipped or repeated, whatever the chunk size. -/
theorem C12_partition {α : Type} (l : List α) (c : ℕ) (hc : 1 ≤ c) :
    (chunks l c).flatten = l ∧ (∀ b ∈ chunks l c, b ≠ [] ∧ b.length ≤ c) := by
  refine ⟨chunks_flatten l c hc, ?_⟩
  intro b hb
  obtain ⟨k, hk, rfl⟩ := List.mem_map.1 hb
  have hk' := (lt_rounds _ _ _ hc).1 (List.mem_range.1 hk)
  constructor
  · intro e
    have := congrArg List.length e
    simp only [chunk, List.length_take, List.length_drop, List.length_nil] at this
    omega
  · simp [chunk]

/-- C12, whole run: the concatenation of what the rounds work on is the orbit file with every object exactly once, in
order, extended by its own rows; this does not depend on the chunk size. -/
theorem C12_whole (P : IdParse) (missing : List C) (fo : List (Line C)) (orb : List (Rec C)) (fs : List (List (Line C)))
    (ts : List (List (Rec C))) (h : Consistent P fo orb fs ts) (c : ℕ) (hc : 1 ≤ c) (fuel : ℕ)
    (hf : (orb.length + c - 1) / c ≤ fuel) :
    ∃ rounds, runAux P missing fo fs c fuel = some (.ok rounds) ∧ rounds.flatten = orb.map (extend ts) ∧
      rounds.length = (orb.length + c - 1) / c := by
  refine ⟨_, C12_generated P missing fo orb fs ts h c hc fuel hf, ?_, by simp [chunks]⟩
  rw [← List.map_flatten, chunks_flatten orb c hc]

/-- C12, bad chunk sizes: with at least one object, a chunk size of zero or less stops the run with an error in the first
round; it never loops forever. -/
theorem C12_bad_size (P : IdParse) (missing : List C) (fo : List (Line C)) (orb : List (Rec C)) (fs : List (List (Line C)))
    (ts : List (List (Rec C))) (h : Consistent P fo orb fs ts) (hne : orb ≠ []) (c : ℤ) (hc : c ≤ 0) (fuel : ℕ) (hf : 1 ≤ fuel) :
    ∃ e, runAux P missing fo fs c fuel = some (.error e) := by
  unfold runAux
  rw [h.check]
  simp only
  rw [buildIdMap_holds P fo orb h.orbit h.stable]
  simp only [List.length_map]
  obtain ⟨fuel, rfl⟩ : ∃ k, fuel = k + 1 := ⟨fuel - 1, by omega⟩
  have hlen : 0 < orb.length := List.length_pos_iff.2 hne
  unfold chunkLoop
  rw [if_pos (by exact_mod_cast hlen)]
  by_cases h0 : c = 0
  · subst h0
    have := readAuxBlock_good P missing fo fs orb ts (Holds.loosely h.orbit) h.stable h.good h.ids 0 0
    simp only [Nat.cast_zero] at this
    simp only [this, List.take_zero, if_true]
    exact ⟨_, rfl⟩
  · have hneg : c < 0 := by omega
    obtain ⟨n, hn, rfl⟩ := h.orbit
    have : readAuxBlock P missing ⟨List.replicate n .text ++ .header :: orb.map .data, false, none⟩
        (fs.map fun f => ⟨f, false, none⟩) 0 c = .error .badNrows := by
      unfold readAuxBlock Reader.readRows readRowsInternal
      simp only [findHeader_loose _ _ (by simpa using hn) (fun l hl => Or.inl (List.eq_of_mem_replicate hl)), if_pos hneg,
        Bool.false_eq_true, if_false, Except.map]
    simp only [this]
    exact ⟨_, rfl⟩

/-- C12 fails when the body of the orbit file contains a blank line: `read_rows` counts physical lines when skipping but
pandas ignores blank lines when counting rows, so with a chunk size of 3 object `c` is processed in both rounds. -/
theorem C12_blank_line_fails :
    let orb : List (Line ℕ) := [.header, .data ⟨"a", []⟩, .data ⟨"b", []⟩, .blank, .data ⟨"c", []⟩, .data ⟨"d", []⟩]
    let phys : List (Line ℕ) := [.header, .data ⟨"a", [1]⟩, .data ⟨"b", [2]⟩, .data ⟨"c", [3]⟩, .data ⟨"d", [4]⟩]
    let noNumbers : IdParse := ⟨fun _ => false, fun _ => none, fun _ => none, fun _ => none⟩
    (runAux noNumbers [] orb [phys] 3 2).map (·.toOption) =
      some (some [[⟨"a", [1]⟩, ⟨"b", [2]⟩, ⟨"c", [3]⟩], [⟨"c", [3]⟩, ⟨"d", [4]⟩]]) := by
  decide +kernel

/-! ## C13: what the readers return -/

/-- C13 (rows): `read_rows(start, n)` returns rows `start ... start+n-1` of the file. -/
theorem C13_rows (P : IdParse) (f : List (Line C)) (recs : List (Rec C)) (hf : HoldsLoosely f recs) (hs : StableIds P recs)
    (start n : ℕ) : ((⟨f, false, none⟩ : Reader C).readRows P start (some n)).map (·.1) = .ok ((recs.drop start).take n) := by
  rw [readRows_holds P f recs hf hs]; rfl

/-- C13 (objects): `read_objects(ids)` returns exactly the rows of those objects, in file order. -/
theorem C13_objects (P : IdParse) (f : List (Line C)) (recs : List (Rec C)) (hf : Holds f recs) (hs : StableIds P recs)
    (ids : List String) :
    ((⟨f, false, none⟩ : Reader C).readObjects P ids).map (·.1) = .ok (recs.filter fun r => r.id ∈ ids) := by
  rw [readObjects_holds P f recs hf hs]
  simp [Except.map]

/-- The answer the file's content gives to a call. -/
def answer (recs : List (Rec C)) : Call → List (Rec C)
  | .rows s none => recs.drop s
  | .rows s (some n) => (recs.drop s).take n.toNat
  | .objects ids => recs.filter fun r => r.id ∈ ids

/-- A call whose size is not negative. -/
def Sensible : Call → Prop
  | .rows _ (some n) => 0 ≤ n
  | _ => True

/-- C13 (histories, caching): for any sequence of calls, a caching and a non-caching reader of the same file return the
same tables, namely the ones the file content determines. -/
theorem C13_histories (P : IdParse) (f : List (Line C)) (recs : List (Rec C)) (hf : Holds f recs) (hs : StableIds P recs)
    (cache : Bool) (cs : List Call) (hc : ∀ c ∈ cs, Sensible c) :
    (⟨f, cache, none⟩ : Reader C).calls P cs = cs.map fun c => .ok (answer recs c) := by
  have key : ∀ (cs : List Call) (r : Reader C), (∀ c ∈ cs, Sensible c) → r.file = f → r.cache = cache →
      (r.table = none ∨ (r.table = some recs)) → (cache = false → r.table = none) →
      r.calls P cs = cs.map fun c => .ok (answer recs c) := by
    intro cs
    induction cs with
    | nil => intros; rfl
    | cons c cs ih =>
      intro r hsen hfile hcache htab hnc
      have hload : ∃ r' : Reader C, r.load P = .ok (recs, r') ∧ r'.file = f ∧ r'.cache = cache ∧ r'.table = some recs := by
        unfold Reader.load
        rcases htab with h | h
        · rw [h]
          simp only
          rw [hfile, readRowsInternal_loose f recs (Holds.loosely hf) 0 none (by simp)]
          simp only [Except.map, List.drop_zero, inferTable_stable P recs hs]
          exact ⟨_, rfl, rfl, hcache, rfl⟩
        · rw [h]
          exact ⟨r, rfl, hfile, hcache, h⟩
      have hstep : ∃ r' : Reader C, r.call P c = .ok (answer recs c, r') ∧ r'.file = f ∧ r'.cache = cache ∧
            (r'.table = none ∨ r'.table = some recs) ∧ (cache = false → r'.table = none) := by
        cases hb : cache with
        | false =>
          refine ⟨r, ?_, hfile, by rw [hcache, hb], htab, fun _ => hnc hb⟩
          have hr : r = ⟨f, false, none⟩ := by
            cases r; simp only at hfile hcache hnc; subst hfile; rw [hcache, hnc hb, hb]
          cases c with
          | rows s n =>
            have hn : ∀ m, n = some m → 0 ≤ m := by
              intro m hm; subst hm; exact hsen (.rows s (some m)) (by simp)
            rw [hr]
            simp only [Reader.call, Reader.readRows, Bool.false_eq_true, if_false, readRowsInternal_loose f recs (Holds.loosely hf) s n hn, Except.map]
            cases n with
            | none => simp only [answer]; rw [inferTable_stable P _ (StableIds.sub hs fun x hx => List.mem_of_mem_drop hx)]
            | some m =>
              simp only [answer]
              rw [inferTable_stable P _ (StableIds.sub hs fun x hx => List.mem_of_mem_drop (List.mem_of_mem_take hx))]
          | objects ids =>
            rw [hr]
            simp only [Reader.call, readObjects_holds P f recs hf hs, answer]
            simp
        | true =>
          obtain ⟨r', hl, h1, h2, h3⟩ := hload
          refine ⟨r', ?_, h1, by rw [h2, hb], .inr h3, by simp⟩
          cases c with
          | rows s n =>
            have hn : ∀ m, n = some m → 0 ≤ m := by
              intro m hm; subst hm; exact hsen (.rows s (some m)) (by simp)
            simp only [Reader.call, Reader.readRows, hcache, hb, if_true, hl, Except.map]
            cases n with
            | none => rfl
            | some m =>
              have := hn m rfl
              simp only [answer, List.drop_take]
              congr 4
              omega
          | objects ids =>
            simp only [Reader.call, Reader.readObjects, hcache, hb, if_true, hl, Except.map, answer]
            simp
      obtain ⟨r', he, h1, h2, h3, h4⟩ := hstep
      simp only [Reader.calls, List.map_cons]
      rw [he]
      simp only
      rw [ih r' (fun c hc => hsen c (List.mem_cons_of_mem _ hc)) h1 h2 h3 h4]
  exact key cs _ hc rfl rfl (.inl rfl) (fun _ => rfl)

/-- C13 (HDF5): with unique index labels the HDF5 reader returns the same rows as the text reader. -/
theorem C13_hdf5 (t : List (ℕ × Rec C)) (hu : (t.map (·.1)).Nodup) (start n : ℕ) (ids : List String) :
    h5ReadRows t start (some n) = ((t.map (·.2)).drop start).take n ∧
    h5ReadRows t start none = (t.map (·.2)).drop start ∧
    h5ReadObjects t ids = (t.map (·.2)).filter fun r => r.id ∈ ids := by
  refine ⟨?_, ?_, ?_⟩
  · simp only [h5ReadRows, List.drop_take, List.map_take, List.map_drop]
    congr 1; omega
  · simp only [h5ReadRows, List.map_drop]
  · unfold h5ReadObjects
    simp only
    rw [List.filter_map]
    congr 1
    apply List.filter_congr
    intro x hx
    rw [Bool.eq_iff_iff, List.contains_iff_mem]
    simp only [List.mem_map, List.mem_filter, Function.comp_apply, decide_eq_true_eq, List.contains_iff_mem]
    constructor
    · rintro ⟨y, ⟨hy, hyi⟩, he⟩
      have : y = x := List.inj_on_of_nodup_map hu hy hx he
      rwa [← this]
    · intro h; exact ⟨x, ⟨hx, h⟩, rfl⟩

/-- C13 fails for HDF5 tables with repeated index labels (for instance written by concatenating frames): asking for one
object returns another one's row too. -/
theorem C13_hdf5_labels_fails :
    h5ReadObjects [(0, ⟨"a", [1]⟩), (0, ⟨"b", [2]⟩)] ["a"] = [(⟨"a", [1]⟩ : Rec ℕ), ⟨"b", [2]⟩] := by
  decide +kernel

/-- Unsigned integers in decimal notation, as pandas recognises them (enough for the witnesses below). -/
def decimal : IdParse where
  missing _ := false
  int? s := if s.toList ≠ [] ∧ s.toList.all Char.isDigit then some (toString (s.toList.foldl (fun n c => 10 * n + (c.toNat - 48)) 0 : ℕ)) else none
  float? _ := none
  bool? _ := none

/-- C13/C16 fail for IDs that change when read as numbers.  The orbit and parameter files list the objects `007` and `X`.
Read together (chunk size 2) the IDs are text and the parameters are found.  Read one at a time (chunk size 1) the first ID
is inferred to be a number and becomes `7`, which is not in the parameter file, so the object silently gets missing
parameters. -/
theorem C13_numeric_ids_fails :
    let orb : List (Line String) := [.header, .data ⟨"007", ["q"]⟩, .data ⟨"X", ["r"]⟩]
    let phys : List (Line String) := [.header, .data ⟨"007", ["H=5"]⟩, .data ⟨"X", ["H=9"]⟩]
    (runAux decimal ["NaN"] orb [phys] 2 2).map (·.toOption) =
      some (some [[⟨"007", ["q", "H=5"]⟩, ⟨"X", ["r", "H=9"]⟩]]) ∧
    (runAux decimal ["NaN"] orb [phys] 1 2).map (·.toOption) =
      some (some [[⟨"7", ["q", "NaN"]⟩], [⟨"X", ["r", "H=9"]⟩]]) := by
  decide +kernel

/-- A blank line above the header is accepted when reading rows but makes the ID table, and hence the run, fail. -/
theorem C13_blank_above_header_fails :
    let f : List (Line ℕ) := [.blank, .header, .data ⟨"a", [1]⟩]
    readRowsInternal f 0 none = .ok [⟨"a", [1]⟩] ∧ buildIdMap decimal f = .error .emptyData := by
  exact ⟨rfl, rfl⟩

/-! ## C14: the object lists must agree -/

/-- C14: the check succeeds exactly when there are at least two files and every file lists the same IDs, each equally
often, as the first, in any order. -/
theorem C14_check (P : IdParse) (fs : List (List (Line C))) (ts : List (List (Rec C)))
    (h : List.Forall₂ (fun f t => Holds f t ∧ StableIds P t) fs ts) :
    checkAuxObjectIds P fs = .ok () ↔
      ∃ first second rest, ts = first :: second :: rest ∧ ∀ t ∈ second :: rest, (idsOf first).Perm (idsOf t) := by
  rw [check_files P fs ts h]
  match ts with
  | [] => simp [checkIdTables]
  | [t] => simp [checkIdTables]
  | a :: b :: r =>
    rw [List.map_cons, List.map_cons, checkIdTables_iff, ← List.map_cons]
    constructor
    · intro hp
      exact ⟨a, b, r, rfl, fun t ht => hp _ (List.mem_map_of_mem ht)⟩
    · rintro ⟨a', b', r', he, hp⟩ x hx
      obtain ⟨rfl, rfl, rfl⟩ : a = a' ∧ b = b' ∧ r = r' := by simpa using he
      obtain ⟨t, ht, rfl⟩ := List.mem_map.1 hx
      exact hp t ht

/-- C14: when the check fails the run stops before any chunk is read. -/
theorem C14_stops (P : IdParse) (missing : List C) (fo : List (Line C)) (fs : List (List (Line C))) (size : ℤ) (fuel : ℕ) (e : Err)
    (h : checkAuxObjectIds P (fo :: fs) = .error e) (fe : List (Line C)) :
    runAux P missing fo fs size fuel = some (.error e) ∧ runExternal P missing fe fo fs size fuel = some (.error e) := by
  unfold runAux runExternal
  rw [h]; exact ⟨rfl, rfl⟩

/-! ## C15: the join -/

/-- C15: with an external ephemeris, round `k` delivers exactly the ephemeris rows of the objects in chunk `k` of the orbit
file, in ephemeris-file order, each extended by its object's orbit and auxiliary cells. -/
theorem C15_blocks (P : IdParse) (missing : List C) (fe fo : List (Line C)) (eph orb : List (Rec C)) (fs : List (List (Line C)))
    (ts : List (List (Rec C))) (h : Consistent P fo orb fs ts) (he : Holds fe eph) (hse : StableIds P eph)
    (c : ℕ) (hc : 1 ≤ c) (fuel : ℕ) (hf : (orb.length + c - 1) / c ≤ fuel) :
    runExternal P missing fe fo fs c fuel =
      some (.ok ((chunks orb c).map fun blk => (eph.filter fun r => r.id ∈ idsOf blk).map (extend (orb :: ts)))) := by
  unfold runExternal
  rw [h.check]
  simp only
  rw [buildIdMap_holds P fo orb h.orbit h.stable]
  simp only [List.length_map]
  have := chunkLoop_good (readBlock P missing ⟨fe, false, none⟩ ⟨fo, false, none⟩ (fs.map fun f => ⟨f, false, none⟩)) orb c hc
    (blockRows eph orb ts)
    (fun b => readBlock_good P missing fe fo fs eph orb ts he hse (Holds.loosely h.orbit) h.stable h.unique h.good h.ids b c)
    fuel 0 0 (by omega) (by simp)
  rw [range'_zero_map] at this
  have e2 : (blockRows eph orb ts) = fun blk => (eph.filter fun r => r.id ∈ idsOf blk).map (extend (orb :: ts)) := by
    funext blk
    unfold blockRows
    congr 1
    apply List.filter_congr
    intro r _
    simp
  rw [e2] at this
  simpa using this

/-- C15, whole run: over all rounds every ephemeris row of a listed object is delivered exactly once, extended by the cells
of its own object and no other; no other row appears. -/
theorem C15_whole (P : IdParse) (missing : List C) (fe fo : List (Line C)) (eph orb : List (Rec C)) (fs : List (List (Line C)))
    (ts : List (List (Rec C))) (h : Consistent P fo orb fs ts) (he : Holds fe eph) (hse : StableIds P eph)
    (c : ℕ) (hc : 1 ≤ c) (fuel : ℕ) (hf : (orb.length + c - 1) / c ≤ fuel) :
    ∃ rounds, runExternal P missing fe fo fs c fuel = some (.ok rounds) ∧
      rounds.flatten.Perm ((eph.filter fun r => r.id ∈ idsOf orb).map (extend (orb :: ts))) := by
  refine ⟨_, C15_blocks P missing fe fo eph orb fs ts h he hse c hc fuel hf, ?_⟩
  have key : ∀ bs : List (List (Rec C)), (idsOf bs.flatten).Nodup →
      ((bs.map fun blk => (eph.filter fun r => r.id ∈ idsOf blk).map (extend (orb :: ts))).flatten).Perm
        ((eph.filter fun r => r.id ∈ idsOf bs.flatten).map (extend (orb :: ts))) := by
    intro bs
    induction bs with
    | nil => intro _; simp [idsOf]
    | cons b bs ih =>
      intro hn
      rw [List.flatten_cons, idsOf, List.map_append, List.nodup_append] at hn
      have ih' := ih hn.2.1
      rw [List.map_cons, List.flatten_cons, List.flatten_cons]
      refine (ih'.append_left _).trans ?_
      rw [← List.map_append]
      apply List.Perm.map
      refine (perm_filter_or eph _ _ ?_).trans (List.Perm.of_eq (List.filter_congr fun r _ => ?_))
      · intro r h1 h2
        exact hn.2.2 _ (of_decide_eq_true h1) _ (of_decide_eq_true h2) rfl
      · simp [idsOf]
  have := key (chunks orb c) (by rw [chunks_flatten orb c hc]; exact h.unique)
  rwa [chunks_flatten orb c hc] at this

/-- C15 fails when an ID is listed twice in the orbit file and in the parameter file: the ID check passes, and the join
multiplies rows, giving one detection four times with every combination of orbit and parameters. -/
theorem C15_duplicate_ids_fails :
    let eph : List (Line String) := [.header, .data ⟨"a", ["t0"]⟩]
    let orb : List (Line String) := [.header, .data ⟨"a", ["q1"]⟩, .data ⟨"a", ["q2"]⟩]
    let phys : List (Line String) := [.header, .data ⟨"a", ["H1"]⟩, .data ⟨"a", ["H2"]⟩]
    checkAuxObjectIds decimal [orb, phys] = .ok () ∧
    (runExternal decimal ["NaN"] eph orb [phys] 2 1).map (·.toOption) =
      some (some [[⟨"a", ["t0", "q1", "H1"]⟩, ⟨"a", ["t0", "q1", "H2"]⟩, ⟨"a", ["t0", "q2", "H1"]⟩, ⟨"a", ["t0", "q2", "H2"]⟩]]) := by
  decide +kernel

/-- With generated ephemerides the presence check compares in the wrong direction: if the parameter file of a block lacks an
object, no error is raised by the block reader and the object's parameters are missing values. (The ID check at the start
excludes this for files that do not change; it is the only protection.) -/
theorem C15_aux_presence_check_fails :
    let orb : List (Line String) := [.header, .data ⟨"a", ["q1"]⟩, .data ⟨"b", ["q2"]⟩]
    let phys : List (Line String) := [.header, .data ⟨"a", ["H1"]⟩]
    (readAuxBlock decimal ["NaN"] ⟨orb, false, none⟩ [⟨phys, false, none⟩] 0 2).toOption =
      some (some [⟨"a", ["q1", "H1"]⟩, ⟨"b", ["q2", "NaN"]⟩], 2) := by
  decide +kernel

/-! ## Concrete instance -/

/-- An orbit file with three objects and a comment line, a parameter file in another order, an ephemeris with an unlisted
object. -/
def demoOrb : List (Rec String) := [⟨"a", ["qa"]⟩, ⟨"b", ["qb"]⟩, ⟨"12", ["qc"]⟩]
def demoPhys : List (Rec String) := [⟨"12", ["Hc"]⟩, ⟨"a", ["Ha"]⟩, ⟨"b", ["Hb"]⟩]
def demoEph : List (Rec String) := [⟨"b", ["t1"]⟩, ⟨"a", ["t2"]⟩, ⟨"z", ["t3"]⟩, ⟨"b", ["t4"]⟩]
def asFile (n : ℕ) (t : List (Rec String)) : List (Line String) := List.replicate n .text ++ .header :: t.map .data

theorem demo_stable (recs : List (Rec String)) (h : ∀ s ∈ recs.map (·.id), decimal.int? s = none ∨ decimal.int? s = some s) : StableIds decimal recs := by
  refine ⟨fun s hs => ⟨by simp [decimal], fun _ => ⟨fun t ht => ?_, by simp [decimal], by simp [decimal]⟩⟩, fun s _ _ t _ => ⟨rfl, by simp [Fraction, decimal]⟩⟩
  rcases h s hs with h | h
  · rw [h] at ht; cases ht
  · rw [h] at ht; injection ht with ht; exact ht.symm

theorem demo_consistent : Consistent decimal (asFile 1 demoOrb) demoOrb [asFile 0 demoPhys] [demoPhys] where
  orbit := ⟨1, by decide, rfl⟩
  stable := demo_stable _ (by decide +kernel)
  unique := by decide +kernel
  some_aux := by simp
  aux := by
    exact .cons ⟨⟨0, by decide, rfl⟩, demo_stable _ (by decide +kernel)⟩ .nil
  same := by decide +kernel

example : (runExternal decimal ["NaN"] (asFile 0 demoEph) (asFile 1 demoOrb) [asFile 0 demoPhys] 2 2).map (·.toOption) =
    some (some [[⟨"b", ["t1", "qb", "Hb"]⟩, ⟨"a", ["t2", "qa", "Ha"]⟩, ⟨"b", ["t4", "qb", "Hb"]⟩], []]) := by decide +kernel

example : (runAux decimal ["NaN"] (asFile 1 demoOrb) [asFile 0 demoPhys] 2 2).map (·.toOption) =
    some (some [[⟨"a", ["qa", "Ha"]⟩, ⟨"b", ["qb", "Hb"]⟩], [⟨"12", ["qc", "Hc"]⟩]]) := by decide +kernel

example : ([Call.rows 1 (some 2), .objects ["12"], .rows 0 none] : List Call).map (answer demoOrb) =
    [[⟨"b", ["qb"]⟩, ⟨"12", ["qc"]⟩], [⟨"12", ["qc"]⟩], demoOrb] := by decide +kernel

end Sorcha.Readers.Props
