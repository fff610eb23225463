import Verif.Driver.Lemmas2
import Verif.Readers.Spec
import Mathlib.Data.Rat.Floor
import Mathlib.Tactic.IntervalCases

/-! # C61: the generated ephemerides -/

namespace Sorcha.Driver.Props
open Sorcha.Driver.Spec

variable {K U R S V G C : Type} [Field K] [LinearOrder K] [IsStrictOrderedRing K] [FloorRing K]

/-! ## Each row is a visit's, and its object's own -/

section sound

/-- All integrators are where calls can have led them. -/
private def Runs (E : Env K U R S V G) (s0 sims : String → S) : Prop := ∀ k, Reach E (s0 k) (sims k)

private theorem runs_update {E : Env K U R S V G} {s0 sims : String → S} (h : Runs E s0 sims) (k : String) (t : K) (r : U) :
    Runs E s0 (Function.update sims k (E.step (sims k) t r).2) := by
  intro x
  by_cases e : x = k
  · subst e; rw [Function.update_self]; exact (h x).next t r
  · rw [Function.update_of_ne e]; exact h x

private theorem runs_unitVectors {E : Env K U R S V G} {s0 : String → S} (r : U) (t : K) : ∀ (names : List String) (acc : (String → U) × (String → S)), Runs E s0 acc.2 →
    Runs E s0 (unitVectors E r t names acc).2
  | [], _, h => h
  | k :: ks, acc, h => runs_unitVectors r t ks _ (runs_update h k _ _)

private theorem runs_table {E : Env K U R S V G} {s0 : String → S} (names : List String) {s : Table K U S} (h : Runs E s0 s.sims) (t : K) : Runs E s0 (update E names s t).sims := by
  unfold update
  simp only
  split_ifs
  · exact runs_unitVectors _ _ _ _ h
  · exact runs_unitVectors _ _ _ _ h
  · exact runs_unitVectors _ _ _ _ (runs_unitVectors _ _ _ _ (runs_unitVectors _ _ _ _ h))
  · exact h

/-- What a row of visit `w` is. -/
private def IsRow (E : Env K U R S V G) (s0 : String → S) (w : Pointing.Visit V) (o : Pointing.Obs G) : Prop :=
  ∃ st, Reach E (s0 o.obj) st ∧ E.ang (E.dir (E.step st (E.jd w - E.jdRef) (E.rObs w)).1) w < E.fov + E.buffer ∧
    o = ⟨o.obj, w.id, w.mid, E.geometry w (E.step st (E.jd w - E.jdRef) (E.rObs w)).1⟩

private theorem examine_rows {E : Env K U R S V G} {s0 : String → S} (s : Table K U S) (w : Pointing.Visit V) : ∀ (ds : List String) (sims : String → S), Runs E s0 sims →
    (∀ o ∈ (examine E s w ds sims).1, IsRow E s0 w o) ∧ Runs E s0 (examine E s w ds sims).2
  | [], sims, h => by simpa [examine] using h
  | k :: ks, sims, h => by
    simp only [examine]
    have ih := examine_rows s w ks _ (runs_update h k (E.jd w - E.jdRef) (E.rObs w))
    split_ifs with c1 c2
    · refine ⟨?_, ih.2⟩
      intro o ho
      rcases List.mem_cons.1 ho with rfl | ho
      · exact ⟨sims k, h k, c2, rfl⟩
      · exact ih.1 o ho
    · exact ih
    · exact examine_rows s w ks sims h

private theorem visits_rows {E : Env K U R S V G} (hi : Iterates E) {s0 : String → S} (names : List String) : ∀ (vs : List (Pointing.Visit V)) (s : Table K U S), Runs E s0 s.sims →
    ∃ parts : List (List (Pointing.Obs G)), visits E names s vs = parts.flatten ∧
      List.Forall₂ (fun w part => (part.map (·.obj)).Nodup ∧ ∀ o ∈ part, IsRow E s0 w o) vs parts
  | [], _, _ => ⟨[], rfl, .nil⟩
  | w :: ws, s, h => by
    have h2 := runs_table names (runs_table names h (E.jd w)) (E.jd w)
    have hx := examine_rows (update E names (update E names s (E.jd w)) (E.jd w)) w (designations E (update E names s (E.jd w)) w) _ h2
    obtain ⟨parts, e, f⟩ := visits_rows hi names ws (visit E names s w).2 hx.2
    refine ⟨(visit E names s w).1 :: parts, by simp only [visits, e, List.flatten_cons], .cons ⟨?_, hx.1⟩ f⟩
    exact (designations_nodup hi _ w).sublist (examine_obj E _ w _ _)

theorem start_of {start : Readers.Rec C → S} {idle : S} {objs : List (Readers.Rec C)} {k : String} (h : k ∈ objs.map (·.id)) :
    ∃ r ∈ objs, r.id = k ∧ simDict start idle objs k = start r := by
  unfold simDict
  cases hf : objs.reverse.find? fun r => r.id = k with
  | none =>
    obtain ⟨r, hr, e⟩ := List.mem_map.1 h
    have := List.find?_eq_none.1 hf r (by simpa using hr)
    simp [e] at this
  | some r =>
    have h1 := List.find?_some hf
    have h2 := List.mem_of_find?_eq_some hf
    exact ⟨r, by simpa using h2, by simpa using h1, rfl⟩

private theorem runs_init {E : Env K U R S V G} (names : List String) (sims : String → S) (t : K) : Runs E sims (initTable E names sims t).sims :=
  runs_unitVectors _ _ _ _ (runs_unitVectors _ _ _ _ (runs_unitVectors _ _ _ _ fun _ => .start))

end sound

/-- C61 (rows): a row of the ephemeris of an input object is of one of the visits, with that visit's number and mid-time; it holds the answer, at the time of the visit,
of an integrator that was started from the object's own orbit; and the direction in that answer is within the field of view and its buffer of the visit's centre. The
rows come visit by visit, and no object has two of the same visit. -/
theorem C61_rows {E : Env K U R S V G} (hi : Iterates E) (start : Readers.Rec C → S) (idle : S) (v : Pointing.Visit V) (vs : List (Pointing.Visit V))
    (objs : List (Readers.Rec C)) :
    ∃ parts : List (List (Pointing.Obs G)), ephemeris E start idle v vs objs = parts.flatten ∧
      List.Forall₂ (fun w part => (part.map (·.obj)).Nodup ∧ ∀ o ∈ part, ∃ r ∈ objs, ∃ st, Reach E (start r) st ∧
        E.ang (E.dir (E.step st (E.jd w - E.jdRef) (E.rObs w)).1) w < E.fov + E.buffer ∧
        o = ⟨r.id, w.id, w.mid, E.geometry w (E.step st (E.jd w - E.jdRef) (E.rObs w)).1⟩) (v :: vs) parts := by
  obtain ⟨parts, e, f⟩ := visits_rows hi (keys objs) (v :: vs) _ (runs_init (E := E) (keys objs) (simDict start idle objs) (E.jd v))
  have hmem : ∀ o ∈ parts.flatten, o.obj ∈ objs.map (·.id) := by
    intro o ho
    rw [← e] at ho
    exact (mem_keys objs _).1 (visits_keyed hi _ (initTable_keyed E _ _ _) o ho)
  refine ⟨parts, e, ?_⟩
  clear e
  generalize v :: vs = ws at f ⊢
  induction f with
  | nil => exact .nil
  | @cons w part ws parts h _ ih =>
    refine .cons ⟨h.1, fun o ho => ?_⟩ (ih fun o ho => hmem o (by simp [ho]))
    obtain ⟨st, h1, h2, h3⟩ := h.2 o ho
    obtain ⟨r, hr, e1, e2⟩ := start_of (start := start) (idle := idle) (hmem o (by simp [ho]))
    refine ⟨r, hr, st, by rw [← e2]; exact h1, h2, ?_⟩
    rw [e1]; exact h3

/-- C61 (alone): the rows of an object are those it has when it is the only object. -/
theorem C61_alone {E : Env K U R S V G} (hi : Iterates E) (start : Readers.Rec C → S) (idle : S) (v : Pointing.Visit V) (vs : List (Pointing.Visit V))
    (objs : List (Readers.Rec C)) (id : String) :
    ((ephemeris E start idle v vs objs).filter fun o => o.obj = id) = ephemeris E start idle v vs (objs.filter fun r => r.id = id) := by
  have hB : ∀ o ∈ ephemeris E start idle v vs (objs.filter fun r => r.id = id), o.obj = id := by
    intro o ho
    have := (mem_keys _ _).1 (visits_keyed hi _ (initTable_keyed E _ _ _) o ho)
    obtain ⟨r, hr, e⟩ := List.mem_map.1 this
    rw [← e]; simpa using (List.mem_filter.1 hr).2
  have hB' : ((ephemeris E start idle v vs (objs.filter fun r => r.id = id)).filter fun o => o.obj = id) = ephemeris E start idle v vs (objs.filter fun r => r.id = id) :=
    List.filter_eq_self.2 fun o ho => by simpa using hB o ho
  rw [← hB']
  by_cases h : id ∈ objs.map (·.id)
  · have h' : id ∈ (objs.filter fun r => r.id = id).map (·.id) := by
      obtain ⟨r, hr, e⟩ := List.mem_map.1 h
      exact List.mem_map.2 ⟨r, by simp [hr, e], e⟩
    exact visits_same hi (keys_nodup _) (keys_nodup _) ((mem_keys _ _).2 h) ((mem_keys _ _).2 h') _
      (initTable_same E (keys_nodup _) (keys_nodup _) ((mem_keys _ _).2 h) ((mem_keys _ _).2 h') (simDict_filter start idle objs id).symm _)
  · have e1 : ((ephemeris E start idle v vs objs).filter fun o => o.obj = id) = [] := by
      rw [List.filter_eq_nil_iff]
      intro o ho hc
      simp only [decide_eq_true_eq] at hc
      exact h (hc ▸ (mem_keys _ _).1 (visits_keyed hi _ (initTable_keyed E _ _ _) o ho))
    have e2 : (objs.filter fun r => r.id = id) = [] := by
      rw [List.filter_eq_nil_iff]
      intro r hr hc
      simp only [decide_eq_true_eq] at hc
      exact h (List.mem_map.2 ⟨r, hr, hc⟩)
    rw [e1, hB', e2]
    symm
    rw [List.eq_nil_iff_forall_not_mem]
    intro o ho
    have := (mem_keys _ _).1 (visits_keyed hi _ (initTable_keyed E _ _ _) o ho)
    simp at this

/-- C61 (exact): if the visits are in order of time, an object whose integrator answers each question always the same has exactly the rows of the visits it is found in,
in their order. For each visit the search uses the object's directions at a reference time at most half an interval away, and one interval before and after. -/
theorem C61_exact {E : Env K U R S V G} (hi : Iterates E) (hP : 0 < E.interval) (start : Readers.Rec C → S) (idle : S) (v : Pointing.Visit V) (vs : List (Pointing.Visit V))
    (hchron : ((v :: vs).map E.jd).Pairwise (· ≤ ·)) (objs : List (Readers.Rec C)) (huniq : (objs.map (·.id)).Nodup) {r : Readers.Rec C} (hr : r ∈ objs) {pos : K → U → R}
    (ha : Answers E (start r) pos) :
    ∃ τs : List K, List.Forall₂ (fun w τ => |E.jd w - τ| ≤ E.interval / 2 ∧ ∃ n : ℤ, τ = E.jd v + n * E.interval) (v :: vs) τs ∧
      ((ephemeris E start idle v vs objs).filter fun o => o.obj = r.id) =
        (keep (fun x => Found E pos x.1 x.2) ((v :: vs).zip τs)).map fun x => rowFor E r.id pos x.1 := by
  have hid : r.id ∈ objs.map (·.id) := List.mem_map_of_mem hr
  have hst : simDict start idle objs r.id = start r := by
    obtain ⟨r', hr', e1, e2⟩ := start_of (start := start) (idle := idle) hid
    rw [e2, List.inj_on_of_nodup_map huniq hr' hr e1]
  have hinit := initTable_holds (E := E) (pos := pos) (keys_nodup objs) ((mem_keys objs r.id).2 hid) (simDict start idle objs) (by rw [hst]; exact ha) (E.jd v)
  refine visits_own hi (by rw [hst]; exact ha) hP (keys_nodup objs) ((mem_keys objs r.id).2 hid) (v :: vs) hinit (fun w hw => ?_) hchron
  show E.jd v - E.interval / 2 ≤ E.jd w
  rcases List.mem_cons.1 hw with rfl | hw
  · linarith
  · rw [List.map_cons, List.pairwise_cons] at hchron
    have := hchron.1 _ (List.mem_map_of_mem (f := E.jd) hw)
    linarith

/-! ## The table that is returned -/

theorem readBack_stable {P : Readers.IdParse} {rows : List (Pointing.Obs G)} (h : Readers.Spec.Stable P (rows.map (·.obj))) : readBack P rows = rows := by
  unfold readBack
  rw [Readers.inferIds_stable P (rows.map (·.obj)) h]
  clear h
  induction rows with
  | nil => rfl
  | cons o l ih =>
    simp only [List.map_cons, List.zip_cons_cons]
    rw [ih]

/-- The IDs of the rows are IDs of the objects. -/
theorem ephemeris_ids {E : Env K U R S V G} (hi : Iterates E) (start : Readers.Rec C → S) (idle : S) (v : Pointing.Visit V) (vs : List (Pointing.Visit V))
    (objs : List (Readers.Rec C)) : ∀ o ∈ ephemeris E start idle v vs objs, o.obj ∈ objs.map (·.id) :=
  fun o ho => (mem_keys _ _).1 (visits_keyed hi _ (initTable_keyed E _ _ _) o ho)

/-- C61 (joined): for objects with IDs that are unique and survive being read as numbers, the returned table has one row for each row of the ephemeris, in order, with
the object's own orbit columns. -/
theorem C61_joined {E : Env K U R S V G} (hi : Iterates E) (start : Readers.Rec C → S) (idle : S) {P : Readers.IdParse} (missing : List C) (v : Pointing.Visit V)
    (vs : List (Pointing.Visit V)) {objs : List (Readers.Rec C)} (hs : Readers.Spec.StableIds P objs) (huniq : (objs.map (·.id)).Nodup) :
    generate E start idle P missing v vs objs =
      (ephemeris E start idle v vs objs).map fun o => ⟨o.obj, o.field, o.mjd, (o.rest, Readers.Spec.cellsOf objs o.obj)⟩ := by
  have hids := ephemeris_ids hi start idle v vs objs
  have hone : ∀ id ∈ objs.map (·.id), (objs.filter fun r => r.id = id).map (·.cells) = [Readers.Spec.cellsOf objs id] := by
    intro id hid
    unfold Readers.Spec.cellsOf
    clear hs hids
    induction objs with
    | nil => simp at hid
    | cons a l ih =>
      rw [List.map_cons, List.nodup_cons] at huniq
      by_cases e : a.id = id
      · have : (l.filter fun r => r.id = id) = [] := by
          rw [List.filter_eq_nil_iff]
          intro x hx hc
          simp only [decide_eq_true_eq] at hc
          exact huniq.1 (List.mem_map.2 ⟨x, hx, by rw [hc, e]⟩)
        simp [e, this]
      · have hid' : id ∈ l.map (·.id) := by
          rcases List.mem_cons.1 hid with h | h
          · exact absurd h.symm e
          · exact h
        have := ih huniq.2 hid'
        simpa [e] using this
  unfold generate
  rw [readBack_stable (P := P) <| Readers.Stable.sub hs fun s hs' => by
    obtain ⟨o, ho, rfl⟩ := List.mem_map.1 hs'
    exact hids o ho]
  unfold joinOrbits
  generalize ephemeris E start idle v vs objs = rows at hids ⊢
  induction rows with
  | nil => rfl
  | cons o l ih =>
    rw [List.flatMap_cons, List.map_cons, ih fun x hx => hids x (List.mem_cons_of_mem _ hx)]
    have ho := hids o (by simp)
    have h1 := hone o.obj ho
    rw [if_pos ho]
    have e : ((objs.filter fun r => r.id = o.obj).map fun r => (⟨o.obj, o.field, o.mjd, (o.rest, r.cells)⟩ : Pointing.Obs (G × List C))) =
        ((objs.filter fun r => r.id = o.obj).map (·.cells)).map fun c => ⟨o.obj, o.field, o.mjd, (o.rest, c)⟩ := by
      rw [List.map_map]; rfl
    rw [e, h1]; rfl

end Sorcha.Driver.Props
