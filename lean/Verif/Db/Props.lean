import Verif.Db.Lemmas
import Verif.Readers.Lemmas2

/-!
# C99: object data in a database
-/

namespace Sorcha.Db.Props
open Sorcha.Db Sorcha.Db.Spec Sorcha.Readers

variable {C : Type}

/-- A table that can be read: it has an ID column and another one, its IDs are distinct, stored as the type of the column has it, and none is missing. -/
structure Readable (E : Engine C) (t : Table C) : Prop where
  columns : 2 ≤ t.cols.length
  objId : "ObjID" ∈ t.cols
  distinct : (t.rows.map (·.id)).Nodup
  stored : ∀ r ∈ t.rows, Stored E t.aff r.id

/-- C99 (listing): the rows of a table with distinct IDs have exactly one listing by ID. -/
theorem C99_listing (rows : List (Row C)) (hd : (rows.map (·.id)).Nodup) : ∃! l, ById rows l := by
  classical
  let le : Row C → Row C → Prop := fun a b => NotBehind a.id b.id
  haveI : Std.Total le := ⟨fun a b => notBehind_total a.id b.id⟩
  haveI : IsTrans (Row C) le := ⟨fun _ _ _ h h' => notBehind_trans h h'⟩
  refine ⟨rows.insertionSort le, ⟨List.perm_insertionSort le rows, List.pairwise_insertionSort le rows⟩, ?_⟩
  intro l hl
  exact byId_unique hd hl ⟨List.perm_insertionSort le rows, List.pairwise_insertionSort le rows⟩

/-- What a reader may hold: nothing, or, if it caches, the whole table as listed. -/
def Holds (l : List (Row C)) (r : Reader C) : Prop := r.table = none ∨ (r.cache = true ∧ r.table = some (l.map shown))

theorem load_holds {E : Engine C} (hE : Keeps E) (missing : C → Bool) {t : Table C} (ht : Readable E t) {l : List (Row C)} (hl : ById t.rows l)
    {r : Reader C} (hr : Holds l r) (hc : r.cache = true) {d : Bool} (hd : d = true → ∀ r ∈ t.rows, ∀ c ∈ r.cells, missing c = false) :
    ∃ r', r.load E missing (some t) d = (.ok (l.map shown), r') ∧ Holds l r' ∧ r'.cache = true := by
  rcases hr with hr | ⟨_, hr⟩
  · have hlist : E.listing r.queries t.rows = l := byId_unique ht.distinct (hE.listing _ _) hl
    have hmem : ∀ x ∈ l, x ∈ t.rows := fun x hx => hl.1.mem_iff.mp hx
    have hfr : frame E l = l.map shown := frame_shown E l fun x hx => stored_not_null (ht.stored x (hmem x hx))
    unfold Reader.load
    rw [hr]
    simp only [readRowsInternal, lookup_ok ht.objId, hlist, hfr, validate_ok ht.columns ht.objId hmem hd, gt_iff_lt, lt_irrefl, decide_false, Bool.false_and,
      Bool.false_eq_true, if_false]
    exact ⟨_, rfl, .inr ⟨hc, rfl⟩, hc⟩
  · unfold Reader.load
    rw [hr]
    exact ⟨r, rfl, .inr ⟨hc, hr⟩, hc⟩

theorem call_answers {E : Engine C} (hE : Keeps E) (missing : C → Bool) {t : Table C} (ht : Readable E t) {l : List (Row C)} (hl : ById t.rows l)
    {r : Reader C} (hr : Holds l r) {c : Call} (hc : Proper E missing t c) :
    Answers l c (r.call E missing (some t) c).1 ∧ Holds l (r.call E missing (some t) c).2 := by
  have hmem : ∀ x ∈ l, x ∈ t.rows := fun x hx => hl.1.mem_iff.mp hx
  have hlist : E.listing r.queries t.rows = l := byId_unique ht.distinct (hE.listing _ _) hl
  cases hcache : r.cache with
  | true =>
    cases c with
    | rows start size d =>
      obtain ⟨hn, h0, hd⟩ := hc
      obtain ⟨r', hload, hh, _⟩ := load_holds hE missing ht hl hr hcache hd
      simp only [Reader.call, hcache, if_true, hload]
      cases size with
      | none =>
        refine ⟨?_, hh⟩
        simp only [Answers, slice]
        rw [if_neg (by omega), Int.toNat_natCast, List.take_length, List.map_drop]
      | some n =>
        refine ⟨?_, hh⟩
        have := hn n rfl
        simp only [Answers, slice]
        rw [if_neg (by omega), List.drop_take, List.map_take, List.map_drop]
        congr 3
        omega
    | objects ids d =>
      obtain ⟨hlen, hu, hd⟩ := hc
      obtain ⟨r', hload, hh, _⟩ := load_holds hE missing ht hl hr hcache hd
      simp only [Reader.call, hcache, if_true, hload]
      refine ⟨⟨_, rfl, ?_⟩, hh⟩
      rw [List.filter_map]
      refine List.Perm.of_eq (congrArg _ (List.filter_congr fun x _ => ?_))
      rw [Bool.eq_iff_iff, decide_eq_true_iff]
      show ids.contains (name x.id) = true ↔ _
      exact List.contains_iff_mem
  | false =>
    have hnone : r.table = none := by
      rcases hr with h | ⟨h, _⟩
      · exact h
      · rw [hcache] at h; cases h
    cases c with
    | rows start size d =>
      obtain ⟨hn, h0, hd⟩ := hc
      have hread : ∃ o, readRowsInternal E (some t) r.queries start size = .ok o ∧ (∀ x ∈ o, x ∈ l) ∧ Answers l (.rows start size d) (.ok (o.map shown)) := by
        unfold readRowsInternal
        cases size with
        | none =>
          have := h0 rfl
          subst this
          simp only [lookup_ok ht.objId, hlist, gt_iff_lt, lt_irrefl, decide_false, Bool.false_and, Bool.false_eq_true, if_false]
          exact ⟨l, rfl, fun x hx => hx, by simp [Answers]⟩
        | some n =>
          have := hn n rfl
          simp only [lookup_ok ht.objId, hlist, Option.isNone_some, Bool.and_false, Bool.false_eq_true, if_false]
          rw [if_neg (by omega)]
          exact ⟨_, rfl, fun x hx => List.mem_of_mem_drop (List.mem_of_mem_take hx), by simp [Answers]⟩
      obtain ⟨o, hread, hsub, hans⟩ := hread
      have hfr : frame E o = o.map shown := frame_shown E o fun x hx => stored_not_null (ht.stored x (hmem x (hsub x hx)))
      simp only [Reader.call, hcache, Bool.false_eq_true, if_false, Reader.checked, hread, hfr,
        validate_ok ht.columns ht.objId (fun x hx => hmem x (hsub x hx)) hd]
      exact ⟨hans, .inl hnone⟩
    | objects ids d =>
      obtain ⟨hlen, hu, hd⟩ := hc
      have hread : readObjectsInternal E (some t) r.queries ids = .ok ((E.scan r.queries t.rows).filter fun x => decide (name x.id ∈ ids)) := by
        unfold readObjectsInternal
        simp only [lookup_ok ht.objId]
        rw [if_neg (by omega)]
        congr 1
        apply List.filter_congr
        intro x hx
        exact sameAs_any hE (ht.stored x ((hE.scan _ _).mem_iff.mp hx)) ids hu
      have hsub : ∀ x ∈ (E.scan r.queries t.rows).filter fun x => decide (name x.id ∈ ids), x ∈ t.rows :=
        fun x hx => (hE.scan _ _).mem_iff.mp (List.mem_of_mem_filter hx)
      have hfr := frame_shown E _ fun x hx => stored_not_null (ht.stored x (hsub x hx))
      simp only [Reader.call, hcache, Bool.false_eq_true, if_false, Reader.checked, hread, hfr, validate_ok ht.columns ht.objId hsub hd]
      exact ⟨⟨_, rfl, (((hE.scan _ _).trans hl.1.symm).filter _).map _⟩, .inl hnone⟩

/-- C99 (histories): whatever is asked of a database reader, in whatever order, with or without caching, and however sqlite orders what it may order as it likes:
rows are taken from the one listing of the table by ID, and of the objects asked for all rows are given, and no others. -/
theorem C99_histories (E : Engine C) (hE : Keeps E) (missing : C → Bool) (t : Table C) (ht : Readable E t) (l : List (Row C)) (hl : ById t.rows l)
    (cache : Bool) (cs : List Call) (hcs : ∀ c ∈ cs, Proper E missing t c) :
    List.Forall₂ (Answers l) cs ((Reader.fresh cache).calls E missing (some t) cs) := by
  suffices key : ∀ (cs : List Call) (r : Reader C), Holds l r → (∀ c ∈ cs, Proper E missing t c) → List.Forall₂ (Answers l) cs (r.calls E missing (some t) cs) from
    key cs _ (.inl rfl) hcs
  intro cs
  induction cs with
  | nil => intro r _ _; exact .nil
  | cons c cs ih =>
    intro r hr h
    have hstep := call_answers hE missing ht hl hr (h c (by simp))
    exact .cons hstep.1 (ih _ hstep.2 fun c' hc' => h c' (List.mem_cons_of_mem _ hc'))

/-- The calls that read a table of `n` rows in blocks of `c`. -/
def blockCalls (n c : ℕ) : List Call := (List.range ((n + c - 1) / c)).map fun k => .rows (k * c) (some (c : ℤ)) false

/-- C99 (blocks): reading a table block by block gives each of its rows once, in the order of their IDs. -/
theorem C99_blocks (E : Engine C) (hE : Keeps E) (missing : C → Bool) (t : Table C) (ht : Readable E t) (l : List (Row C)) (hl : ById t.rows l)
    (cache : Bool) (c : ℕ) (hc : 1 ≤ c) :
    ∃ blocks : List (List (Rec C)), (Reader.fresh cache).calls E missing (some t) (blockCalls t.rows.length c) = blocks.map .ok ∧
      blocks.flatten = l.map shown := by
  have h := C99_histories E hE missing t ht l hl cache (blockCalls t.rows.length c) (by
    intro x hx
    simp only [blockCalls, List.mem_map] at hx
    obtain ⟨k, _, rfl⟩ := hx
    refine ⟨fun n hn => ?_, fun h => (nomatch h), fun h => (nomatch h)⟩
    cases hn; omega)
  refine ⟨Readers.Spec.chunks (l.map shown) c, ?_, Readers.chunks_flatten _ c hc⟩
  have hlen : l.length = t.rows.length := hl.1.length_eq
  unfold Readers.Spec.chunks
  rw [List.length_map, hlen, List.map_map]
  unfold blockCalls at h ⊢
  rw [List.forall₂_map_left_iff] at h
  generalize (Reader.fresh cache).calls E missing (some t) _ = outs at h ⊢
  generalize List.range ((t.rows.length + c - 1) / c) = ks at h ⊢
  induction h with
  | nil => rfl
  | cons h1 _ ih =>
    simp only [Answers, Int.toNat_natCast] at h1
    rw [List.map_cons, ih, h1]
    simp [Readers.Spec.chunk, List.map_take, List.map_drop]

/-- C99 (repeated IDs): with IDs that occur more than once, a block still has the IDs that the listing has at its place, and only rows of the table. -/
theorem C99_repeated (E : Engine C) (hE : Keeps E) (t : Table C) (ho : "ObjID" ∈ t.cols) (l : List (Row C)) (hl : ById t.rows l) (k start n : ℕ) :
    ∃ o, readRowsInternal E (some t) k start (some (n : ℤ)) = .ok o ∧ o.map (·.id) = ((l.drop start).take n).map (·.id) ∧ ∀ r ∈ o, r ∈ t.rows := by
  refine ⟨((E.listing k t.rows).drop start).take n, ?_, ?_, ?_⟩
  · unfold readRowsInternal
    simp only [lookup_ok ho, Option.isNone_some, Bool.and_false, Bool.false_eq_true, if_false]
    rw [if_neg (by omega), Int.toNat_natCast]
  · rw [List.map_take, List.map_drop, byId_ids (hE.listing k t.rows) hl, ← List.map_drop, ← List.map_take]
  · intro r hr
    exact (hE.listing k t.rows).1.mem_iff.mp (List.mem_of_mem_drop (List.mem_of_mem_take hr))

/-- C99 (missing values): a reader that does not cache, told to refuse missing values, never returns one, whatever the database holds. -/
theorem C99_missing (E : Engine C) (missing : C → Bool) (db : Option (Table C)) (r : Reader C) (hr : r.cache = false) (c : Call)
    (hd : (∃ s n, c = .rows s n true) ∨ ∃ ids, c = .objects ids true) (o : List (Rec C)) (ho : (r.call E missing db c).1 = .ok o) :
    ∀ x ∈ o, ∀ v ∈ x.cells, missing v = false := by
  have key : ∀ got, (r.checked E missing db true got).1 = .ok o → ∀ x ∈ o, ∀ v ∈ x.cells, missing v = false := by
    intro got hg x hx v hv
    unfold Reader.checked at hg
    cases got with
    | error e => simp at hg
    | ok rows =>
      simp only at hg
      unfold validate at hg
      split at hg
      · cases hg
      · rename_i hval
        simp only [Except.ok.injEq] at hg
        subst hg
        split at hval
        · cases hval
        · split at hval
          · cases hval
          · split at hval
            · cases hval
            · rename_i hany
              by_contra hm
              exact hany (by
                simp only [Bool.true_and, List.any_eq_true]
                exact ⟨x, hx, v, hv, by simpa using hm⟩)
  rcases hd with ⟨s, n, rfl⟩ | ⟨ids, rfl⟩
  · exact key _ (by simpa [Reader.call, hr] using ho)
  · exact key _ (by simpa [Reader.call, hr] using ho)

end Sorcha.Db.Props
