import Verif.Readers.Lemmas
import Mathlib.Algebra.Order.Group.Nat
import Mathlib.Tactic.Ring

namespace Sorcha.Readers
open Spec
variable {C : Type}

theorem filter_unique (t : List (Rec C)) (h : (idsOf t).Nodup) (r : Rec C) (hr : r ∈ t) :
    t.filter (fun x => x.id == r.id) = [r] ∧ t.find? (fun x => x.id = r.id) = some r := by
  induction t with
  | nil => simp at hr
  | cons a t ih =>
    simp only [idsOf, List.map_cons, List.nodup_cons] at h
    rcases List.mem_cons.1 hr with rfl | hr'
    · constructor
      · rw [List.filter_cons_of_pos (by simp)]
        rw [List.filter_eq_nil_iff.2]
        intro b hb he
        exact h.1 (List.mem_map.2 ⟨b, hb, by simpa using he⟩)
      · simp
    · have hne : ¬ a.id = r.id := fun e => h.1 (List.mem_map.2 ⟨r, hr', e.symm⟩)
      obtain ⟨i1, i2⟩ := ih h.2 hr'
      constructor
      · rw [List.filter_cons_of_neg (by simpa using hne), i1]
      · rw [List.find?_cons_of_neg (by simpa using hne), i2]

theorem cellsOf_mem (t : List (Rec C)) (h : (idsOf t).Nodup) (r : Rec C) (hr : r ∈ t) : cellsOf t r.id = r.cells := by
  unfold cellsOf
  rw [(filter_unique t h r hr).2]; rfl

theorem mem_idsOf {t : List (Rec C)} {i : String} : i ∈ idsOf t ↔ ∃ r ∈ t, r.id = i := by
  simp [idsOf]

theorem join_unique (missing : List C) (left right : List (Rec C)) (h : (idsOf right).Nodup)
    (hsub : ∀ l ∈ left, l.id ∈ idsOf right) :
    join missing left right = left.map (fun l => { l with cells := l.cells ++ cellsOf right l.id }) := by
  unfold join
  induction left with
  | nil => rfl
  | cons l left ih =>
    rw [List.flatMap_cons, List.map_cons, ih (fun x hx => hsub x (List.mem_cons_of_mem _ hx))]
    obtain ⟨r, hr, he⟩ := mem_idsOf.1 (hsub l (by simp))
    have h1 := (filter_unique right h r hr).1
    rw [he] at h1
    rw [h1, ← he, cellsOf_mem right h r hr]
    rfl

theorem nodup_filter_ids (t : List (Rec C)) (h : (idsOf t).Nodup) (p : Rec C → Bool) : (idsOf (t.filter p)).Nodup :=
  h.sublist (List.Sublist.map _ List.filter_sublist)

theorem cellsOf_filter (t : List (Rec C)) (h : (idsOf t).Nodup) (ids : List String) (i : String) (hi : i ∈ ids)
    (hit : i ∈ idsOf t) : cellsOf (t.filter fun r => ids.contains r.id) i = cellsOf t i := by
  obtain ⟨r, hr, rfl⟩ := mem_idsOf.1 hit
  rw [cellsOf_mem t h r hr]
  exact cellsOf_mem _ (nodup_filter_ids t h _) r (List.mem_filter.2 ⟨hr, by simpa using hi⟩)

theorem extend_nil (l : List (Rec C)) : l.map (extend []) = l := by
  conv_rhs => rw [← List.map_id l]
  apply List.map_congr_left
  intro r _
  simp [extend]

theorem extend_cons (t : List (Rec C)) (ts : List (List (Rec C))) (r : Rec C) :
    extend ts { r with cells := r.cells ++ cellsOf t r.id } = extend (t :: ts) r := by
  simp [extend]

/-- Readers for files holding the given tables, whose IDs are unique and stable. -/
def Good (P : IdParse) (files : List (List (Line C))) (tables : List (List (Rec C))) : Prop :=
  List.Forall₂ (fun f t => Holds f t ∧ StableIds P t ∧ (idsOf t).Nodup) files tables

theorem joinAll_good (P : IdParse) (missing : List C) (ephemIds ids : List String) (files : List (List (Line C)))
    (tables : List (List (Rec C))) (hg : Good P files tables) (acc : List (Rec C))
    (hacc : ∀ a ∈ acc, a.id ∈ ids) (he : ∀ i ∈ ephemIds, i ∈ ids)
    (hids : ∀ t ∈ tables, ∀ i ∈ ids, i ∈ idsOf t) :
    joinAll P missing ephemIds ids acc (files.map fun f => ⟨f, false, none⟩) = .ok (acc.map (extend tables)) := by
  induction hg generalizing acc with
  | nil => rw [extend_nil]; rfl
  | cons h hrest ih =>
    rename_i f t fs ts
    obtain ⟨h1, h2, h3⟩ := h
    simp only [List.map_cons, joinAll]
    rw [readObjects_holds P f t h1 h2]
    have hm : ∀ i ∈ ids, i ∈ idsOf (t.filter fun r => ids.contains r.id) := by
      intro i hi
      obtain ⟨r, hr, rfl⟩ := mem_idsOf.1 (hids t (by simp) i hi)
      exact mem_idsOf.2 ⟨r, List.mem_filter.2 ⟨hr, by simpa using hi⟩, rfl⟩
    simp only
    rw [if_pos]
    · rw [join_unique missing acc _ (nodup_filter_ids t h3 _) (fun a ha => hm _ (hacc a ha))]
      rw [ih _ (by intro a ha; obtain ⟨b, hb, rfl⟩ := List.mem_map.1 ha; exact hacc b hb)
        (fun t' ht' => hids t' (List.mem_cons_of_mem _ ht'))]
      rw [List.map_map]
      congr 1
      apply List.map_congr_left
      intro a ha
      rw [Function.comp_apply, cellsOf_filter t h3 ids a.id (hacc a ha) (hids t (by simp) _ (hacc a ha)), extend_cons]
    · rw [List.all_eq_true]
      intro i hi
      exact List.contains_iff_mem.2 (hm i (he i hi))

theorem joinAllAux_good (P : IdParse) (missing : List C) (ids : List String) (files : List (List (Line C)))
    (tables : List (List (Rec C))) (hg : Good P files tables) (acc : List (Rec C))
    (hacc : ∀ a ∈ acc, a.id ∈ ids) (hids : ∀ t ∈ tables, ∀ i ∈ ids, i ∈ idsOf t) :
    joinAllAux P missing ids acc (files.map fun f => ⟨f, false, none⟩) = .ok (acc.map (extend tables)) := by
  induction hg generalizing acc with
  | nil => rw [extend_nil]; rfl
  | cons h hrest ih =>
    rename_i f t fs ts
    obtain ⟨h1, h2, h3⟩ := h
    simp only [List.map_cons, joinAllAux]
    rw [readObjects_holds P f t h1 h2]
    have hm : ∀ i ∈ ids, i ∈ idsOf (t.filter fun r => ids.contains r.id) := by
      intro i hi
      obtain ⟨r, hr, rfl⟩ := mem_idsOf.1 (hids t (by simp) i hi)
      exact mem_idsOf.2 ⟨r, List.mem_filter.2 ⟨hr, by simpa using hi⟩, rfl⟩
    simp only
    rw [if_pos]
    · rw [join_unique missing acc _ (nodup_filter_ids t h3 _) (fun a ha => hm _ (hacc a ha))]
      rw [ih _ (by intro a ha; obtain ⟨b, hb, rfl⟩ := List.mem_map.1 ha; exact hacc b hb)
        (fun t' ht' => hids t' (List.mem_cons_of_mem _ ht'))]
      rw [List.map_map]
      congr 1
      apply List.map_congr_left
      intro a ha
      rw [Function.comp_apply, cellsOf_filter t h3 ids a.id (hacc a ha) (hids t (by simp) _ (hacc a ha)), extend_cons]
    · rw [List.all_eq_true]
      intro r hr
      exact (List.mem_filter.1 hr).2

theorem cellsOf_block (orb : List (Rec C)) (h : (idsOf orb).Nodup) (blk : List (Rec C)) (hb : blk.Sublist orb) (i : String)
    (hi : i ∈ idsOf blk) : cellsOf blk i = cellsOf orb i := by
  obtain ⟨r, hr, rfl⟩ := mem_idsOf.1 hi
  rw [cellsOf_mem orb h r (hb.subset hr), cellsOf_mem blk (h.sublist (hb.map _)) r hr]

theorem dedup_mem_ids (blk : List (Rec C)) (i : String) : i ∈ (blk.map (·.id)).dedup ↔ i ∈ idsOf blk := by
  rw [List.mem_dedup]; rfl

theorem block_sublist {α : Type} (l : List α) (b c : ℕ) : ((l.drop b).take c).Sublist l :=
  (List.take_sublist _ _).trans (List.drop_sublist _ _)

theorem dedup_length_pos (blk : List (Rec C)) (h : blk ≠ []) : ¬ (blk.map (·.id)).dedup.length = 0 := by
  intro e
  have := List.length_eq_zero_iff.1 e
  cases blk with
  | nil => exact h rfl
  | cons a t =>
    have : a.id ∈ ((a :: t).map (·.id)).dedup := List.mem_dedup.2 (by simp)
    simp_all

/-- The rows of one external block. -/
def blockRows (eph orb : List (Rec C)) (tables : List (List (Rec C))) (blk : List (Rec C)) : List (Rec C) :=
  (eph.filter fun r => (idsOf blk).contains r.id).map (extend (orb :: tables))

theorem readBlock_good (P : IdParse) (missing : List C) (fe fo : List (Line C)) (fs : List (List (Line C)))
    (eph orb : List (Rec C)) (tables : List (List (Rec C)))
    (he : Holds fe eph) (hse : StableIds P eph) (ho : HoldsLoosely fo orb) (hso : StableIds P orb) (hno : (idsOf orb).Nodup)
    (hg : Good P fs tables) (hids : ∀ t ∈ tables, ∀ i ∈ idsOf orb, i ∈ idsOf t) (b c : ℕ) :
    readBlock P missing ⟨fe, false, none⟩ ⟨fo, false, none⟩ (fs.map fun f => ⟨f, false, none⟩) b c =
      .ok (if (orb.drop b).take c = [] then none else some (blockRows eph orb tables ((orb.drop b).take c)),
        b + ((orb.drop b).take c).length) := by
  unfold readBlock
  rw [readRows_holds P fo orb ho hso b c]
  simp only
  generalize hblk : (orb.drop b).take c = blk
  have hsub : blk.Sublist orb := hblk ▸ block_sublist orb b c
  by_cases hn : blk = []
  · subst hn; simp
  · rw [if_neg (dedup_length_pos blk hn), if_neg hn, readObjects_holds P fe eph he hse]
    simp only
    have hfe : (eph.filter fun r => ((blk.map (·.id)).dedup).contains r.id) = eph.filter fun r => (idsOf blk).contains r.id := by
      apply List.filter_congr
      intro r _
      rw [Bool.eq_iff_iff, List.contains_iff_mem, List.contains_iff_mem, dedup_mem_ids]
    rw [hfe]
    have hidsin : ∀ r ∈ eph.filter (fun r => (idsOf blk).contains r.id), r.id ∈ idsOf blk := by
      intro r hr; exact List.contains_iff_mem.1 (List.mem_filter.1 hr).2
    rw [if_pos]
    · rw [join_unique missing _ blk (hno.sublist (hsub.map _)) hidsin]
      rw [joinAll_good P missing _ _ fs tables hg]
      · simp only
        rw [List.map_map]
        simp only [blockRows, Except.ok.injEq, Prod.mk.injEq, Option.some.injEq, and_true]
        apply List.map_congr_left
        intro r hr
        rw [Function.comp_apply, cellsOf_block orb hno blk hsub r.id (hidsin r hr), extend_cons]
      · intro a ha
        obtain ⟨r, hr, rfl⟩ := List.mem_map.1 ha
        exact (dedup_mem_ids _ _).2 (hidsin r hr)
      · intro i hi
        rw [List.mem_dedup] at hi
        obtain ⟨r, hr, rfl⟩ := List.mem_map.1 hi
        exact (dedup_mem_ids _ _).2 (hidsin r hr)
      · intro t ht i hi
        obtain ⟨r, hr, rfl⟩ := mem_idsOf.1 ((dedup_mem_ids _ _).1 hi)
        exact hids t ht _ (mem_idsOf.2 ⟨r, hsub.subset hr, rfl⟩)
    · rw [List.all_eq_true]
      intro i hi
      rw [List.mem_dedup] at hi
      obtain ⟨r, hr, rfl⟩ := List.mem_map.1 hi
      exact List.contains_iff_mem.2 (hidsin r hr)

theorem readAuxBlock_good (P : IdParse) (missing : List C) (fo : List (Line C)) (fs : List (List (Line C)))
    (orb : List (Rec C)) (tables : List (List (Rec C)))
    (ho : HoldsLoosely fo orb) (hso : StableIds P orb)
    (hg : Good P fs tables) (hids : ∀ t ∈ tables, ∀ i ∈ idsOf orb, i ∈ idsOf t) (b c : ℕ) :
    readAuxBlock P missing ⟨fo, false, none⟩ (fs.map fun f => ⟨f, false, none⟩) b c =
      .ok (if (orb.drop b).take c = [] then none else some (((orb.drop b).take c).map (extend tables)),
        b + ((orb.drop b).take c).length) := by
  unfold readAuxBlock
  rw [readRows_holds P fo orb ho hso b c]
  simp only
  generalize hblk : (orb.drop b).take c = blk
  have hsub : blk.Sublist orb := hblk ▸ block_sublist orb b c
  by_cases hn : blk = []
  · subst hn; simp
  · rw [if_neg (dedup_length_pos blk hn), if_neg hn]
    rw [joinAllAux_good P missing _ fs tables hg]
    · intro a ha; exact (dedup_mem_ids _ _).2 (mem_idsOf.2 ⟨a, ha, rfl⟩)
    · intro t ht i hi
      obtain ⟨r, hr, rfl⟩ := mem_idsOf.1 ((dedup_mem_ids _ _).1 hi)
      exact hids t ht _ (mem_idsOf.2 ⟨r, hsub.subset hr, rfl⟩)

theorem lt_rounds (n c k : ℕ) (hc : 1 ≤ c) : k < (n + c - 1) / c ↔ k * c < n := by
  rw [← Nat.succ_le_iff, Nat.le_div_iff_mul_le (by omega), Nat.succ_mul]; omega

theorem chunkLoop_good {α : Type} (read : ℕ → ℤ → Except Err (Option (List (Rec C)) × ℕ)) (l : List α) (c : ℕ) (hc : 1 ≤ c)
    (F : List α → List (Rec C))
    (hread : ∀ b, read b c = .ok (if (l.drop b).take c = [] then none else some (F ((l.drop b).take c)),
      b + ((l.drop b).take c).length)) :
    ∀ (fuel k b : ℕ), (l.length + c - 1) / c - k ≤ fuel → (k * c < l.length → b = k * c) →
      chunkLoop read l.length c fuel ((k * c : ℕ) : ℤ) ((k * c : ℕ) : ℤ) b =
        some (.ok ((List.range' k ((l.length + c - 1) / c - k)).map (fun j => F (chunk l c j)))) := by
  intro fuel
  induction fuel with
  | zero =>
    intro k b hf hb
    have hk : ¬ k * c < l.length := fun h => by have := (lt_rounds _ _ _ hc).2 h; omega
    unfold chunkLoop
    rw [if_neg (by exact_mod_cast hk)]
    have : (l.length + c - 1) / c - k = 0 := by omega
    rw [this]; rfl
  | succ fuel ih =>
    intro k b hf hb
    unfold chunkLoop
    by_cases hk : k * c < l.length
    · rw [if_pos (by exact_mod_cast hk)]
      have hbk := hb hk
      have hlt := (lt_rounds _ _ _ hc).2 hk
      have hne : (l.drop b).take c ≠ [] := by
        intro e
        have := congrArg List.length e
        simp only [List.length_take, List.length_drop, List.length_nil] at this
        omega
      simp only [hread, if_neg hne]
      have e1 : ((k * c : ℕ) : ℤ) + (c : ℤ) = (((k + 1) * c : ℕ) : ℤ) := by push_cast; ring
      rw [e1, ih (k + 1) _ (by omega)]
      · obtain ⟨m, hm⟩ : ∃ m, (l.length + c - 1) / c - k = m + 1 := ⟨(l.length + c - 1) / c - k - 1, by omega⟩
        have hm' : (l.length + c - 1) / c - (k + 1) = m := by omega
        rw [hm, hm', List.range'_succ]
        simp only [Option.map_some, Except.map, List.map_cons, chunk, hbk]
      · intro h
        have h2 : k * c + c < l.length := by rw [Nat.succ_mul] at h; exact h
        simp only [List.length_take, List.length_drop, hbk, Nat.succ_mul]
        omega
    · rw [if_neg (by exact_mod_cast hk)]
      have : (l.length + c - 1) / c - k = 0 := by
        have := (lt_rounds l.length c k hc).not.2 hk; omega
      rw [this]; rfl

theorem ok_ite_iff (b : Bool) (e : Err) : ((if b = true then Except.ok () else Except.error e) = Except.ok ()) ↔ b = true := by
  cases b <;> simp

theorem checkIdTables_iff (primary t : List String) (others : List (List String)) :
    checkIdTables (primary :: t :: others) = .ok () ↔ ∀ x ∈ t :: others, primary.Perm x := by
  unfold checkIdTables
  rw [ok_ite_iff]
  rw [List.all_eq_true]
  apply forall₂_congr
  intro x _
  simp only [Bool.and_eq_true, decide_eq_true_eq]
  constructor
  · rintro ⟨-, h⟩
    rw [List.perm_iff_count]
    intro a
    by_cases ha : a ∈ primary ++ x
    · exact h a ha
    · rw [List.mem_append, not_or] at ha
      rw [List.count_eq_zero.2 ha.1, List.count_eq_zero.2 ha.2]
  · intro h
    exact ⟨h.length_eq, fun s _ => h.count_eq s⟩

theorem chunks_flatten {α : Type} (l : List α) (c : ℕ) (hc : 1 ≤ c) : (chunks l c).flatten = l := by
  have key : ∀ m, ((List.range m).map (chunk l c)).flatten = l.take (m * c) := by
    intro m
    induction m with
    | zero => simp
    | succ m ih =>
      rw [List.range_succ, List.map_append, List.flatten_append, ih, Nat.succ_mul, List.take_add]
      simp [chunk]
  unfold chunks
  rw [key, List.take_of_length_le]
  have := (lt_rounds l.length c ((l.length + c - 1) / c) hc).not.1 (by omega)
  omega

end Sorcha.Readers
