import Verif.Readers.Spec
import Mathlib.Data.List.Perm.Basic
import Mathlib.Data.List.Nodup

namespace Sorcha.Readers
open Spec
variable {C : Type}

theorem filter_zipIdx {α : Type} (l : List α) (k : ℕ) (skip : ℕ → Bool) (p : α → Bool)
    (h : ∀ j (hj : j < l.length), skip (k + j) = !p l[j]) :
    ((l.zipIdx k).filter fun x => !skip x.2).map (·.1) = l.filter p := by
  induction l generalizing k with
  | nil => rfl
  | cons a l ih =>
    have h0 := h 0 (by simp)
    simp only [Nat.add_zero, List.getElem_cons_zero] at h0
    have hr := ih (k + 1) (fun j hj => by
      have := h (j + 1) (by simpa using hj)
      simp only [List.getElem_cons_succ] at this
      rw [← this]; congr 1; omega)
    simp only [List.zipIdx_cons, List.filter_cons, h0, Bool.not_not]
    by_cases hp : p a = true
    · simp only [hp, if_true, List.map_cons, hr]
    · simp only [hp, Bool.false_eq_true, if_false, hr]

theorem drop_zipIdx {α : Type} (l : List α) (k s : ℕ) (skip : ℕ → Bool)
    (h : ∀ j, skip (k + j) = decide (j < s)) :
    ((l.zipIdx k).filter fun x => !skip x.2).map (·.1) = l.drop s := by
  induction l generalizing k s with
  | nil => simp
  | cons a l ih =>
    have h0 := h 0
    simp only [Nat.add_zero] at h0
    simp only [List.zipIdx_cons, List.filter_cons, h0]
    cases s with
    | zero =>
      simp only [Nat.lt_irrefl, decide_false, Bool.not_false, if_true, List.map_cons, List.drop_zero]
      rw [ih (k + 1) 0 (fun j => by have := h (j + 1); rw [show k + 1 + j = k + (j + 1) by omega, this]; simp)]
      rfl
    | succ s =>
      simp only [Nat.zero_lt_succ, decide_true, Bool.not_true, Bool.false_eq_true, if_false, List.drop_succ_cons]
      apply ih (k + 1) s
      intro j
      have := h (j + 1)
      rw [show k + 1 + j = k + (j + 1) by omega, this]
      simp

theorem skip_all {α : Type} (l : List α) (k : ℕ) (skip : ℕ → Bool) (h : ∀ j < l.length, skip (k + j) = true) :
    ((l.zipIdx k).filter fun x => !skip x.2).map (·.1) = [] := by
  have := filter_zipIdx l k skip (fun _ => false) (fun j hj => by simpa using h j hj)
  rw [this]; simp

theorem filterMap_data (recs : List (Rec C)) : (recs.map Line.data).filterMap Line.rec? = recs := by
  induction recs with
  | nil => rfl
  | cons r t ih => simp only [List.map_cons, List.filterMap_cons, Line.rec?, ih]

theorem filter_notBlank_data (recs : List (Rec C)) :
    (recs.map Line.data).filter (fun l => !l.isBlank) = recs.map Line.data := by
  rw [List.filter_eq_self]
  intro l hl
  obtain ⟨r, -, rfl⟩ := List.mem_map.1 hl
  rfl

theorem findHeader_loose (pre : List (Line C)) (body : List (Line C)) (hlen : pre.length ≤ 101)
    (hp : ∀ l ∈ pre, l = .text ∨ l = .blank) : findHeader (pre ++ .header :: body) = some pre.length := by
  unfold findHeader
  rw [List.findIdx?_eq_some_iff_getElem]
  refine ⟨by simp; omega, ?_, ?_⟩
  · simp [Line.isHeader]
  · intro j hj
    rw [List.getElem_take, List.getElem_append_left hj]
    rcases hp _ (List.getElem_mem hj) with h | h <;> rw [h] <;> simp [Line.isHeader]

theorem split_zipIdx (pre : List (Line C)) (body : List (Line C)) (skip : ℕ → Bool)
    (h1 : ∀ j < pre.length, skip j = true) (h2 : skip pre.length = false) :
    (((pre ++ .header :: body).zipIdx.filter fun x => !skip x.2).map (·.1)) =
      .header :: ((body.zipIdx (pre.length + 1)).filter fun x => !skip x.2).map (·.1) := by
  rw [List.zipIdx_append, List.filter_append, List.map_append, List.zipIdx_cons]
  rw [skip_all pre 0 skip (by simpa using h1)]
  simp [h2]

theorem readCsv_of_kept (skip : ℕ → Bool) (nrows : Option ℕ) (f : List (Line C)) (recs : List (Rec C))
    (h : (f.zipIdx.filter fun x => !skip x.2).map (·.1) = .header :: recs.map .data) :
    readCsv skip nrows f = .ok (limitRows nrows recs) := by
  have hk : keptLines skip f = .header :: recs.map .data := by
    unfold keptLines
    rw [h, List.filter_cons_of_pos (by rfl), filter_notBlank_data]
  unfold readCsv
  rw [hk]
  simp only [filterMap_data]

theorem readRowsInternal_loose (f : List (Line C)) (recs : List (Rec C)) (hf : HoldsLoosely f recs) (start : ℕ)
    (size : Option ℤ) (hs : ∀ n, size = some n → 0 ≤ n) :
    readRowsInternal f start size =
      .ok (match size with | none => recs.drop start | some n => (recs.drop start).take n.toNat) := by
  obtain ⟨pre, hlen, hp, rfl⟩ := hf
  unfold readRowsInternal
  rw [findHeader_loose pre _ hlen hp]
  have key : ∀ nrows, readCsv (fun i => decide (i < pre.length) ||
      (decide (pre.length + 1 ≤ i) && decide (i < pre.length + 1 + start))) nrows
      (pre ++ .header :: recs.map .data) = .ok (limitRows nrows (recs.drop start)) := by
    intro nrows
    apply readCsv_of_kept
    have h1 := split_zipIdx pre (recs.map .data) (fun i => decide (i < pre.length) ||
      (decide (pre.length + 1 ≤ i) && decide (i < pre.length + 1 + start))) (by intro j hj; simp [hj]) (by simp)
    have h2 := drop_zipIdx (recs.map Line.data) (pre.length + 1) start (fun i => decide (i < pre.length) ||
      (decide (pre.length + 1 ≤ i) && decide (i < pre.length + 1 + start)))
      (by intro j; rw [Bool.eq_iff_iff]; simp; omega)
    rw [h1, h2, List.map_drop]
  cases size with
  | none => exact key none
  | some n =>
    simp only
    rw [if_neg (by have := hs n rfl; omega)]
    exact key (some n.toNat)

theorem Holds.loosely {f : List (Line C)} {recs : List (Rec C)} (h : Holds f recs) : HoldsLoosely f recs := by
  obtain ⟨n, hn, rfl⟩ := h
  exact ⟨List.replicate n .text, by simpa using hn, fun l hl => .inl (List.eq_of_mem_replicate hl), rfl⟩

theorem Stable.sub {P : IdParse} {a b : List String} (h : Stable P b) (hs : ∀ x ∈ a, x ∈ b) : Stable P a :=
  ⟨fun s hs' => h.1 s (hs s hs'), fun s hs' hw t ht => h.2 s (hs s hs') hw t (hs t ht)⟩

theorem map_cell {P : IdParse} {kind : String → Option String} {ids : List String} (hm : ∀ s ∈ ids, P.missing s = true → s = "nan")
    (hk : ∀ s ∈ ids, P.missing s = false → ∀ t, kind s = some t → t = s) : ids.map (P.cell kind) = ids := by
  conv_rhs => rw [← List.map_id ids]
  apply List.map_congr_left
  intro s hs
  unfold IdParse.cell
  split
  · rename_i h; exact (hm s hs h).symm
  · rename_i h
    cases hks : kind s with
    | none => rfl
    | some t => exact hk s hs (by simpa using h) t hks

theorem inferIds_stable (P : IdParse) (ids : List String) (h : Stable P ids) : inferIds P ids = ids := by
  have hm : ∀ s ∈ ids, P.missing s = true → s = "nan" := fun s hs => (h.1 s hs).1
  unfold inferIds
  simp only
  split
  · rename_i hint
    split
    · rename_i hmiss
      obtain ⟨t, ht, htm⟩ := List.any_eq_true.1 hmiss
      apply map_cell hm
      intro s hs hsm
      have hw : Whole P s := ⟨hsm, List.all_eq_true.1 hint s (List.mem_filter.2 ⟨hs, by simp [hsm]⟩)⟩
      rw [(h.2 s hs hw t ht).1] at htm
      cases htm
    · exact map_cell hm fun s hs hsm => ((h.1 s hs).2 hsm).1
  · rename_i hint
    split
    · rename_i hfl
      have hfl' : ∀ s ∈ ids, P.missing s = false → (P.float? s).isSome = true := fun s hs hsm => List.all_eq_true.1 hfl s (List.mem_filter.2 ⟨hs, by simp [hsm]⟩)
      obtain ⟨t, ht, htm, hti⟩ : ∃ t ∈ ids, P.missing t = false ∧ P.int? t = none := by
        simp only [List.all_eq_true, List.mem_filter, Bool.not_eq_true', and_imp, not_forall] at hint
        obtain ⟨t, ht, htm, hti⟩ := hint
        exact ⟨t, ht, htm, by simpa using hti⟩
      apply map_cell hm
      intro s hs hsm u hu
      cases hi : P.int? s with
      | none => exact ((h.1 s hs).2 hsm).2.1 u hi hu
      | some v => exact absurd ⟨htm, hti, hfl' t ht htm⟩ (h.2 s hs ⟨hsm, by rw [hi]; rfl⟩ t ht).2
    · split
      · exact map_cell hm fun s hs hsm => ((h.1 s hs).2 hsm).2.2
      · exact map_cell hm fun s hs hsm t ht => by cases ht

theorem inferIds_stable_table (P : IdParse) (recs : List (Rec C)) (h : StableIds P recs) :
    inferIds P (recs.map (·.id)) = recs.map (·.id) := inferIds_stable P _ h

theorem StableIds.sub {P : IdParse} {a b : List (Rec C)} (h : StableIds P b) (hs : ∀ x ∈ a, x ∈ b) : StableIds P a :=
  Stable.sub h fun s hs' => by
    obtain ⟨r, hr, rfl⟩ := List.mem_map.1 hs'
    exact List.mem_map.2 ⟨r, hs r hr, rfl⟩

/-- Texts that are read as nothing but texts. -/
theorem Stable.plain {P : IdParse} {ids : List String} (h : ∀ s ∈ ids, P.missing s = false ∧ P.int? s = none ∧ P.float? s = none ∧ P.bool? s = none) : Stable P ids := by
  refine ⟨fun s hs => ⟨fun hm => ?_, fun _ => ⟨fun t ht => ?_, fun t _ ht => ?_, fun t ht => ?_⟩⟩, fun s hs hw => ?_⟩
  · rw [(h s hs).1] at hm; cases hm
  · rw [(h s hs).2.1] at ht; cases ht
  · rw [(h s hs).2.2.1] at ht; cases ht
  · rw [(h s hs).2.2.2] at ht; cases ht
  · have := hw.2
    rw [(h s hs).2.1] at this
    cases this

theorem inferTable_stable (P : IdParse) (recs : List (Rec C)) (h : StableIds P recs) : inferTable P recs = recs := by
  unfold inferTable
  rw [inferIds_stable_table P recs h, List.zip_map_right, List.map_map]
  induction recs with
  | nil => rfl
  | cons r t ih =>
    simp only [List.zip_cons_cons, List.map_cons]
    rw [ih (StableIds.sub h fun x hx => List.mem_cons_of_mem _ hx)]
    rfl

theorem buildIdMap_holds (P : IdParse) (f : List (Line C)) (recs : List (Rec C)) (hf : Holds f recs)
    (hst : StableIds P recs) : buildIdMap P f = .ok (recs.map (·.id)) := by
  obtain ⟨n, hn, rfl⟩ := hf
  unfold buildIdMap
  rw [findHeader_loose _ _ (by simpa using hn) (fun l hl => .inl (List.eq_of_mem_replicate hl))]
  have : ((List.replicate n (Line.text : Line C) ++ Line.header :: recs.map Line.data).filter fun l => !l.isBlank).drop n
      = Line.header :: recs.map Line.data := by
    rw [List.filter_append, List.filter_eq_self.2]
    · rw [List.filter_cons_of_pos (by rfl), filter_notBlank_data]
      rw [List.drop_append_of_le_length (by simp)]
      simp
    · intro l hl; rw [List.eq_of_mem_replicate hl]; rfl
  simp only [List.length_replicate, readCsvHeader, this, Except.map, filterMap_data, inferIds_stable_table P recs hst]

theorem readObjectsInternal_holds (P : IdParse) (f : List (Line C)) (recs : List (Rec C)) (hf : Holds f recs)
    (hst : StableIds P recs) (ids : List String) :
    readObjectsInternal P f ids = .ok (recs.filter fun r => ids.contains r.id) := by
  have hb := buildIdMap_holds P f recs hf hst
  obtain ⟨n, hn, rfl⟩ := hf
  have hh := findHeader_loose (C := C) (List.replicate n .text) (recs.map .data) (by simpa using hn)
    (fun l hl => .inl (List.eq_of_mem_replicate hl))
  unfold readObjectsInternal
  rw [hb, hh]
  simp only [List.length_replicate]
  rw [if_neg (by simp)]
  apply readCsv_of_kept _ none
  refine (split_zipIdx (List.replicate n Line.text) (recs.map Line.data) (fun i => (List.replicate n true ++ [false] ++
    (recs.map (·.id)).map (fun s => !ids.contains s)).getD i true) ?_ ?_).trans ?_
  rotate_left 2
  · congr 1
    refine (filter_zipIdx _ _ (fun i => (List.replicate n true ++ [false] ++
      (recs.map (·.id)).map (fun s => !ids.contains s)).getD i true) (fun l => match l with | .data r => ids.contains r.id | _ => true) ?_).trans ?_
    rotate_left 1
    · rw [List.filter_map]; rfl
    · intro j hj
      simp only [List.length_map] at hj
      simp only [List.length_replicate, List.getD_eq_getElem?_getD, List.append_assoc, List.getElem?_append]
      rw [if_neg (by omega), show n + 1 + j - n = j + 1 by omega]
      simp [hj]
  · intro j hj
    simp only [List.length_replicate] at hj
    simp [List.getElem?_append, hj]
  · simp [List.getElem?_append]

theorem readObjects_holds (P : IdParse) (f : List (Line C)) (recs : List (Rec C)) (hf : Holds f recs)
    (hst : StableIds P recs) (ids : List String) :
    (⟨f, false, none⟩ : Reader C).readObjects P ids =
      .ok (recs.filter (fun r => ids.contains r.id), ⟨f, false, none⟩) := by
  simp only [Reader.readObjects, Bool.false_eq_true, if_false, readObjectsInternal_holds P f recs hf hst, Except.map]
  rw [inferTable_stable P _ (StableIds.sub hst fun x hx => List.mem_of_mem_filter hx)]

theorem readRows_holds (P : IdParse) (f : List (Line C)) (recs : List (Rec C)) (hf : HoldsLoosely f recs)
    (hst : StableIds P recs) (start n : ℕ) :
    (⟨f, false, none⟩ : Reader C).readRows P start (some n) = .ok ((recs.drop start).take n, ⟨f, false, none⟩) := by
  simp only [Reader.readRows, Bool.false_eq_true, if_false,
    readRowsInternal_loose f recs hf start (some n) (fun m hm => by cases hm; exact Int.natCast_nonneg n), Except.map, Int.toNat_natCast]
  rw [inferTable_stable P _ (StableIds.sub hst fun x hx => List.mem_of_mem_drop (List.mem_of_mem_take hx))]

end Sorcha.Readers
