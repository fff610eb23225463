import Verif.Output.Spec
import Mathlib.Data.List.ProdSigma
import Mathlib.Algebra.BigOperators.Group.List.Basic
import Mathlib.Algebra.Order.Floor.Ring
import Mathlib.Tactic.Ring
import Mathlib.Tactic.FieldSimp
import Mathlib.Tactic.Positivity

namespace Sorcha.Output
open Spec

theorem rint_close (x : ℚ) : |(rint x : ℚ) - x| ≤ 1 / 2 := by
  have h0 := Int.floor_le x
  have h1 := Int.lt_floor_add_one x
  unfold rint
  split_ifs with h2 h3 h4 <;> rw [abs_le] <;> push_cast <;> constructor <;> linarith

theorem rint_int (k : ℤ) : rint (k : ℚ) = k := by
  unfold rint
  simp

theorem rint_tie_even (k : ℤ) : rint ((k : ℚ) + 1 / 2) % 2 = 0 := by
  have hf : ⌊(k : ℚ) + 1 / 2⌋ = k := by
    rw [Int.floor_eq_iff]; constructor <;> norm_num
  unfold rint
  rw [hf]
  have e : (k : ℚ) + 1 / 2 - k = 1 / 2 := by ring
  rw [e, if_neg (lt_irrefl _), if_neg (lt_irrefl _)]
  split_ifs with h <;> omega

theorem rint_mono {x y : ℚ} (h : x ≤ y) : rint x ≤ rint y := by
  have hx := rint_close x
  have hy := rint_close y
  rw [abs_le] at hx hy
  by_contra hlt
  have hlt : rint y + 1 ≤ rint x := by omega
  have hq : (rint y : ℚ) + 1 ≤ rint x := by exact_mod_cast hlt
  -- then both are exactly half-way and equal
  have hxy : x = y := by linarith
  subst hxy
  omega

theorem roundTo_spec (d : ℕ) (x : ℚ) : RoundedTo d x (roundTo d x) := by
  refine ⟨⟨_, rfl⟩, ?_⟩
  unfold roundTo
  have hp : (0 : ℚ) < 10 ^ d := by positivity
  have := rint_close (x * 10 ^ d)
  have e : (rint (x * 10 ^ d) : ℚ) / 10 ^ d - x = ((rint (x * 10 ^ d) : ℚ) - x * 10 ^ d) / 10 ^ d := by
    field_simp
  rw [e, abs_div, abs_of_pos hp]
  exact div_le_div_of_nonneg_right this hp.le

theorem cell_round_spec (d : ℕ) (c : Cell) : CellRounded d c (c.round d) := by
  cases c with
  | num x =>
    cases x with
    | fin q => exact .number _ _ (roundTo_spec d q)
    | nan => exact .other _ (by simp)
    | ninf => exact .other _ (by simp)
    | pinf => exact .other _ (by simp)
  | text s => exact .other _ (by simp)
  | flag b => exact .other _ (by simp)
  | null => exact .other _ (by simp)

theorem roundColumns_eq (k : ℕ) (names : List String) (hn : names.Nodup) (f : Frame) :
    roundColumns (some (k + 1)) names f =
      { cols := f.cols
        rows := f.rows.map fun r c => if c ∈ names ∧ c ∈ f.cols then (r c).round (k + 1) else r c } := by
  unfold roundColumns
  simp only
  induction names generalizing f with
  | nil => simp
  | cons a t ih =>
    rw [List.nodup_cons] at hn
    rw [List.foldl_cons, ih hn.2]
    by_cases ha : a ∈ f.cols
    · have : f.cols.contains a = true := by simpa using ha
      simp only [this, if_true, Frame.setCol, if_pos ha]
      congr 1
      rw [List.map_map]
      apply List.map_congr_left
      intro r _
      funext c
      simp only [Function.comp_apply, List.mem_cons]
      by_cases hc : c = a
      · subst hc
        simp [hn.1, ha]
      · simp [hc]
    · have : f.cols.contains a = false := by simpa using ha
      simp only [this, Bool.false_eq_true, if_false]
      congr 1
      apply List.map_congr_left
      intro r _
      funext c
      simp only [List.mem_cons]
      by_cases hc : c = a
      · subst hc; simp [ha]
      · simp [hc]

/-- The value of a cell after both rounding passes. -/
def finalCell (cfg : Config) (c : String) (x : Cell) : Cell :=
  match decimalsOf cfg c with
  | none => x
  | some d => x.round d

theorem round_both (cfg : Config) (f : Frame) :
    (roundColumns cfg.magnitudeDecimals magnitudeColumns (roundColumns cfg.positionDecimals positionColumns f)).cols = f.cols ∧
    (roundColumns cfg.magnitudeDecimals magnitudeColumns (roundColumns cfg.positionDecimals positionColumns f)).cells =
      f.rows.map (fun r => f.cols.map fun c => finalCell cfg c (r c)) := by
  have hp : positionColumns.Nodup := by decide
  have hm : magnitudeColumns.Nodup := by decide
  have hdis : ∀ c, c ∈ positionColumns → c ∉ magnitudeColumns := by decide
  have ep : positions = positionColumns := rfl
  have em : magnitudes = magnitudeColumns := rfl
  have one : ∀ (d : Option ℕ) (names : List String), names.Nodup → ∀ f : Frame,
      roundColumns d names f = { cols := f.cols
                                 rows := f.rows.map fun r c => if c ∈ names ∧ c ∈ f.cols then
                                   (match d.filter (· ≠ 0) with | none => r c | some k => (r c).round k) else r c } := by
    intro d names hn f
    match d with
    | none => simp [roundColumns]
    | some 0 => simp [roundColumns, Option.filter]
    | some (k + 1) => rw [roundColumns_eq k names hn]; simp [Option.filter]
  rw [one _ _ hm, one _ _ hp]
  refine ⟨rfl, ?_⟩
  simp only [Frame.cells, List.map_map]
  apply List.map_congr_left
  intro r _
  simp only [Function.comp_apply]
  apply List.map_congr_left
  intro c hc
  unfold finalCell decimalsOf
  rw [ep, em]
  by_cases h1 : c ∈ positionColumns
  · have h2 := hdis c h1
    simp only [h1, h2, hc, and_true, if_true, if_false]
  · by_cases h2 : c ∈ magnitudeColumns
    · simp only [h1, h2, hc, and_true, if_true, if_false]
    · simp only [h1, h2, false_and, if_false]

theorem sum_filter_key {α β : Type} [DecidableEq α] (obs : List β) (key : β → α) (L : List α) (hn : L.Nodup) :
    (L.map fun k => (obs.filter fun o => key o = k).length).sum = (obs.filter fun o => key o ∈ L).length := by
  induction obs with
  | nil => simp
  | cons o obs ih =>
    have e : (L.map fun k => ((o :: obs).filter fun o => key o = k).length) =
        L.map fun k => (if key o = k then 1 else 0) + (obs.filter fun o => key o = k).length := by
      apply List.map_congr_left
      intro k _
      rw [List.filter_cons]
      by_cases h : key o = k <;> simp [h, Nat.add_comm]
    rw [e, List.sum_map_add, ih, List.filter_cons]
    have e2 : (L.map fun k => if key o = k then 1 else 0).sum = if key o ∈ L then 1 else 0 := by
      clear e ih
      induction L with
      | nil => simp
      | cons a t iht =>
        rw [List.nodup_cons] at hn
        rw [List.map_cons, List.sum_cons, iht hn.2]
        by_cases h : key o = a
        · subst h; simp [hn.1]
        · simp [h]
    rw [e2]
    by_cases h : key o ∈ L <;> simp [h, Nat.add_comm]

theorem sum_filter_all {α β : Type} [DecidableEq α] (obs : List β) (key : β → α) (L : List α) (hn : L.Nodup)
    (h : ∀ o ∈ obs, key o ∈ L) : (L.map fun k => (obs.filter fun o => key o = k).length).sum = obs.length := by
  rw [sum_filter_key obs key L hn, List.filter_eq_self.2]
  intro o ho
  exact decide_eq_true (h o ho)

theorem stats_eq (cats : List String) (obs : List Obs) :
    stats cats obs = (((obs.map (·.objId)).dedup.insertionSort (· ≤ ·)) ×ˢ cats).map fun p => statRow obs p.1 p.2 := by
  unfold stats
  rw [show (((obs.map (·.objId)).dedup.insertionSort (· ≤ ·)) ×ˢ cats) =
    ((obs.map (·.objId)).dedup.insertionSort (· ≤ ·)).flatMap (fun a => cats.map (Prod.mk a)) from rfl]
  rw [List.map_flatMap]
  simp only [List.map_map]
  rfl

theorem keys_nodup (cats : List String) (hc : cats.Nodup) (obs : List Obs) :
    (((obs.map (·.objId)).dedup.insertionSort (· ≤ ·)) ×ˢ cats).Nodup :=
  List.Nodup.product ((List.perm_insertionSort _ _).nodup_iff.2 (List.nodup_dedup _)) hc

theorem mem_keys (cats : List String) (obs : List Obs) (id f : String) :
    (id, f) ∈ (((obs.map (·.objId)).dedup.insertionSort (· ≤ ·)) ×ˢ cats) ↔ (∃ o ∈ obs, o.objId = id) ∧ f ∈ cats := by
  refine List.pair_mem_product.trans ?_
  rw [List.mem_insertionSort, List.mem_dedup]
  simp

theorem sorted_get_le {s : List ℚ} (h : s.Pairwise (· ≤ ·)) {i j : ℕ} {a b : ℚ} (hi : s[i]? = some a) (hj : s[j]? = some b)
    (hij : i ≤ j) : a ≤ b := by
  obtain ⟨hi', rfl⟩ := List.getElem?_eq_some_iff.1 hi
  obtain ⟨hj', rfl⟩ := List.getElem?_eq_some_iff.1 hj
  rcases Nat.lt_or_eq_of_le hij with h1 | h1
  · exact List.pairwise_iff_getElem.1 h i j hi' hj' h1
  · subst h1; exact le_refl _

theorem filter_lt_length {s : List ℚ} (h : s.Pairwise (· ≤ ·)) {i : ℕ} {b m : ℚ} (hi : s[i]? = some b) (hm : m ≤ b) :
    (s.filter fun x => x < m).length ≤ i := by
  conv_lhs => rw [← List.take_append_drop i s]
  rw [List.filter_append, List.length_append]
  have h2 : (s.drop i).filter (fun x => x < m) = [] := by
    rw [List.filter_eq_nil_iff]
    intro x hx hlt
    obtain ⟨k, hk, rfl⟩ := List.mem_iff_getElem.1 hx
    have := sorted_get_le h hi (j := i + k) (b := (s.drop i)[k]) (by
      rw [← List.getElem?_drop]; exact List.getElem?_eq_getElem hk) (by omega)
    have hlt' := of_decide_eq_true hlt
    linarith
  rw [h2]
  have := List.length_filter_le (fun x => decide (x < m)) (s.take i)
  simp only [List.length_take, List.length_nil] at this ⊢
  omega

theorem filter_gt_length {s : List ℚ} (h : s.Pairwise (· ≤ ·)) {i : ℕ} {a m : ℚ} (hi : s[i]? = some a) (hm : a ≤ m) :
    (s.filter fun x => m < x).length ≤ s.length - (i + 1) := by
  conv_lhs => rw [← List.take_append_drop (i + 1) s]
  rw [List.filter_append, List.length_append]
  have h2 : (s.take (i + 1)).filter (fun x => m < x) = [] := by
    rw [List.filter_eq_nil_iff]
    intro x hx hlt
    obtain ⟨k, hk, rfl⟩ := List.mem_iff_getElem.1 hx
    have hk' : k < i + 1 := by rw [List.length_take] at hk; omega
    have := sorted_get_le h (i := k) (a := (s.take (i + 1))[k]) (by
      rw [← List.getElem?_take_of_lt hk']; exact List.getElem?_eq_getElem hk) hi (by omega)
    have hlt' := of_decide_eq_true hlt
    linarith
  rw [h2]
  have := List.length_filter_le (fun x => decide (m < x)) (s.drop (i + 1))
  simp only [List.length_drop, List.length_nil] at this ⊢
  omega

theorem median_spec (l : List ℚ) (m : ℚ) (h : medianOf l = some m) :
    2 * (l.filter fun x => x < m).length ≤ l.length ∧ 2 * (l.filter fun x => m < x).length ≤ l.length ∧
    (∃ x ∈ l, x ≤ m) ∧ (∃ x ∈ l, m ≤ x) := by
  unfold medianOf at h
  simp only at h
  have hs : (l.insertionSort (· ≤ ·)).Pairwise (· ≤ ·) := List.pairwise_insertionSort _ _
  have hp := List.perm_insertionSort (· ≤ ·) l
  generalize l.insertionSort (· ≤ ·) = s at h hs hp
  have hlen := hp.length_eq
  split at h
  · rename_i a b ha hb
    have hm : m = (a + b) / 2 := by simpa using h.symm
    have hab : a ≤ b := sorted_get_le hs ha hb (by omega)
    have h1 := filter_lt_length hs hb (m := m) (by linarith)
    have h2 := filter_gt_length hs ha (m := m) (by linarith)
    have hlt : l.length / 2 < s.length := (List.getElem?_eq_some_iff.1 hb).1
    rw [(hp.filter _).length_eq] at h1 h2
    refine ⟨by omega, by omega, ⟨a, hp.mem_iff.1 (List.mem_of_getElem? ha), by linarith⟩,
      ⟨b, hp.mem_iff.1 (List.mem_of_getElem? hb), by linarith⟩⟩
  · simp at h

theorem median_some (l : List ℚ) (h : l ≠ []) : ∃ m, medianOf l = some m := by
  have hlen : 0 < l.length := List.length_pos_iff.2 h
  have hl : (l.insertionSort (· ≤ ·)).length = l.length := (List.perm_insertionSort _ l).length_eq
  unfold medianOf
  simp only
  rw [List.getElem?_eq_getElem (by omega), List.getElem?_eq_getElem (by omega)]
  exact ⟨_, rfl⟩

theorem min_spec (l : List ℚ) (m : ℚ) : minOf l = some m ↔ m ∈ l ∧ ∀ x ∈ l, m ≤ x := by
  unfold minOf
  rw [List.min?_eq_some_iff]

theorem max_spec (l : List ℚ) (m : ℚ) : maxOf l = some m ↔ m ∈ l ∧ ∀ x ∈ l, x ≤ m := by
  unfold maxOf
  rw [List.max?_eq_some_iff]

theorem isMin_minOf (l : List ℚ) : IsMin l (minOf l) := by
  cases h : minOf l with
  | none => exact .inl ⟨List.min?_eq_none_iff.1 h, rfl⟩
  | some x => exact .inr ⟨x, ((min_spec l x).1 h).1, rfl, ((min_spec l x).1 h).2⟩

theorem isMax_maxOf (l : List ℚ) : IsMax l (maxOf l) := by
  cases h : maxOf l with
  | none => exact .inl ⟨List.max?_eq_none_iff.1 h, rfl⟩
  | some x => exact .inr ⟨x, ((max_spec l x).1 h).1, rfl, ((max_spec l x).1 h).2⟩

theorem isMedian_medianOf (l : List ℚ) : IsMedian l (medianOf l) := by
  by_cases hl : l = []
  · subst hl; exact .inl ⟨rfl, rfl⟩
  · refine .inr ⟨hl, fun s hp hs => ?_⟩
    have e : s = l.insertionSort (· ≤ ·) :=
      (hp.trans (List.perm_insertionSort _ l).symm).eq_of_pairwise' (r := fun a b : ℚ => a ≤ b) hs
        (List.pairwise_insertionSort _ _)
    subst e
    have hlen : 0 < l.length := List.length_pos_iff.2 hl
    have hl2 : (l.insertionSort (· ≤ ·)).length = l.length := (List.perm_insertionSort _ l).length_eq
    have h1 : (l.length - 1) / 2 < (l.insertionSort (· ≤ ·)).length := by omega
    have h2 : l.length / 2 < (l.insertionSort (· ≤ ·)).length := by omega
    refine ⟨_, _, List.getElem?_eq_getElem h1, List.getElem?_eq_getElem h2, ?_⟩
    unfold medianOf
    simp only
    rw [List.getElem?_eq_getElem h1, List.getElem?_eq_getElem h2]

theorem isFirst_head (l : List (Option ℚ)) : IsFirst l (l.filterMap id).head? := by
  induction l with
  | nil => exact .inl ⟨by simp, rfl⟩
  | cons a l ih =>
    cases a with
    | some x => exact .inr ⟨[], x, l, rfl, by simp, by simp⟩
    | none =>
      rw [List.filterMap_cons_none rfl]
      rcases ih with ⟨h1, h2⟩ | ⟨pre, x, post, rfl, h1, h2⟩
      · exact .inl ⟨by simpa using h1, h2⟩
      · exact .inr ⟨none :: pre, x, post, rfl, by simpa using h1, h2⟩

/-! ## Column selection -/

theorem select_ok (f : Frame) (cs : List String) (e : Err) (g : Frame) :
    f.select cs e = .ok g ↔ (∀ c ∈ cs, c ∈ f.cols) ∧ g = { f with cols := cs } := by
  unfold Frame.select
  by_cases h : ∀ c ∈ cs, c ∈ f.cols
  · have : (cs.all fun c => f.cols.contains c) = true := by
      rw [List.all_eq_true]; intro c hc; simpa using h c hc
    rw [if_pos this]
    simp only [Except.ok.injEq]
    exact ⟨fun e => ⟨h, e.symm⟩, fun e => e.2.symm⟩
  · have : ¬ (cs.all fun c => f.cols.contains c) = true := by
      rw [List.all_eq_true]; intro h2; exact h fun c hc => by simpa using h2 c hc
    rw [if_neg this]
    constructor
    · intro he; cases he
    · intro he; exact absurd he.1 h

theorem select_error (f : Frame) (cs : List String) (e e' : Err) :
    f.select cs e = .error e' ↔ (∃ c ∈ cs, c ∉ f.cols) ∧ e' = e := by
  unfold Frame.select
  by_cases h : (cs.all fun c => f.cols.contains c) = true
  · rw [if_pos h]
    constructor
    · intro he; cases he
    · rintro ⟨⟨c, hc, hn⟩, -⟩
      rw [List.all_eq_true] at h
      exact absurd (by simpa using h c hc) hn
  · rw [if_neg h]
    rw [List.all_eq_true] at h
    push Not at h
    obtain ⟨c, hc, hn⟩ := h
    simp only [Except.error.injEq]
    exact ⟨fun e => ⟨⟨c, hc, by simpa using hn⟩, e.symm⟩, fun e => e.2.symm⟩

end Sorcha.Output
