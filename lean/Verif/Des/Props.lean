import Verif.Des.Spec
import Mathlib.Data.Finset.Max
import Mathlib.Algebra.Order.Floor.Defs
import Mathlib.Data.Rat.Floor
import Mathlib.Tactic.Linarith
import Mathlib.Tactic.NormNum
import Mathlib.Tactic.Push

/-!
# Property C37: the DES discovery rule
-/

namespace Sorcha.Des.Props
open Sorcha.Des

variable {V : Type}

/-! ### Numbers of nights -/

theorem nunique_eq (seen ts : List ℚ) (hs : ts.Pairwise (· ≤ ·)) (hle : ∀ s ∈ seen, ∀ t ∈ ts, s ≤ t) :
    nunique seen ts = (ts.toFinset.filter fun u => u ∉ seen ∧ ∀ s ∈ seen ++ ts, s < u → u - s ≥ 4 / 10).card := by
  induction ts generalizing seen with
  | nil => simp [nunique]
  | cons t ts ih =>
    rw [List.pairwise_cons] at hs
    have hle' : ∀ s ∈ t :: seen, ∀ u ∈ ts, s ≤ u := by
      intro s hs' u hu
      rcases List.mem_cons.1 hs' with rfl | h
      · exact hs.1 u hu
      · exact hle s h u (List.mem_cons_of_mem _ hu)
    unfold nunique
    rw [ih (t :: seen) hs.2 hle']
    have hany : (seen.any (fun s => |s - t| < 4 / 10)) = true ↔ ¬ ∀ s ∈ seen, t - s ≥ 4 / 10 := by
      rw [List.any_eq_true]
      push Not
      refine exists_congr fun s => and_congr_right fun hs' => ?_
      have := hle s hs' t List.mem_cons_self
      rw [decide_eq_true_eq, abs_sub_comm, abs_of_nonneg (by linarith)]
    have hB : ∀ u, u ∈ (ts.toFinset.filter fun u => u ∉ t :: seen ∧ ∀ s ∈ (t :: seen) ++ ts, s < u → u - s ≥ 4 / 10) ↔
        u ≠ t ∧ u ∈ ((t :: ts).toFinset.filter fun u => u ∉ seen ∧ ∀ s ∈ seen ++ (t :: ts), s < u → u - s ≥ 4 / 10) := by
      intro u
      simp only [Finset.mem_filter, List.mem_toFinset, List.mem_cons, List.mem_append, not_or]
      constructor
      · rintro ⟨h1, ⟨h2, h3⟩, h4⟩
        refine ⟨h2, Or.inr h1, h3, fun s hs' hlt => h4 s ?_ hlt⟩
        tauto
      · rintro ⟨h1, h2, h3, h4⟩
        refine ⟨h2.resolve_left h1, ⟨h1, h3⟩, fun s hs' hlt => h4 s ?_ hlt⟩
        tauto
    have ht : t ∈ ((t :: ts).toFinset.filter fun u => u ∉ seen ∧ ∀ s ∈ seen ++ (t :: ts), s < u → u - s ≥ 4 / 10) ↔
        ∀ s ∈ seen, t - s ≥ 4 / 10 := by
      simp only [Finset.mem_filter, List.mem_toFinset, List.mem_cons, List.mem_append, true_or, true_and]
      constructor
      · rintro ⟨h1, h2⟩ s hs'
        have hst := hle s hs' t List.mem_cons_self
        rcases hst.lt_or_eq with h | rfl
        · exact h2 s (Or.inl hs') h
        · exact absurd hs' h1
      · intro h
        refine ⟨fun hm => by have := h t hm; norm_num at this, ?_⟩
        rintro s (hs' | rfl | hs') hlt
        · exact h s hs'
        · exact absurd hlt (lt_irrefl _)
        · exact absurd hlt (not_lt.2 (hs.1 s hs'))
    by_cases hc : ∀ s ∈ seen, t - s ≥ 4 / 10
    · rw [if_neg (fun h => hany.1 h hc)]
      have : ((t :: ts).toFinset.filter fun u => u ∉ seen ∧ ∀ s ∈ seen ++ (t :: ts), s < u → u - s ≥ 4 / 10) =
          insert t (ts.toFinset.filter fun u => u ∉ t :: seen ∧ ∀ s ∈ (t :: seen) ++ ts, s < u → u - s ≥ 4 / 10) := by
        ext u
        rw [Finset.mem_insert, hB]
        by_cases hu : u = t
        · subst hu
          simp only [true_or, iff_true]
          exact ht.2 hc
        · simp [hu]
      rw [this, Finset.card_insert_of_notMem, add_comm]
      intro hm
      exact ((hB t).1 hm).1 rfl
    · rw [if_pos (hany.2 hc), zero_add]
      congr 1
      ext u
      rw [hB]
      constructor
      · exact fun h => h.2
      · intro h
        refine ⟨?_, h⟩
        rintro rfl
        exact hc (ht.1 h)

theorem nights_perm {l l' : List ℚ} (h : l.Perm l') : Spec.nights l = Spec.nights l' := by
  unfold Spec.nights
  congr 1
  ext u
  simp only [Finset.mem_filter, List.mem_toFinset, Spec.Opens, h.mem_iff]

theorem sort_perm (l : List ℚ) : (l.insertionSort (· ≤ ·)).Perm l := List.perm_insertionSort _ l

theorem sort_sorted (l : List ℚ) : (l.insertionSort (· ≤ ·)).Pairwise (· ≤ ·) := List.pairwise_insertionSort _ l

/-- C37 (nights): the number computed is the number of times that open a night. -/
theorem nunique_sorted (l : List ℚ) : nunique [] (l.insertionSort (· ≤ ·)) = Spec.nights l := by
  rw [← nights_perm (sort_perm l), nunique_eq [] _ (sort_sorted l) (by simp)]
  unfold Spec.nights
  congr 1
  ext u
  simp only [Finset.mem_filter, List.mem_toFinset, Spec.Opens, List.not_mem_nil, not_false_eq_true, true_and, List.nil_append]
  tauto

/-- C37 (meaning of "nights"): if the observations fall into nights, observations of one night being less than 0.4 days apart and those of different
nights at least 0.4 days, then the number used is the number of nights. -/
theorem C37_nights (times : List ℚ) (night : ℚ → ℤ) (hsame : ∀ s ∈ times, ∀ t ∈ times, night s = night t → |s - t| < 4 / 10)
    (hdiff : ∀ s ∈ times, ∀ t ∈ times, night s ≠ night t → |s - t| ≥ 4 / 10) :
    Spec.nights times = (times.toFinset.image night).card := by
  unfold Spec.nights
  rw [← Finset.card_image_of_injOn (s := times.toFinset.filter (Spec.Opens times)) (f := night)]
  · congr 1
    ext n
    simp only [Finset.mem_image, Finset.mem_filter, List.mem_toFinset]
    constructor
    · rintro ⟨t, ⟨h1, -⟩, h2⟩
      exact ⟨t, h1, h2⟩
    · rintro ⟨t, h1, rfl⟩
      -- the earliest observation of the night
      obtain ⟨m, hm, hmin⟩ := Finset.exists_min_image (times.toFinset.filter fun s => night s = night t) id
        ⟨t, by simp [h1]⟩
      simp only [Finset.mem_filter, List.mem_toFinset, id] at hm hmin
      refine ⟨m, ⟨hm.1, hm.1, fun s hs hlt => ?_⟩, hm.2⟩
      have hne : night s ≠ night m := by
        intro he
        exact absurd (hmin s ⟨hs, by rw [he, hm.2]⟩) (not_le.2 hlt)
      have := hdiff s hs m hm.1 hne
      rw [abs_sub_comm, abs_of_pos (by linarith)] at this
      exact this
  · intro s hs t ht he
    simp only [Finset.coe_filter, List.mem_toFinset, Set.mem_ofPred_eq] at hs ht
    have hd := hsame s hs.1 t ht.1 he
    rcases lt_trichotomy s t with h | h | h
    · have := ht.2.2 s hs.1 h
      rw [abs_sub_comm, abs_of_pos (by linarith)] at hd
      linarith
    · exact h
    · have := hs.2.2 t ht.1 h
      rw [abs_of_pos (by linarith)] at hd
      linarith

/-- Three nights. -/
example : Spec.nights [10, 10.1, 11, 15.2, 15.3] = 3 := by
  rw [C37_nights _ (fun t => ⌊t⌋)]
  · decide +kernel
  · decide +kernel
  · decide +kernel

/-! ### The arc cut -/

theorem foldl_min (l : List ℚ) (a : ℚ) : l.foldl min a ≤ a ∧ (∀ t ∈ l, l.foldl min a ≤ t) ∧ (l.foldl min a = a ∨ l.foldl min a ∈ l) := by
  induction l generalizing a with
  | nil => simp
  | cons b l ih =>
    rw [List.foldl_cons]
    obtain ⟨h1, h2, h3⟩ := ih (min a b)
    refine ⟨h1.trans (min_le_left _ _), ?_, ?_⟩
    · intro t ht
      rcases List.mem_cons.1 ht with rfl | ht
      · exact h1.trans (min_le_right _ _)
      · exact h2 t ht
    · rcases h3 with h3 | h3
      · rcases min_choice a b with h | h
        · left; rw [h3, h]
        · right; rw [h3, h]; exact List.mem_cons_self
      · right; exact List.mem_cons_of_mem _ h3

theorem foldl_max (l : List ℚ) (a : ℚ) : a ≤ l.foldl max a ∧ (∀ t ∈ l, t ≤ l.foldl max a) ∧ (l.foldl max a = a ∨ l.foldl max a ∈ l) := by
  induction l generalizing a with
  | nil => simp
  | cons b l ih =>
    rw [List.foldl_cons]
    obtain ⟨h1, h2, h3⟩ := ih (max a b)
    refine ⟨(le_max_left _ _).trans h1, ?_, ?_⟩
    · intro t ht
      rcases List.mem_cons.1 ht with rfl | ht
      · exact (le_max_right _ _).trans h1
      · exact h2 t ht
    · rcases h3 with h3 | h3
      · rcases max_choice a b with h | h
        · left; rw [h3, h]
        · right; rw [h3, h]; exact List.mem_cons_self
      · right; exact List.mem_cons_of_mem _ h3

theorem minTime_spec (l : List ℚ) (h : l ≠ []) : minTime l ∈ l ∧ ∀ t ∈ l, minTime l ≤ t := by
  cases l with
  | nil => exact absurd rfl h
  | cons a l =>
    obtain ⟨h1, h2, h3⟩ := foldl_min l a
    refine ⟨?_, ?_⟩
    · rcases h3 with h3 | h3
      · rw [show minTime (a :: l) = a from h3]; exact List.mem_cons_self
      · exact List.mem_cons_of_mem _ h3
    · intro t ht
      rcases List.mem_cons.1 ht with rfl | ht
      · exact h1
      · exact h2 t ht

theorem maxTime_spec (l : List ℚ) (h : l ≠ []) : maxTime l ∈ l ∧ ∀ t ∈ l, t ≤ maxTime l := by
  cases l with
  | nil => exact absurd rfl h
  | cons a l =>
    obtain ⟨h1, h2, h3⟩ := foldl_max l a
    refine ⟨?_, ?_⟩
    · rcases h3 with h3 | h3
      · rw [show maxTime (a :: l) = a from h3]; exact List.mem_cons_self
      · exact List.mem_cons_of_mem _ h3
    · intro t ht
      rcases List.mem_cons.1 ht with rfl | ht
      · exact h1
      · exact h2 t ht

theorem arcFold (t1 t2 : ℚ) (l : List ℚ) (p : ℚ × ℚ) :
    ((l.foldl (arcStep t1 t2) p).1 ≤ p.1 ∧ (∀ t ∈ l, t - t1 > 7 / 10 → (l.foldl (arcStep t1 t2) p).1 ≤ t) ∧
      ((l.foldl (arcStep t1 t2) p).1 = p.1 ∨ ((l.foldl (arcStep t1 t2) p).1 ∈ l ∧ (l.foldl (arcStep t1 t2) p).1 - t1 > 7 / 10))) ∧
    (p.2 ≤ (l.foldl (arcStep t1 t2) p).2 ∧ (∀ t ∈ l, t2 - t > 7 / 10 → t ≤ (l.foldl (arcStep t1 t2) p).2) ∧
      ((l.foldl (arcStep t1 t2) p).2 = p.2 ∨ ((l.foldl (arcStep t1 t2) p).2 ∈ l ∧ t2 - (l.foldl (arcStep t1 t2) p).2 > 7 / 10))) := by
  induction l generalizing p with
  | nil => simp
  | cons a l ih =>
    rw [List.foldl_cons]
    obtain ⟨⟨h1, h2, h3⟩, h4, h5, h6⟩ := ih (arcStep t1 t2 p a)
    have e1 : (arcStep t1 t2 p a).1 ≤ p.1 ∧ (a - t1 > 7 / 10 → (arcStep t1 t2 p a).1 ≤ a) ∧
        ((arcStep t1 t2 p a).1 = p.1 ∨ ((arcStep t1 t2 p a).1 = a ∧ a - t1 > 7 / 10)) := by
      unfold arcStep
      by_cases h : a - t1 > 7 / 10 ∧ a < p.1
      · simp only [h, and_self, if_true]
        exact ⟨h.2.le, fun _ => le_refl _, Or.inr trivial⟩
      · simp only [h, if_false]
        refine ⟨le_refl _, fun h' => ?_, Or.inl trivial⟩
        by_contra hc
        exact h ⟨h', not_le.1 hc⟩
    have e2 : p.2 ≤ (arcStep t1 t2 p a).2 ∧ (t2 - a > 7 / 10 → a ≤ (arcStep t1 t2 p a).2) ∧
        ((arcStep t1 t2 p a).2 = p.2 ∨ ((arcStep t1 t2 p a).2 = a ∧ t2 - a > 7 / 10)) := by
      unfold arcStep
      by_cases h : t2 - a > 7 / 10 ∧ a > p.2
      · simp only [h, and_self, if_true]
        exact ⟨h.2.le, fun _ => le_refl _, Or.inr trivial⟩
      · simp only [h, if_false]
        refine ⟨le_refl _, fun h' => ?_, Or.inl trivial⟩
        by_contra hc
        exact h ⟨h', not_le.1 hc⟩
    refine ⟨⟨h1.trans e1.1, ?_, ?_⟩, ⟨e2.1.trans h4, ?_, ?_⟩⟩
    · intro t ht hgt
      rcases List.mem_cons.1 ht with rfl | ht
      · exact h1.trans (e1.2.1 hgt)
      · exact h2 t ht hgt
    · rcases h3 with h3 | h3
      · rcases e1.2.2 with e | e
        · left; rw [h3, e]
        · right
          rw [h3, e.1]
          exact ⟨List.mem_cons_self, e.2⟩
      · right; exact ⟨List.mem_cons_of_mem _ h3.1, h3.2⟩
    · intro t ht hgt
      rcases List.mem_cons.1 ht with rfl | ht
      · exact (e2.2.1 hgt).trans h4
      · exact h5 t ht hgt
    · rcases h6 with h6 | h6
      · rcases e2.2.2 with e | e
        · left; rw [h6, e]
        · right
          rw [h6, e.1]
          exact ⟨List.mem_cons_self, e.2⟩
      · right; exact ⟨List.mem_cons_of_mem _ h6.1, h6.2⟩

theorem arccut_iff (times : List ℚ) (hne : times ≠ []) : arccut times = true ↔ Spec.LongArc times := by
  obtain ⟨m1, m2⟩ := minTime_spec times hne
  obtain ⟨M1, M2⟩ := maxTime_spec times hne
  obtain ⟨⟨h1, h2, h3⟩, h4, h5, h6⟩ := arcFold (minTime times) (maxTime times) times (maxTime times, minTime times)
  unfold arccut
  simp only [decide_eq_true_eq, gt_iff_lt, lt_min_iff]
  set q := times.foldl (arcStep (minTime times) (maxTime times)) (maxTime times, minTime times)
  unfold Spec.LongArc
  norm_num at *
  constructor
  · rintro ⟨hA, hB⟩
    refine ⟨⟨q.1, ?_, maxTime times, M1, ⟨minTime times, m1, ?_⟩, hA⟩, minTime times, m1, q.2, ?_, ⟨maxTime times, M1, ?_⟩, hB⟩
    · rcases h3 with h | h
      · rw [h] at hA; norm_num at hA
      · exact h.1
    · rcases h3 with h | h
      · rw [h] at hA; norm_num at hA
      · exact h.2
    · rcases h6 with h | h
      · rw [h] at hB; norm_num at hB
      · exact h.1
    · rcases h6 with h | h
      · rw [h] at hB; norm_num at hB
      · exact h.2
  · rintro ⟨⟨a, ha, b, hb, ⟨s, hs, hsa⟩, hab⟩, a', ha', b', hb', ⟨s', hs', hsb⟩, hab'⟩
    have := h2 a ha (by linarith [m2 s hs])
    have := h5 b' hb' (by linarith [M2 s' hs'])
    have := M2 b hb
    have := m2 a' ha'
    exact ⟨by linarith, by linarith⟩

/-- C37 (meaning of the arc cut): when nights are more than 0.7 days apart and shorter than that, the rule says that whichever single night is left
out, the other observations span more than half a year. -/
theorem C37_arc (times : List ℚ) (hne : times ≠ []) (night : ℚ → ℤ) (hsame : ∀ s ∈ times, ∀ t ∈ times, night s = night t → |s - t| ≤ 7 / 10)
    (hdiff : ∀ s ∈ times, ∀ t ∈ times, night s ≠ night t → |s - t| > 7 / 10) :
    Spec.LongArc times ↔ ∀ n, ∃ a ∈ times, ∃ b ∈ times, night a ≠ n ∧ night b ≠ n ∧ b - a > 365.25 / 2 := by
  obtain ⟨m1, m2⟩ := minTime_spec times hne
  obtain ⟨M1, M2⟩ := maxTime_spec times hne
  have far : ∀ s ∈ times, ∀ t ∈ times, t - s > 7 / 10 → night t ≠ night s := by
    intro s hs t ht h he
    have := hsame t ht s hs he
    rw [abs_of_pos (by linarith)] at this
    linarith
  constructor
  · rintro ⟨⟨a, ha, b, hb, ⟨s, hs, hsa⟩, hab⟩, a', ha', b', hb', ⟨s', hs', hsb⟩, hab'⟩ n
    norm_num at *
    have hA : night a ≠ night (minTime times) := far _ m1 a ha (by linarith [m2 s hs])
    have hB : night b' ≠ night (maxTime times) := fun h => far b' hb' _ M1 (by linarith [M2 s' hs']) h.symm
    have hbm : night b ≠ night (minTime times) := far _ m1 b hb (by linarith [m2 s hs])
    have haM : night a' ≠ night (maxTime times) := fun h => far a' ha' _ M1 (by linarith [M2 s' hs']) h.symm
    by_cases h1 : night (minTime times) = n
    · exact ⟨a, ha, b, hb, by rw [← h1]; exact hA, by rw [← h1]; exact hbm, hab⟩
    · by_cases h2 : night (maxTime times) = n
      · exact ⟨a', ha', b', hb', by rw [← h2]; exact haM, by rw [← h2]; exact hB, hab'⟩
      · exact ⟨minTime times, m1, maxTime times, M1, h1, h2, by linarith [m2 a ha, M2 b hb]⟩
  · intro h
    norm_num at *
    refine ⟨?_, ?_⟩
    · obtain ⟨a, ha, b, hb, h1, h2, h3⟩ := h (night (minTime times))
      refine ⟨a, ha, b, hb, ⟨minTime times, m1, ?_⟩, by norm_num; linarith⟩
      have := hdiff a ha _ m1 h1
      rw [abs_of_nonneg (by linarith [m2 a ha])] at this
      exact this
    · obtain ⟨a, ha, b, hb, h1, h2, h3⟩ := h (night (maxTime times))
      refine ⟨a, ha, b, hb, ⟨maxTime times, M1, ?_⟩, by norm_num; linarith⟩
      have := hdiff b hb _ M1 h2
      rw [abs_sub_comm, abs_of_nonneg (by linarith [M2 b hb])] at this
      exact this

theorem longArc_perm {l l' : List ℚ} (h : l.Perm l') : Spec.LongArc l ↔ Spec.LongArc l' := by
  unfold Spec.LongArc
  simp only [h.mem_iff]

/-! ### Triplets -/

theorem mem_detGo (prev : ℚ) (ts : List ℚ) (hs : (prev :: ts).Pairwise (· ≤ ·)) (x : ℚ) :
    x ∈ detGo prev ts ↔ x ∈ ts ∧ prev < x ∧ ∀ s ∈ prev :: ts, s < x → x - s > 4 / 10 := by
  induction ts generalizing prev with
  | nil => simp [detGo]
  | cons t ts ih =>
    rw [List.pairwise_cons] at hs
    have hpt : prev ≤ t := hs.1 t List.mem_cons_self
    have ih' := ih t hs.2
    have hts : ∀ u ∈ ts, t ≤ u := (List.pairwise_cons.1 hs.2).1
    unfold detGo
    have main : x ∈ detGo t ts ↔ x ≠ t ∧ (x ∈ t :: ts ∧ prev < x ∧ ∀ s ∈ prev :: t :: ts, s < x → x - s > 4 / 10) := by
      rw [ih']
      constructor
      · rintro ⟨h1, h2, h3⟩
        refine ⟨h2.ne', List.mem_cons_of_mem _ h1, lt_of_le_of_lt hpt h2, fun s hs' hlt => ?_⟩
        rcases List.mem_cons.1 hs' with rfl | hs'
        · have := h3 t List.mem_cons_self h2
          linarith
        · exact h3 s hs' hlt
      · rintro ⟨h0, h1, h2, h3⟩
        have hx : x ∈ ts := (List.mem_cons.1 h1).resolve_left h0
        exact ⟨hx, lt_of_le_of_ne (hts x hx) (Ne.symm h0), fun s hs' hlt => h3 s (List.mem_cons_of_mem _ hs') hlt⟩
    by_cases hg : t - prev > 4 / 10
    · rw [if_pos hg, List.mem_cons, main]
      constructor
      · rintro (rfl | h)
        · refine ⟨List.mem_cons_self, by linarith, fun s hs' hlt => ?_⟩
          rcases List.mem_cons.1 hs' with rfl | hs'
          · exact hg
          · rcases List.mem_cons.1 hs' with rfl | hs'
            · exact absurd hlt (lt_irrefl _)
            · exact absurd hlt (not_lt.2 (hts s hs'))
        · exact h.2
      · intro h
        by_cases hx : x = t
        · exact Or.inl hx
        · exact Or.inr ⟨hx, h⟩
    · rw [if_neg hg, main]
      refine ⟨fun h => h.2, fun h => ⟨?_, h⟩⟩
      rintro rfl
      exact hg (h.2.2 prev List.mem_cons_self h.2.1)

theorem detGo_sorted (prev : ℚ) (ts : List ℚ) (hs : (prev :: ts).Pairwise (· ≤ ·)) : (prev :: detGo prev ts).Pairwise (· < ·) := by
  induction ts generalizing prev with
  | nil => simp [detGo]
  | cons t ts ih =>
    have hs' := List.pairwise_cons.1 hs
    have ih' := ih t hs'.2
    rw [List.pairwise_cons]
    refine ⟨fun x hx => ((mem_detGo prev _ hs x).1 hx).2.1, ?_⟩
    unfold detGo
    by_cases hg : t - prev > 4 / 10
    · rw [if_pos hg]; exact ih'
    · rw [if_neg hg]; exact (List.pairwise_cons.1 ih').2

theorem det_spec (l : List ℚ) (hs : l.Pairwise (· ≤ ·)) :
    (det l).Pairwise (· < ·) ∧ ∀ x, x ∈ det l ↔ x ∈ l ∧ ∀ s ∈ l, s < x → x - s > 4 / 10 := by
  cases l with
  | nil => simp [det]
  | cons t ts =>
    refine ⟨detGo_sorted t ts hs, fun x => ?_⟩
    unfold det
    rw [List.mem_cons, mem_detGo t ts hs, List.mem_cons]
    have ht := (List.pairwise_cons.1 hs).1
    constructor
    · rintro (rfl | h)
      · refine ⟨Or.inl rfl, fun s hs' hlt => ?_⟩
        rcases List.mem_cons.1 hs' with rfl | hs'
        · exact absurd hlt (lt_irrefl _)
        · exact absurd hlt (not_lt.2 (ht s hs'))
      · exact ⟨Or.inr h.1, h.2.2⟩
    · rintro ⟨h1, h2⟩
      by_cases hx : x = t
      · exact Or.inl hx
      · have hx' := h1.resolve_left hx
        exact Or.inr ⟨hx', lt_of_le_of_ne (ht x hx') (Ne.symm hx), h2⟩

theorem pairs_sound (l : List ℚ) (f s : ℚ) : pairs f s l = (f, s) ∨ ∃ a b c, [a, b, c] <:+: l ∧ pairs f s l = (c - b, b - a) := by
  fun_induction pairs f s l with
  | case1 f s a b c r h ih =>
    right
    rcases ih with ih | ⟨x, y, z, hi, he⟩
    · exact ⟨a, b, c, ⟨[], r, rfl⟩, ih⟩
    · exact ⟨x, y, z, hi.trans ⟨[a], [], by simp⟩, he⟩
  | case2 f s a b c r h ih =>
    rcases ih with ih | ⟨x, y, z, hi, he⟩
    · exact Or.inl ih
    · exact Or.inr ⟨x, y, z, hi.trans ⟨[a], [], by simp⟩, he⟩
  | case3 f s l h => exact Or.inl rfl

theorem pairs_le (l : List ℚ) (f s : ℚ) : (pairs f s l).1 ≤ f ∧ (pairs f s l).2 ≤ s := by
  fun_induction pairs f s l with
  | case1 f s a b c r h ih => exact ⟨ih.1.trans h.1.le, ih.2.trans h.2.le⟩
  | case2 f s a b c r h ih => exact ih
  | case3 f s l h => exact ⟨le_refl _, le_refl _⟩

/-- C37 (triplet, soundness): a triplet found is one. -/
theorem triplet_sound (times : List ℚ) (hs : times.Pairwise (· ≤ ·)) (w : ℚ) (hw : w ≤ 999) (h : triplet times w = true) :
    Spec.Triplet times w := by
  unfold triplet at h
  simp only [decide_eq_true_eq] at h
  obtain ⟨d1, d2⟩ := det_spec times hs
  rcases pairs_sound (det times) 999 999 with he | ⟨a, b, c, ⟨pre, post, hi⟩, he⟩
  · rw [he] at h
    exact absurd h.1 (not_lt.2 hw)
  · rw [he] at h
    have hm : ∀ x, x = a ∨ x = b ∨ x = c → x ∈ det times := by
      intro x hx
      rw [← hi]
      rcases hx with rfl | rfl | rfl <;> simp
    have ha := (d2 a).1 (hm a (by simp))
    have hb := (d2 b).1 (hm b (by simp))
    have hc := (d2 c).1 (hm c (by simp))
    rw [← hi, List.pairwise_append, List.pairwise_append] at d1
    have h3 := d1.1.2.1
    simp only [List.pairwise_cons, List.mem_cons, List.not_mem_nil, or_false] at h3
    exact ⟨a, b, c, ⟨ha.1, hb.1, hc.1⟩, hb.2, hc.2, ha.2, h3.1 b (Or.inl rfl), h3.2.1 c rfl, h.2, h.1⟩

theorem triplet_first (times : List ℚ) (hs : times.Pairwise (· ≤ ·)) (w : ℚ) (hw : w ≤ 999) (a b c : ℚ)
    (ha : a ∈ times) (hb : b ∈ times) (hc : c ∈ times) (hb' : ∀ s ∈ times, s < b → b - s > 4 / 10) (hc' : ∀ s ∈ times, s < c → c - s > 4 / 10)
    (hab : a < b) (hbc : b < c) (h1 : b - a < w) (h2 : c - b < w) (hfirst : ∀ s ∈ times, a ≤ s)
    (hnext : ∀ s ∈ times, (∀ u ∈ times, u < s → s - u > 4 / 10) → s ≤ a ∨ s = b ∨ c ≤ s) : triplet times w = true := by
  obtain ⟨d1, d2⟩ := det_spec times hs
  have hda : a ∈ det times := (d2 a).2 ⟨ha, fun s hs' hlt => absurd hlt (not_lt.2 (hfirst s hs'))⟩
  have hdb : b ∈ det times := (d2 b).2 ⟨hb, hb'⟩
  have hdc : c ∈ det times := (d2 c).2 ⟨hc, hc'⟩
  have hall : ∀ x ∈ det times, x = a ∨ x = b ∨ x = c ∨ c < x := by
    intro x hx
    have hx' := (d2 x).1 hx
    rcases hnext x hx'.1 hx'.2 with h | h | h
    · exact Or.inl (le_antisymm h (hfirst x hx'.1))
    · exact Or.inr (Or.inl h)
    · rcases h.lt_or_eq with h | h
      · exact Or.inr (Or.inr (Or.inr h))
      · exact Or.inr (Or.inr (Or.inl h.symm))
  have hd : ∃ r, det times = a :: b :: c :: r := by
    cases e : det times with
    | nil => rw [e] at hda; exact absurd hda List.not_mem_nil
    | cons x l =>
      rw [e] at d1 hda hdb hdc hall
      rw [List.pairwise_cons] at d1
      have hxa : x = a := by
        rcases List.mem_cons.1 hda with h | h
        · exact h.symm
        · have := d1.1 a h
          rcases hall x List.mem_cons_self with h | h | h | h
          · exact h
          all_goals (first | subst h; linarith | linarith)
      subst hxa
      have hlb : b ∈ l := (List.mem_cons.1 hdb).resolve_left hab.ne'
      have hlc : c ∈ l := (List.mem_cons.1 hdc).resolve_left (hab.trans hbc).ne'
      cases l with
      | nil => exact absurd hlb List.not_mem_nil
      | cons y l =>
        have d1' := List.pairwise_cons.1 d1.2
        have hyx := d1.1 y List.mem_cons_self
        have hyb : y = b := by
          rcases List.mem_cons.1 hlb with h | h
          · exact h.symm
          · have := d1'.1 b h
            rcases hall y (by simp) with h | h | h | h
            · linarith
            · exact h
            · linarith
            · linarith
        subst hyb
        have hlc' : c ∈ l := (List.mem_cons.1 hlc).resolve_left hbc.ne'
        cases l with
        | nil => exact absurd hlc' List.not_mem_nil
        | cons z l =>
          have d1'' := List.pairwise_cons.1 d1'.2
          have hzy := d1'.1 z List.mem_cons_self
          have hzc : z = c := by
            rcases List.mem_cons.1 hlc' with h | h
            · exact h.symm
            · have := d1''.1 c h
              rcases hall z (by simp) with h | h | h | h
              · linarith
              · linarith
              · exact h
              · linarith
          subst hzc
          exact ⟨l, rfl⟩
  obtain ⟨r, hr⟩ := hd
  unfold triplet
  rw [hr]
  simp only [decide_eq_true_eq]
  unfold pairs
  rw [if_pos ⟨by linarith, by linarith⟩]
  have := pairs_le (b :: c :: r) (c - b) (b - a)
  exact ⟨lt_of_le_of_lt this.1 h2, lt_of_le_of_lt this.2 h1⟩

theorem triplet_perm {l l' : List ℚ} (h : l.Perm l') (w : ℚ) : Spec.Triplet l w ↔ Spec.Triplet l' w := by
  unfold Spec.Triplet
  simp only [h.mem_iff]

/-! ### The filter -/

theorem distant_iff (rows : List (Row V)) (hne : rows ≠ []) : distanceSq rows ≥ bound ↔ Spec.Distant rows := by
  unfold distanceSq Spec.Distant
  obtain ⟨m1, m2⟩ := minTime_spec (rows.map fun r => r.x ^ 2 + r.y ^ 2 + r.z ^ 2) (by simpa using hne)
  have hb : bound = (50 * 149597870.7) ^ 2 := by unfold bound; norm_num
  rw [← hb]
  constructor
  · intro h r hr
    exact h.le.trans (m2 _ (List.mem_map.2 ⟨r, hr, rfl⟩))
  · intro h
    obtain ⟨r, hr, he⟩ := List.mem_map.1 m1
    rw [← he]
    exact h r hr

theorem found_perm {rows rows' : List (Row V)} (h : rows.Perm rows') : found rows = found rows' := by
  by_cases hne : rows = []
  · subst hne
    rw [h.nil_eq]
  have hne' : rows' ≠ [] := fun e => hne (by rw [e] at h; exact h.eq_nil)
  have ht : (rows.map (·.t)).insertionSort (· ≤ ·) = (rows'.map (·.t)).insertionSort (· ≤ ·) := by
    apply List.Perm.eq_of_pairwise (le := (· ≤ ·)) (fun a b _ _ => le_antisymm) (sort_sorted _) (sort_sorted _)
    exact (sort_perm _).trans ((h.map _).trans (sort_perm _).symm)
  have hd : distanceSq rows ≥ bound ↔ distanceSq rows' ≥ bound := by
    rw [distant_iff rows hne, distant_iff rows' hne']
    unfold Spec.Distant
    simp only [h.mem_iff]
  unfold found
  rw [ht]
  by_cases hc : distanceSq rows ≥ bound
  · rw [if_pos hc, if_pos (hd.1 hc)]
  · rw [if_neg hc, if_neg (fun h' => hc (hd.2 h'))]

theorem found_sound (rows : List (Row V)) (hne : rows ≠ []) (h : found rows = true) : Spec.Discovered rows := by
  unfold found at h
  simp only [Bool.or_eq_true, Bool.and_eq_true, decide_eq_true_eq, nunique_sorted] at h
  rcases h with h | ⟨⟨h1, h2⟩, h3⟩
  · exact Or.inl h
  · refine Or.inr ⟨h3, ?_, ?_⟩
    · rw [arccut_iff _ (by
        intro e
        have := (sort_perm (rows.map (·.t))).length_eq
        rw [e] at this
        simp at this
        exact hne (List.eq_nil_of_length_eq_zero this.symm)), longArc_perm (sort_perm _)] at h1
      exact h1
    · refine ⟨if distanceSq rows ≥ bound then 90 else 60, ?_, ?_⟩
      · by_cases hd : distanceSq rows ≥ bound
        · rw [if_pos hd]; exact Or.inl ⟨(distant_iff rows hne).1 hd, rfl⟩
        · rw [if_neg hd]; exact Or.inr ⟨fun h => hd ((distant_iff rows hne).2 h), rfl⟩
      · have := triplet_sound _ (sort_sorted _) _ (by split_ifs <;> norm_num) h2
        rw [triplet_perm (sort_perm _)] at this
        exact this

section
variable {sort : List (Row V) → List (Row V)} (hsort : Spec.SortSound sort) (obs : List (Row V))
include hsort

theorem mem_filter_iff (r : Row V) : r ∈ discoveryFilter sort obs ↔ r ∈ obs ∧ found (Spec.rowsOf r.obj obs) = true := by
  unfold discoveryFilter
  rw [(hsort.perm _).mem_iff, List.mem_filter]
  rfl

/-- C37 (soundness): every row kept is a row of the table and belongs to an object that meets the discovery rule. -/
theorem C37_sound (r : Row V) (h : r ∈ discoveryFilter sort obs) : r ∈ obs ∧ Spec.Discovered (Spec.rowsOf r.obj obs) := by
  obtain ⟨h1, h2⟩ := (mem_filter_iff hsort obs r).1 h
  refine ⟨h1, found_sound _ ?_ h2⟩
  intro he
  have : r ∈ Spec.rowsOf r.obj obs := by unfold Spec.rowsOf; simp [h1]
  rw [he] at this
  exact absurd this List.not_mem_nil

theorem rowsOf_filter (o : String) : (Spec.rowsOf o (discoveryFilter sort obs)).Perm
    (if found (Spec.rowsOf o obs) = true then Spec.rowsOf o obs else []) := by
  unfold discoveryFilter
  refine ((hsort.perm _).filter _).trans ?_
  apply List.Perm.of_eq
  rw [List.filter_filter]
  by_cases hf : found (Spec.rowsOf o obs) = true
  · rw [if_pos hf]
    unfold Spec.rowsOf
    apply List.filter_congr
    intro r hr
    by_cases hro : r.obj = o
    · subst hro
      simpa [Spec.rowsOf] using hf
    · simp [hro]
  · rw [if_neg hf, List.filter_eq_nil_iff]
    intro r hr
    rw [Bool.and_eq_true, not_and]
    intro hro
    have : r.obj = o := by simpa using hro
    subst this
    exact hf

/-- C37 (all or none): of each object either all rows are kept, each as often as before, or none. -/
theorem C37_all_or_none (o : String) : (Spec.rowsOf o (discoveryFilter sort obs)).Perm (Spec.rowsOf o obs) ∨
    Spec.rowsOf o (discoveryFilter sort obs) = [] := by
  have := rowsOf_filter hsort obs o
  by_cases hf : found (Spec.rowsOf o obs) = true
  · rw [if_pos hf] at this; exact Or.inl this
  · rw [if_neg hf] at this; exact Or.inr this.eq_nil

/-- C37 (order): the result is ordered by time. -/
theorem C37_sorted : (discoveryFilter sort obs).Pairwise (fun a b => a.t ≤ b.t) := hsort.sorted _

/-- C37 (own rows): what happens to an object does not depend on the other objects of the table. -/
theorem C37_own (obs' : List (Row V)) (o : String) (h : (Spec.rowsOf o obs).Perm (Spec.rowsOf o obs')) :
    (Spec.rowsOf o (discoveryFilter sort obs)).Perm (Spec.rowsOf o (discoveryFilter sort obs')) := by
  refine (rowsOf_filter hsort obs o).trans (List.Perm.trans ?_ (rowsOf_filter hsort obs' o).symm)
  rw [found_perm h]
  split_ifs
  · exact h
  · exact List.Perm.refl _

/-- C37 (completeness): an object seen in nine nights is kept; one with seven or eight nights, a long arc and a triplet formed by its first three
nights is kept. Triplets formed by later nights can be missed (`C37_triplet_fails`); `C37_exact` says which. -/
theorem C37_first (o : String) (hne : Spec.rowsOf o obs ≠ [])
    (h : Spec.nights ((Spec.rowsOf o obs).map (·.t)) ≥ 9 ∨
      (Spec.nights ((Spec.rowsOf o obs).map (·.t)) ≥ 7 ∧ Spec.LongArc ((Spec.rowsOf o obs).map (·.t)) ∧
        ∃ w : ℚ, ((Spec.Distant (Spec.rowsOf o obs) ∧ w = 90) ∨ w = 60) ∧
        ∃ a ∈ (Spec.rowsOf o obs).map (·.t), ∃ b ∈ (Spec.rowsOf o obs).map (·.t), ∃ c ∈ (Spec.rowsOf o obs).map (·.t),
          (∀ s ∈ (Spec.rowsOf o obs).map (·.t), s < b → b - s > 4 / 10) ∧ (∀ s ∈ (Spec.rowsOf o obs).map (·.t), s < c → c - s > 4 / 10) ∧
          a < b ∧ b < c ∧ b - a < w ∧ c - b < w ∧ (∀ s ∈ (Spec.rowsOf o obs).map (·.t), a ≤ s) ∧
          (∀ s ∈ (Spec.rowsOf o obs).map (·.t), (∀ u ∈ (Spec.rowsOf o obs).map (·.t), u < s → s - u > 4 / 10) → s ≤ a ∨ s = b ∨ c ≤ s))) :
    (Spec.rowsOf o (discoveryFilter sort obs)).Perm (Spec.rowsOf o obs) := by
  have hf : found (Spec.rowsOf o obs) = true := by
    unfold found
    simp only [Bool.or_eq_true, Bool.and_eq_true, decide_eq_true_eq, nunique_sorted]
    rcases h with h | ⟨h1, h2, w, hw, a, ha, b, hb, c, hc, hb', hc', hab, hbc, g1, g2, hfirst, hnext⟩
    · exact Or.inl h
    · refine Or.inr ⟨⟨?_, ?_⟩, h1⟩
      · rw [arccut_iff _ (by
          intro e
          have := (sort_perm ((Spec.rowsOf o obs).map (·.t))).length_eq
          rw [e] at this
          simp at this
          exact hne (List.eq_nil_of_length_eq_zero this.symm)), longArc_perm (sort_perm _)]
        exact h2
      · have hmem : ∀ x, x ∈ ((Spec.rowsOf o obs).map (·.t)).insertionSort (· ≤ ·) ↔ x ∈ (Spec.rowsOf o obs).map (·.t) :=
          fun x => (sort_perm _).mem_iff
        have hww : w ≤ if distanceSq (Spec.rowsOf o obs) ≥ bound then 90 else 60 := by
          rcases hw with ⟨hd, rfl⟩ | rfl
          · rw [if_pos ((distant_iff _ hne).2 hd)]
          · split_ifs <;> norm_num
        apply triplet_first _ (sort_sorted _) _ (by split_ifs <;> norm_num) a b c ((hmem a).2 ha) ((hmem b).2 hb) ((hmem c).2 hc)
        · exact fun s hs => hb' s ((hmem s).1 hs)
        · exact fun s hs => hc' s ((hmem s).1 hs)
        · exact hab
        · exact hbc
        · exact lt_of_lt_of_le g1 hww
        · exact lt_of_lt_of_le g2 hww
        · exact fun s hs => hfirst s ((hmem s).1 hs)
        · exact fun s hs hu => hnext s ((hmem s).1 hs) (fun u hu' hlt => hu u ((hmem u).2 hu') hlt)
  have := rowsOf_filter hsort obs o
  rw [if_pos hf] at this
  exact this

end

/-- A way to sort. -/
def sortT (l : List (Row V)) : List (Row V) := l.insertionSort (fun a b => a.t ≤ b.t)

theorem sortT_sound : Spec.SortSound (V := V) sortT where
  perm l := List.perm_insertionSort _ l
  sorted l := by
    haveI : Std.Total (fun a b : Row V => a.t ≤ b.t) := ⟨fun a b => le_total a.t b.t⟩
    haveI : IsTrans (Row V) (fun a b => a.t ≤ b.t) := ⟨fun a b c => le_trans⟩
    exact List.pairwise_insertionSort _ l

/-- An object at 30 au, seen at the given times. -/
def seenAt (ts : List ℚ) : List (Row Unit) := ts.map fun t => ⟨"o", t, 4487936121, 0, 0, ()⟩

/-- C37 fails for later triplets: the object is seen in eight nights over 1.5 years, and three successive nights are 10 and 40 days apart, so it
meets the rule; but the isolated night before them makes the search keep the gaps 10 and 100 and miss the triplet. No row is kept. -/
theorem C37_triplet_fails : Spec.Discovered (seenAt [0, 100, 110, 150, 250, 350, 450, 550]) ∧
    discoveryFilter sortT (seenAt [0, 100, 110, 150, 250, 350, 450, 550]) = [] := by
  constructor
  · refine Or.inr ⟨by decide +kernel, ⟨⟨100, by decide +kernel, 550, by decide +kernel, ⟨0, by decide +kernel, by norm_num⟩, by norm_num⟩,
      ⟨0, by decide +kernel, 450, by decide +kernel, ⟨550, by decide +kernel, by norm_num⟩, by norm_num⟩⟩,
      60, Or.inr ⟨?_, rfl⟩, 100, 110, 150, by decide +kernel, by decide +kernel, by decide +kernel, by decide +kernel, by norm_num, by norm_num,
      by norm_num, by norm_num⟩
    intro h
    have := h ⟨"o", 0, 4487936121, 0, 0, ()⟩ (by decide +kernel)
    norm_num at this
  · decide +kernel

/-- C37 fails for additional data: without its first observation the same object is discovered. -/
theorem C37_more_data_fails : (discoveryFilter sortT (seenAt [100, 110, 150, 250, 350, 450, 550])).length = 7 ∧
    (discoveryFilter sortT (seenAt [0, 100, 110, 150, 250, 350, 450, 550])).length = 0 := by
  decide +kernel

/-- Two objects: the one seen in seven nights with a triplet at the start is kept, the other is not. -/
example : ((discoveryFilter sortT (seenAt [0, 40, 90, 190, 290, 390, 490] ++ [⟨"p", 3, 0, 0, 0, ()⟩])).map (·.obj)) =
    ["o", "o", "o", "o", "o", "o", "o"] := by decide +kernel

end Sorcha.Des.Props
