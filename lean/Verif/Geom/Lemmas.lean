import Verif.Geom.Model
import Verif.Geom.Spec
import Mathlib.Analysis.Convex.Combination
import Mathlib.Analysis.LocallyConvex.Separation
import Mathlib.Analysis.Normed.Module.FiniteDimension
import Mathlib.Tactic.Linarith
import Mathlib.Tactic.FieldSimp
import Mathlib.Tactic.Ring
import Mathlib.Tactic.Positivity

/-!
# Lemmas on polygons
-/

namespace Sorcha.Geom
open Sorcha.Geom.Spec

theorem roll_perm (l : List Pt) : (roll l).Perm l := by
  unfold roll
  rcases List.eq_nil_or_concat l with rfl | ⟨l', a, rfl⟩
  · rfl
  · simp [List.concat_eq_append]
    exact (List.perm_append_singleton a l').symm

theorem roll_length (l : List Pt) : (roll l).length = l.length := (roll_perm l).length_eq

theorem roll_map (f : Pt → Pt) (l : List Pt) : roll (l.map f) = (roll l).map f := by
  unfold roll
  rw [List.map_append, List.getLast?_map, List.map_dropLast]
  cases l.getLast? <;> simp

/-- Edges with corner `i` first and its predecessor second. -/
def es (l : List Pt) : List (Pt × Pt) := l.zip (roll l)

theorem mem_es {l : List Pt} {e : Pt × Pt} (h : e ∈ es l) : e.1 ∈ l ∧ e.2 ∈ l := by
  obtain ⟨a, b⟩ := e
  have := List.of_mem_zip h
  exact ⟨this.1, (roll_perm l).mem_iff.1 this.2⟩

theorem sum_zip_fst (l m : List Pt) (h : l.length = m.length) (g : Pt → ℝ) :
    ((l.zip m).map fun e => g e.1).sum = (l.map g).sum := by
  have : (l.zip m).map (fun e => g e.1) = ((l.zip m).map Prod.fst).map g := by rw [List.map_map]; rfl
  rw [this, List.map_fst_zip (by omega)]

theorem sum_zip_snd (l m : List Pt) (h : l.length = m.length) (g : Pt → ℝ) :
    ((l.zip m).map fun e => g e.2).sum = (m.map g).sum := by
  have : (l.zip m).map (fun e => g e.2) = ((l.zip m).map Prod.snd).map g := by rw [List.map_map]; rfl
  rw [this, List.map_snd_zip (by omega)]

theorem sum_map_sub' {α : Type} (l : List α) (f g : α → ℝ) :
    (l.map fun a => f a - g a).sum = (l.map f).sum - (l.map g).sum := by
  induction l with
  | nil => simp
  | cons a l ih => simp [ih]; ring

/-- Going round, differences add up to zero. -/
theorem round_zero (l : List Pt) (g : Pt → ℝ) : ((es l).map fun e => g e.1 - g e.2).sum = 0 := by
  rw [sum_map_sub', es, sum_zip_fst _ _ (roll_length l).symm, sum_zip_snd _ _ (roll_length l).symm,
    ((roll_perm l).map g).sum_eq]
  ring

theorem sum_map_congr {α : Type} (l : List α) (f g : α → ℝ) (h : ∀ a ∈ l, f a = g a) : (l.map f).sum = (l.map g).sum := by
  rw [List.map_congr_left h]

theorem sum_map_add' {α : Type} (l : List α) (f g : α → ℝ) :
    (l.map fun a => f a + g a).sum = (l.map f).sum + (l.map g).sum := by
  induction l with
  | nil => simp
  | cons a l ih => simp [ih]; ring

/-- Twice the signed area does not depend on the point. -/
theorem area_const (l : List Pt) (p q : Pt) :
    ((es l).map fun e => left e.2 e.1 p).sum = ((es l).map fun e => left e.2 e.1 q).sum := by
  have h := round_zero l fun c => c.1 * (p.2 - q.2) - c.2 * (p.1 - q.1)
  have : ((es l).map fun e => left e.2 e.1 p).sum =
      ((es l).map fun e => left e.2 e.1 q + ((e.1.1 * (p.2 - q.2) - e.1.2 * (p.1 - q.1)) -
        (e.2.1 * (p.2 - q.2) - e.2.2 * (p.1 - q.1)))).sum := by
    apply sum_map_congr
    intro e _
    unfold left
    ring
  rw [this, sum_map_add', h, add_zero]

theorem sum_nonneg_zero {α : Type} (l : List α) (f : α → ℝ) (h : ∀ a ∈ l, 0 ≤ f a) (hs : (l.map f).sum = 0) :
    ∀ a ∈ l, f a = 0 := by
  induction l with
  | nil => simp
  | cons a l ih =>
    rw [List.map_cons, List.sum_cons] at hs
    have h0 := h a List.mem_cons_self
    have h1 : 0 ≤ (l.map f).sum := List.sum_nonneg (by
      intro x hx
      obtain ⟨b, hb, rfl⟩ := List.mem_map.1 hx
      exact h b (List.mem_cons_of_mem _ hb))
    intro b hb
    rcases List.mem_cons.1 hb with rfl | hb
    · linarith
    · exact ih (fun b hb => h b (List.mem_cons_of_mem _ hb)) (by linarith) b hb

theorem area_eq (d : Detector) (p : Pt) :
    segmentedArea d p = 0.5 * ((es d.corners).map fun e => |left e.2 e.1 p|).sum := by
  unfold segmentedArea
  simp only
  rw [roll_map, List.zip_map, List.map_map]
  congr 1
  apply sum_map_congr
  intro e _
  simp only [Function.comp_apply, Prod.map_fst, Prod.map_snd]
  rw [← abs_neg]
  congr 1
  unfold left
  ring

theorem true_eq (d : Detector) : trueArea d = segmentedArea d d.center := rfl

/-- The polygon as an intersection of half planes. -/
def Inside (l : List Pt) (p : Pt) : Prop := ∀ e ∈ es l, 0 ≤ left e.2 e.1 p

/-- Segmented area at a point: the constant plus twice what is outside. -/
theorem area_excess (d : Detector) (p : Pt) (hc : Inside d.corners d.center) :
    segmentedArea d p - trueArea d = ((es d.corners).map fun e => max 0 (-left e.2 e.1 p)).sum := by
  rw [true_eq, area_eq, area_eq]
  have h1 : ((es d.corners).map fun e => |left e.2 e.1 d.center|).sum = ((es d.corners).map fun e => left e.2 e.1 p).sum := by
    rw [area_const d.corners p d.center]
    exact sum_map_congr _ _ _ fun e he => abs_of_nonneg (hc e he)
  have h2 : ((es d.corners).map fun e => |left e.2 e.1 p|).sum =
      ((es d.corners).map fun e => left e.2 e.1 p + (max 0 (-left e.2 e.1 p) + max 0 (-left e.2 e.1 p))).sum := by
    apply sum_map_congr
    intro e _
    rcases le_total 0 (left e.2 e.1 p) with h | h
    · rw [abs_of_nonneg h, max_eq_left (by linarith)]; ring
    · rw [abs_of_nonpos h, max_eq_right (by linarith)]; ring
  rw [h1, h2, sum_map_add', sum_map_add']
  ring

theorem area_iff (d : Detector) (p : Pt) (hc : Inside d.corners d.center) :
    |segmentedArea d p - trueArea d| ≤ 0 ↔ Inside d.corners p := by
  rw [area_excess d p hc]
  have hnn : 0 ≤ ((es d.corners).map fun e => max 0 (-left e.2 e.1 p)).sum := List.sum_nonneg (by
    intro x hx
    obtain ⟨e, -, rfl⟩ := List.mem_map.1 hx
    exact le_max_left _ _)
  rw [abs_of_nonneg hnn]
  constructor
  · intro h e he
    have := sum_nonneg_zero (es d.corners) (fun e => max 0 (-left e.2 e.1 p)) (fun _ _ => le_max_left _ _) (le_antisymm h hnn) e he
    have h2 := le_max_right 0 (-left e.2 e.1 p)
    rw [this] at h2
    linarith
  · intro h
    apply le_of_eq
    apply List.sum_eq_zero
    intro x hx
    obtain ⟨e, he, rfl⟩ := List.mem_map.1 hx
    exact max_eq_left (by linarith [h e he])

theorem hull_inside (l : List Pt) (h : ∀ v ∈ l, Inside l v) (p : Pt) (hp : p ∈ region l) : Inside l p := by
  intro e he
  have hconv : Convex ℝ {q : Pt | 0 ≤ left e.2 e.1 q} := by
    intro x hx y hy a b ha hb hab
    simp only [Set.mem_ofPred_eq] at *
    have : left e.2 e.1 (a • x + b • y) = a * left e.2 e.1 x + b * left e.2 e.1 y := by
      have hb' : b = 1 - a := by linarith
      unfold left
      simp only [Prod.fst_add, Prod.snd_add, Prod.smul_fst, Prod.smul_snd, smul_eq_mul, hb']
      ring
    rw [this]
    positivity
  exact convexHull_min (fun v hv => h v hv e he) hconv hp

theorem finite_mem (l : List Pt) : {p : Pt | p ∈ l}.Finite := by
  classical
  have : {p : Pt | p ∈ l} = ↑l.toFinset := by ext; simp
  rw [this]
  exact Finset.finite_toSet _

/-- A continuous functional of the plane in coordinates. -/
theorem functional (f : StrongDual ℝ Pt) : ∃ A B : ℝ, ∀ p : Pt, f p = A * p.1 + B * p.2 := by
  refine ⟨f (1, 0), f (0, 1), fun p => ?_⟩
  have : p = p.1 • ((1, 0) : Pt) + p.2 • ((0, 1) : Pt) := by ext <;> simp
  conv_lhs => rw [this]
  rw [map_add, map_smul, map_smul, smul_eq_mul, smul_eq_mul]
  ring

theorem separate (s : Set Pt) (hs : s.Finite) (p : Pt) (hp : p ∉ convexHull ℝ s) :
    ∃ A B : ℝ, ∀ q ∈ s, A * q.1 + B * q.2 < A * p.1 + B * p.2 := by
  obtain ⟨f, u, h1, h2⟩ := geometric_hahn_banach_closed_point (convex_convexHull ℝ s) (hs.isClosed_convexHull ℝ) hp
  obtain ⟨A, B, hf⟩ := functional f
  refine ⟨A, B, fun q hq => ?_⟩
  have := h1 q (subset_convexHull ℝ s hq)
  rw [hf] at this h2
  linarith

theorem inside_hull (l : List Pt) (harea : ∃ e ∈ es l, ∃ q, Inside l q ∧ 0 < left e.2 e.1 q) (p : Pt) (hp : Inside l p) :
    p ∈ region l := by
  by_contra hn
  obtain ⟨A, B, hAB⟩ := separate _ (finite_mem l) p hn
  simp only [Set.mem_ofPred_eq] at hAB
  set F : Pt → ℝ := fun v => A * (v.1 - p.1) + B * (v.2 - p.2) with hF
  set G : Pt → ℝ := fun v => -B * (v.1 - p.1) + A * (v.2 - p.2) with hG
  have hneg : ∀ v ∈ l, F v < 0 := by
    intro v hv
    have := hAB v hv
    simp only [hF]
    linarith
  have hid : ∀ e : Pt × Pt, (A ^ 2 + B ^ 2) * left e.2 e.1 p = F e.2 * G e.1 - G e.2 * F e.1 := by
    intro e
    simp only [hF, hG]
    unfold left
    ring
  have hmono : ∀ e ∈ es l, 0 ≤ G e.1 / F e.1 - G e.2 / F e.2 := by
    intro e he
    obtain ⟨m1, m2⟩ := mem_es he
    have f1 := hneg _ m1
    have f2 := hneg _ m2
    have h0 : 0 ≤ (A ^ 2 + B ^ 2) * left e.2 e.1 p := mul_nonneg (by positivity) (hp e he)
    rw [hid e] at h0
    have : G e.1 / F e.1 - G e.2 / F e.2 = (F e.2 * G e.1 - G e.2 * F e.1) / (F e.1 * F e.2) := by
      rw [div_sub_div _ _ f1.ne f2.ne]; ring
    rw [this]
    exact div_nonneg h0 (mul_pos_of_neg_of_neg f1 f2).le
  have hz := sum_nonneg_zero (es l) _ hmono (round_zero l fun v => G v / F v)
  have hl : ∀ e ∈ es l, left e.2 e.1 p = 0 := by
    intro e he
    obtain ⟨m1, m2⟩ := mem_es he
    have f1 := hneg _ m1
    have f2 := hneg _ m2
    have h0 := hz e he
    have : G e.1 / F e.1 - G e.2 / F e.2 = (F e.2 * G e.1 - G e.2 * F e.1) / (F e.1 * F e.2) := by
      rw [div_sub_div _ _ f1.ne f2.ne]; ring
    rw [this, div_eq_zero_iff] at h0
    have h1 := h0.resolve_right (mul_pos_of_neg_of_neg f1 f2).ne'
    rw [← hid e] at h1
    rcases mul_eq_zero.1 h1 with h2 | h2
    · have a0 : A = 0 := by nlinarith [sq_nonneg A, sq_nonneg B]
      have b0 : B = 0 := by nlinarith [sq_nonneg A, sq_nonneg B]
      simp [hF, a0, b0] at f1
    · exact h2
  obtain ⟨e, he, q, hq, hpos⟩ := harea
  have hs : ((es l).map fun e => left e.2 e.1 q).sum = 0 := by
    rw [area_const l q p]
    apply List.sum_eq_zero
    intro x hx
    obtain ⟨e, he, rfl⟩ := List.mem_map.1 hx
    exact hl e he
  have := sum_nonneg_zero (es l) _ hq hs e he
  linarith

/-! ## Sorting corners by angle -/

section angle
variable {l : List Pt} {c : Pt}

/-- The centroid balances the corners. -/
theorem centroid_zero (l : List Pt) (hl : l ≠ []) (A B : ℝ) :
    (l.map fun v => A * (v.1 - (centroid l).1) + B * (v.2 - (centroid l).2)).sum = 0 := by
  have hn : (l.length : ℝ) ≠ 0 := by
    rw [Nat.cast_ne_zero]; exact fun h => hl (List.length_eq_zero_iff.1 h)
  have key : ∀ (m : List Pt) (x y : ℝ), (m.map fun v => A * (v.1 - x) + B * (v.2 - y)).sum =
      A * ((m.map (·.1)).sum - m.length * x) + B * ((m.map (·.2)).sum - m.length * y) := by
    intro m x y
    induction m with
    | nil => simp
    | cons a m ih => simp [ih]; ring
  rw [key]
  unfold centroid
  simp only
  field_simp
  ring

/-- Every corner of a convex polygon is exposed. -/
theorem exposed (h : ConvexPosition l) (v : Pt) (hv : v ∈ l) :
    ∃ A B : ℝ, (∀ w ∈ l, w ≠ v → A * w.1 + B * w.2 < A * v.1 + B * v.2) ∧
      A * (centroid l).1 + B * (centroid l).2 < A * v.1 + B * v.2 := by
  obtain ⟨A, B, hAB⟩ := separate _ ((finite_mem l).subset fun p hp => hp.1) v (h.2.2 v hv)
  have hw : ∀ w ∈ l, w ≠ v → A * w.1 + B * w.2 < A * v.1 + B * v.2 := fun w hw hne => hAB w ⟨hw, hne⟩
  refine ⟨A, B, hw, ?_⟩
  by_contra hn
  push Not at hn
  have hz := centroid_zero l (List.ne_nil_of_mem hv) (-A) (-B)
  have hall := sum_nonneg_zero l (fun w => -A * (w.1 - (centroid l).1) + -B * (w.2 - (centroid l).2)) (by
    intro w hwl
    by_cases he : w = v
    · subst he; linarith
    · have := hw w hwl he; linarith) hz
  obtain ⟨h3, hnd, -⟩ := h
  obtain ⟨w, hwl, hne⟩ : ∃ w ∈ l, w ≠ v := by
    by_contra hcon
    push Not at hcon
    have : l = List.replicate l.length v := List.eq_replicate_iff.2 ⟨rfl, hcon⟩
    rw [this, List.nodup_replicate] at hnd
    omega
  have h1 := hall w hwl
  have h2 := hw w hwl hne
  linarith

/-- No two corners in the same direction from the centroid. -/
theorem no_same_ray (h : ConvexPosition l) (a b : Pt) (ha : a ∈ l) (hb : b ∈ l) (hab : a ≠ b) (k : ℝ) (hk : 0 < k)
    (h1 : b.1 - (centroid l).1 = k * (a.1 - (centroid l).1)) (h2 : b.2 - (centroid l).2 = k * (a.2 - (centroid l).2)) : False := by
  rcases le_or_gt k 1 with hle | hgt
  · obtain ⟨A, B, hw, hc⟩ := exposed h b hb
    have := hw a ha hab
    have e : A * b.1 + B * b.2 - (A * (centroid l).1 + B * (centroid l).2) =
        k * (A * a.1 + B * a.2 - (A * (centroid l).1 + B * (centroid l).2)) := by linear_combination A * h1 + B * h2
    nlinarith
  · obtain ⟨A, B, hw, hc⟩ := exposed h a ha
    have := hw b hb hab.symm
    have e : A * b.1 + B * b.2 - (A * (centroid l).1 + B * (centroid l).2) =
        k * (A * a.1 + B * a.2 - (A * (centroid l).1 + B * (centroid l).2)) := by linear_combination A * h1 + B * h2
    nlinarith

/-- The corners do not all lie on one side of a line through the centroid. -/
theorem no_half_plane (h : ConvexPosition l) (U V : ℝ) (hUV : U ≠ 0 ∨ V ≠ 0)
    (hall : ∀ v ∈ l, 0 ≤ U * (v.1 - (centroid l).1) + V * (v.2 - (centroid l).2)) : False := by
  have hne : l ≠ [] := by rintro rfl; have := h.1; simp at this
  have hz := sum_nonneg_zero l _ hall (centroid_zero l hne U V)
  have hD : 0 < U ^ 2 + V ^ 2 := by
    rcases hUV with h | h
    · have := sq_pos_of_ne_zero (R := ℝ) h; positivity
    · have := sq_pos_of_ne_zero (R := ℝ) h; positivity
  set t : Pt → ℝ := fun v => (-V * (v.1 - (centroid l).1) + U * (v.2 - (centroid l).2)) / (U ^ 2 + V ^ 2) with ht
  have hx : ∀ v ∈ l, v.1 - (centroid l).1 = t v * -V ∧ v.2 - (centroid l).2 = t v * U := by
    intro v hv
    have := hz v hv
    simp only [ht]
    constructor
    · field_simp
      linear_combination U * this
    · field_simp
      linear_combination V * this
  have hnz : ∀ v ∈ l, t v ≠ 0 := by
    intro v hv h0
    obtain ⟨A, B, -, hc⟩ := exposed h v hv
    obtain ⟨e1, e2⟩ := hx v hv
    rw [h0] at e1 e2
    have e1' : v.1 = (centroid l).1 := by linarith
    have e2' : v.2 = (centroid l).2 := by linarith
    rw [e1', e2'] at hc
    exact lt_irrefl _ hc
  have hsame : ∀ a ∈ l, ∀ b ∈ l, a ≠ b → ¬ 0 < t a * t b := by
    intro a ha b hb hab hpos
    obtain ⟨a1, a2⟩ := hx a ha
    obtain ⟨b1, b2⟩ := hx b hb
    have hta := hnz a ha
    refine no_same_ray h a b ha hb hab (t b / t a) ?_ ?_ ?_
    · have : t b / t a = t a * t b / (t a) ^ 2 := by field_simp
      rw [this]
      exact div_pos hpos (by positivity)
    · rw [a1, b1]; field_simp
    · rw [a2, b2]; field_simp
  obtain ⟨h3, hnd, -⟩ := h
  match l, h3, hnd, hnz, hsame with
  | x :: y :: z :: m, _, hnd, hnz, hsame =>
    simp only [List.nodup_cons, List.mem_cons, not_or] at hnd
    have h1 := hsame x (by simp) y (by simp) hnd.1.1
    have h2 := hsame x (by simp) z (by simp) hnd.1.2.1
    have h3 := hsame y (by simp) z (by simp) hnd.2.1.1
    have n1 := hnz x (by simp)
    have n2 := hnz y (by simp)
    have n3 := hnz z (by simp)
    rcases lt_or_gt_of_ne n1 with p1 | p1 <;> rcases lt_or_gt_of_ne n2 with p2 | p2 <;> rcases lt_or_gt_of_ne n3 with p3 | p3
    · exact h1 (mul_pos_of_neg_of_neg p1 p2)
    · exact h1 (mul_pos_of_neg_of_neg p1 p2)
    · exact h2 (mul_pos_of_neg_of_neg p1 p3)
    · exact h3 (mul_pos p2 p3)
    · exact h3 (mul_pos_of_neg_of_neg p2 p3)
    · exact h2 (mul_pos p1 p3)
    · exact h1 (mul_pos p1 p2)
    · exact h1 (mul_pos p1 p2)

/-- Angle and distance of a corner as seen from the centroid. -/
noncomputable def th (l : List Pt) (v : Pt) : ℝ := Sorcha.Photom.arctan2 (v.2 - (centroid l).2) (v.1 - (centroid l).1)

theorem polar (h : ConvexPosition l) (v : Pt) (hv : v ∈ l) : ∃ r : ℝ, 0 < r ∧
    v.1 - (centroid l).1 = r * Real.cos (th l v) ∧ v.2 - (centroid l).2 = r * Real.sin (th l v) := by
  refine ⟨‖(⟨v.1 - (centroid l).1, v.2 - (centroid l).2⟩ : ℂ)‖, ?_, ?_, ?_⟩
  · rw [norm_pos_iff]
    intro h0
    obtain ⟨A, B, -, hc⟩ := exposed h v hv
    have e1 : v.1 - (centroid l).1 = 0 := congrArg Complex.re h0
    have e2 : v.2 - (centroid l).2 = 0 := congrArg Complex.im h0
    have e1' : v.1 = (centroid l).1 := by linarith
    have e2' : v.2 = (centroid l).2 := by linarith
    rw [e1', e2'] at hc
    exact lt_irrefl _ hc
  · exact (Complex.norm_mul_cos_arg ⟨v.1 - (centroid l).1, v.2 - (centroid l).2⟩).symm
  · exact (Complex.norm_mul_sin_arg ⟨v.1 - (centroid l).1, v.2 - (centroid l).2⟩).symm

theorem th_bounds (l : List Pt) (v : Pt) : -Real.pi < th l v ∧ th l v ≤ Real.pi :=
  ⟨Complex.neg_pi_lt_arg _, Complex.arg_le_pi _⟩

/-- Cross product of two corners about the centroid. -/
noncomputable def cr (l : List Pt) (a b : Pt) : ℝ :=
  (a.1 - (centroid l).1) * (b.2 - (centroid l).2) - (a.2 - (centroid l).2) * (b.1 - (centroid l).1)

theorem cr_sin (h : ConvexPosition l) (a b : Pt) (ha : a ∈ l) (hb : b ∈ l) :
    ∃ k : ℝ, 0 < k ∧ cr l a b = k * Real.sin (th l b - th l a) := by
  obtain ⟨r, hr, a1, a2⟩ := polar h a ha
  obtain ⟨s, hs, b1, b2⟩ := polar h b hb
  refine ⟨r * s, by positivity, ?_⟩
  unfold cr
  rw [a1, a2, b1, b2, Real.sin_sub]
  ring

theorem sin_nonpos_right {x : ℝ} (h1 : Real.pi ≤ x) (h2 : x ≤ 2 * Real.pi) : Real.sin x ≤ 0 := by
  have : Real.sin x = -Real.sin (x - Real.pi) := by rw [Real.sin_sub_pi]; ring
  rw [this]
  have := Real.sin_nonneg_of_nonneg_of_le_pi (x := x - Real.pi) (by linarith) (by linarith)
  linarith

/-- What two neighbours in the order of angles satisfy. -/
def Neighbours (l : List Pt) (b a : Pt) : Prop :=
  (th l b ≤ th l a ∧ ∀ v ∈ l, th l v ≤ th l b ∨ th l a ≤ th l v) ∨ (∀ v ∈ l, th l a ≤ th l v ∧ th l v ≤ th l b)

theorem half_turn (h : ConvexPosition l) (φ : ℝ) (hall : ∀ v ∈ l, 0 ≤ Real.cos (th l v - φ)) : False := by
  refine no_half_plane h (Real.cos φ) (Real.sin φ) ?_ ?_
  · by_contra hn
    push Not at hn
    have := Real.sin_sq_add_cos_sq φ
    rw [hn.1, hn.2] at this
    norm_num at this
  · intro v hv
    obtain ⟨r, hr, e1, e2⟩ := polar h v hv
    rw [e1, e2]
    have : Real.cos φ * (r * Real.cos (th l v)) + Real.sin φ * (r * Real.sin (th l v)) = r * Real.cos (th l v - φ) := by
      rw [Real.cos_sub]; ring
    rw [this]
    exact mul_nonneg hr.le (hall v hv)

theorem gap_pos (h : ConvexPosition l) (a b : Pt) (ha : a ∈ l) (hb : b ∈ l) (hab : a ≠ b) (hn : Neighbours l b a) :
    0 < cr l b a := by
  obtain ⟨k, hk, he⟩ := cr_sin h b a hb ha
  rw [he]
  apply mul_pos hk
  have ba := th_bounds l a
  have bb := th_bounds l b
  rcases hn with ⟨hle, hbet⟩ | hw
  · rcases eq_or_lt_of_le hle with heq | hlt
    · exfalso
      obtain ⟨r, hr, a1, a2⟩ := polar h a ha
      obtain ⟨s, hs, b1, b2⟩ := polar h b hb
      refine no_same_ray h a b ha hb hab (s / r) (by positivity) ?_ ?_
      · rw [a1, b1, heq]; field_simp
      · rw [a2, b2, heq]; field_simp
    · by_cases hpi : th l a - th l b < Real.pi
      · exact Real.sin_pos_of_pos_of_lt_pi (by linarith) hpi
      · exfalso
        push Not at hpi
        refine half_turn h ((th l a + th l b) / 2 + Real.pi) ?_
        intro v hv
        have bv := th_bounds l v
        rw [← sub_sub, Real.cos_sub_pi]
        rcases hbet v hv with h1 | h1
        · have : Real.cos (th l v - (th l a + th l b) / 2) ≤ 0 := by
            rw [← Real.cos_neg]
            exact Real.cos_nonpos_of_pi_div_two_le_of_le (by linarith) (by linarith)
          linarith
        · have : Real.cos (th l v - (th l a + th l b) / 2) ≤ 0 :=
            Real.cos_nonpos_of_pi_div_two_le_of_le (by linarith) (by linarith)
          linarith
  · have h1 := (hw b hb).1
    by_cases hpi : th l b - th l a ≤ Real.pi
    · exfalso
      refine half_turn h ((th l a + th l b) / 2) ?_
      intro v hv
      have := hw v hv
      exact Real.cos_nonneg_of_neg_pi_div_two_le_of_le (by linarith) (by linarith)
    · push Not at hpi
      have : Real.sin (th l a - th l b) = Real.sin (th l a - th l b + 2 * Real.pi) := (Real.sin_add_two_pi _).symm
      rw [this]
      exact Real.sin_pos_of_pos_of_lt_pi (by linarith) (by linarith)

theorem no_between (h : ConvexPosition l) (a b q : Pt) (ha : a ∈ l) (hb : b ∈ l) (hq : q ∈ l) (hn : Neighbours l b a)
    (hg : 0 < cr l b a) (h1 : 0 < cr l b q) (h2 : 0 < cr l q a) : False := by
  obtain ⟨k, hk, he⟩ := cr_sin h b q hb hq
  obtain ⟨k', hk', he'⟩ := cr_sin h q a hq ha
  obtain ⟨k'', hk'', he''⟩ := cr_sin h b a hb ha
  rw [he] at h1
  rw [he'] at h2
  rw [he''] at hg
  have s1 : 0 < Real.sin (th l q - th l b) := (mul_pos_iff_of_pos_left hk).1 h1
  have s2 : 0 < Real.sin (th l a - th l q) := (mul_pos_iff_of_pos_left hk').1 h2
  have s3 : 0 < Real.sin (th l a - th l b) := (mul_pos_iff_of_pos_left hk'').1 hg
  have ba := th_bounds l a
  have bb := th_bounds l b
  have bq := th_bounds l q
  have neg : ∀ x, 0 < Real.sin x → x ≤ 0 → x < -Real.pi := by
    intro x hx h0
    by_contra hc
    push Not at hc
    have := Real.sin_nonpos_of_nonpos_of_neg_pi_le h0 hc
    linarith
  have pos : ∀ x, 0 < Real.sin x → x ≤ 2 * Real.pi → x < Real.pi := by
    intro x hx h0
    by_contra hc
    push Not at hc
    have := sin_nonpos_right hc h0
    linarith
  rcases hn with ⟨hle, hbet⟩ | hw
  · rcases hbet q hq with hc | hc
    · have := neg _ s1 (by linarith)
      have := pos _ s2 (by linarith)
      linarith
    · have := neg _ s2 (by linarith)
      have := pos _ s1 (by linarith)
      linarith
  · have := hw q hq
    have := neg _ s1 (by linarith)
    have := neg _ s2 (by linarith)
    linarith

theorem edge_left (h : ConvexPosition l) (a b : Pt) (ha : a ∈ l) (hb : b ∈ l) (hab : a ≠ b) (hn : Neighbours l b a) (q : Pt)
    (hq : q ∈ l) : 0 ≤ left b a q := by
  have hg := gap_pos h a b ha hb hab hn
  by_contra hneg
  push Not at hneg
  have hid : left b a q = cr l b a - cr l b q - cr l q a := by unfold left cr; ring
  rw [hid] at hneg
  have hqa : q ≠ a := by
    rintro rfl
    have : cr l q q = 0 := by unfold cr; ring
    rw [this] at hneg
    linarith
  have hqb : q ≠ b := by
    rintro rfl
    have : cr l q q = 0 := by unfold cr; ring
    rw [this] at hneg
    linarith
  have e1 : (q.1 - (centroid l).1) * cr l b a = cr l b q * (a.1 - (centroid l).1) + cr l q a * (b.1 - (centroid l).1) := by
    unfold cr; ring
  have e2 : (q.2 - (centroid l).2) * cr l b a = cr l b q * (a.2 - (centroid l).2) + cr l q a * (b.2 - (centroid l).2) := by
    unfold cr; ring
  rcases le_or_gt (cr l b q) 0 with h0 | h0
  · obtain ⟨A, B, hw, hc⟩ := exposed h b hb
    have hwa := hw a ha hab
    have hwq := hw q hq hqb
    set m := A * b.1 + B * b.2 - (A * (centroid l).1 + B * (centroid l).2) with hm
    have k : (A * q.1 + B * q.2 - (A * (centroid l).1 + B * (centroid l).2)) * cr l b a =
        cr l b q * (A * a.1 + B * a.2 - (A * (centroid l).1 + B * (centroid l).2)) + cr l q a * m := by
      rw [hm]; linear_combination A * e1 + B * e2
    have i1 : (A * q.1 + B * q.2 - (A * (centroid l).1 + B * (centroid l).2)) * cr l b a < m * cr l b a := by
      apply mul_lt_mul_of_pos_right _ hg; linarith
    have i2 : cr l b q * m ≤ cr l b q * (A * a.1 + B * a.2 - (A * (centroid l).1 + B * (centroid l).2)) := by
      apply mul_le_mul_of_nonpos_left _ h0; linarith
    have hmp : 0 < m := by linarith
    nlinarith
  · rcases le_or_gt (cr l q a) 0 with h0' | h0'
    · obtain ⟨A, B, hw, hc⟩ := exposed h a ha
      have hwb := hw b hb hab.symm
      have hwq := hw q hq hqa
      set m := A * a.1 + B * a.2 - (A * (centroid l).1 + B * (centroid l).2) with hm
      have k : (A * q.1 + B * q.2 - (A * (centroid l).1 + B * (centroid l).2)) * cr l b a =
          cr l b q * m + cr l q a * (A * b.1 + B * b.2 - (A * (centroid l).1 + B * (centroid l).2)) := by
        rw [hm]; linear_combination A * e1 + B * e2
      have i1 : (A * q.1 + B * q.2 - (A * (centroid l).1 + B * (centroid l).2)) * cr l b a < m * cr l b a := by
        apply mul_lt_mul_of_pos_right _ hg; linarith
      have i2 : cr l q a * m ≤ cr l q a * (A * b.1 + B * b.2 - (A * (centroid l).1 + B * (centroid l).2)) := by
        apply mul_le_mul_of_nonpos_left _ h0'; linarith
      have hmp : 0 < m := by linarith
      nlinarith
    · exact no_between h a b q ha hb hq hn hg h0 h0'

end angle

/-- In a list sorted by angle, a corner and its predecessor are neighbours and different. -/
theorem es_neighbours (l m : List Pt) (hp : m.Perm l) (hs : m.Pairwise fun a b => th l a ≤ th l b) (h2 : 2 ≤ m.length)
    (hnd : m.Nodup) (e : Pt × Pt) (he : e ∈ es m) : Neighbours l e.2 e.1 ∧ e.1 ≠ e.2 := by
  obtain ⟨i, hi, rfl⟩ := List.mem_iff_getElem.1 he
  unfold es at hi ⊢
  rw [List.length_zip, roll_length, min_self] at hi
  rw [List.getElem_zip]
  simp only
  have hmem : ∀ v, v ∈ l → ∃ j, ∃ hj : j < m.length, m[j] = v := fun v hv =>
    List.mem_iff_getElem.1 (hp.mem_iff.2 hv)
  have hmono : ∀ j k (hj : j < m.length) (hk : k < m.length), j ≤ k → th l m[j] ≤ th l m[k] := by
    intro j k hj hk hjk
    rcases eq_or_lt_of_le hjk with rfl | hlt
    · exact le_refl _
    · exact List.pairwise_iff_getElem.1 hs j k hj hk hlt
  have hroll : ∀ (i : ℕ) (hi : i < m.length), (roll m)[i]? = if i = 0 then m[m.length - 1]? else m[i - 1]? := by
    intro i hi
    unfold roll
    rcases List.eq_nil_or_concat m with h | ⟨m', x, h⟩
    · rw [h] at hi; simp at hi
    · rw [h, List.concat_eq_append] at hi ⊢
      rw [List.getLast?_append, List.dropLast_concat]
      simp only [List.getLast?_singleton, Option.some_or, Option.toList_some, List.length_append, List.length_cons, List.length_nil,
        List.singleton_append] at hi ⊢
      cases i with
      | zero => simp
      | succ i =>
        simp only [List.getElem?_cons_succ, Nat.add_one_ne_zero, if_false, Nat.add_sub_cancel]
        rw [List.getElem?_append_left (by omega)]
  have hr := hroll i hi
  by_cases h0 : i = 0
  · subst h0
    rw [if_pos rfl, List.getElem?_eq_getElem (by rw [roll_length]; omega), List.getElem?_eq_getElem (by omega),
      Option.some.injEq] at hr
    rw [hr]
    constructor
    · right
      intro v hv
      obtain ⟨j, hj, rfl⟩ := hmem v hv
      exact ⟨hmono _ _ _ _ (by omega), hmono _ _ _ _ (by omega)⟩
    · intro hc
      have := (List.Nodup.getElem_inj_iff hnd).1 hc
      omega
  · rw [if_neg h0, List.getElem?_eq_getElem (by rw [roll_length]; omega), List.getElem?_eq_getElem (by omega),
      Option.some.injEq] at hr
    rw [hr]
    constructor
    · left
      refine ⟨hmono _ _ _ _ (by omega), ?_⟩
      intro v hv
      obtain ⟨j, hj, rfl⟩ := hmem v hv
      by_cases hji : j ≤ i - 1
      · exact .inl (hmono _ _ _ _ hji)
      · exact .inr (hmono _ _ _ _ (by omega))
    · intro hc
      have := (List.Nodup.getElem_inj_iff hnd).1 hc
      omega

theorem centroid_perm {l m : List Pt} (h : l.Perm m) : centroid l = centroid m := by
  unfold centroid
  rw [(h.map (·.1)).sum_eq, (h.map (·.2)).sum_eq, h.length_eq]

end Sorcha.Geom
