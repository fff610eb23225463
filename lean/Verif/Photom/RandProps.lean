import Verif.Photom.Randomize
import Verif.Photom.Props
import Verif.Base.Keep

/-!
# Property C51: randomisation of a table of observations
-/

namespace Sorcha.Photom.RandProps
open Sorcha Sorcha.Photom Sorcha.Photom.Spec Sorcha.Photom.Props Real

section helpers
theorem photometryDraws_length (z : ℕ → ℝ) (m s : Meas → ℝ) (k : ℕ) (t : List Meas) :
    (photometryDraws z m s k t).length = t.length := by
  induction t generalizing k with
  | nil => rfl
  | cons r t ih => simp [photometryDraws, ih]

theorem photometryDraws_get (z : ℕ → ℝ) (m s : Meas → ℝ) (k : ℕ) (t : List Meas) (i : ℕ) (h : i < t.length) :
    (photometryDraws z m s k t)[i]? = some (m t[i] + z (k + i) * s t[i]) := by
  induction t generalizing k i with
  | nil => simp at h
  | cons r t ih =>
    cases i with
    | zero => rfl
    | succ i =>
      simp only [photometryDraws, List.getElem?_cons_succ, List.getElem_cons_succ]
      rw [ih (k + 1) i (by simpa using h)]
      congr 4
      omega

theorem astrometryDraws_length (mvn : ℝ → ℝ → ℝ → Vec) (z : ℕ → ℝ) (k : ℕ) (t : List Meas) :
    (astrometryDraws mvn z k t).length = t.length := by
  induction t generalizing k with
  | nil => rfl
  | cons r t ih => simp [astrometryDraws, ih]

theorem astrometryDraws_get (mvn : ℝ → ℝ → ℝ → Vec) (z : ℕ → ℝ) (k : ℕ) (t : List Meas) (i : ℕ) (h : i < t.length) :
    (astrometryDraws mvn z k t)[i]? = some (randomizeAstrometry t[i].RA t[i].Dec t[i].astrometricSigma_deg
      (mvn (z (k + 3 * i)) (z (k + 3 * i + 1)) (z (k + 3 * i + 2)))) := by
  induction t generalizing k i with
  | nil => simp at h
  | cons r t ih =>
    cases i with
    | zero => rfl
    | succ i =>
      simp only [astrometryDraws, List.getElem?_cons_succ, List.getElem_cons_succ]
      rw [ih (k + 3) i (by simpa using h)]
      rw [show k + 3 + 3 * i = k + 3 * (i + 1) by ring]

theorem assign_length (t : List Meas) (a p : List ℝ) (q : List (ℝ × ℝ)) (ha : a.length = t.length) (hp : p.length = t.length)
    (hq : q.length = t.length) : (assign t a p q).length = t.length := by
  induction t generalizing a p q with
  | nil => cases a <;> cases p <;> cases q <;> rfl
  | cons r t ih =>
    cases a with
    | nil => simp at ha
    | cons a0 a =>
      cases p with
      | nil => simp at hp
      | cons p0 p =>
        cases q with
        | nil => simp at hq
        | cons q0 q =>
          simp only [assign, List.length_cons]
          rw [ih a p q (by simpa using ha) (by simpa using hp) (by simpa using hq)]

theorem assign_get (t : List Meas) (a p : List ℝ) (q : List (ℝ × ℝ)) (i : ℕ) (h : i < t.length) (x y : ℝ) (w : ℝ × ℝ)
    (ha : a[i]? = some x) (hp : p[i]? = some y) (hq : q[i]? = some w) :
    (assign t a p q)[i]? = some
      { t[i] with RA := w.1, Dec := w.2, trailedSourceMag := x, PSFMag := y, RATrue := t[i].RA, DecTrue := t[i].Dec } := by
  induction t generalizing a p q i with
  | nil => simp at h
  | cons r t ih =>
    cases a with
    | nil => simp at ha
    | cons a0 a =>
      cases p with
      | nil => simp at hp
      | cons p0 p =>
        cases q with
        | nil => simp at hq
        | cons q0 q =>
          cases i with
          | zero =>
            simp at ha hp hq
            subst ha hp hq
            rfl
          | succ i =>
            simp only [assign, List.getElem?_cons_succ, List.getElem_cons_succ] at *
            exact ih a p q i (by simpa using h) ha hp hq
end helpers

/-- Rows that stay: all, or those with signal-to-noise above 2 if the default cut is on. -/
noncomputable def staying (cut : Bool) (t : List Meas) : List Meas := keep (fun r => cut = true → 2 < r.SNRPSFMag) t

/-- C51: with randomisation on there are draw positions `a` (trailed magnitude), `p` (PSF magnitude) and `q` (three per row for
the position), never shared between rows and never used twice, such that row `i` of the result is row `i` of the staying rows with:
magnitude minus true magnitude equal to the draw times the row's own uncertainty (PSF magnitude a copy of the trailed one if
trailing losses are off); true values and uncertainties kept; the true position kept as `RATrue`, `DecTrue`; and the new
position in the direction of the true one displaced by sigma (degrees) times the normal vector. -/
theorem C51_randomised (mvn : ℝ → ℝ → ℝ → Vec) (z : ℕ → ℝ) (cut trailing : Bool) (k : ℕ) (t : List Meas) :
    ∃ a p q : ℕ → ℕ,
      (∀ i j, i ≠ j → a i ≠ a j ∧ p i ≠ p j ∧ ∀ c < 3, ∀ d < 3, q i + c ≠ q j + d) ∧
      (∀ i < (staying cut t).length, ∀ j < (staying cut t).length, (trailing = true → a i ≠ p j) ∧
        ∀ c < 3, a i ≠ q j + c ∧ (trailing = true → p i ≠ q j + c)) ∧
      (∀ i < (staying cut t).length, k ≤ a i ∧ k ≤ p i ∧ k ≤ q i ∧ q i + 2 < (randomisation mvn z true cut trailing k t).2) ∧
      (randomisation mvn z true cut trailing k t).1.length = (staying cut t).length ∧
      ∀ i r, (staying cut t)[i]? = some r → ∃ r', (randomisation mvn z true cut trailing k t).1[i]? = some r' ∧
        r'.key = r.key ∧ r'.trailedSourceMagTrue = r.trailedSourceMagTrue ∧ r'.trailedSourceMagSigma = r.trailedSourceMagSigma ∧
        r'.PSFMagTrue = r.PSFMagTrue ∧ r'.PSFMagSigma = r.PSFMagSigma ∧ r'.SNRPSFMag = r.SNRPSFMag ∧
        r'.astrometricSigma_deg = r.astrometricSigma_deg ∧ r'.RATrue = r.RA ∧ r'.DecTrue = r.Dec ∧
        r'.trailedSourceMag - r.trailedSourceMagTrue = z (a i) * r.trailedSourceMagSigma ∧
        (trailing = true → r'.PSFMag - r.PSFMagTrue = z (p i) * r.PSFMagSigma) ∧
        (trailing = false → r'.PSFMag = r'.trailedSourceMag) ∧
        ∀ n m, n = mvn (z (q i)) (z (q i + 1)) (z (q i + 2)) → m = direction r.RA r.Dec + (r.astrometricSigma_deg * π / 180) • n.toE →
          m ≠ 0 → direction r'.RA r'.Dec = ‖m‖⁻¹ • m := by
  have hst : (if cut then snrLimit 2 t else t) = staying cut t := by
    unfold staying
    cases cut
    · simp [keep_true]
    · simp only [if_true, forall_const]
      exact filter_eq_keep _ _ _ fun r _ => by simp
  generalize hs : staying cut t = s at hst ⊢
  refine ⟨fun i => k + i, fun i => k + s.length + i, fun i => k + s.length + (if trailing then s.length else 0) + 3 * i, ?_, ?_, ?_, ?_, ?_⟩
  · intro i j h
    dsimp only
    refine ⟨by omega, by omega, fun c hc d hd => by omega⟩
  · intro i hi j hj
    dsimp only
    refine ⟨fun _ => by omega, fun c _ => ⟨by omega, fun ht => ?_⟩⟩
    rw [if_pos ht]
    omega
  · intro i hi
    dsimp only
    refine ⟨by omega, by omega, by omega, ?_⟩
    simp only [randomisation, if_true, randomizeAll, hst]
    cases trailing <;> simp <;> omega
  · simp only [randomisation, if_true, randomizeAll, hst]
    apply assign_length
    · exact photometryDraws_length ..
    · cases trailing <;> simp [photometryDraws_length]
    · exact astrometryDraws_length ..
  · intro i r hr
    obtain ⟨hi, hri⟩ := List.getElem?_eq_some_iff.1 hr
    simp only [randomisation, if_true, randomizeAll, hst]
    have h1 := photometryDraws_get z (·.trailedSourceMagTrue) (·.trailedSourceMagSigma) k s i hi
    have h3 := astrometryDraws_get mvn z (k + s.length + (if trailing then s.length else 0)) s i hi
    have hk : (if trailing = true then k + s.length + s.length else k + s.length) =
        k + s.length + (if trailing then s.length else 0) := by cases trailing <;> simp
    rw [hk]
    cases ht : trailing
    · rw [ht] at h3
      simp only [Bool.false_eq_true, if_false] at h3 ⊢
      refine ⟨_, assign_get s _ _ _ i hi _ _ _ h1 h1 h3, ?_⟩
      rw [hri]
      refine ⟨rfl, rfl, rfl, rfl, rfl, rfl, rfl, rfl, rfl, by simp, by simp, by simp, ?_⟩
      intro n m hn hm hm0
      subst hn
      rw [hm] at hm0 ⊢
      exact C27_noise _ _ _ _ hm0
    · rw [ht] at h3
      have h2 := photometryDraws_get z (·.PSFMagTrue) (·.PSFMagSigma) (k + s.length) s i hi
      simp only [if_true] at h3 ⊢
      refine ⟨_, assign_get s _ _ _ i hi _ _ _ h1 h2 h3, ?_⟩
      rw [hri]
      refine ⟨rfl, rfl, rfl, rfl, rfl, rfl, rfl, rfl, rfl, by simp, by simp, by simp, ?_⟩
      intro n m hn hm hm0
      subst hn
      rw [hm] at hm0 ⊢
      exact C27_noise _ _ _ _ hm0

/-- C51 (off): without randomisation no row is removed, no number is drawn and measured values equal true ones. -/
theorem C51_off (mvn : ℝ → ℝ → ℝ → Vec) (z : ℕ → ℝ) (cut trailing : Bool) (k : ℕ) (t : List Meas) :
    (randomisation mvn z false cut trailing k t).2 = k ∧
    List.Forall₂ (fun r r' => r'.toMeas = r ∧ r'.trailedSourceMag = r.trailedSourceMagTrue ∧ r'.PSFMag = r.PSFMagTrue ∧
      r'.RATrue = r.RA ∧ r'.DecTrue = r.Dec) t (randomisation mvn z false cut trailing k t).1 := by
  refine ⟨rfl, ?_⟩
  simp only [randomisation, Bool.false_eq_true, if_false]
  rw [List.forall₂_map_right_iff, List.forall₂_same]
  intro r _
  exact ⟨rfl, rfl, rfl, rfl, rfl⟩

/-- C51 (chunking): randomised values depend on how the observations are split into blocks: processing two rows together or
one after the other gives a different second magnitude. -/
theorem C51_blocks_fails : ∃ (mvn : ℝ → ℝ → ℝ → Vec) (z : ℕ → ℝ) (r s : Meas),
    ((randomisation mvn z true false false 0 [r, s]).1.map (·.trailedSourceMag)) ≠
    ((randomisation mvn z true false false 0 [r]).1 ++
      (randomisation mvn z true false false (randomisation mvn z true false false 0 [r]).2 [s]).1).map (·.trailedSourceMag) := by
  refine ⟨fun a b c => ⟨a, b, c⟩, fun n => n, ⟨0, 5, 20, 1, 20, 1, 0, 0, 0⟩, ⟨1, 5, 20, 1, 20, 1, 0, 0, 0⟩, ?_⟩
  simp [randomisation, randomizeAll, photometryDraws, astrometryDraws, assign, randomizePhotometry]

/-- A case: one bright row, one below the default cut. -/
example (mvn : ℝ → ℝ → ℝ → Vec) (z : ℕ → ℝ) :
    (randomisation mvn z true true true 7 [⟨0, 5, 20, 0.1, 20.5, 0.2, 1e-5, 10, 20⟩, ⟨1, 1.5, 25, 1, 25, 1, 1e-3, 10, 20⟩]).1.map
      (fun r => (r.key, r.trailedSourceMag, r.PSFMag)) = [(0, 20 + z 7 * 0.1, 20.5 + z 8 * 0.2)] := by
  have h1 : ((2 : ℝ) < 5) := by norm_num
  have h2 : ¬ ((2 : ℝ) < 1.5) := by norm_num
  simp only [randomisation, if_true, randomizeAll, snrLimit, List.filter_cons, h1, h2, decide_true, decide_false,
    Bool.false_eq_true, if_false, List.filter_nil]
  rfl

end Sorcha.Photom.RandProps
