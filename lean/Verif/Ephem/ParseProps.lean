import Verif.Ephem.Parse
import Verif.Ephem.ElementsProps

/-!
# Properties C45 and C57: reading orbits, elements for the faint-object filter, observatories
-/

namespace Sorcha.Ephem.ParseProps
open Sorcha.Photom Sorcha.Geom Sorcha.Ephem Sorcha.Ephem.Props Sorcha.Ephem.OrbitProps Sorcha.Ephem.ElementsProps Real

theorem equatorial_eq (v : Vec) : eclipticToEquatorial v = Spec.equatorial v := by
  have ho : obliquity = 84381.448 / 3600 * (π / 180) := by unfold obliquity; ring
  unfold eclipticToEquatorial vecMat eclToEqMatrix Spec.equatorial
  rw [ho]
  apply vec_ext <;> simp only [cos_neg, sin_neg] <;> ring

theorem equatorial_sub (a b : Vec) : equatorialToEcliptic (a - b) = equatorialToEcliptic a + scale (-1) (equatorialToEcliptic b) := by
  unfold equatorialToEcliptic vecMat eclToEqMatrix scale
  apply vec_ext <;> simp only [sub_x, sub_y, sub_z, add_x, add_y, add_z] <;> ring

theorem add_sub_vec (a b : Vec) : a + b - b = a := by
  apply vec_ext <;> simp

theorem rad_conv (x : ℝ) : x * π / 180 = Spec.radians x := by unfold Spec.radians; ring

/-- A conversion of elements to a state that solves Kepler's equation exactly, with exact Stumpff functions. -/
def Exact (cart : ToCartesian) : Prop :=
  ∀ mu q e i Ω ω tp epoch : ℝ, 0 < mu → 0 < q → 0 ≤ e → ∃ ss,
    (rootFunction Spec.exact ss mu (2 * mu / q - mu * (1 + e) / q) q 0 (timeSincePerihelion mu q e tp epoch)).1 = 0 ∧
    cart mu q e i Ω ω tp epoch = universalCartesian Spec.exact mu q e i Ω ω tp epoch ss

/-- Such a conversion exists. -/
theorem exact_exists : ∃ cart, Exact cart := by
  have h : ∀ mu q e i Ω ω tp epoch : ℝ, ∃ xv : Vec × Vec, 0 < mu → 0 < q → 0 ≤ e → ∃ ss,
      (rootFunction Spec.exact ss mu (2 * mu / q - mu * (1 + e) / q) q 0 (timeSincePerihelion mu q e tp epoch)).1 = 0 ∧
      xv = universalCartesian Spec.exact mu q e i Ω ω tp epoch ss := by
    intro mu q e i Ω ω tp epoch
    by_cases hh : 0 < mu ∧ 0 < q ∧ 0 ≤ e
    · obtain ⟨ss, hss, -⟩ := C56_root hh.1 hh.2.1 hh.2.2 (timeSincePerihelion mu q e tp epoch)
      exact ⟨_, fun _ _ _ => ⟨ss, hss, rfl⟩⟩
    · exact ⟨(⟨0, 0, 0⟩, ⟨0, 0, 0⟩), fun a b c => absurd ⟨a, b, c⟩ hh⟩
  choose cart hc using h
  exact ⟨cart, hc⟩

/-! ## The Sun's state -/

/-- Every entry of the dictionary is the Sun's state at its epoch. -/
def Correct (sun : ℝ → Vec × Vec) (d : SunDict) : Prop := ∀ p ∈ d, p.2 = sun p.1

theorem lookupSun_eq (sun : ℝ → Vec × Vec) (d : SunDict) (h : Correct sun d) (epoch : ℝ) :
    (lookupSun sun d epoch).1 = sun epoch ∧ Correct sun (lookupSun sun d epoch).2 := by
  classical
  unfold lookupSun
  cases hf : d.find? (fun p => decide (p.1 = epoch)) with
  | none =>
    simp only [hf]
    refine ⟨trivial, ?_⟩
    intro p hp
    rcases List.mem_append.1 hp with hp | hp
    · exact h p hp
    · rw [List.mem_singleton.1 hp]
  | some p =>
    have hm := List.mem_of_find?_eq_some hf
    have he := List.find?_some hf
    simp only [decide_eq_true_eq] at he
    simp only [hf]
    exact ⟨by rw [h p hm, he], h⟩

theorem correct_nil (sun : ℝ → Vec × Vec) : Correct sun [] := fun _ h => absurd h List.not_mem_nil

section
variable (cart : ToCartesian) (sun : ℝ → Vec × Vec) (gmSun gmTotal : ℝ) (row : OrbitRow) (epoch : ℝ) (d : SunDict)

/-- The state `parse_orbit_row` returns, without the dictionary. -/
noncomputable def stateOf : Option (Vec × Vec) := (parseOrbitRow cart sun gmSun gmTotal row epoch d).map Prod.fst

/-- C57 (Cartesian formats): a heliocentric Cartesian row is turned to the equatorial frame and moved by the Sun's state at the epoch; a
barycentric one is only turned. -/
theorem C57_cartesian (hd : Correct sun d) :
    (row.format = "CART" → stateOf cart sun gmSun gmTotal row epoch d =
      some (Spec.equatorial row.pos + (sun epoch).1, Spec.equatorial row.vel + (sun epoch).2)) ∧
    (row.format = "BCART" → stateOf cart sun gmSun gmTotal row epoch d = some (Spec.equatorial row.pos, Spec.equatorial row.vel)) := by
  have hs := (lookupSun_eq sun d hd epoch).1
  constructor <;> intro hf
  · unfold stateOf parseOrbitRow eclipticState
    simp [hf, hs, equatorial_eq]
  · unfold stateOf parseOrbitRow eclipticState
    simp [hf, equatorial_eq]

/-- C57 (unknown format): any other format is refused. -/
theorem C57_unknown :
    stateOf cart sun gmSun gmTotal row epoch d = none ↔ row.format ∉ ["CART", "BCART", "KEP", "BKEP", "COM", "BCOM"] := by
  unfold stateOf parseOrbitRow eclipticState
  simp only [Option.map_eq_none_iff, List.mem_cons, List.not_mem_nil, or_false, not_or]
  by_cases h1 : row.format = "CART"
  · simp [h1]
  by_cases h2 : row.format = "BCART"
  · simp [h2]
  by_cases h3 : row.format = "COM"
  · simp [h3]
  by_cases h4 : row.format = "BCOM"
  · simp [h4]
  by_cases h5 : row.format = "KEP"
  · simp [h5]
  by_cases h6 : row.format = "BKEP"
  · simp [h6]
  simp [h1, h2, h3, h4, h5, h6]

end

/-- The state of a bound orbit from its semi-major axis and mean anomaly. -/
theorem kepler_state {mu a e : ℝ} (hmu : 0 < mu) (ha : 0 < a) (he0 : 0 ≤ e) (he1 : e < 1) (cart : ToCartesian) (hc : Exact cart)
    (i Ω ω M epoch : ℝ) : ∃ E, E - e * sin E = M ∧
      cart mu (a * (1 - e)) e i Ω ω (epoch - M * √(a ^ 3 / mu)) epoch =
        (Spec.ellipsePosition a e E (Spec.perihelionDir i Ω ω) (Spec.motionDir i Ω ω),
         Spec.ellipseVelocity mu a e E (Spec.perihelionDir i Ω ω) (Spec.motionDir i Ω ω)) := by
  have h1 : 0 < 1 - e := by linarith
  have hq : 0 < a * (1 - e) := by positivity
  set q := a * (1 - e) with hqd
  obtain ⟨ss, hroot, hcart⟩ := hc mu q e i Ω ω (epoch - M * √(a ^ 3 / mu)) epoch hmu hq he0
  obtain ⟨σ, hσ⟩ := time_surj hmu hq he0 (epoch - (epoch - M * √(a ^ 3 / mu)))
  rw [hcart, cartesian_eq hmu hq he0 i Ω ω _ epoch ss σ hroot hσ]
  have hal : al mu q e = mu / a := by unfold al; rw [hqd]; field_simp
  have hma : 0 < mu / a := by positivity
  set w := √(mu / a) with hw
  have hw0 : 0 < w := Real.sqrt_pos.2 hma
  have hw2 : w ^ 2 = mu / a := Real.sq_sqrt hma.le
  have g0 := (G_pos w σ).1
  have g1 := (G_pos w σ).2
  rw [hw2] at g0 g1
  have g2 := G0_eq (mu / a) σ
  have g3 := G1_eq (mu / a) σ
  set E := w * σ with hE
  have hG1 : G 1 (mu / a) σ = sin E / w := by rw [eq_div_iff hw0.ne', ← g1]; ring
  have hG2 : mu * G 2 (mu / a) σ = a * (1 - cos E) := by
    rw [g0] at g2
    have : mu * G 2 (mu / a) σ = a * (mu / a * G 2 (mu / a) σ) := by field_simp
    rw [this]; linear_combination a * g2
  have hG3 : mu * G 3 (mu / a) σ = a * (σ - sin E / w) := by
    rw [hG1] at g3
    have : mu * G 3 (mu / a) σ = a * (mu / a * G 3 (mu / a) σ) := by field_simp
    rw [this]; linear_combination a * g3
  have hper : √(a ^ 3 / mu) = a / w := by
    refine Eq.trans (congrArg Real.sqrt ?_) (Real.sqrt_sq (by positivity : 0 ≤ a / w))
    rw [div_pow, hw2]; field_simp
  have hv : q * √(mu * (1 + e) / q) = a * w * √(1 - e ^ 2) := by
    have e1 : q * √(mu * (1 + e) / q) = √(q * (mu * (1 + e))) := by
      rw [← Real.sqrt_sq hq.le, ← Real.sqrt_mul (by positivity)]
      congr 1
      rw [Real.sqrt_sq hq.le]
      field_simp
    have e2 : a * w * √(1 - e ^ 2) = √(a ^ 2 * (mu / a) * (1 - e ^ 2)) := by
      rw [Real.sqrt_mul (by positivity), Real.sqrt_mul (by positivity), Real.sqrt_sq ha.le]
    rw [e1, e2]
    congr 1
    rw [hqd]; field_simp; ring
  have hrad : rad mu q e σ = a * (1 - e * cos E) := by
    unfold rad
    rw [hal]
    have : mu * e * G 2 (mu / a) σ = e * (mu * G 2 (mu / a) σ) := by ring
    rw [this, hG2, hqd]; ring
  have hrp : 0 < 1 - e * cos E := by
    have := rad_pos hmu hq he0 σ
    rw [hrad] at this
    exact pos_of_mul_pos_right this ha.le
  refine ⟨E, ?_, ?_⟩
  · rw [keplerTime_eq, hal, hG1, hG3, hper] at hσ
    have hwa : a / w ≠ 0 := by positivity
    apply mul_right_cancel₀ hwa
    have h2 : M * (a / w) = q * (sin E / w) + a * (σ - sin E / w) := by linarith
    rw [h2, hE, hqd]
    field_simp
    ring
  · have hx : px mu q e σ = a * (cos E - e) := by
      unfold px; rw [hal, hG2, hqd]; ring
    have hy : py mu q e σ = a * (√(1 - e ^ 2) * sin E) := by
      unfold py; rw [hal, hv, hG1]; field_simp
    have hux : ux mu q e σ = -(w / (1 - e * cos E) * sin E) := by
      unfold ux; rw [hrad, hal, hG1]
      have hmm : mu = w ^ 2 * a := by rw [hw2]; field_simp
      rw [hmm]; field_simp
    have huy : uy mu q e σ = w / (1 - e * cos E) * (√(1 - e ^ 2) * cos E) := by
      unfold uy; rw [hrad, hal, hv, g0]; field_simp
    rw [hx, hy, hux, huy]
    rfl

/-- C57 (Keplerian formats): for a bound orbit the state is that on the ellipse at the eccentric anomaly solving Kepler's equation for the
given mean anomaly, about the Sun for `KEP` (and then moved by the Sun's state) and about the barycentre, with the total mass, for
`BKEP`. -/
theorem C57_keplerian (cart : ToCartesian) (hc : Exact cart) (sun : ℝ → Vec × Vec) (gmSun gmTotal : ℝ) (hs : 0 < gmSun) (ht : 0 < gmTotal)
    (row : OrbitRow) (ha : 0 < row.a) (he0 : 0 ≤ row.e) (he1 : row.e < 1) (epoch : ℝ) (d : SunDict) (hd : Correct sun d) :
    let P := Spec.perihelionDir (Spec.radians row.inc) (Spec.radians row.node) (Spec.radians row.argPeri)
    let Q := Spec.motionDir (Spec.radians row.inc) (Spec.radians row.node) (Spec.radians row.argPeri)
    ∃ E, E - row.e * sin E = Spec.radians row.ma ∧
    (row.format = "KEP" → stateOf cart sun gmSun gmTotal row epoch d =
      some (Spec.equatorial (Spec.ellipsePosition row.a row.e E P Q) + (sun epoch).1,
        Spec.equatorial (Spec.ellipseVelocity gmSun row.a row.e E P Q) + (sun epoch).2)) ∧
    (row.format = "BKEP" → stateOf cart sun gmSun gmTotal row epoch d =
      some (Spec.equatorial (Spec.ellipsePosition row.a row.e E P Q), Spec.equatorial (Spec.ellipseVelocity gmTotal row.a row.e E P Q))) := by
  intro P Q
  have hsun := (lookupSun_eq sun d hd epoch).1
  by_cases hf : row.format = "KEP"
  · obtain ⟨E, hE, hcart⟩ := kepler_state hs ha he0 he1 cart hc (Spec.radians row.inc) (Spec.radians row.node) (Spec.radians row.argPeri)
      (Spec.radians row.ma) epoch
    refine ⟨E, hE, fun _ => ?_, fun h => absurd (hf.symm.trans h) (by decide)⟩
    unfold stateOf parseOrbitRow eclipticState
    simp [hf, hsun, equatorial_eq, rad_conv, hcart, P, Q]
  · obtain ⟨E, hE, hcart⟩ := kepler_state ht ha he0 he1 cart hc (Spec.radians row.inc) (Spec.radians row.node) (Spec.radians row.argPeri)
      (Spec.radians row.ma) epoch
    refine ⟨E, hE, fun h => absurd h hf, fun h => ?_⟩
    unfold stateOf parseOrbitRow eclipticState
    simp [h, equatorial_eq, rad_conv, hcart, P, Q]

/-- C57 (cometary formats): the state is that computed from the given perihelion distance, eccentricity and angles (in degrees) and the time
of perihelion, which is a modified Julian date. Newton's law for it is `C56_newton`. -/
theorem C57_cometary (cart : ToCartesian) (sun : ℝ → Vec × Vec) (gmSun gmTotal : ℝ) (row : OrbitRow) (epochMJD : ℝ) (d : SunDict)
    (hd : Correct sun d) :
    (row.format = "COM" → ∀ p v, (cart gmSun row.q row.e (Spec.radians row.inc) (Spec.radians row.node) (Spec.radians row.argPeri)
        (row.tpMJD + 2400000.5) (epochMJD + 2400000.5)) = (p, v) →
      stateOf cart sun gmSun gmTotal row (epochMJD + 2400000.5) d =
        some (Spec.equatorial p + (sun (epochMJD + 2400000.5)).1, Spec.equatorial v + (sun (epochMJD + 2400000.5)).2)) ∧
    (row.format = "BCOM" → ∀ p v, (cart gmTotal row.q row.e (Spec.radians row.inc) (Spec.radians row.node) (Spec.radians row.argPeri)
        (row.tpMJD + 2400000.5) (epochMJD + 2400000.5)) = (p, v) →
      stateOf cart sun gmSun gmTotal row (epochMJD + 2400000.5) d = some (Spec.equatorial p, Spec.equatorial v)) := by
  have hs := (lookupSun_eq sun d hd (epochMJD + 2400000.5)).1
  constructor <;> intro hf p v h
  · unfold stateOf parseOrbitRow eclipticState
    simp [hf, hs, equatorial_eq, rad_conv, h]
  · unfold stateOf parseOrbitRow eclipticState
    simp [hf, equatorial_eq, rad_conv, h]

theorem parse_correct (cart : ToCartesian) (sun : ℝ → Vec × Vec) (gmSun gmTotal : ℝ) (row : OrbitRow) (epoch : ℝ) (d : SunDict)
    (hd : Correct sun d) (r : (Vec × Vec) × SunDict) (h : parseOrbitRow cart sun gmSun gmTotal row epoch d = some r) :
    Correct sun r.2 ∧ stateOf cart sun gmSun gmTotal row epoch [] = some r.1 := by
  have hl := lookupSun_eq sun d hd epoch
  have hl0 := lookupSun_eq sun [] (correct_nil sun) epoch
  unfold parseOrbitRow at h
  unfold stateOf parseOrbitRow
  rw [Option.map_eq_some_iff] at h
  obtain ⟨ec, h1, h2⟩ := h
  rw [h1]
  simp only [Option.map_some]
  rw [hl0.1]
  simp only at h2
  rw [hl.1] at h2
  by_cases hf : row.format ∈ ["KEP", "COM", "CART"]
  · rw [if_pos hf] at h2 ⊢
    subst h2
    exact ⟨hl.2, rfl⟩
  · rw [if_neg hf] at h2 ⊢
    subst h2
    exact ⟨hl.2, rfl⟩

/-- C57 (own row only): the run starts with one state per orbit, in order, and each is the one its row gives on its own at its own epoch (a
modified Julian date below 2400000.5 is turned into a Julian date); the cache of Sun states makes no difference. -/
theorem C57_own_row (cart : ToCartesian) (sun : ℝ → Vec × Vec) (gmSun gmTotal : ℝ) (rows : List (String × ℝ × OrbitRow))
    (l : List (String × ℝ × (Vec × Vec))) (h : generateSimulations cart sun gmSun gmTotal rows [] = some l) :
    List.Forall₂ (fun r s => s.1 = r.1 ∧ (r.2.1 < 2400000.5 → s.2.1 = r.2.1 + 2400000.5) ∧
      (2400000.5 ≤ r.2.1 → s.2.1 = r.2.1) ∧ stateOf cart sun gmSun gmTotal r.2.2 s.2.1 [] = some s.2.2) rows l := by
  suffices hgen : ∀ (d : SunDict), Correct sun d → ∀ l, generateSimulations cart sun gmSun gmTotal rows d = some l →
      List.Forall₂ (fun r s => s.1 = r.1 ∧ (r.2.1 < 2400000.5 → s.2.1 = r.2.1 + 2400000.5) ∧
      (2400000.5 ≤ r.2.1 → s.2.1 = r.2.1) ∧ stateOf cart sun gmSun gmTotal r.2.2 s.2.1 [] = some s.2.2) rows l from
    hgen [] (correct_nil sun) l h
  clear h l
  induction rows with
  | nil =>
    intro d _ l h
    unfold generateSimulations at h
    rw [← Option.some.inj h]
    exact List.Forall₂.nil
  | cons r rest ih =>
    intro d hd l h
    obtain ⟨id, ep, row⟩ := r
    unfold generateSimulations at h
    simp only at h
    rw [Option.bind_eq_some_iff] at h
    obtain ⟨x, hx, h⟩ := h
    rw [Option.map_eq_some_iff] at h
    obtain ⟨l', hl', hll⟩ := h
    subst hll
    obtain ⟨hc, hst⟩ := parse_correct cart sun gmSun gmTotal row _ d hd x hx
    refine List.Forall₂.cons ⟨rfl, fun hlt => by simp only [if_pos hlt], fun hge => by simp only [if_neg (not_lt.2 hge)], hst⟩ (ih x.2 hc l' hl')

/-- C57 (all or nothing): the run starts unless a row has an unknown format. -/
theorem C57_starts (cart : ToCartesian) (sun : ℝ → Vec × Vec) (gmSun gmTotal : ℝ) (rows : List (String × ℝ × OrbitRow)) :
    (generateSimulations cart sun gmSun gmTotal rows []).isSome ↔
      ∀ r ∈ rows, r.2.2.format ∈ ["CART", "BCART", "KEP", "BKEP", "COM", "BCOM"] := by
  suffices hgen : ∀ d : SunDict, (generateSimulations cart sun gmSun gmTotal rows d).isSome ↔
      ∀ r ∈ rows, r.2.2.format ∈ ["CART", "BCART", "KEP", "BKEP", "COM", "BCOM"] from hgen []
  induction rows with
  | nil => intro d; simp [generateSimulations]
  | cons r rest ih =>
    intro d
    obtain ⟨id, ep, row⟩ := r
    unfold generateSimulations
    simp only
    have hu := C57_unknown cart sun gmSun gmTotal row (if ep < 2400000.5 then ep + 2400000.5 else ep) d
    unfold stateOf at hu
    rw [Option.map_eq_none_iff] at hu
    rw [List.forall_mem_cons]
    cases hp : parseOrbitRow cart sun gmSun gmTotal row (if ep < 2400000.5 then ep + 2400000.5 else ep) d with
    | none =>
      have := hu.1 hp
      constructor
      · intro h; simp at h
      · intro h; exact absurd h.1 this
    | some x =>
      have : row.format ∈ ["CART", "BCART", "KEP", "BKEP", "COM", "BCOM"] := by
        by_contra hn
        rw [hu.2 hn] at hp
        exact absurd hp (by simp)
      simp only [Option.bind_some, Option.isSome_map]
      rw [ih x.2]
      exact ⟨fun h => ⟨this, h⟩, fun h => h.2⟩

/-! ## Elements for the faint-object filter -/

section
variable (cart : ToCartesian) (sun : ℝ → Vec × Vec) (gmSun gmTotal : ℝ) (row : OrbitRow) (epoch : ℝ) (d : SunDict)

/-- The elements `get_perihelion_row` returns, without the dictionary. -/
noncomputable def elementsOf : Option Cometary := (perihelionRow cart sun gmSun gmTotal row epoch d).map Prod.fst

/-- C57 (elements from states): for the Cartesian and barycentric formats the elements used by the faint-object filter are those of the
heliocentric orbit through the state the simulation starts from. -/
theorem C57_elements (hd : Correct sun d) (hf : row.format ∈ ["CART", "BCART", "BKEP", "BCOM"]) (p v : Vec)
    (hstate : stateOf cart sun gmSun gmTotal row epoch d = some (p, v)) :
    ∃ hp hv, Spec.equatorial hp = p - (sun epoch).1 ∧ Spec.equatorial hv = v - (sun epoch).2 ∧
      ∀ k, universalCometary gmSun hp hv epoch = k → elementsOf cart sun gmSun gmTotal row epoch d =
        some ⟨k.q, k.e, k.incl * (180 / π), k.longnode * (180 / π), k.argperi * (180 / π), k.tp - 2400000.5⟩ := by
  have hs := (lookupSun_eq sun d hd epoch).1
  refine ⟨equatorialToEcliptic (p - (sun epoch).1), equatorialToEcliptic (v - (sun epoch).2), ?_, ?_, ?_⟩
  · rw [← equatorial_eq, (C34_inverse _).2]
  · rw [← equatorial_eq, (C34_inverse _).2]
  intro k hk
  subst hk
  simp only [List.mem_cons, List.not_mem_nil, or_false] at hf
  unfold stateOf parseOrbitRow eclipticState at hstate
  unfold elementsOf perihelionRow
  rcases hf with hf | hf | hf | hf
  · simp only [hf, hs] at hstate
    simp at hstate
    obtain ⟨h1, h2⟩ := hstate
    subst h1 h2
    simp [hf, inDegrees, add_sub_vec, (C34_inverse _).1]
    ring
  · simp only [hf, hs] at hstate
    simp at hstate
    obtain ⟨h1, h2⟩ := hstate
    subst h1 h2
    simp [hf, inDegrees, equatorial_sub, (C34_inverse _).1, hs]
    ring
  · simp only [hf, hs] at hstate
    simp at hstate
    obtain ⟨h1, h2⟩ := hstate
    subst h1 h2
    simp [hf, inDegrees, equatorial_sub, (C34_inverse _).1, hs]
    ring
  · simp only [hf, hs] at hstate
    simp at hstate
    obtain ⟨h1, h2⟩ := hstate
    subst h1 h2
    simp [hf, inDegrees, equatorial_sub, (C34_inverse _).1, hs]
    ring

end

/-- Shifting the time of perihelion of a bound orbit by whole periods does not change the state. -/
theorem tp_shift {mu a e : ℝ} (hmu : 0 < mu) (ha : 0 < a) (he0 : 0 ≤ e) (he1 : e < 1) (cart : ToCartesian) (hc : Exact cart)
    (i Ω ω tp epoch : ℝ) (n : ℤ) :
    cart mu (a * (1 - e)) e i Ω ω (tp + n * (2 * π * √(a ^ 3 / mu))) epoch = cart mu (a * (1 - e)) e i Ω ω tp epoch := by
  have h1 : 0 < 1 - e := by linarith
  have hq : 0 < a * (1 - e) := by positivity
  have haq : a * (1 - e) / (1 - e) = a := by field_simp
  obtain ⟨ss, hroot, hcart⟩ := hc mu _ e i Ω ω tp epoch hmu hq he0
  obtain ⟨ss', hroot', hcart'⟩ := hc mu _ e i Ω ω (tp + n * (2 * π * √(a ^ 3 / mu))) epoch hmu hq he0
  obtain ⟨σ, hσ⟩ := time_surj hmu hq he0 (epoch - tp)
  obtain ⟨-, ht, p1, p2, p3, p4⟩ := period_facts hmu hq he0 he1 σ (-n)
  have hP : 2 * π / √(mu / (a * (1 - e) / (1 - e) * (a * (1 - e) / (1 - e)) * (a * (1 - e) / (1 - e)))) = 2 * π * √(a ^ 3 / mu) := by
    rw [haq, div_eq_mul_inv, ← Real.sqrt_inv, inv_div]
    congr 3; ring
  rw [hP] at ht
  rw [hcart, hcart', cartesian_eq hmu hq he0 i Ω ω tp epoch ss σ hroot hσ,
    cartesian_eq hmu hq he0 i Ω ω _ epoch ss' (σ + (-n : ℤ) * (2 * π / √(al mu (a * (1 - e)) e))) hroot' (by rw [ht, hσ]; push_cast; ring),
    p1, p2, p3, p4]

/-- C57 (elements given as elements): for `COM` and bound `KEP` rows the elements used by the faint-object filter (degrees, modified
Julian date) describe the heliocentric orbit the simulation starts from. -/
theorem C57_elements_given (cart : ToCartesian) (hc : Exact cart) (sun : ℝ → Vec × Vec) (gmSun gmTotal : ℝ) (hs : 0 < gmSun)
    (row : OrbitRow) (epoch : ℝ) (d : SunDict) (hd : Correct sun d)
    (hf : row.format = "COM" ∨ (row.format = "KEP" ∧ 0 < row.a ∧ 0 ≤ row.e ∧ row.e < 1)) :
    ∃ k, elementsOf cart sun gmSun gmTotal row epoch d = some k ∧
      ∀ p v, cart gmSun k.q k.e (Spec.radians k.incl) (Spec.radians k.longnode) (Spec.radians k.argperi) (k.tp + 2400000.5) epoch = (p, v) →
        stateOf cart sun gmSun gmTotal row epoch d = some (Spec.equatorial p + (sun epoch).1, Spec.equatorial v + (sun epoch).2) := by
  have hsun := (lookupSun_eq sun d hd epoch).1
  rcases hf with hf | ⟨hf, ha, he0, he1⟩
  · refine ⟨_, by unfold elementsOf perihelionRow; simp [hf]; rfl, ?_⟩
    intro p v h
    unfold stateOf parseOrbitRow eclipticState
    simp only at h
    simp [hf, hsun, equatorial_eq, rad_conv, h]
  · refine ⟨_, by unfold elementsOf perihelionRow; simp [hf]; rfl, ?_⟩
    intro p v h
    simp only at h
    have hcart : cart gmSun (row.a * (1 - row.e)) row.e (Spec.radians row.inc) (Spec.radians row.node) (Spec.radians row.argPeri)
        (epoch - Spec.radians row.ma * √(row.a ^ 3 / gmSun)) epoch = (p, v) := by
      rw [← h]
      by_cases hM : row.ma * π / 180 > π
      · simp only [if_pos hM]
        rw [← tp_shift hs ha he0 he1 cart hc _ _ _ (epoch - Spec.radians row.ma * √(row.a ^ 3 / gmSun)) epoch 1]
        congr 1
        rw [rad_conv]
        push_cast
        ring
      · simp only [if_neg hM]
        congr 1
        rw [rad_conv]
        ring
    unfold stateOf parseOrbitRow eclipticState
    simp [hf, hsun, equatorial_eq, rad_conv, hcart]

/-! ## Observatories -/

/-- C45 (position): an observatory with non-zero longitude, cos and sin has the position at that longitude, at distance `cos` from the
axis and height `sin` above the equator; one that lacks a value has none. -/
theorem C45_position (o : ObsRecord) :
    (∀ lon c s, o.longitude = some lon → o.cos = some c → o.sin = some s → lon ≠ 0 → c ≠ 0 → s ≠ 0 →
      convertToGeocentric o = some ⟨c * cos (Spec.radians lon), c * sin (Spec.radians lon), s⟩) ∧
    (o.longitude = none ∨ o.cos = none ∨ o.sin = none → convertToGeocentric o = none) := by
  constructor
  · intro lon c s h1 h2 h3 h4 h5 h6
    unfold convertToGeocentric truthy
    simp [h1, h2, h3, h4, h5, h6, rad_conv]
  · intro h
    unfold convertToGeocentric truthy
    rcases h with h | h | h <;> simp [h]

/-- C45 fails for a longitude of zero (Greenwich, MPC code 000), or any other value 0: the observatory has all three values, but no position
is computed. -/
theorem C45_zero_fails (lon c s : ℝ) (h : lon = 0 ∨ c = 0 ∨ s = 0) :
    convertToGeocentric ⟨some lon, some c, some s⟩ = none := by
  unfold convertToGeocentric truthy
  rcases h with h | h | h <;> simp [h]

/-- C45 (motion): if the Earth turns uniformly about its axis (rate `w`, axis fixed with respect to the equatorial frame by a constant matrix
`B`), the observatory's position is the Earth's plus the rotated geocentric vector times the Earth's radius, and the velocity added to
the Earth's is the true one times `sin (w δ) / (w δ)`, for the time step `δ`. -/
theorem C45_motion (pos vel : Vec) (B : Mat) (w φ rearth et δ : ℝ) (hw : w ≠ 0) (hδ : δ ≠ 0) (obs : Vec) :
    let place : ℝ → Vec := fun t => scale rearth (matVec B ⟨cos (w * t + φ) * obs.x - sin (w * t + φ) * obs.y,
      sin (w * t + φ) * obs.x + cos (w * t + φ) * obs.y, obs.z⟩)
    ∀ rot : ℝ → Mat, (∀ t, scale rearth (matVec (rot t) obs) = place t) →
      (observatoryRates pos vel rot obs rearth et δ).1 = pos + place et ∧
      ∃ u, Spec.Velocity place u et ∧ (observatoryRates pos vel rot obs rearth et δ).2 = vel + Spec.times (sin (w * δ) / (w * δ)) u := by
  intro place rot hrot
  unfold observatoryRates
  simp only [hrot]
  refine ⟨trivial, ⟨scale rearth (matVec B ⟨w * (-sin (w * et + φ) * obs.x - cos (w * et + φ) * obs.y),
    w * (cos (w * et + φ) * obs.x - sin (w * et + φ) * obs.y), 0⟩), ?_, ?_⟩⟩
  · have hl : HasDerivAt (fun t => w * t + φ) w et := by
      simpa using ((hasDerivAt_id et).const_mul w).add_const φ
    have hc := hl.cos
    have hsn := hl.sin
    have hx := (hc.mul_const obs.x).sub (hsn.mul_const obs.y)
    have hy := (hsn.mul_const obs.x).add (hc.mul_const obs.y)
    have key : ∀ a b c : ℝ, HasDerivAt (fun t => rearth * (a * (cos (w * t + φ) * obs.x - sin (w * t + φ) * obs.y) +
        b * (sin (w * t + φ) * obs.x + cos (w * t + φ) * obs.y) + c * obs.z))
        (rearth * (a * (w * (-sin (w * et + φ) * obs.x - cos (w * et + φ) * obs.y)) + b * (w * (cos (w * et + φ) * obs.x - sin (w * et + φ) * obs.y))
          + c * 0)) et := by
      intro a b c
      have := (((hx.const_mul a).add (hy.const_mul b)).add_const (c * obs.z)).const_mul rearth
      exact this.congr_deriv (by ring)
    refine ⟨?_, ?_, ?_⟩
    · exact key B.r0.x B.r0.y B.r0.z
    · exact key B.r1.x B.r1.y B.r1.z
    · exact key B.r2.x B.r2.y B.r2.z
  · have hp : w * (et + δ) + φ = (w * et + φ) + w * δ := by ring
    have hm : w * (et - δ) + φ = (w * et + φ) - w * δ := by ring
    have hv : ∀ a b c : Vec, a = b → c + a = c + b := fun a b c h => by rw [h]
    apply hv
    simp only [place, hp, hm]
    generalize w * et + φ = θ
    simp only [cos_add, sin_add, cos_sub, sin_sub]
    generalize cos (w * δ) = cd
    generalize sin (w * δ) = sd
    apply vec_ext <;> simp only [scale, matVec, dot3, sub_x, sub_y, sub_z, Spec.times] <;> field_simp <;> ring

/-- A rotation as in `C45_motion`: about the z axis. -/
example (w φ rearth t : ℝ) (obs : Vec) :
    scale rearth (matVec ⟨⟨cos (w * t + φ), -sin (w * t + φ), 0⟩, ⟨sin (w * t + φ), cos (w * t + φ), 0⟩, ⟨0, 0, 1⟩⟩ obs) =
      scale rearth (matVec ⟨⟨1, 0, 0⟩, ⟨0, 1, 0⟩, ⟨0, 0, 1⟩⟩ ⟨cos (w * t + φ) * obs.x - sin (w * t + φ) * obs.y,
        sin (w * t + φ) * obs.x + cos (w * t + φ) * obs.y, obs.z⟩) := by
  apply vec_ext <;> simp only [scale, matVec, dot3] <;> ring

/-- Rubin Observatory (X05) has a position. -/
example : convertToGeocentric ⟨some 289.25058, some 0.864981, some (-0.500958)⟩ =
    some ⟨0.864981 * cos (Spec.radians 289.25058), 0.864981 * sin (Spec.radians 289.25058), -0.500958⟩ :=
  (C45_position _).1 _ _ _ rfl rfl rfl (by norm_num) (by norm_num) (by norm_num)

/-- A bound heliocentric orbit: the hypotheses of `C57_keplerian` are met. -/
example (cart : ToCartesian) (hc : Exact cart) : ∃ E, E - 0.5 * sin E = Spec.radians 200 ∧
    stateOf cart (fun _ => (⟨1, 2, 3⟩, ⟨4, 5, 6⟩)) 1 1.1 ⟨"KEP", 0, 0.5, 10, 20, 30, 0, 2.5, 200, ⟨0, 0, 0⟩, ⟨0, 0, 0⟩⟩ 2460000.5 [] =
      some (Spec.equatorial (Spec.ellipsePosition 2.5 0.5 E (Spec.perihelionDir (Spec.radians 10) (Spec.radians 20) (Spec.radians 30))
          (Spec.motionDir (Spec.radians 10) (Spec.radians 20) (Spec.radians 30))) + ⟨1, 2, 3⟩,
        Spec.equatorial (Spec.ellipseVelocity 1 2.5 0.5 E (Spec.perihelionDir (Spec.radians 10) (Spec.radians 20) (Spec.radians 30))
          (Spec.motionDir (Spec.radians 10) (Spec.radians 20) (Spec.radians 30))) + ⟨4, 5, 6⟩) := by
  obtain ⟨E, hE, h, -⟩ := C57_keplerian cart hc (fun _ => (⟨1, 2, 3⟩, ⟨4, 5, 6⟩)) 1 1.1 one_pos (by norm_num)
    ⟨"KEP", 0, 0.5, 10, 20, 30, 0, 2.5, 200, ⟨0, 0, 0⟩, ⟨0, 0, 0⟩⟩ (by norm_num) (by norm_num) (by norm_num) 2460000.5 [] (correct_nil _)
  exact ⟨E, hE, h rfl⟩

end Sorcha.Ephem.ParseProps
