import Verif.Cull.Lemmas
import Verif.Mags.Props

namespace Sorcha.Cull.Props
open Sorcha.Photom Sorcha.Ephem Sorcha.Ephem.Spec Sorcha.Ephem.ParseProps Sorcha.Cull Sorcha.Cull.Spec
open Sorcha.Mags.Spec (apparent)

/-- The table has a column `q` exactly if the orbits are cometary (the reader refuses other columns than those of the format, C39). -/
def Columns (hasQ : Bool) (ts : List Target) : Prop := ∀ t ∈ ts, (hasQ = true ↔ t.row.format ∈ ["COM", "BCOM"])

theorem mapM_ok {α β ε : Type} (f : α → Except ε β) (l : List α) (out : List β) :
    l.mapM f = .ok out ↔ List.Forall₂ (fun a b => f a = .ok b) l out := by
  induction l generalizing out with
  | nil =>
    rw [List.mapM_nil]
    constructor
    · intro h
      obtain rfl := Except.ok.inj h
      exact .nil
    · intro h
      cases h
      rfl
  | cons a l ih =>
    rw [List.mapM_cons]
    constructor
    · intro h
      cases ha : f a with
      | error e => rw [ha] at h; simp [bind, Except.bind] at h
      | ok b =>
        cases hl : l.mapM f with
        | error e => rw [ha, hl] at h; simp [bind, Except.bind] at h
        | ok bs =>
          rw [ha, hl] at h
          obtain rfl := Except.ok.inj h
          exact .cons ha ((ih bs).1 hl)
    · intro h
      cases h with
      | cons ha hl =>
        rw [ha, (ih _).2 hl]
        rfl

/-- What a completed filter has worked on. -/
theorem cullOrbits_ok {cart : ToCartesian} {hasQ : Bool} {boost : Mags.Boost} {main : String} {obs : List String} {visits : List Mags.Visit}
    {ts : List Target} {ids : List String} (h : cullOrbits cart hasQ boost main obs visits ts = .ok ids) :
    ∃ qs out, perihelia cart hasQ ts = .ok qs ∧
      Mags.cull boost main obs visits ((ts.zip qs).map fun p => ⟨p.1.id, p.2, p.1.H, p.1.colour⟩) = .ok out ∧ ids = out.map (·.id) := by
  unfold cullOrbits at h
  cases h1 : perihelia cart hasQ ts with
  | error e => rw [h1] at h; simp [bind, Except.bind] at h
  | ok qs =>
    rw [h1] at h
    cases h2 : Mags.cull boost main obs visits ((ts.zip qs).map fun p => ⟨p.1.id, p.2, p.1.H, p.1.colour⟩) with
    | error e => simp [bind, Except.bind, h2, Except.mapError] at h
    | ok out =>
      refine ⟨qs, out, rfl, h2, ?_⟩
      simp only [bind, Except.bind, h2, Except.mapError, Except.ok.injEq] at h
      exact h.symm

/-- The value used for a row. -/
def Used (cart : ToCartesian) (hasQ : Bool) (epoch : ℝ) (row : OrbitRow) (q : ℝ) : Prop :=
  if hasQ then q = row.q else perihelion cart epoch row = .ok q

theorem used {cart : ToCartesian} {hasQ : Bool} {ts : List Target} {qs : List ℝ}
    (h : perihelia cart hasQ ts = .ok qs) :
    ∃ epoch, List.Forall₂ (fun t q => Used cart hasQ epoch t.row q) ts qs := by
  unfold perihelia at h
  cases hasQ with
  | true =>
    obtain rfl := Except.ok.inj h
    refine ⟨0, ?_⟩
    rw [List.forall₂_map_right_iff, List.forall₂_same]
    intro t _
    simp [Used]
  | false =>
    cases ts with
    | nil => simp [estimate] at h
    | cons t ts =>
      simp only [Bool.false_eq_true, if_false, estimate] at h
      refine ⟨t.epoch, ?_⟩
      have := (mapM_ok _ _ _).1 h
      refine this.imp ?_
      intro a b hab
      simpa [Used] using hab

theorem zip_mem {α β : Type} {R : α → β → Prop} {l : List α} {m : List β} (h : List.Forall₂ R l m) {a : α} (ha : a ∈ l) : ∃ b, (a, b) ∈ l.zip m ∧ R a b := by
  induction h with
  | nil => simp at ha
  | @cons x y l m hxy _ ih =>
    rcases List.mem_cons.1 ha with rfl | ha
    · exact ⟨y, by simp, hxy⟩
    · obtain ⟨b, hb, hr⟩ := ih ha
      exact ⟨b, by simp [hb], hr⟩

theorem zip_ids {ts : List Target} {qs : List ℝ} {R : Target → ℝ → Prop} (h : List.Forall₂ R ts qs) :
    ((ts.zip qs).map fun p => (⟨p.1.id, p.2, p.1.H, p.1.colour⟩ : Mags.Obj)).map (·.id) = ts.map (·.id) := by
  induction h with
  | nil => rfl
  | cons _ _ ih => simpa using ih

theorem triangle (a b : Vec) : length b - length a ≤ length (fromTo a b) := by
  have h1 := Ephem.ElementsProps.length_sq a
  have h2 := Ephem.ElementsProps.length_sq b
  have h3 := Ephem.ElementsProps.length_sq (fromTo a b)
  have ha : 0 ≤ length a := Real.sqrt_nonneg _
  have hb : 0 ≤ length b := Real.sqrt_nonneg _
  have hf : 0 ≤ length (fromTo a b) := Real.sqrt_nonneg _
  have hcs : Spec.inner a b ^ 2 ≤ (length a * length b) ^ 2 := by
    have := Ephem.ElementsProps.lagrange_identity a b
    have := Ephem.ElementsProps.inner_self_nonneg (cross a b)
    nlinarith
  have hab : Spec.inner a b ≤ length a * length b := le_of_abs_le (abs_le_of_sq_le_sq hcs (by positivity))
  have hexp : Spec.inner (fromTo a b) (fromTo a b) = Spec.inner a a + Spec.inner b b - 2 * Spec.inner a b := by
    unfold Spec.inner fromTo
    ring
  by_contra hlt
  push Not at hlt
  nlinarith

/-- The loss of magnitudes by the errors of the estimate. -/
theorem margin {H q r d : ℝ} (hq : 2 ≤ q) (hr : 0.986 * q ≤ r) (hd : 0.952 * (q - 1) ≤ d) :
    apparent H q (q - 1) - 0.15 < apparent H r d := by
  have h1 : (0.938 : ℝ) * (q * (q - 1)) ≤ r * d := by
    have h2 : 0.986 * q * (0.952 * (q - 1)) ≤ r * d := mul_le_mul hr hd (by nlinarith) (by linarith)
    have h3 : 0 ≤ q * (q - 1) := by nlinarith
    nlinarith
  have hp : 0 < q * (q - 1) := by nlinarith
  unfold apparent
  have h4 := Real.logb_le_logb_of_le (b := 10) (by norm_num) (by positivity : (0 : ℝ) < 0.938 * (q * (q - 1))) h1
  rw [Real.logb_mul (by norm_num) hp.ne'] at h4
  have h5 : (-3 / 100 : ℝ) < Real.logb 10 0.938 := by
    rw [Real.lt_logb_iff_rpow_lt (by norm_num) (by norm_num)]
    have e1 : ((10 : ℝ) ^ (-3 / 100 : ℝ)) ^ (100 : ℕ) = 10 ^ (-3 : ℝ) := by
      rw [← Real.rpow_natCast, ← Real.rpow_mul (by norm_num)]
      norm_num
    refine lt_of_pow_lt_pow_left₀ 100 (by norm_num) ?_
    rw [e1, show (-3 : ℝ) = ((-3 : ℤ) : ℝ) by norm_num, Real.rpow_intCast]
    norm_num
  linarith

/-- C79: an object removed from the table, in whatever of the six formats its orbit is given and whatever the epochs of the other objects are, is at no point
of its orbit within 1.85 magnitudes of the depth of any visit: at zero phase, for an observer within 1.04 au of the centre of the orbit (which is the Sun or
the barycentre) and the Sun within 0.02 au of it. -/
theorem C79_sound (cart : ToCartesian) (hc : Exact cart) (hasQ : Bool) (main : String) (obs : List String) (visits : List Mags.Visit) (ts : List Target)
    (ids : List String) (h : cullOrbits cart hasQ ⟨none, none⟩ main obs visits ts = .ok ids) (hcol : Columns hasQ ts) (hid : (ts.map (·.id)).Nodup)
    (t : Target) (ht : t ∈ ts) (hn : t.id ∉ ids) (X : ℝ → Vec) (hX : Orbit t.row X) (v : Mags.Visit) (hv : v ∈ visits) (hvo : v.filt ∈ obs)
    (time : ℝ) (sun observer : Vec) (hs : length sun ≤ 0.02) (hob : length observer ≤ 1.04) :
    v.depth + 1.85 < apparent (if v.filt = main then t.H else t.H + t.colour v.filt) (length (fromTo sun (X time))) (length (fromTo observer (X time))) := by
  obtain ⟨qs, out, h1, h2, rfl⟩ := cullOrbits_ok h
  obtain ⟨epoch, hu⟩ := used h1
  obtain ⟨q, hq, hqu⟩ := zip_mem hu ht
  have hids := zip_ids hu
  have hmem : (⟨t.id, q, t.H, t.colour⟩ : Mags.Obj) ∈ (ts.zip qs).map fun p => (⟨p.1.id, p.2, p.1.H, p.1.colour⟩ : Mags.Obj) :=
    List.mem_map.2 ⟨(t, q), hq, rfl⟩
  have hnot : (⟨t.id, q, t.H, t.colour⟩ : Mags.Obj) ∉ out := fun ho => hn (List.mem_map.2 ⟨_, ho, rfl⟩)
  obtain ⟨g1, g2⟩ := Mags.Props.C29_sound main obs visits _ out h2 (by rw [hids]; exact hid) _ hmem hnot
  have g3 := (g2 v hv hvo q (q - 1) (le_refl _) (le_refl _)).1
  simp only at g1 g3
  have hle : q ≤ 1.004 * length (X time) := by
    refine estimate_le hc hX epoch q ?_ time
    unfold Used at hqu
    cases hasQ with
    | true =>
      right
      exact ⟨(hcol t ht).1 rfl, by simpa using hqu⟩
    | false =>
      left
      refine ⟨fun hb => ?_, by simpa using hqu⟩
      have := (hcol t ht).2 (by rw [hb]; simp)
      simp at this
  have r1 := triangle sun (X time)
  have d1 := triangle observer (X time)
  have hr : 0.986 * q ≤ length (fromTo sun (X time)) := by norm_num at *; linarith
  have hd : 0.952 * (q - 1) ≤ length (fromTo observer (X time)) := by norm_num at *; linarith
  have := margin (H := if v.filt = main then t.H else t.H + t.colour v.filt) g1 hr hd
  unfold Mags.Props.absMag at g3
  norm_num at *
  linarith

/-- The estimate does not depend on the epoch. -/
theorem perihelion_epoch {cart : ToCartesian} (hc : Exact cart) {row : OrbitRow} (hb : row.format ≠ "BCOM")
    (hk : row.format = "BKEP" → 0 < row.a ∧ 0 ≤ row.e ∧ row.e < 1) (epoch epoch' : ℝ) : perihelion cart epoch row = perihelion cart epoch' row := by
  rw [perihelion_eq, perihelion_eq]
  by_cases h : row.format = "BKEP"
  · obtain ⟨h1, h2, h3⟩ := hk h
    simp only [h]
    rw [exact_shift hc (by unfold gmTotal; norm_num) (mul_pos h1 (by linarith)) h2 _ _ _ _ epoch epoch']
    simp
  · simp [h, hb]

/-- C79 (own row only): although the epoch of the first row is used for all of them, the perihelion estimated for a row is the one that would be estimated if
the row were alone in the table. -/
theorem C79_own (cart : ToCartesian) (hc : Exact cart) (ts : List Target) (hcol : Columns false ts)
    (hk : ∀ t ∈ ts, t.row.format = "BKEP" → 0 < t.row.a ∧ 0 ≤ t.row.e ∧ t.row.e < 1) (qs : List ℝ) (h : estimate cart ts = .ok qs) :
    List.Forall₂ (fun t q => estimate cart [t] = .ok [q]) ts qs := by
  cases ts with
  | nil => simp [estimate] at h
  | cons s ts =>
    have h1 := (mapM_ok _ _ _).1 h
    have h2 : List.Forall₂ (fun t q => t ∈ s :: ts ∧ perihelion cart s.epoch t.row = .ok q) (s :: ts) qs := by
      rw [List.forall₂_iff_get] at h1 ⊢
      exact ⟨h1.1, fun i hi hi' => ⟨List.get_mem _ _, h1.2 i hi hi'⟩⟩
    refine h2.imp ?_
    rintro t q ⟨ht, hq⟩
    have hb : t.row.format ≠ "BCOM" := by
      intro hb
      have := (hcol t ht).2 (by rw [hb]; simp)
      simp at this
    unfold estimate
    refine (mapM_ok _ _ _).2 (.cons ?_ .nil)
    rw [perihelion_epoch hc hb (hk t ht) t.epoch s.epoch]
    exact hq

/-- C79 (Keplerian formats): the estimate is `a (1 - e)`, up to 0.3 per cent above it for barycentric elements. -/
theorem C79_keplerian (cart : ToCartesian) (hc : Exact cart) (epoch : ℝ) (row : OrbitRow) (ha : 0 < row.a) (he : 0 ≤ row.e) (he1 : row.e < 1) :
    (row.format = "KEP" → perihelion cart epoch row = .ok (row.a * (1 - row.e))) ∧
    (row.format = "BKEP" → ∃ q, perihelion cart epoch row = .ok q ∧ q ≤ 1.003 * (row.a * (1 - row.e))) := by
  have hgs : 0 < gmSun := by unfold gmSun; norm_num
  have hgt : 0 < gmTotal := by unfold gmTotal; norm_num
  have hpos : 0 < row.a * (1 - row.e) := mul_pos ha (by linarith)
  constructor
  · intro h
    rw [perihelion_eq]
    simp [h]
  · intro h
    rw [perihelion_eq]
    obtain ⟨h2, h3⟩ := q_exact hc hgt hpos he (radians row.inc) (radians row.node) (radians row.argPeri) (epoch - radians row.ma * √(row.a ^ 3 / gmTotal)) epoch
    have h4 := q_mass hgs hgt (vel := (cart gmTotal (row.a * (1 - row.e)) row.e (radians row.inc) (radians row.node) (radians row.argPeri)
      (epoch - radians row.ma * √(row.a ^ 3 / gmTotal)) epoch).2) h3
    rw [h2] at h4
    refine ⟨_, by simp [h], h4.trans (mul_le_mul_of_nonneg_right ?_ hpos.le)⟩
    refine max_le (by norm_num) ?_
    have : gmTotal / gmSun ≤ 1.0015 := by
      unfold gmSun gmTotal
      rw [div_le_iff₀ (by norm_num)]
      norm_num
    linarith

theorem isOk_mapM {α β ε : Type} (f : α → Except ε β) (l : List α) : (∃ out, l.mapM f = .ok out) ↔ ∀ a ∈ l, ∃ b, f a = .ok b := by
  constructor
  · rintro ⟨out, h⟩ a ha
    obtain ⟨b, -, hb⟩ := zip_mem ((mapM_ok f l out).1 h) ha
    exact ⟨b, hb⟩
  · intro h
    induction l with
    | nil => exact ⟨[], rfl⟩
    | cons a l ih =>
      obtain ⟨b, hb⟩ := h a (by simp)
      obtain ⟨bs, hbs⟩ := ih fun x hx => h x (by simp [hx])
      exact ⟨b :: bs, (mapM_ok f _ _).2 (.cons hb ((mapM_ok f l bs).1 hbs))⟩

/-- C79 (when the filter works): with a column `q` it does if every observing filter has a visit; without it, if besides there is an object and every format is
known. -/
theorem C79_runs (cart : ToCartesian) (hasQ : Bool) (main : String) (obs : List String) (visits : List Mags.Visit) (ts : List Target) :
    (∃ ids, cullOrbits cart hasQ ⟨none, none⟩ main obs visits ts = .ok ids) ↔
      (∀ b ∈ obs, ∃ v ∈ visits, v.filt = b) ∧
        (hasQ = false → ts ≠ [] ∧ ∀ t ∈ ts, t.row.format ∈ ["CART", "BCART", "KEP", "BKEP", "COM", "BCOM"]) := by
  have hper : ∀ epoch row, (∃ q, perihelion cart epoch row = .ok q) ↔ row.format ∈ ["CART", "BCART", "KEP", "BKEP", "COM", "BCOM"] := by
    intro epoch row
    rw [perihelion_eq]
    simp only [List.mem_cons, List.not_mem_nil, or_false]
    by_cases h1 : row.format = "COM"
    · simp [h1]
    by_cases h2 : row.format = "CART" ∨ row.format = "BCART"
    · rcases h2 with h2 | h2 <;> simp [h2]
    by_cases h4 : row.format = "KEP"
    · simp [h4]
    by_cases h5 : row.format = "BKEP"
    · simp [h5]
    by_cases h6 : row.format = "BCOM"
    · simp [h6]
    · simp [h1, h2, h4, h5, h6]
  have hq : (∃ qs, perihelia cart hasQ ts = .ok qs) ↔
      (hasQ = false → ts ≠ [] ∧ ∀ t ∈ ts, t.row.format ∈ ["CART", "BCART", "KEP", "BKEP", "COM", "BCOM"]) := by
    unfold perihelia
    cases hasQ with
    | true => simp
    | false =>
      cases ts with
      | nil => simp [estimate]
      | cons t ts =>
        simp only [Bool.false_eq_true, if_false, estimate, isOk_mapM, hper, true_imp_iff]
        simp
  have hd : ∀ objs : List Mags.Obj, (∃ out, Mags.cull ⟨none, none⟩ main obs visits objs = .ok out) ↔ ∀ b ∈ obs, ∃ v ∈ visits, v.filt = b := by
    intro objs
    constructor
    · rintro ⟨out, h⟩ b hb
      by_contra hn
      push Not at hn
      have := Mags.Props.C29_unused_filter_fails ⟨none, none⟩ main b obs visits objs hb hn
      rw [h] at this
      simp at this
    · intro h
      have : ∃ ds, Mags.depths visits obs = .ok ds := by
        induction obs with
        | nil => exact ⟨[], rfl⟩
        | cons b bs ih =>
          obtain ⟨ds, hds⟩ := ih fun c hc => h c (by simp [hc])
          obtain ⟨v, hv, hvb⟩ := h b (by simp)
          cases hm : Mags.maxDepth visits b with
          | none =>
            exfalso
            rw [Mags.maxDepth, List.max?_eq_none_iff, List.filterMap_eq_nil_iff] at hm
            have := hm v hv
            simp [hvb] at this
          | some d => exact ⟨(b, d) :: ds, by simp [Mags.depths, hm, hds, bind, Except.bind]⟩
      obtain ⟨ds, hds⟩ := this
      exact ⟨_, by simp only [Mags.cull, hds, bind, Except.bind]; rfl⟩
  rw [← hq]
  constructor
  · rintro ⟨ids, h⟩
    obtain ⟨qs, out, h1, h2, -⟩ := cullOrbits_ok h
    exact ⟨(hd _).1 ⟨out, h2⟩, qs, h1⟩
  · rintro ⟨h1, qs, h2⟩
    obtain ⟨out, h3⟩ := (hd ((ts.zip qs).map fun p => ⟨p.1.id, p.2, p.1.H, p.1.colour⟩)).2 h1
    exact ⟨out.map (·.id), by simp only [cullOrbits, h2, h3, bind, Except.bind, Except.mapError]⟩

end Sorcha.Cull.Props
