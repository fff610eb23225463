import Verif.Linking.Lemmas5
import Mathlib.Tactic.NormNum
import Mathlib.Combinatorics.Colex

/-!
# Linking properties C01–C08
-/

namespace Sorcha.Linking
open Spec

/-- A concrete configuration used in the satisfiability examples: LSST-like, separation = |ΔRA|. -/
def exCfg : Cfg where
  maxdt := 1/16
  minlen := 1/7200
  minObs := 2
  window := 15
  nlink := 3
  p := 1
  nightStart := 2/3
  sep := fun a _ b _ => |a - b|

/-- Six observations: two on each of three nights. -/
def exObs : List Obs :=
  [⟨0, 60000 + 3/2 - 1/3, 10, 5⟩, ⟨1, 60000 + 3/2 - 1/3 + 1/50, 10 + 1/100, 5⟩,
   ⟨2, 60003 + 3/2 - 1/3, 11, 5⟩, ⟨3, 60003 + 3/2 - 1/3 + 1/50, 11 + 1/100, 5⟩,
   ⟨4, 60007 + 3/2 - 1/3, 12, 5⟩, ⟨5, 60007 + 3/2 - 1/3 + 1/50, 12 + 1/100, 5⟩]

theorem pairwise_sortBy {α} (key : α → ℚ) (l : List α) :
    (l.insertionSort fun a b => key a ≤ key b).Pairwise fun a b => key a ≤ key b := by
  have : Std.Total fun a b : α => key a ≤ key b := ⟨fun a b => le_total _ _⟩
  have : IsTrans α fun a b : α => key a ≤ key b := ⟨fun a b c => le_trans⟩
  exact List.pairwise_insertionSort _ l

/-- A stable sort by time. -/
def exSort (l : List Obs) : List Obs := l.insertionSort fun a b => a.mjd ≤ b.mjd

theorem exSort_sorts : Sorts exSort := by
  intro l
  refine ⟨List.perm_insertionSort _ _, ?_⟩
  exact pairwise_sortBy _ l

theorem exObs_order : InTimeOrder exObs := by
  unfold InTimeOrder; decide +kernel
theorem exObs_distinct : DistinctTimes exObs := by
  unfold DistinctTimes; decide +kernel
theorem exObs_phased : WellPhased exCfg exObs := by
  unfold WellPhased; decide +kernel

/-! ## C01 -/

/-- C01.  In time order the answer is exactly the tracklet condition; out of time order (with enough observations)
the call raises. -/
theorem C01_hasTracklet_iff (c : Cfg) (obs : List Obs) :
    (InTimeOrder obs → ∃ b, hasTracklet c obs = .ok b ∧ (b = true ↔ HasTracklet c obs)) ∧
    (obs.length < c.minObs → hasTracklet c obs = .ok false) ∧
    (¬ InTimeOrder obs → c.minObs ≤ obs.length → hasTracklet c obs = .error .notChronological) := by
  refine ⟨hasTracklet_sorted c obs, ?_, ?_⟩
  · intro h; simp [hasTracklet, h]
  · intro h1 h2
    have hc : chronological (obs.map (·.mjd)) = false := by
      rw [← Bool.not_eq_true, chronological_obs]; exact h1
    simp [hasTracklet, hc]; omega

example : HasTracklet exCfg (exObs.take 2) :=
  ⟨by decide, Or.inr ⟨[], exObs[0], [], exObs[1], [], by decide +kernel, by decide +kernel, by decide +kernel,
    by decide +kernel, by decide⟩⟩
example : InTimeOrder (exObs.take 2) := by unfold InTimeOrder; decide +kernel
example : ¬ InTimeOrder exObs.reverse ∧ exCfg.minObs ≤ exObs.reverse.length := by
  unfold InTimeOrder; decide +kernel

/-! ## C02 -/

/-- C02 (soundness, any weights; exactness when one tracklet is enough). -/
theorem C02_offered_sound (nights : List ℤ) (has : List Bool) (window nlink : ℕ) (w : ℕ → ℚ)
    (hne : nights ≠ []) (hsort : nights.Pairwise (· < ·)) (hw : 1 ≤ window) (hl : 1 ≤ nlink) :
    ∃ offered, offeredNights nights has window nlink w = .ok offered ∧
      offered.Pairwise (· < ·) ∧
      (∀ D ∈ offered, DiscoveryNight (fun n => (n, true) ∈ nights.zip has) window nlink D) ∧
      (nlink = 1 → ∀ D, D ∈ offered ↔ (D, true) ∈ nights.zip has) := by
  obtain ⟨o, h1, h2, h3, h4, _⟩ := offered_spec nights has window nlink w hne hsort hw hl
  exact ⟨o, h1, h2, h3, h4⟩

/-- C02 (completeness).  With positive weights, if any window of `window` nights holds `nlink` tracklet nights then some
night is offered, and the first offered night is the earliest night closing such a window. -/
theorem C02_offered_complete (nights : List ℤ) (has : List Bool) (window nlink : ℕ) (w : ℕ → ℚ)
    (hne : nights ≠ []) (hsort : nights.Pairwise (· < ·)) (hw : 1 ≤ window) (hl : 1 ≤ nlink)
    (hpos : ∀ k, 0 < w k) (D : ℤ)
    (hD : DiscoveryNight (fun n => (n, true) ∈ nights.zip has) window nlink D) :
    ∃ offered E rest, offeredNights nights has window nlink w = .ok offered ∧ offered = E :: rest ∧
      DiscoveryNight (fun n => (n, true) ∈ nights.zip has) window nlink E ∧
      ∀ D', DiscoveryNight (fun n => (n, true) ∈ nights.zip has) window nlink D' → E ≤ D' := by
  obtain ⟨o, h1, _, h3, _, h5⟩ := offered_spec nights has window nlink w hne hsort hw hl
  obtain ⟨E, hE, _⟩ := h5 hpos D hD
  cases o with
  | nil => simp at hE
  | cons E' rest =>
    simp only [List.head?_cons, Option.some.injEq] at hE
    subst hE
    refine ⟨_, E', rest, h1, rfl, h3 E' (by simp), ?_⟩
    intro D' hD'
    obtain ⟨E2, hE2, hle⟩ := h5 hpos D' hD'
    simp only [List.head?_cons, Option.some.injEq] at hE2
    omega

/-- C02 (exact set).  When no two different sets of weights have equal sums, the offered nights are exactly the nights
that close a window with enough tracklets and whose window holds a different set of tracklet nights than the
window of the night before ("unique discovery opportunities"). -/
theorem C02_offered_generic (nights : List ℤ) (has : List Bool) (window nlink : ℕ) (w : ℕ → ℚ)
    (hne : nights ≠ []) (hsort : nights.Pairwise (· < ·)) (hw : 1 ≤ window) (hl : 2 ≤ nlink)
    (hg : Generic w (has.count true)) :
    ∃ offered, offeredNights nights has window nlink w = .ok offered ∧
      ∀ D, D ∈ offered ↔
        DiscoveryNight (fun n => (n, true) ∈ nights.zip has) window nlink D ∧
        inWindow (fun n => (n, true) ∈ nights.zip has) window D ≠
          inWindow (fun n => (n, true) ∈ nights.zip has) window (D - 1) := by
  unfold offeredNights
  rw [if_pos (by omega)]
  exact discWindow_generic nights has window nlink w hne hsort hw (by omega) hg

/-- Powers of two are generic weights. -/
theorem generic_two_pow (m : ℕ) : Generic (fun k => (2:ℚ)^k) m := by
  intro A B _ _ h
  apply Finset.geomSum_injective (n := 2) (le_refl _)
  have : ((∑ k ∈ A, 2^k : ℕ) : ℚ) = ((∑ k ∈ B, 2^k : ℕ) : ℚ) := by push_cast; exact h
  exact_mod_cast this

example : ([3, 4, 5, 20] : List ℤ) ≠ [] ∧ ([3, 4, 5, 20] : List ℤ).Pairwise (· < ·) ∧
    Generic (fun k => (2:ℚ)^k) ([true, true, true, false].count true) ∧ (∀ k, (0:ℚ) < 2^k) ∧
    DiscoveryNight (fun n => (n, true) ∈ ([3, 4, 5, 20] : List ℤ).zip [true, true, true, false]) 15 3 5 := by
  refine ⟨by decide, by decide, generic_two_pow _, fun k => by positivity, ?_⟩
  unfold DiscoveryNight
  have : ({3, 4, 5} : Finset ℤ) ⊆ inWindow (fun n => (n, true) ∈ ([3, 4, 5, 20] : List ℤ).zip [true, true, true, false]) 15 5 := by
    intro x hx
    simp only [Finset.mem_insert, Finset.mem_singleton] at hx
    simp only [inWindow, Finset.mem_filter, Finset.mem_Icc]
    rcases hx with rfl | rfl | rfl <;> simp
  exact Finset.card_le_card this

/-- Without positivity of the weights completeness is false of the code: if `np.random.rand` returned zeros the only
discovery night would be discarded (the event has probability about 2^-53 per weight). -/
theorem C02_zero_weights_fails :
    offeredNights [0, 1] [true, true] 2 2 (fun _ => 0) = .ok [] ∧
    DiscoveryNight (fun n => (n, true) ∈ ([0, 1] : List ℤ).zip [true, true]) 2 2 1 := by
  refine ⟨by decide +kernel, ?_⟩
  unfold DiscoveryNight
  have : ({0, 1} : Finset ℤ) ⊆ inWindow (fun n => (n, true) ∈ ([0, 1] : List ℤ).zip [true, true]) 2 1 := by
    intro x hx
    simp only [Finset.mem_insert, Finset.mem_singleton] at hx
    simp only [inWindow, Finset.mem_filter, Finset.mem_Icc]
    rcases hx with rfl | rfl <;> simp
  exact Finset.card_le_card this

/-! ## C04 (used below): total behaviour of `linkObject` -/

/-- C04.  On a non-empty history with every observation well inside a night, and window and number of tracklets at
least one, `linkObject` returns normally (no assertion, no empty minimum), for all weights and draws; on a
history with a badly phased observation it stops on the night-boundary assertion; those are the only cases. -/
theorem C04_linkObject_total (sortT : List Obs → List Obs) (hsort : Sorts sortT) (c : Cfg) (w : ℕ → ℚ)
    (draws : List ℚ → ℕ → ℚ) (obs : List Obs) (hw : 1 ≤ c.window) (hl : 1 ≤ c.nlink) :
    (WellPhased c obs → ∃ L, linkObject sortT c w draws obs = .ok L) ∧
    (¬ WellPhased c obs → linkObject sortT c w draws obs = .error .nightBoundary) := by
  obtain ⟨hp, ho⟩ := hsort obs
  unfold linkObject
  by_cases h0 : obs.length ≠ 0
  · rw [if_pos h0]
    constructor
    · intro h
      have hne : sortT obs ≠ [] := by
        intro h'; rw [h'] at hp; have := hp.length_eq; simp at this; exact h0 this.symm
      obtain ⟨_, L, hL, _⟩ := linkSorted_spec c w draws (sortT obs) ho hne ((wellPhased_perm hp).2 h) hw hl
      exact ⟨L, hL⟩
    · intro h
      exact linkSorted_badPhase c w draws _ (fun h' => h ((wellPhased_perm hp).1 h'))
  · rw [if_neg h0]
    refine ⟨fun _ => ⟨_, rfl⟩, fun h => absurd ?_ h⟩
    intro o ho
    have : obs = [] := List.length_eq_zero_iff.1 (not_not.1 h0)
    rw [this] at ho; simp at ho

/-- C04 (asterisk observation).  When an object is discovered on night `D`, the reported observation is one of the object's, it lies in
the trailing window of `D`, and it is the earliest one there. -/
theorem C04_asterisk (sortT : List Obs → List Obs) (hsort : Sorts sortT) (c : Cfg) (w : ℕ → ℚ)
    (draws : List ℚ → ℕ → ℚ) (obs : List Obs) (hw : 1 ≤ c.window) (hl : 1 ≤ c.nlink) (L : Link) (D : ℤ)
    (h : linkObject sortT c w draws obs = .ok L) (hD : L.date = some D) :
    ∃ o ∈ obs, o.src = L.obsId ∧ D - c.window < nightOf c o ∧ nightOf c o ≤ D ∧
      ∀ o' ∈ obs, D - c.window < nightOf c o' → nightOf c o' ≤ D → o.mjd ≤ o'.mjd := by
  obtain ⟨hp, ho⟩ := hsort obs
  unfold linkObject at h
  by_cases h0 : obs.length ≠ 0
  · rw [if_pos h0] at h
    by_cases hph : WellPhased c (sortT obs)
    · have hne : sortT obs ≠ [] := by
        intro h'; rw [h'] at hp; have := hp.length_eq; simp at this; exact h0 this.symm
      obtain ⟨_, L', hL, _, _, _, _, _, hres⟩ := linkSorted_spec c w draws (sortT obs) ho hne hph hw hl
      rw [hL] at h; cases h
      rcases hres with ⟨h1, _⟩ | ⟨k, D', _, _, _, hd, _, o, ho1, ho2, ho3, ho4, ho5⟩
      · rw [h1] at hD; simp [Link.default] at hD
      · rw [hd] at hD; cases hD
        exact ⟨o, hp.mem_iff.1 ho1, ho2, by omega, ho4, fun o' ho' a b => ho5 o' (hp.mem_iff.2 ho') (by omega) b⟩
    · rw [linkSorted_badPhase _ _ _ _ hph] at h; cases h
  · rw [if_neg h0] at h; cases h; simp [Link.default] at hD

example : (linkObject exSort exCfg (fun k => 2^k) (fun _ _ => 0) exObs.reverse) =
    .ok ⟨0, some 60007, 1⟩ := by decide +kernel

/-! ## C03, C07 -/

/-- C03 (soundness).  A reported discovery date is a night whose trailing window holds enough tracklet nights. -/
theorem C03_date_sound (sortT : List Obs → List Obs) (hsort : Sorts sortT) (c : Cfg) (w : ℕ → ℚ)
    (draws : List ℚ → ℕ → ℚ) (obs : List Obs) (hw : 1 ≤ c.window) (hl : 1 ≤ c.nlink) (L : Link) (D : ℤ)
    (h : linkObject sortT c w draws obs = .ok L) (hD : L.date = some D) :
    DiscoveryNight (TrackletNight c (sortT obs)) c.window c.nlink D := by
  obtain ⟨hp, ho⟩ := hsort obs
  unfold linkObject at h
  by_cases h0 : obs.length ≠ 0
  · rw [if_pos h0] at h
    by_cases hph : WellPhased c (sortT obs)
    · have hne : sortT obs ≠ [] := by
        intro h'; rw [h'] at hp; have := hp.length_eq; simp at this; exact h0 this.symm
      obtain ⟨off, L', hL, _, hs, _, _, _, hres⟩ := linkSorted_spec c w draws (sortT obs) ho hne hph hw hl
      rw [hL] at h; cases h
      rcases hres with ⟨h1, _⟩ | ⟨k, D', hk, _, _, hd, _, _⟩
      · rw [h1] at hD; simp [Link.default] at hD
      · rw [hd] at hD; cases hD
        exact hs _ (List.mem_of_getElem? hk)
    · rw [linkSorted_badPhase _ _ _ _ hph] at h; cases h
  · rw [if_neg h0] at h; cases h; simp [Link.default] at hD

/-- C03 + C07 (efficiency 1).  For uniform draws in [0,1) and positive weights, an object is reported linked on night `D`
exactly when `D` is the earliest night closing a window with enough tracklet nights; in particular it is linked
iff there is such a night. -/
theorem C03_C07_efficiency_one (sortT : List Obs → List Obs) (hsort : Sorts sortT) (c : Cfg) (w : ℕ → ℚ)
    (draws : List ℚ → ℕ → ℚ) (obs : List Obs) (hw : 1 ≤ c.window) (hl : 1 ≤ c.nlink)
    (hu : UnitDraws draws) (hpos : ∀ k, 0 < w k) (hp1 : c.p = 1) (L : Link)
    (h : linkObject sortT c w draws obs = .ok L) :
    (∀ D, L.date = some D ↔
      (DiscoveryNight (TrackletNight c (sortT obs)) c.window c.nlink D ∧
        ∀ D', DiscoveryNight (TrackletNight c (sortT obs)) c.window c.nlink D' → D ≤ D')) ∧
    (L.date.isSome ↔ ∃ D, DiscoveryNight (TrackletNight c (sortT obs)) c.window c.nlink D) := by
  obtain ⟨hp, ho⟩ := hsort obs
  unfold linkObject at h
  have main : (∃ D, L.date = some D ∧ DiscoveryNight (TrackletNight c (sortT obs)) c.window c.nlink D ∧
        ∀ D', DiscoveryNight (TrackletNight c (sortT obs)) c.window c.nlink D' → D ≤ D') ∨
      (L.date = none ∧ ∀ D, ¬ DiscoveryNight (TrackletNight c (sortT obs)) c.window c.nlink D) := by
    by_cases h0 : obs.length ≠ 0
    · rw [if_pos h0] at h
      by_cases hph : WellPhased c (sortT obs)
      · have hne : sortT obs ≠ [] := by
          intro h'; rw [h'] at hp; have := hp.length_eq; simp at this; exact h0 this.symm
        obtain ⟨off, L', hL, _, hs, _, hearly, _, hres⟩ := linkSorted_spec c w draws (sortT obs) ho hne hph hw hl
        rw [hL] at h; cases h
        have hearly := hearly hpos
        rcases hres with ⟨h1, h2⟩ | ⟨k, D, hk, hlt, hj, hd, _, _⟩
        · right
          refine ⟨by rw [h1]; rfl, ?_⟩
          intro D hD
          obtain ⟨E, hE, _⟩ := hearly D hD
          cases off with
          | nil => simp at hE
          | cons x xs =>
            apply h2 0 (by simp)
            rw [hp1]; exact (hu _ _).2
        · left
          have hk0 : k = 0 := by
            by_contra hk0
            apply hj 0 (by omega)
            rw [hp1]; exact (hu _ _).2
          subst hk0
          refine ⟨D, hd, hs _ (List.mem_of_getElem? hk), ?_⟩
          intro D' hD'
          obtain ⟨E, hE, hle⟩ := hearly D' hD'
          cases off with
          | nil => simp at hE
          | cons x xs =>
            simp at hE hk; omega
      · rw [linkSorted_badPhase _ _ _ _ hph] at h; cases h
    · rw [if_neg h0] at h; cases h
      right
      refine ⟨rfl, ?_⟩
      intro D hD
      obtain ⟨n, hn⟩ := Finset.card_pos.1 (lt_of_lt_of_le hl hD)
      simp only [inWindow, Finset.mem_filter, TrackletNight] at hn
      obtain ⟨_, o, ho, _⟩ := hn
      have hob : obs = [] := List.length_eq_zero_iff.1 (not_not.1 h0)
      rw [hp.mem_iff, hob] at ho; simp at ho
  rcases main with ⟨D, h1, h2, h3⟩ | ⟨h1, h2⟩
  · refine ⟨?_, ?_⟩
    · intro D'
      rw [h1]
      constructor
      · intro e; cases e; exact ⟨h2, h3⟩
      · rintro ⟨a, b⟩
        have := h3 D' a; have := b D h2
        congr 1; omega
    · rw [h1]; simp only [Option.isSome_some, true_iff]; exact ⟨D, h2⟩
  · refine ⟨?_, ?_⟩
    · intro D'; rw [h1]; simp only [reduceCtorEq, false_iff]
      rintro ⟨a, _⟩; exact h2 D' a
    · rw [h1]; simp only [Option.isSome_none, Bool.false_eq_true, false_iff]
      rintro ⟨D, hD⟩; exact h2 D hD

/-- C07 (efficiency 0).  Nothing is ever linked. -/
theorem C07_efficiency_zero (sortT : List Obs → List Obs) (hsort : Sorts sortT) (c : Cfg) (w : ℕ → ℚ)
    (draws : List ℚ → ℕ → ℚ) (obs : List Obs) (hw : 1 ≤ c.window) (hl : 1 ≤ c.nlink)
    (hu : UnitDraws draws) (hp0 : c.p = 0) (L : Link) (h : linkObject sortT c w draws obs = .ok L) :
    L = Link.default := by
  obtain ⟨hp, ho⟩ := hsort obs
  unfold linkObject at h
  by_cases h0 : obs.length ≠ 0
  · rw [if_pos h0] at h
    by_cases hph : WellPhased c (sortT obs)
    · have hne : sortT obs ≠ [] := by
        intro h'; rw [h'] at hp; have := hp.length_eq; simp at this; exact h0 this.symm
      obtain ⟨off, L', hL, _, hs, _, _, _, hres⟩ := linkSorted_spec c w draws (sortT obs) ho hne hph hw hl
      rw [hL] at h; cases h
      rcases hres with ⟨h1, _⟩ | ⟨k, D', hk, hlt, _, _, _, _⟩
      · exact h1
      · rw [hp0] at hlt
        have := (hu ((sortT obs).map (·.ra)) k).1
        linarith
    · rw [linkSorted_badPhase _ _ _ _ hph] at h; cases h
  · rw [if_neg h0] at h; cases h; rfl

/-- The example history is linked at efficiency one and satisfies all hypotheses above. -/
example : Sorts exSort ∧ UnitDraws (fun _ _ => (1:ℚ)/2) ∧ (∀ k, (0:ℚ) < 2^k) ∧ exCfg.p = 1 ∧ 1 ≤ exCfg.window ∧
    1 ≤ exCfg.nlink ∧
    linkObject exSort exCfg (fun k => 2^k) (fun _ _ => 1/2) exObs = .ok ⟨0, some 60007, 1⟩ := by
  refine ⟨exSort_sorts, fun _ _ => by norm_num, fun k => by positivity, rfl, by decide, by decide, by decide +kernel⟩

/-! ## C06 -/

/-- C06 (order of an object's own rows).  For observations at distinct times the result of linking does not depend on
the order in which they are given, nor on the sorting routine. -/
theorem C06_order_irrelevant (sortT sortT' : List Obs → List Obs) (hsort : Sorts sortT) (hsort' : Sorts sortT')
    (c : Cfg) (w : ℕ → ℚ) (draws : List ℚ → ℕ → ℚ) (obs obs' : List Obs) (hp : obs.Perm obs')
    (hd : DistinctTimes obs) : linkObject sortT c w draws obs = linkObject sortT' c w draws obs' := by
  obtain ⟨p1, o1⟩ := hsort obs
  obtain ⟨p2, o2⟩ := hsort' obs'
  have hpp : (sortT obs).Perm (sortT' obs') := p1.trans (hp.trans p2.symm)
  have e : sortT obs = sortT' obs' := sorted_unique o1 o2 hpp (hd.perm p1.symm)
  unfold linkObject
  rw [e, hp.length_eq]

example : exObs.reverse.Perm exObs ∧ DistinctTimes exObs.reverse :=
  ⟨List.reverse_perm _, exObs_distinct.perm (List.reverse_perm _).symm⟩

/-- C06 (other objects' rows).  If two tables hold the same rows of object `id` (in any order, at distinct times), then
both successful runs of the linker give `id` the same verdict, whatever other rows the tables hold. -/
theorem C06_own_rows_only {ρ} (sortT : List Obs → List Obs) (hsort : Sorts sortT) (c : Cfg) (w : String → ℕ → ℚ)
    (draws : List ℚ → ℕ → ℚ) (rows rows' : List (Row ρ)) (obj obj' : List (String × Link)) (id : String)
    (hrows : (rowsOf id rows).Perm (rowsOf id rows')) (hd : DistinctTimes (rowsOf id rows))
    (h : linkObservations sortT c w draws rows = .ok obj) (h' : linkObservations sortT c w draws rows' = .ok obj')
    (L L' : Link) (hL : (id, L) ∈ obj) (hL' : (id, L') ∈ obj') : L = L' := by
  obtain ⟨_, _, a⟩ := linkObservations_spec sortT c w draws rows obj h
  obtain ⟨_, _, b⟩ := linkObservations_spec sortT c w draws rows' obj' h'
  have e1 := a id L hL
  have e2 := b id L' hL'
  have hr : ∀ rows : List (Row ρ), (rows.filter fun r => r.objId == id).map (·.obs) = rowsOf id rows := by
    intro rows
    unfold rowsOf
    congr 1
  rw [hr] at e1 e2
  have := C06_order_irrelevant sortT sortT hsort hsort c (w id) draws _ _ hrows hd
  rw [e1, e2] at this
  cases this; rfl

/-- The same for chunks: the linker, run on the concatenation of two tables with no object in common, gives exactly
the verdicts of the separate runs. -/
theorem C06_chunks {ρ} (sortT : List Obs → List Obs) (c : Cfg) (w : String → ℕ → ℚ)
    (draws : List ℚ → ℕ → ℚ) (r1 r2 : List (Row ρ)) (obj obj1 obj2 : List (String × Link))
    (hdis : ∀ a ∈ r1, ∀ b ∈ r2, a.objId ≠ b.objId)
    (h : linkObservations sortT c w draws (r1 ++ r2) = .ok obj)
    (h1 : linkObservations sortT c w draws r1 = .ok obj1) (h2 : linkObservations sortT c w draws r2 = .ok obj2)
    (id : String) (L : Link) : (id, L) ∈ obj ↔ (id, L) ∈ obj1 ∨ (id, L) ∈ obj2 := by
  obtain ⟨n, m, a⟩ := linkObservations_spec sortT c w draws _ obj h
  obtain ⟨n1, m1, a1⟩ := linkObservations_spec sortT c w draws _ obj1 h1
  obtain ⟨n2, m2, a2⟩ := linkObservations_spec sortT c w draws _ obj2 h2
  have f1 : (∃ r ∈ r1, r.objId = id) → ((r1 ++ r2).filter fun r => r.objId == id) = (r1.filter fun r => r.objId == id) := by
    rintro ⟨r, hr, rfl⟩
    rw [List.filter_append]
    have : (r2.filter fun x => x.objId == r.objId) = [] := by
      rw [List.filter_eq_nil_iff]; intro b hb he
      exact hdis r hr b hb (by simpa using (by simpa using he : b.objId = r.objId).symm)
    rw [this, List.append_nil]
  have f2 : (∃ r ∈ r2, r.objId = id) → ((r1 ++ r2).filter fun r => r.objId == id) = (r2.filter fun r => r.objId == id) := by
    rintro ⟨r, hr, rfl⟩
    rw [List.filter_append]
    have : (r1.filter fun x => x.objId == r.objId) = [] := by
      rw [List.filter_eq_nil_iff]; intro b hb he
      exact hdis b hb r hr (by simpa using he)
    rw [this, List.nil_append]
  have sel : ∀ (o : List (String × Link)), id ∈ o.map (·.1) → ∃ L', (id, L') ∈ o := by
    intro o ho
    obtain ⟨⟨i, l⟩, hx, he⟩ := List.mem_map.1 ho
    exact ⟨l, by simp only at he; rw [← he]; exact hx⟩
  constructor
  · intro hm
    have hin := (m id).1 (List.mem_map.2 ⟨(id, L), hm, rfl⟩)
    obtain ⟨r, hr, hid⟩ := hin
    have e := a id L hm
    rcases List.mem_append.1 hr with hr | hr
    · left
      obtain ⟨L', hL'⟩ := sel obj1 ((m1 id).2 ⟨r, hr, hid⟩)
      have e1 := a1 id L' hL'
      rw [f1 ⟨r, hr, hid⟩, e1] at e
      cases e; exact hL'
    · right
      obtain ⟨L', hL'⟩ := sel obj2 ((m2 id).2 ⟨r, hr, hid⟩)
      have e1 := a2 id L' hL'
      rw [f2 ⟨r, hr, hid⟩, e1] at e
      cases e; exact hL'
  · rintro (hm | hm)
    · obtain ⟨r, hr, hid⟩ := (m1 id).1 (List.mem_map.2 ⟨(id, L), hm, rfl⟩)
      obtain ⟨L', hL'⟩ := sel obj ((m id).2 ⟨r, List.mem_append_left _ hr, hid⟩)
      have e := a id L' hL'
      rw [f1 ⟨r, hr, hid⟩, a1 id L hm] at e
      cases e; exact hL'
    · obtain ⟨r, hr, hid⟩ := (m2 id).1 (List.mem_map.2 ⟨(id, L), hm, rfl⟩)
      obtain ⟨L', hL'⟩ := sel obj ((m id).2 ⟨r, List.mem_append_right _ hr, hid⟩)
      have e := a id L' hL'
      rw [f2 ⟨r, hr, hid⟩, a2 id L hm] at e
      cases e; exact hL'

/-- Example table: object "B" (linkable, listed backwards) and object "A" (a single observation). -/
def exRows : List (Row Unit) :=
  (exObs.reverse.map fun o => ⟨"B", o, ()⟩) ++ [⟨"A", ⟨9, 60001 + 3/2 - 1/3, 50, -5⟩, ()⟩]

example : linkObservations exSort exCfg (fun _ k => 2^k) (fun _ _ => 1/2) exRows =
    .ok [("A", Link.default), ("B", ⟨0, some 60007, 1⟩)] := by decide +kernel

/-! ## C05 -/

/-- The verdict of the linker about each object of a table. -/
def Verdict {ρ} (sortT : List Obs → List Obs) (c : Cfg) (w : String → ℕ → ℚ) (draws : List ℚ → ℕ → ℚ)
    (rows : List (Row ρ)) (v : String → Option ℤ) : Prop :=
  ∀ id, (∃ r ∈ rows, r.objId = id) → ∃ L, linkObject sortT c (w id) draws (rowsOf id rows) = .ok L ∧ v id = L.date

theorem encodable_iff {ρ} {rows : List (Row ρ)} : (rows.all fun r => encodable r.objId) = true ↔ ∀ r ∈ rows, Ascii r.objId := by
  simp [encodable, Ascii]

/-- C05.  The output is, up to order, the rows kept — all of them, or with `drop_unlinked` those of linked objects —
each once, each with the flag and date of its own object; the output is in time order. -/
theorem C05_filter_output {ρ} (sortT : List Obs → List Obs) (sortOut : List (OutRow ρ) → List (OutRow ρ))
    (hout : ∀ l, (sortOut l).Perm l ∧ (sortOut l).Pairwise fun a b => a.row.obs.mjd ≤ b.row.obs.mjd)
    (c : Cfg) (w : String → ℕ → ℚ) (draws : List ℚ → ℕ → ℚ) (drop : Bool) (rows : List (Row ρ))
    (out : List (OutRow ρ)) (h : linkingFilter sortT sortOut c w draws drop rows = .ok out) :
    (∀ r ∈ rows, Ascii r.objId) ∧ ∃ v : String → Option ℤ, Verdict sortT c w draws rows v ∧
      out.Perm ((rows.filter fun r => !drop || (v r.objId).isSome).map
        fun r => ⟨r, (v r.objId).isSome, v r.objId⟩) ∧
      out.Pairwise fun a b => a.row.obs.mjd ≤ b.row.obs.mjd := by
  unfold linkingFilter at h
  have hasc : (rows.all fun r => encodable r.objId) = true := by
    by_contra hn
    rw [Bool.not_eq_true] at hn
    rw [hn] at h
    cases h
  rw [hasc] at h
  simp only [Bool.not_true, Bool.false_eq_true, if_false] at h
  refine ⟨encodable_iff.1 hasc, ?_⟩
  cases hobj : linkObservations sortT c w draws rows with
  | error e => rw [hobj] at h; cases h
  | ok obj =>
    rw [hobj] at h
    simp only [bind, Except.bind, pure, Except.pure, Except.ok.injEq] at h
    obtain ⟨hn, hm, ha⟩ := linkObservations_spec sortT c w draws rows obj hobj
    set v : String → Option ℤ := fun id => ((obj.find? fun o => o.1 == id).bind fun o => o.2.date) with hv
    -- v on entries
    have hvL : ∀ id L, (id, L) ∈ obj → v id = L.date := by
      intro id L hL
      have hf := filter_key_eq obj hn id L hL
      rw [hv]; simp only
      rw [← List.head?_filter, hf]; rfl
    have hex : ∀ r ∈ rows, ∃ L, (r.objId, L) ∈ obj := by
      intro r hr
      have := (hm r.objId).2 ⟨r, hr, rfl⟩
      obtain ⟨⟨i, l⟩, hx, he⟩ := List.mem_map.1 this
      exact ⟨l, by simp only at he; rw [← he]; exact hx⟩
    have hfound : ∀ r ∈ rows, ((obj.filter fun r => r.2.date.isSome).map (·.1)).contains r.objId = (v r.objId).isSome := by
      intro r hr
      obtain ⟨L, hL⟩ := hex r hr
      rw [hvL _ _ hL, Bool.eq_iff_iff, List.contains_iff_mem, List.mem_map]
      constructor
      · rintro ⟨⟨i, l⟩, hx, he⟩
        rw [List.mem_filter] at hx
        simp only at he; subst he
        have h1 := hvL _ _ hx.1
        rw [hvL _ _ hL] at h1
        rw [h1]; exact hx.2
      · intro hs
        exact ⟨(r.objId, L), List.mem_filter.2 ⟨hL, hs⟩, rfl⟩
    refine ⟨v, ?_, ?_, ?_⟩
    · rintro id ⟨r, hr, rfl⟩
      obtain ⟨L, hL⟩ := hex r hr
      refine ⟨L, ?_, hvL _ _ hL⟩
      have := ha _ _ hL
      have e : ((rows.filter fun r' => r'.objId == r.objId).map (·.obs)) = rowsOf r.objId rows := by
        unfold rowsOf; congr 1
      rwa [e] at this
    · rw [← h]
      refine (hout _).1.trans ?_
      apply List.Perm.of_eq
      -- the flagged list
      have hfl : (rows.map fun r => (r, ((obj.filter fun r => r.2.date.isSome).map (·.1)).contains r.objId))
          = rows.map fun r => (r, (v r.objId).isSome) := by
        apply List.map_congr_left
        intro r hr
        rw [hfound r hr]
      have hkept : (if drop = true then
            (rows.map fun r => (r, ((obj.filter fun r => r.2.date.isSome).map (·.1)).contains r.objId)).filter (·.2)
          else rows.map fun r => (r, ((obj.filter fun r => r.2.date.isSome).map (·.1)).contains r.objId))
          = (rows.filter fun r => !drop || (v r.objId).isSome).map fun r => (r, (v r.objId).isSome) := by
        rw [hfl]
        cases drop with
        | true =>
          simp only [if_true, Bool.not_true, Bool.false_or]
          rw [List.filter_map]; rfl
        | false => simp
      rw [hkept, List.flatMap_map]
      rw [List.map_eq_flatMap]
      apply List.flatMap_congr
      intro r hr
      obtain ⟨L, hL⟩ := hex r (List.mem_filter.1 hr).1
      simp only
      rw [filter_key_eq obj hn _ _ hL, hvL _ _ hL]
      rfl
    · rw [← h]; exact (hout _).2

/-- C05 (when the filter works): with window and number of tracklets at least one, a table is linked exactly when its object IDs
have ASCII characters only and its observations are well inside the nights, whatever the weights and draws. -/
theorem C05_works {ρ} (sortT : List Obs → List Obs) (hsort : Sorts sortT) (sortOut : List (OutRow ρ) → List (OutRow ρ))
    (c : Cfg) (hw : 1 ≤ c.window) (hl : 1 ≤ c.nlink) (w : String → ℕ → ℚ) (draws : List ℚ → ℕ → ℚ) (drop : Bool) (rows : List (Row ρ)) :
    (∃ out, linkingFilter sortT sortOut c w draws drop rows = .ok out) ↔
      (∀ r ∈ rows, Ascii r.objId) ∧ WellPhased c (rows.map (·.obs)) := by
  have key : (∃ obj, linkObservations sortT c w draws rows = .ok obj) ↔ WellPhased c (rows.map (·.obs)) := by
    constructor
    · rintro ⟨obj, ho⟩ o ho'
      obtain ⟨r, hr, rfl⟩ := List.mem_map.1 ho'
      obtain ⟨-, hm, ha⟩ := linkObservations_spec sortT c w draws rows obj ho
      obtain ⟨⟨i, L⟩, hx, he⟩ := List.mem_map.1 ((hm r.objId).2 ⟨r, hr, rfl⟩)
      simp only at he
      subst he
      by_contra hcon
      have hb : ¬ WellPhased c ((rows.filter fun x => x.objId == r.objId).map (·.obs)) := by
        intro hp
        exact hcon (hp r.obs (List.mem_map.2 ⟨r, List.mem_filter.2 ⟨hr, by simp⟩, rfl⟩))
      have := (C04_linkObject_total sortT hsort c (w r.objId) draws _ hw hl).2 hb
      rw [ha _ _ hx] at this
      cases this
    · intro hp
      unfold linkObservations
      simp only
      generalize (rows.map (·.objId)).dedup.insertionSort (· ≤ ·) = ids
      induction ids with
      | nil => exact ⟨_, rfl⟩
      | cons a ids ih =>
        obtain ⟨obj, ho⟩ := ih
        obtain ⟨L, hL⟩ := (C04_linkObject_total sortT hsort c (w a) draws ((rows.filter fun x => x.objId == a).map (·.obs)) hw hl).1
          (fun o ho => by
            obtain ⟨r, hr, rfl⟩ := List.mem_map.1 ho
            exact hp _ (List.mem_map.2 ⟨r, (List.mem_filter.1 hr).1, rfl⟩))
        rw [List.mapM_cons, hL, ho]
        exact ⟨_, rfl⟩
  unfold linkingFilter
  by_cases hasc : (rows.all fun r => encodable r.objId) = true
  · rw [hasc]
    simp only [Bool.not_true, Bool.false_eq_true, if_false]
    rw [and_iff_right (encodable_iff.1 hasc), ← key]
    constructor
    · rintro ⟨out, h⟩
      cases hobj : linkObservations sortT c w draws rows with
      | error e => rw [hobj] at h; cases h
      | ok obj => exact ⟨obj, rfl⟩
    · rintro ⟨obj, ho⟩
      rw [ho]
      exact ⟨_, rfl⟩
  · constructor
    · rintro ⟨out, h⟩
      rw [Bool.not_eq_true] at hasc
      rw [hasc] at h
      cases h
    · rintro ⟨h, -⟩
      exact absurd (encodable_iff.2 h) hasc

/-- C05 fails for IDs with other than ASCII characters, which every reader accepts: one such object, whatever the rest of the table, stops
the filter with an uncaught error. -/
theorem C05_encoding_fails {ρ} (sortT : List Obs → List Obs) (sortOut : List (OutRow ρ) → List (OutRow ρ)) (c : Cfg) (w : String → ℕ → ℚ)
    (draws : List ℚ → ℕ → ℚ) (drop : Bool) (rows : List (Row ρ)) (r : Row ρ) (hr : r ∈ rows) (hn : ¬ Ascii r.objId) :
    linkingFilter sortT sortOut c w draws drop rows = .error .encoding := by
  have hasc : (rows.all fun r => encodable r.objId) = false := by
    rw [← Bool.not_eq_true, encodable_iff]
    exact fun h => hn (h r hr)
  unfold linkingFilter
  rw [hasc]
  rfl

example : ¬ Ascii "Haumea-Hiʻiaka" := by simp [Ascii]

/-- Non-vacuity of C05: the example table, unlinked rows dropped / kept. -/
def exSortOut (l : List (OutRow Unit)) : List (OutRow Unit) :=
  l.insertionSort fun a b => a.row.obs.mjd ≤ b.row.obs.mjd

example : (linkingFilter exSort exSortOut exCfg (fun _ k => 2^k) (fun _ _ => 1/2) true exRows).map
      (fun l => l.map fun r => (r.row.objId, r.row.obs.src, r.linked, r.date)) =
    .ok [("B", 0, true, some 60007), ("B", 1, true, some 60007), ("B", 2, true, some 60007),
         ("B", 3, true, some 60007), ("B", 4, true, some 60007), ("B", 5, true, some 60007)] := by
  decide +kernel

example : ∀ l, (exSortOut l).Perm l ∧ (exSortOut l).Pairwise fun a b => a.row.obs.mjd ≤ b.row.obs.mjd := by
  intro l
  refine ⟨List.perm_insertionSort _ _, ?_⟩
  exact pairwise_sortBy _ l

/-! ## C08 -/

/-- C08.  At efficiency one, adding observations never unlinks an object, and can only move the discovery earlier. -/
theorem C08_monotone (sortT : List Obs → List Obs) (hsort : Sorts sortT) (c : Cfg) (w w' : ℕ → ℚ)
    (draws : List ℚ → ℕ → ℚ) (obs obs' : List Obs) (hsub : obs.Subperm obs') (hd : DistinctTimes obs')
    (hw : 1 ≤ c.window) (hl : 1 ≤ c.nlink) (hu : UnitDraws draws) (hpos : ∀ k, 0 < w k) (hpos' : ∀ k, 0 < w' k)
    (hp1 : c.p = 1) (L L' : Link)
    (h : linkObject sortT c w draws obs = .ok L) (h' : linkObject sortT c w' draws obs' = .ok L') (D : ℤ)
    (hD : L.date = some D) : ∃ D', L'.date = some D' ∧ D' ≤ D := by
  have hdo : DistinctTimes obs := by
    obtain ⟨l, hl1, hl2⟩ := hsub
    exact DistinctTimes.perm (List.Pairwise.sublist hl2 hd) hl1
  have a := ((C03_C07_efficiency_one sortT hsort c w draws obs hw hl hu hpos hp1 L h).1 D).1 hD
  have hmono : ∀ n, TrackletNight c (sortT obs) n → TrackletNight c (sortT obs') n := by
    intro n hn
    rw [trackletNight_set c obs (sortT obs) (hsort obs).1 (hsort obs).2 hdo] at hn
    rw [trackletNight_set c obs' (sortT obs') (hsort obs').1 (hsort obs').2 hd]
    exact trackletNightSet_mono c obs obs' hsub n hn
  have hD' := discoveryNight_mono _ _ hmono c.window c.nlink D a.1
  have b := C03_C07_efficiency_one sortT hsort c w' draws obs' hw hl hu hpos' hp1 L' h'
  have hs := b.2.2 ⟨D, hD'⟩
  obtain ⟨D', hD2⟩ := Option.isSome_iff_exists.1 hs
  exact ⟨D', hD2, ((b.1 D').1 hD2).2 D hD'⟩

/-- The order-free description of when an object is linked (efficiency 1, distinct times): used to state C03/C07 without
reference to sorting. -/
theorem C07_linked_iff_set (sortT : List Obs → List Obs) (hsort : Sorts sortT) (c : Cfg) (w : ℕ → ℚ)
    (draws : List ℚ → ℕ → ℚ) (obs : List Obs) (hd : DistinctTimes obs) (hw : 1 ≤ c.window) (hl : 1 ≤ c.nlink)
    (hu : UnitDraws draws) (hpos : ∀ k, 0 < w k) (hp1 : c.p = 1) (L : Link)
    (h : linkObject sortT c w draws obs = .ok L) :
    L.date.isSome ↔ ∃ D, DiscoveryNight (TrackletNightSet c obs) c.window c.nlink D := by
  have e : TrackletNight c (sortT obs) = TrackletNightSet c obs := by
    funext n
    exact propext (trackletNight_set c obs (sortT obs) (hsort obs).1 (hsort obs).2 hd n)
  rw [(C03_C07_efficiency_one sortT hsort c w draws obs hw hl hu hpos hp1 L h).2, e]

example : (exObs.take 5).Subperm exObs ∧ DistinctTimes exObs :=
  ⟨(List.take_sublist _ _).subperm, exObs_distinct⟩
example : ∃ L, linkObject exSort { exCfg with nlink := 2 } (fun k => 2^k) (fun _ _ => 1/2) (exObs.take 5) = .ok L
    ∧ L.date = some 60003 := ⟨⟨0, some 60003, 1⟩, by decide +kernel, rfl⟩

end Sorcha.Linking
