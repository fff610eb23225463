import Verif.Seed.Lemmas
import Verif.Linking.Lemmas5
import Verif.Pipeline.Lemmas

/-!
# Lemmas: what of the seed and of the weights a run depends on
-/

namespace Sorcha.Seed
open Spec

variable {G W V : Type} {ρ : Type}

theorem moduleSeed_congr {a b : ℤ} (h : SameSeed a b) (md5 : String → ℕ) (name : String) : Rng.moduleSeed md5 a name = Rng.moduleSeed md5 b name := by
  unfold Rng.moduleSeed
  have : (a + md5 name) % 2 ^ 31 = (b + md5 name) % 2 ^ 31 := by
    have := Int.ModEq.add_right (md5 name : ℤ) h
    unfold Int.ModEq at this
    norm_num at this ⊢
    exact this
  rw [this]

/-- The same generators under another base seed. -/
def rebase (b : ℤ) (s : Rng.Rngs G) : Rng.Rngs G := { s with base := b }

section rng
variable {N : Rng.Gen G} {md5 : String → ℕ} {s : Rng.Rngs G} {b : ℤ}

theorem get_rebase (h : SameSeed b s.base) (name : String) :
    Rng.getModuleRNG N md5 (rebase b s) name = ((Rng.getModuleRNG N md5 s name).1, rebase b (Rng.getModuleRNG N md5 s name).2) := by
  unfold Rng.getModuleRNG rebase
  simp only
  cases s.rngs.lookup name with
  | some g => rfl
  | none => simp only; rw [moduleSeed_congr h]

theorem get_base (name : String) : (Rng.getModuleRNG N md5 s name).2.base = s.base := by
  unfold Rng.getModuleRNG; cases s.rngs.lookup name <;> rfl

theorem draw_rebase (h : SameSeed b s.base) (name : String) (n : ℕ) :
    Rng.drawFrom N md5 (rebase b s) name n = ((Rng.drawFrom N md5 s name n).1, rebase b (Rng.drawFrom N md5 s name n).2) := by
  simp only [Rng.drawFrom, get_rebase h]
  rfl

theorem draw_base (name : String) (n : ℕ) : (Rng.drawFrom N md5 s name n).2.base = s.base := by
  simp only [Rng.drawFrom, Rng.setRNG]; exact get_base name

theorem fading_rebase (h : SameSeed b s.base) (prob : ρ → Fl) (t : Table ρ) :
    Rng.fadingFilter N md5 prob (rebase b s) t = ((Rng.fadingFilter N md5 prob s t).1, rebase b (Rng.fadingFilter N md5 prob s t).2) := by
  simp only [Rng.fadingFilter, Rng.dropObservations, draw_rebase h]

theorem fading_base (prob : ρ → Fl) (t : Table ρ) : (Rng.fadingFilter N md5 prob s t).2.base = s.base := by
  simp only [Rng.fadingFilter, Rng.dropObservations]; exact draw_base _ _

theorem circle_rebase (h : SameSeed b s.base) (sep : ρ → Fl) (radius fill : Option Fl) (t : Table ρ) :
    Rng.applyCircle N md5 sep radius fill (rebase b s) t = ((Rng.applyCircle N md5 sep radius fill s t).1, rebase b (Rng.applyCircle N md5 sep radius fill s t).2) := by
  simp only [Rng.applyCircle, Rng.simpleSensorArea, draw_rebase h]
  split <;> rfl

theorem circle_base (sep : ρ → Fl) (radius fill : Option Fl) (t : Table ρ) : (Rng.applyCircle N md5 sep radius fill s t).2.base = s.base := by
  simp only [Rng.applyCircle, Rng.simpleSensorArea]
  split
  · exact draw_base _ _
  · rfl

end rng

/-- The same state under another base seed. -/
def restate (b : ℤ) (s : Pipeline.State G) : Pipeline.State G := { s with rngs := rebase b s.rngs }

section rounds
variable {E : Pipeline.Env G W V} {c : Config.Cfg} {s : Pipeline.State G} {b : ℤ}

theorem randomize_restate (t : Table (Pipeline.Row W V)) :
    Pipeline.randomize E c (restate b s) t = ((Pipeline.randomize E c s t).1, restate b (Pipeline.randomize E c s t).2) := by
  unfold Pipeline.randomize
  split <;> rfl

theorem randomize_base (t : Table (Pipeline.Row W V)) : (Pipeline.randomize E c s t).2.rngs = s.rngs := by
  unfold Pipeline.randomize
  split <;> rfl

/-- The result with its state under another base seed. -/
def remap {ε α : Type} (b : ℤ) (r : Except ε (α × Pipeline.State G)) : Except ε (α × Pipeline.State G) := r.map fun x => (x.1, restate b x.2)

theorem view_restate (h : SameSeed b s.rngs.base) (t : Table (Pipeline.Row W V)) :
    Pipeline.fieldOfView E c (restate b s) t = remap b (Pipeline.fieldOfView E c s t) := by
  unfold Pipeline.fieldOfView
  split
  · rfl
  · rfl
  · split <;> rfl
  · split
    · simp only [restate, circle_rebase h]
      rfl
    · rfl

theorem view_base {t t' : Table (Pipeline.Row W V)} {s' : Pipeline.State G} (h : Pipeline.fieldOfView E c s t = .ok (t', s')) :
    s'.rngs.base = s.rngs.base := by
  unfold Pipeline.fieldOfView at h
  split at h
  · cases h; rfl
  · cases h
  · split at h <;> cases h <;> rfl
  · split at h
    · cases h; exact circle_base _ _ _ _
    · cases h; rfl

theorem fade_restate (h : SameSeed b s.rngs.base) (t : Table (Pipeline.Row W V)) : Pipeline.fade E c (restate b s) t = remap b (Pipeline.fade E c s t) := by
  unfold Pipeline.fade
  split
  · rfl
  · rfl
  · split
    · simp only [restate, fading_rebase h]
      rfl
    · rfl

theorem fade_base {t t' : Table (Pipeline.Row W V)} {s' : Pipeline.State G} (h : Pipeline.fade E c s t = .ok (t', s')) :
    s'.rngs.base = s.rngs.base := by
  unfold Pipeline.fade at h
  split at h
  · cases h; rfl
  · cases h
  · split at h
    · rename_i width peak _ _; cases h; exact fading_base (E.prob width peak) t
    · cases h; rfl

theorem process_restate (h : SameSeed b s.rngs.base) (obs : List (Pointing.Obs W)) :
    Pipeline.process E c (restate b s) obs = remap b (Pipeline.process E c s obs) := by
  unfold Pipeline.process
  split
  · rfl
  · cases Pipeline.measured E c obs with
    | error e => rfl
    | ok t =>
      simp only [bind, Except.bind, randomize_restate]
      have h1 : SameSeed b (Pipeline.randomize E c s t).2.rngs.base := by rw [randomize_base]; exact h
      rw [view_restate h1]
      cases hv : Pipeline.fieldOfView E c (Pipeline.randomize E c s t).2 (Pipeline.randomize E c s t).1 with
      | error e => rfl
      | ok v =>
        obtain ⟨t1, s1⟩ := v
        have h2 : SameSeed b s1.rngs.base := by rw [view_base hv]; exact h1
        simp only [remap, Except.map]
        rw [fade_restate h2]
        cases hf : Pipeline.fade E c s1 (Pipeline.magCut c (Pipeline.snrCut c t1)) with
        | error e => rfl
        | ok f =>
          obtain ⟨t2, s2⟩ := f
          simp only [remap, Except.map]
          cases Pipeline.brightCut c t2 with
          | error e => rfl
          | ok t3 =>
            simp only
            have hl : Pipeline.link E c (restate b s2) t3 = Pipeline.link E c s2 t3 := rfl
            rw [hl]
            cases Pipeline.link E c s2 t3 with
            | error e => rfl
            | ok out => rfl

theorem process_base {obs : List (Pointing.Obs W)} {out : List (Pipeline.Final W V)} {s' : Pipeline.State G} (h : Pipeline.process E c s obs = .ok (out, s')) :
    s'.rngs.base = s.rngs.base := by
  unfold Pipeline.process at h
  split at h
  · cases h; rfl
  · cases hm : Pipeline.measured E c obs with
    | error e => rw [hm] at h; cases h
    | ok t =>
      rw [hm] at h
      simp only [bind, Except.bind] at h
      cases hv : Pipeline.fieldOfView E c (Pipeline.randomize E c s t).2 (Pipeline.randomize E c s t).1 with
      | error e => rw [hv] at h; cases h
      | ok v =>
        obtain ⟨t1, s1⟩ := v
        rw [hv] at h
        simp only at h
        cases hf : Pipeline.fade E c s1 (Pipeline.magCut c (Pipeline.snrCut c t1)) with
        | error e => rw [hf] at h; cases h
        | ok f =>
          obtain ⟨t2, s2⟩ := f
          rw [hf] at h
          simp only at h
          cases hb : Pipeline.brightCut c t2 with
          | error e => rw [hb] at h; cases h
          | ok t3 =>
            rw [hb] at h
            simp only at h
            cases hl : Pipeline.link E c s2 t3 with
            | error e => rw [hl] at h; cases h
            | ok out =>
              rw [hl] at h
              cases h
              simp only
              rw [fade_base hf, view_base hv, randomize_base]

/-- The rounds depend on the base seed modulo `2 ^ 31` only. -/
theorem rounds_restate (obs : List (List (Pointing.Obs W))) : ∀ {s : Pipeline.State G}, SameSeed b s.rngs.base →
    Pipeline.rounds E c (restate b s) obs = Pipeline.rounds E c s obs := by
  induction obs with
  | nil => intro s _; rfl
  | cons o obs ih =>
    intro s h
    simp only [Pipeline.rounds, process_restate h]
    cases hp : Pipeline.process E c s o with
    | error e => rfl
    | ok r =>
      obtain ⟨out, s'⟩ := r
      simp only [remap, Except.map, bind, Except.bind]
      rw [ih (by rw [process_base hp]; exact h)]

end rounds

/-! ## DES -/

section des
variable {E : DesRun.Env G W V} {c : Config.Cfg} {s : Pipeline.State G} {b : ℤ}

theorem des_view_restate (h : SameSeed b s.rngs.base) (t : Table (Pipeline.Row W V)) :
    DesRun.view E c (restate b s) t = remap b (DesRun.view E c s t) := by
  unfold DesRun.view
  split
  · split
    · cases DesRun.onVisits E c t <;> rfl
    · rfl
  · rw [view_restate h]
    cases Pipeline.fieldOfView E.base c s t <;> rfl

theorem des_view_base {t t' : Table (Pipeline.Row W V)} {s' : Pipeline.State G} (h : DesRun.view E c s t = .ok (t', s')) : s'.rngs.base = s.rngs.base := by
  unfold DesRun.view at h
  split at h
  · split at h
    · cases hv : DesRun.onVisits E c t with
      | error e => rw [hv] at h; cases h
      | ok v => rw [hv] at h; cases h; rfl
    · cases h; rfl
  · cases hv : Pipeline.fieldOfView E.base c s t with
    | error e => rw [hv] at h; cases h
    | ok v =>
      obtain ⟨t1, s1⟩ := v
      rw [hv] at h; cases h; exact view_base hv

theorem des_fade_restate (h : SameSeed b s.rngs.base) (t : Table (Pipeline.Row W V)) :
    DesRun.fade E c (restate b s) t = remap b (DesRun.fade E c s t) := by
  unfold DesRun.fade
  split
  · rfl
  · split <;> rfl
  · split
    · simp only [restate, fading_rebase h]
      rfl
    · rfl

theorem des_fade_base {t t' : Table (Pipeline.Row W V)} {s' : Pipeline.State G} (h : DesRun.fade E c s t = .ok (t', s')) : s'.rngs.base = s.rngs.base := by
  unfold DesRun.fade at h
  split at h
  · cases h; rfl
  · split at h <;> cases h; rfl
  · split at h
    · rename_i efficiency _ _; cases h; exact fading_base (E.prob efficiency) t
    · cases h; rfl

theorem des_process_restate (h : SameSeed b s.rngs.base) (obs : List (Pointing.Obs W)) :
    DesRun.process E c (restate b s) obs = remap b (DesRun.process E c s obs) := by
  unfold DesRun.process
  split
  · rfl
  · cases (Pipeline.measured E.base c obs).mapError DesRun.Err.base with
    | error e => rfl
    | ok t0 =>
      simp only [bind, Except.bind]
      cases DesRun.randomize c t0 with
      | error e => rfl
      | ok t =>
        simp only
        rw [des_view_restate h]
        cases hv : DesRun.view E c s t with
        | error e => rfl
        | ok v =>
          obtain ⟨t1, s1⟩ := v
          have h2 : SameSeed b s1.rngs.base := by rw [des_view_base hv]; exact h
          simp only [remap, Except.map]
          cases DesRun.snrCut c t1 with
          | error e => rfl
          | ok t1' =>
            simp only
            rw [des_fade_restate h2]
            cases hf : DesRun.fade E c s1 (Pipeline.magCut c t1') with
            | error e => rfl
            | ok f =>
              obtain ⟨t2, s2⟩ := f
              simp only [remap, Except.map]
              cases (Pipeline.brightCut c t2).mapError DesRun.Err.base with
              | error e => rfl
              | ok t3 =>
                simp only
                cases DesRun.distance c t3 with
                | error e => rfl
                | ok t4 =>
                  simp only
                  cases DesRun.motion c t4 with
                  | error e => rfl
                  | ok t5 =>
                    simp only
                    cases DesRun.discover E c t5 with
                    | error e => rfl
                    | ok out => rfl

theorem des_process_base {obs : List (Pointing.Obs W)} {out : List (Pipeline.Row W V)} {s' : Pipeline.State G} (h : DesRun.process E c s obs = .ok (out, s')) :
    s'.rngs.base = s.rngs.base := by
  unfold DesRun.process at h
  split at h
  · cases h; rfl
  · cases hm : (Pipeline.measured E.base c obs).mapError DesRun.Err.base with
    | error e => rw [hm] at h; cases h
    | ok t0 =>
      rw [hm] at h
      simp only [bind, Except.bind] at h
      cases hr : DesRun.randomize c t0 with
      | error e => rw [hr] at h; cases h
      | ok t =>
        rw [hr] at h
        simp only at h
        cases hv : DesRun.view E c s t with
        | error e => rw [hv] at h; cases h
        | ok v =>
          obtain ⟨t1, s1⟩ := v
          rw [hv] at h
          simp only at h
          cases hs : DesRun.snrCut c t1 with
          | error e => rw [hs] at h; cases h
          | ok t1' =>
            rw [hs] at h
            simp only at h
            cases hf : DesRun.fade E c s1 (Pipeline.magCut c t1') with
            | error e => rw [hf] at h; cases h
            | ok f =>
              obtain ⟨t2, s2⟩ := f
              rw [hf] at h
              simp only at h
              cases hb : (Pipeline.brightCut c t2).mapError DesRun.Err.base with
              | error e => rw [hb] at h; cases h
              | ok t3 =>
                rw [hb] at h
                simp only at h
                cases hd : DesRun.distance c t3 with
                | error e => rw [hd] at h; cases h
                | ok t4 =>
                  rw [hd] at h
                  simp only at h
                  cases hmo : DesRun.motion c t4 with
                  | error e => rw [hmo] at h; cases h
                  | ok t5 =>
                    rw [hmo] at h
                    simp only at h
                    cases hdi : DesRun.discover E c t5 with
                    | error e => rw [hdi] at h; cases h
                    | ok out =>
                      rw [hdi] at h
                      cases h
                      simp only
                      rw [des_fade_base hf, des_view_base hv]

/-- The rounds of a DES run depend on the base seed modulo `2 ^ 31` only. -/
theorem des_rounds_restate (obs : List (List (Pointing.Obs W))) : ∀ {s : Pipeline.State G}, SameSeed b s.rngs.base →
    DesRun.rounds E c (restate b s) obs = DesRun.rounds E c s obs := by
  induction obs with
  | nil => intro s _; rfl
  | cons o obs ih =>
    intro s h
    simp only [DesRun.rounds, des_process_restate h]
    cases hp : DesRun.process E c s o with
    | error e => rfl
    | ok r =>
      obtain ⟨out, s'⟩ := r
      simp only [remap, Except.map, bind, Except.bind]
      rw [ih (by rw [des_process_base hp]; exact h)]

theorem des_process_congr {E E' : DesRun.Env G W V} (h1 : ∀ obs, Pipeline.measured E.base c obs = Pipeline.measured E'.base c obs)
    (h2 : ∀ (s : Pipeline.State G) t, DesRun.view E c s t = DesRun.view E' c s t) (h3 : ∀ (s : Pipeline.State G) t, DesRun.fade E c s t = DesRun.fade E' c s t)
    (h4 : ∀ t, DesRun.discover E c t = DesRun.discover E' c t) (s : Pipeline.State G) (obs : List (Pointing.Obs W)) :
    DesRun.process E c s obs = DesRun.process E' c s obs := by
  simp only [DesRun.process, h1, h2, h3, h4]

/-- The weights and the noise play no part in a DES run. -/
theorem des_process_weights (noise : ℕ → ℕ → ℕ → Pipeline.Row W V → Fl × Fl × ℚ × ℚ) (w : ℕ → String → ℕ → ℚ) (obs : List (Pointing.Obs W)) :
    DesRun.process { E with base := { E.base with noise := noise, weights := w } } c s obs = DesRun.process E c s obs :=
  des_process_congr (E := { E with base := { E.base with noise := noise, weights := w } }) (E' := E) (fun _ => rfl) (fun _ _ => rfl) (fun _ _ => rfl)
    (fun _ => rfl) s obs

theorem des_rounds_congr {E E' : DesRun.Env G W V} (h : ∀ (s : Pipeline.State G) obs, DesRun.process E c s obs = DesRun.process E' c s obs)
    (obs : List (List (Pointing.Obs W))) : ∀ s : Pipeline.State G, DesRun.rounds E c s obs = DesRun.rounds E' c s obs := by
  induction obs with
  | nil => intro s; rfl
  | cons o obs ih =>
    intro s
    simp only [DesRun.rounds, h]
    cases DesRun.process E' c s o with
    | error e => rfl
    | ok r => simp only [bind, Except.bind, ih]

theorem des_rounds_weights (noise : ℕ → ℕ → ℕ → Pipeline.Row W V → Fl × Fl × ℚ × ℚ) (w : ℕ → String → ℕ → ℚ) (obs : List (List (Pointing.Obs W)))
    (s : Pipeline.State G) : DesRun.rounds { E with base := { E.base with noise := noise, weights := w } } c s obs = DesRun.rounds E c s obs :=
  des_rounds_congr (E := { E with base := { E.base with noise := noise, weights := w } }) (E' := E) (fun _ obs => des_process_weights noise w obs) obs s

end des

/-! ## Weights without ties -/

section weights
open Linking

theorem offered_weights (nights : List ℤ) (has : List Bool) (window nlink : ℕ) {w w' : ℕ → ℚ} (hsort : nights.Pairwise (· < ·))
    (hw : ∀ m, Linking.Spec.Generic w m) (hw' : ∀ m, Linking.Spec.Generic w' m) :
    offeredNights nights has window nlink w = offeredNights nights has window nlink w' := by
  by_cases hl : 1 < nlink
  · by_cases hne : nights = []
    · subst hne; simp [offeredNights, discWindow]
    · by_cases hz : window = 0
      · unfold offeredNights discWindow
        rw [if_pos hl, if_pos hl]
        split
        · rw [if_pos hz, if_pos hz]
        · rfl
      · obtain ⟨o, e, hs, -⟩ := offered_spec nights has window nlink w hne hsort (by omega) (by omega)
        obtain ⟨o', e', hs', -⟩ := offered_spec nights has window nlink w' hne hsort (by omega) (by omega)
        obtain ⟨p, f, hp⟩ := discWindow_generic nights has window nlink w hne hsort (by omega) (by omega) (hw _)
        obtain ⟨p', f', hp'⟩ := discWindow_generic nights has window nlink w' hne hsort (by omega) (by omega) (hw' _)
        unfold offeredNights at e e' ⊢
        rw [if_pos hl] at e e' ⊢
        rw [if_pos hl]
        rw [e, e']
        rw [e] at f
        rw [e'] at f'
        cases f
        cases f'
        congr 1
        exact hs.eq_of_mem_iff hs' fun D => by rw [hp, hp']
  · unfold offeredNights
    rw [if_neg hl, if_neg hl]

theorem linkSorted_weights (c : Linking.Cfg) {w w' : ℕ → ℚ} (draws : List ℚ → ℕ → ℚ) (obs : List Obs)
    (hw : ∀ m, Linking.Spec.Generic w m) (hw' : ∀ m, Linking.Spec.Generic w' m) : linkSorted c w draws obs = linkSorted c w' draws obs := by
  have key : ∀ (night : List ℤ) (nights : List ℤ) (has : List Bool), trackletsInNights c night obs = .ok (nights, has) → nights.Pairwise (· < ·) := by
    intro night nights has h
    unfold trackletsInNights at h
    cases ht : trackletLoop c obs 0 ((unique night).map (searchRight night)) with
    | error e => simp only [ht, bind, Except.bind] at h; cases h
    | ok r =>
      simp only [ht, bind, Except.bind] at h
      cases h
      exact unique_sorted night
  unfold linkSorted
  simp only
  cases ht : trackletsInNights c ((obs.map fun o => o.mjd - c.nightStart).map truncInt) obs with
  | error e => simp only [bind, Except.bind]
  | ok r =>
    obtain ⟨nights, has⟩ := r
    have h := offered_weights nights has c.window c.nlink (key _ _ _ ht) hw hw'
    simp only [bind, Except.bind, discoveryOpportunities, h]

theorem linkingFilter_weights (sortT : List Obs → List Obs) (sortOut : List (OutRow ρ) → List (OutRow ρ)) (c : Linking.Cfg) {w w' : String → ℕ → ℚ}
    (draws : List ℚ → ℕ → ℚ) (drop : Bool) (rows : List (Linking.Row ρ)) (hw : ∀ id m, Linking.Spec.Generic (w id) m) (hw' : ∀ id m, Linking.Spec.Generic (w' id) m) :
    linkingFilter sortT sortOut c w draws drop rows = linkingFilter sortT sortOut c w' draws drop rows := by
  have h : linkObservations sortT c w draws rows = linkObservations sortT c w' draws rows := by
    have hf : ∀ id obs, linkObject sortT c (w id) draws obs = linkObject sortT c (w' id) draws obs := by
      intro id obs
      unfold linkObject
      rw [linkSorted_weights c draws _ (hw id) (hw' id)]
    simp only [linkObservations, hf]
  unfold linkingFilter
  rw [h]

end weights

section
variable {E : Pipeline.Env G W V} {c : Config.Cfg} {w w' : ℕ → String → ℕ → ℚ}

theorem link_weights (hw : NoTies w) (hw' : NoTies w') (s : Pipeline.State G) (t : Table (Pipeline.Row W V)) :
    Pipeline.link { E with weights := w } c s t = Pipeline.link { E with weights := w' } c s t := by
  have h : ∀ lc : Linking.Cfg, Linking.linkingFilter E.sortT E.sortOut lc (w s.round) E.draws c.linking.dropUnlinked (t.rows.map Pipeline.linkRow) =
      Linking.linkingFilter E.sortT E.sortOut lc (w' s.round) E.draws c.linking.dropUnlinked (t.rows.map Pipeline.linkRow) := fun lc =>
    linkingFilter_weights _ _ _ _ _ _ (hw s.round) (hw' s.round)
  simp only [Pipeline.link, h]

theorem process_congr {E E' : Pipeline.Env G W V} (h1 : ∀ obs, Pipeline.measured E c obs = Pipeline.measured E' c obs)
    (h2 : ∀ (s : Pipeline.State G) t, Pipeline.randomize E c s t = Pipeline.randomize E' c s t)
    (h3 : ∀ (s : Pipeline.State G) t, Pipeline.fieldOfView E c s t = Pipeline.fieldOfView E' c s t)
    (h4 : ∀ (s : Pipeline.State G) t, Pipeline.fade E c s t = Pipeline.fade E' c s t)
    (h5 : ∀ (s : Pipeline.State G) t, Pipeline.link E c s t = Pipeline.link E' c s t) (s : Pipeline.State G) (obs : List (Pointing.Obs W)) :
    Pipeline.process E c s obs = Pipeline.process E' c s obs := by
  simp only [Pipeline.process, h1, h2, h3, h4, h5]

theorem process_weights (hw : NoTies w) (hw' : NoTies w') (s : Pipeline.State G) (obs : List (Pointing.Obs W)) :
    Pipeline.process { E with weights := w } c s obs = Pipeline.process { E with weights := w' } c s obs :=
  process_congr (E := { E with weights := w }) (E' := { E with weights := w' }) (fun _ => rfl) (fun _ _ => rfl) (fun _ _ => rfl) (fun _ _ => rfl)
    (link_weights hw hw') s obs

theorem rounds_congr {E E' : Pipeline.Env G W V} (h : ∀ (s : Pipeline.State G) obs, Pipeline.process E c s obs = Pipeline.process E' c s obs)
    (obs : List (List (Pointing.Obs W))) : ∀ s : Pipeline.State G, Pipeline.rounds E c s obs = Pipeline.rounds E' c s obs := by
  induction obs with
  | nil => intro s; rfl
  | cons o obs ih =>
    intro s
    simp only [Pipeline.rounds, h]
    cases Pipeline.process E' c s o with
    | error e => rfl
    | ok r => simp only [bind, Except.bind, ih]

theorem rounds_weights (hw : NoTies w) (hw' : NoTies w') (obs : List (List (Pointing.Obs W))) (s : Pipeline.State G) :
    Pipeline.rounds { E with weights := w } c s obs = Pipeline.rounds { E with weights := w' } c s obs :=
  rounds_congr (E := { E with weights := w }) (E' := { E with weights := w' }) (process_weights hw hw') obs s

end

end Sorcha.Seed
