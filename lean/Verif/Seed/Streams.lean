import Verif.Seed.Runs

/-!
# Lemmas: a run depends on the generators of the modules its configuration uses only
-/

namespace Sorcha.Seed
open Spec

variable {G W V : Type} {ρ : Type}

section rng
variable {N N' : Rng.Gen G} {s : Rng.Rngs G} {md5 : String → ℕ}

theorem random_congr (hn : N'.next = N.next) (n : ℕ) : ∀ g, N'.random n g = N.random n g := by
  induction n with
  | zero => intro g; rfl
  | succ n ih => intro g; simp only [Rng.Gen.random, hn, ih]

theorem draw_congr (hn : N'.next = N.next) {name : String} (hs : N'.seed (Rng.moduleSeed md5 s.base name) = N.seed (Rng.moduleSeed md5 s.base name)) (n : ℕ) :
    Rng.drawFrom N' md5 s name n = Rng.drawFrom N md5 s name n := by
  have h : Rng.getModuleRNG N' md5 s name = Rng.getModuleRNG N md5 s name := by
    unfold Rng.getModuleRNG
    cases s.rngs.lookup name with
    | some g => rfl
    | none => simp only [hs]
  simp only [Rng.drawFrom, h, random_congr hn]

theorem fading_congr (hn : N'.next = N.next)
    (hs : N'.seed (Rng.moduleSeed md5 s.base "sorcha.modules.PPDropObservations") = N.seed (Rng.moduleSeed md5 s.base "sorcha.modules.PPDropObservations"))
    (prob : ρ → Fl) (t : Table ρ) : Rng.fadingFilter N' md5 prob s t = Rng.fadingFilter N md5 prob s t := by
  simp only [Rng.fadingFilter, Rng.dropObservations, draw_congr (name := Rng.dropName) hn hs]

theorem circle_congr (hn : N'.next = N.next) {radius fill : Option Fl} (hs : fill.isSome →
      N'.seed (Rng.moduleSeed md5 s.base "sorcha.modules.PPApplyFOVFilter") = N.seed (Rng.moduleSeed md5 s.base "sorcha.modules.PPApplyFOVFilter"))
    (sep : ρ → Fl) (t : Table ρ) : Rng.applyCircle N' md5 sep radius fill s t = Rng.applyCircle N md5 sep radius fill s t := by
  unfold Rng.applyCircle
  cases fill with
  | none => rfl
  | some f => simp only [Rng.simpleSensorArea, draw_congr (name := Rng.fovName) hn (hs rfl)]

end rng

section rubin
variable {E E' : Pipeline.Env G W V} {c : Config.Cfg} {b : ℤ}

/-- The two environments agree but for generators and noise that the configuration does not use. -/
structure Alike (c : Config.Cfg) (b : ℤ) (E E' : Pipeline.Env G W V) : Prop where
  next : E'.gen.next = E.gen.next
  md5 : E'.md5 = E.md5
  seed : ∀ m, Uses c m → E'.gen.seed (Rng.moduleSeed E.md5 b m) = E.gen.seed (Rng.moduleSeed E.md5 b m)
  noise : c.expert.randomization.on = true → E'.noise = E.noise
  sep : E'.sep = E.sep
  prob : E'.prob = E.prob
  detectors : E'.detectors = E.detectors
  sortIndex : E'.sortIndex = E.sortIndex
  measured : ∀ obs, Pipeline.measured E' c obs = Pipeline.measured E c obs
  link : ∀ (s : Pipeline.State G) t, Pipeline.link E' c s t = Pipeline.link E c s t

theorem randomize_alike (h : Alike c b E E') (s : Pipeline.State G) (t : Table (Pipeline.Row W V)) : Pipeline.randomize E' c s t = Pipeline.randomize E c s t := by
  unfold Pipeline.randomize
  split
  · rename_i ho; rw [h.noise ho]
  · rfl

theorem view_alike (h : Alike c b E E') {s : Pipeline.State G} (hb : s.rngs.base = b) (t : Table (Pipeline.Row W V)) :
    Pipeline.fieldOfView E' c s t = Pipeline.fieldOfView E c s t := by
  unfold Pipeline.fieldOfView
  split
  · rfl
  · rfl
  · rw [h.detectors, h.sortIndex]
  · rename_i fill radius hf
    rw [h.md5, h.sep, circle_congr h.next]
    intro hfill
    obtain ⟨f, rfl⟩ := Option.isSome_iff_exists.1 hfill
    rw [hb]
    exact h.seed _ (.inl ⟨rfl, f, radius, hf⟩)

theorem fade_alike (h : Alike c b E E') {s : Pipeline.State G} (hb : s.rngs.base = b) (t : Table (Pipeline.Row W V)) :
    Pipeline.fade E' c s t = Pipeline.fade E c s t := by
  unfold Pipeline.fade
  split
  · rfl
  · rfl
  · rename_i width peak hf
    rw [h.md5, h.prob, fading_congr h.next]
    rw [hb]
    exact h.seed _ (.inr (.inl ⟨rfl, by rw [hf]; exact fun h => nomatch h⟩))

theorem process_alike (h : Alike c b E E') {s : Pipeline.State G} (hb : s.rngs.base = b) (obs : List (Pointing.Obs W)) :
    Pipeline.process E' c s obs = Pipeline.process E c s obs := by
  unfold Pipeline.process
  split
  · rfl
  · rw [h.measured]
    cases Pipeline.measured E c obs with
    | error e => rfl
    | ok t =>
      simp only [bind, Except.bind, randomize_alike h]
      have h1 : (Pipeline.randomize E c s t).2.rngs.base = b := by rw [randomize_base]; exact hb
      rw [view_alike h h1]
      cases hv : Pipeline.fieldOfView E c (Pipeline.randomize E c s t).2 (Pipeline.randomize E c s t).1 with
      | error e => rfl
      | ok v =>
        obtain ⟨t1, s1⟩ := v
        have h2 : s1.rngs.base = b := by rw [view_base hv]; exact h1
        simp only
        rw [fade_alike h h2]
        cases hf : Pipeline.fade E c s1 (Pipeline.magCut c (Pipeline.snrCut c t1)) with
        | error e => rfl
        | ok f => simp only [h.link]

theorem rounds_alike (h : Alike c b E E') (obs : List (List (Pointing.Obs W))) : ∀ {s : Pipeline.State G}, s.rngs.base = b →
    Pipeline.rounds E' c s obs = Pipeline.rounds E c s obs := by
  induction obs with
  | nil => intro s _; rfl
  | cons o obs ih =>
    intro s hb
    simp only [Pipeline.rounds, process_alike h hb]
    cases hp : Pipeline.process E c s o with
    | error e => rfl
    | ok r =>
      obtain ⟨out, s'⟩ := r
      simp only [bind, Except.bind]
      rw [ih (by rw [process_base hp]; exact hb)]

end rubin

section des
variable {E E' : DesRun.Env G W V} {c : Config.Cfg} {b : ℤ}

/-- The same for a DES run. -/
structure DesAlike (c : Config.Cfg) (b : ℤ) (E E' : DesRun.Env G W V) : Prop where
  base : Alike c b E.base E'.base
  prob : E'.prob = E.prob
  onVisits : ∀ t, DesRun.onVisits E' c t = DesRun.onVisits E c t
  discover : ∀ t, DesRun.discover E' c t = DesRun.discover E c t

theorem des_view_alike (h : DesAlike c b E E') {s : Pipeline.State G} (hb : s.rngs.base = b) (t : Table (Pipeline.Row W V)) :
    DesRun.view E' c s t = DesRun.view E c s t := by
  unfold DesRun.view
  split
  · rw [h.onVisits]
  · rw [view_alike h.base hb]

theorem des_fade_alike (h : DesAlike c b E E') {s : Pipeline.State G} (hb : s.rngs.base = b) (t : Table (Pipeline.Row W V)) :
    DesRun.fade E' c s t = DesRun.fade E c s t := by
  unfold DesRun.fade
  split
  · rfl
  · rfl
  · rename_i width hf
    rw [h.base.md5, h.prob, fading_congr h.base.next]
    rw [hb]
    exact h.base.seed _ (.inr (.inl ⟨rfl, by rw [hf]; exact fun h => nomatch h⟩))

theorem des_process_alike (h : DesAlike c b E E') {s : Pipeline.State G} (hb : s.rngs.base = b) (obs : List (Pointing.Obs W)) :
    DesRun.process E' c s obs = DesRun.process E c s obs := by
  unfold DesRun.process
  split
  · rfl
  · rw [h.base.measured]
    cases (Pipeline.measured E.base c obs).mapError DesRun.Err.base with
    | error e => rfl
    | ok t0 =>
      simp only [bind, Except.bind]
      cases DesRun.randomize c t0 with
      | error e => rfl
      | ok t =>
        simp only
        rw [des_view_alike h hb]
        cases hv : DesRun.view E c s t with
        | error e => rfl
        | ok v =>
          obtain ⟨t1, s1⟩ := v
          have h2 : s1.rngs.base = b := by rw [des_view_base hv]; exact hb
          simp only
          cases DesRun.snrCut c t1 with
          | error e => rfl
          | ok t1' =>
            simp only
            rw [des_fade_alike h h2]
            simp only [h.discover]

theorem des_rounds_alike (h : DesAlike c b E E') (obs : List (List (Pointing.Obs W))) : ∀ {s : Pipeline.State G}, s.rngs.base = b →
    DesRun.rounds E' c s obs = DesRun.rounds E c s obs := by
  induction obs with
  | nil => intro s _; rfl
  | cons o obs ih =>
    intro s hb
    simp only [DesRun.rounds, des_process_alike h hb]
    cases hp : DesRun.process E c s o with
    | error e => rfl
    | ok r =>
      obtain ⟨out, s'⟩ := r
      simp only [bind, Except.bind]
      rw [ih (by rw [des_process_base hp]; exact hb)]

end des

end Sorcha.Seed
