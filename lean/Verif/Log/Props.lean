import Verif.Log.Lemmas
import Verif.Shipped.Props
import Verif.Pipeline.Props2
import Mathlib.Logic.Encodable.Basic
import Mathlib.Logic.Equiv.List
import Mathlib.Data.Rat.Encodable

/-!
# Properties of the settings in the log (C77)
-/

namespace Sorcha.Log.Props
open Sorcha.Log Sorcha.Log.Spec

/-- C77 (what the log tells): if the settings in the logs of two runs are the same, the two runs had the same settings: everything in `Told`. -/
theorem C77_determines {lower : String → String} {str : Str} (hs : Faithful str) {a a' : Args} {x x' : Aux} {c c' : Config.Cfg}
    (ht : c.input.ephemeridesType = "ar" ∨ c.input.ephemeridesType = "external")
    (ht' : c'.input.ephemeridesType = "ar" ∨ c'.input.ephemeridesType = "external") (hw : ∀ f ∈ c.filters, Word f) (hw' : ∀ f ∈ c'.filters, Word f)
    (h : settings lower str a x c = settings lower str a' x' c') : Told c c' ∧ ToldArgs a a' ∧ ToldAux x x' := by
  unfold settings at h
  simp only [List.append_assoc] at h
  have hin : ∀ (a : Args) (c : Config.Cfg) (l : List Line), Starts [text! "Format of ephemerides file is: "] (inputs str a c ++ l) :=
    fun a c l => ⟨_, List.mem_singleton_self _, _, _, rfl⟩
  have hli : ∀ (c : Config.Cfg) (l : List Line),
      Starts [text! "The upper saturation limit(s) is/are: ", text! "Saturation limit is turned OFF."] (limits str c ++ l) :=
    fun c l => starts_value _ _ _ _ _
  have hau : ∀ (x : Aux) (l : List Line), Starts [text! "The auxiliary files used for emphemris generation..."] (auxiliary x ++ l) :=
    fun x l => starts_const _ _
  obtain ⟨⟨a1, a2, a3, a4, a5, a6, k1⟩, h⟩ := files_peel (hin _ _ _) (hin _ _ _) h
  obtain ⟨⟨i1, i2, a7, i3, i4, a8, k2, k3, k4, k5, k6⟩, h⟩ := inputs_peel hs hw hw' h
  obtain ⟨k7, h⟩ := camera_peel hs a6 (hli _ _) (hli _ _) h
  obtain ⟨⟨k8, k9, k10, k11, k12⟩, h⟩ := limits_peel hs h
  obtain ⟨k13, h⟩ := linking_peel hs (hau _ _) (hau _ _) h
  obtain ⟨hx, h⟩ := auxiliary_peel h
  obtain ⟨⟨i5, k14, k15⟩, h⟩ := ephemerides_peel hs h
  obtain ⟨k16, k17, k18, k19⟩ := output_peel hs h
  refine ⟨⟨?_, k14, k2, k3, k4, k5, k6, k7, k8, k9, k11, k10, k12, k13, k15, k1, k16, k17, k18, k19⟩, ⟨a1, a2, a3, a4, a5, a6, a7, a8⟩, hx⟩
  have ht2 : c.input.ephemeridesType = c'.input.ephemeridesType := by
    rcases ht with h1 | h1 <;> rcases ht' with h2 | h2
    · rw [h1, h2]
    · exact absurd (i5.1 h1) (by rw [h2]; decide)
    · exact absurd (i5.2 h2) (by rw [h1]; decide)
    · rw [h1, h2]
  cases hc : c.input; cases hc' : c'.input
  rw [hc, hc'] at i1 i2 i3 i4 ht2
  simp only [Config.Input.mk.injEq]
  exact ⟨ht2, i1, i4, i2, i3⟩

variable {G W V : Type}

theorem same_number {e e' : Option Fl} (h : SameNumber e e') : Rng.truthy e = Rng.truthy e' ∧ (Rng.truthy e = true → e = e') := by
  rcases h with rfl | ⟨h1, h2⟩
  · exact ⟨rfl, fun _ => rfl⟩
  · rw [of_idle h1, of_idle h2]; simp

theorem same_circle {ρ : Type} (N : Rng.Gen G) (md5 : String → ℕ) (sep : ρ → Fl) {r r' f f' : Option Fl} (hr : SameNumber r r') (hf : SameNumber f f')
    (s : Rng.Rngs G) (t : Table ρ) : Rng.applyCircle N md5 sep r f s t = Rng.applyCircle N md5 sep r' f' s t := by
  obtain ⟨r1, r2⟩ := same_number hr
  obtain ⟨f1, f2⟩ := same_number hf
  unfold Rng.applyCircle
  cases hr : Rng.truthy r <;> cases hf : Rng.truthy f <;> rw [hr] at r1 <;> rw [hf] at f1 <;> rw [← r1, ← f1]
  · simp
  · rw [f2 hf]; simp
  · rw [r2 hr]; simp
  · rw [f2 hf, r2 hr]

theorem rounds_same (E : Pipeline.Env G W V) {c c' : Config.Cfg} (h : Told c c') (hh : SameHidden c.fov c'.fov) (s : Pipeline.State G)
    (blocks : List (List (Pointing.Obs W))) : Pipeline.rounds E c s blocks = Pipeline.rounds E c' s blocks := by
  have e1 : Pipeline.mkRow (W := W) (V := V) c = Pipeline.mkRow c' := by
    funext p m; unfold Pipeline.mkRow; rw [h.trailing]
  have e2 : ∀ obs, Pipeline.measured E c obs = Pipeline.measured E c' obs := by
    intro obs; unfold Pipeline.measured; rw [e1]
  have e3 : ∀ s t, Pipeline.randomize E c s t = Pipeline.randomize E c' s t := by
    intro s t
    have : Pipeline.addNoise (W := W) (V := V) c = Pipeline.addNoise c' := by
      funext v r; unfold Pipeline.addNoise; rw [h.trailing]
    unfold Pipeline.randomize
    rw [h.randomization, h.defaultSnrCut, h.trailing, this]
  have e4 : ∀ s t, Pipeline.fieldOfView E c s t = Pipeline.fieldOfView E c' s t := by
    intro s t
    unfold Pipeline.fieldOfView
    have hc := h.camera
    generalize c.fov = v at *
    generalize c'.fov = v' at *
    cases hc with
    | footprint _ _ => rfl
    | circle k _ => simp only [same_circle E.gen E.md5 E.sep (hh.radius _ _ _ _ rfl rfl) k]
    | visits => rfl
    | none => rfl
  have e5 : ∀ t, Pipeline.magCut (W := W) (V := V) c (Pipeline.snrCut c t) = Pipeline.magCut c' (Pipeline.snrCut c' t) := by
    intro t; unfold Pipeline.magCut Pipeline.snrCut; rw [h.snrLimit, h.magLimit]
  have e6 : ∀ s t, Pipeline.fade E c s t = Pipeline.fade E c' s t := by
    intro s t
    unfold Pipeline.fade
    rcases h.fading with h | ⟨u, u', h1, h2⟩
    · rw [h]
    · rw [h1, h2]
  have e7 : ∀ t, Pipeline.brightCut (W := W) (V := V) c t = Pipeline.brightCut c' t := by
    intro t
    unfold Pipeline.brightCut
    obtain ⟨h1, h2⟩ := h.saturation
    rw [← h1, h.filters]
    cases hb : c.saturation.on.on
    · simp
    · rw [h2 hb]
  have e8 : ∀ s t, Pipeline.link E c s t = Pipeline.link E c' s t := by
    intro s t
    unfold Pipeline.link
    obtain ⟨h1, h2⟩ := h.linking
    rw [← h1]
    cases hb : c.linking.ssp with
    | none => rfl
    | some k => rw [h2 (by rw [hb]; simp)]
  have e9 : ∀ s obs, Pipeline.process E c s obs = Pipeline.process E c' s obs := by
    intro s obs
    unfold Pipeline.process
    simp only [e2, e3, e4, e5, e6, e7, e8]
  induction blocks generalizing s with
  | nil => rfl
  | cons b rest ih =>
    unfold Pipeline.rounds
    rw [e9]
    simp only [ih]

theorem camera_same (lower : String → String) (survey : String) (field : V → ℝ × ℝ × ℝ) {v v' : Config.Fov} (h : SameCamera v v') (hh : SameHidden v v') :
    Shipped.camera (W := W) lower survey field v = Shipped.camera lower survey field v' := by
  unfold Shipped.camera
  cases h with
  | @footprint p p' e e' k1 k2 =>
    have hp : (p.getD "" == "") = (p'.getD "" == "") := by
      rcases k1 with rfl | ⟨h1 | h1, h2 | h2⟩
      · rfl
      all_goals rw [h1, h2] <;> rfl
    have he : e = e' := by
      rcases k2 with rfl | ⟨h1 | h1, h2 | h2⟩
      · rfl
      · rw [h1, h2]
      · have := (hh.edge _ _ _ _ rfl rfl).1 h1; rw [h2] at this; simp at this
      · have := (hh.edge _ _ _ _ rfl rfl).2 h2; rw [h1] at this; simp at this
      · rw [h1, h2]
    simp only [hp, he]
  | circle _ _ => rfl
  | visits => rfl
  | none => rfl

/-- What the reading of the configuration guarantees. -/
theorem accepted {py : Config.Py} {lc ca : List String} {survey : String} (hs : Config.Spec.IsRubin survey) {f : Config.File} {c : Config.Cfg}
    (h : Config.readConfig py lc ca survey f = .ok c) :
    (c.input.ephemeridesType = "ar" ∨ c.input.ephemeridesType = "external") ∧ ∀ k ∈ c.filters, Word k := by
  unfold Config.readConfig at h
  simp only [Config.bind_ok, Config.pure_ok] at h
  obtain ⟨_, -, inp, hi, _, -, sim, -, _, -, fs, hf, _, -, sat, -, _, -, ph, -, _, -, fv, -, _, -, fd, -, _, -, lk, -, _, -, ou, -, _, -, l, -, _, -, ac, -,
    _, -, ex, -, rfl⟩ := h
  constructor
  · unfold Config.input at hi
    simp only [Config.bind_ok, Config.pure_ok, Config.oneOf_ok] at hi
    obtain ⟨t, -, f, -, k, -, b, -, q, -, _, ht, _, -, _, -, n, -, rfl⟩ := hi
    simpa using ht
  · unfold Config.filters at hf
    simp only [Config.bind_ok, Config.pure_ok, Config.stopIf_ok, Config.need_ok] at hf
    obtain ⟨o, -, v, hv, _, h1, _, -, rfl⟩ := hf
    obtain rfl := Option.some.inj hv
    have hr : ["rubin_sim", "RUBIN_SIM", "LSST", "lsst"].contains survey = true := by
      rcases hs with rfl | rfl | rfl | rfl <;> decide
    rw [hr] at h1
    simp only [Bool.true_and, Bool.not_eq_false', List.all_eq_true] at h1
    intro k hk
    have := h1 k hk
    simp only [List.contains_eq_mem, List.mem_cons, List.not_mem_nil, or_false, decide_eq_true_eq] at this
    unfold Word
    rcases this with rfl | rfl | rfl | rfl | rfl | rfl <;> decide

/-- C77 (same log, same output): two Rubin runs of the same objects on the same visits, with the same random numbers, give the same output if the
settings in their logs are the same, whatever the texts of their configuration files, unless they differ in a radius that goes with a fill factor, or
in an edge threshold being zero or not given. -/
theorem C77_same_run {py : Config.Py} {lc ca : List String} {str : Str} (hs : Faithful str) {survey : String} (hr : Config.Spec.IsRubin survey)
    {lines lines' : List Ini.Line} {c c' : Config.Cfg} {u u' : Inputs.Aux} (hc : Ini.configure py lc ca survey lines = .ok (c, u))
    (hc' : Ini.configure py lc ca survey lines' = .ok (c', u')) {a a' : Args} {x x' : Aux}
    (h : settings py.lower str a x c = settings py.lower str a' x' c') (hh : SameHidden c.fov c'.fov) (field : V → ℝ × ℝ × ℝ)
    (answer : Option (List (Pointing.Visit V))) (E : Pipeline.Env G W V) (s : Pipeline.State G) (blocks : List (List (Pointing.Obs W))) :
    Shipped.run py lc ca survey lines field answer E s blocks = Shipped.run py lc ca survey lines' field answer E s blocks := by
  have read : ∀ {lines : List Ini.Line} {c : Config.Cfg} {u : Inputs.Aux}, Ini.configure py lc ca survey lines = .ok (c, u) →
      (c.input.ephemeridesType = "ar" ∨ c.input.ephemeridesType = "external") ∧ ∀ k ∈ c.filters, Word k := by
    intro lines c u hc
    unfold Ini.configure at hc
    cases h1 : Ini.load py.lower lines with
    | error e => simp [h1] at hc
    | ok f =>
      simp only [h1] at hc
      cases h2 : Config.readConfig py lc ca survey f with
      | error e => simp [h2] at hc
      | ok k =>
        simp only [h2] at hc
        have : k = c := by
          split at hc
          · simp at hc
          · split at hc
            · simp at hc
            · simp only [Except.ok.injEq, Prod.mk.injEq] at hc; exact hc.1
        subst this
        exact accepted hr h2
  obtain ⟨g1, g2⟩ := read hc
  obtain ⟨g3, g4⟩ := read hc'
  obtain ⟨ht, -, -⟩ := C77_determines hs g1 g3 g2 g4 h
  unfold Shipped.run
  rw [hc, hc']
  simp only [ht.filters, camera_same py.lower survey field ht.camera hh, rounds_same _ ht hh]

/-- C77 (reading of the input): the same log also means that the input is read in the same chunks and, with the same `brute_force`, culled alike. -/
theorem C77_same_input {C : Type} {lower : String → String} {str : Str} (hs : Faithful str) {a a' : Args} {x x' : Aux} {c c' : Config.Cfg}
    (ht : c.input.ephemeridesType = "ar" ∨ c.input.ephemeridesType = "external")
    (ht' : c'.input.ephemeridesType = "ar" ∨ c'.input.ephemeridesType = "external") (hw : ∀ f ∈ c.filters, Word f) (hw' : ∀ f ∈ c'.filters, Word f)
    (h : settings lower str a x c = settings lower str a' x' c') (hh : SameHidden c.fov c'.fov) (E : Pipeline.Env G W V) (s : Pipeline.State G)
    (parse : List C → ℕ × ℚ × W) (P : Readers.IdParse) (missing : List C) (fe fo : List (Readers.Line C)) (fs : List (List (Readers.Line C)))
    (cull : Readers.Rec C → Bool) (ephem : List (Readers.Rec C) → List (Pointing.Obs W)) (fuel : ℕ) :
    Pipeline.runExternal E c s parse P missing fe fo fs fuel = Pipeline.runExternal E c' s parse P missing fe fo fs fuel ∧
    (c.expert.bruteForce = c'.expert.bruteForce →
      Pipeline.runGenerated E c s cull ephem P missing fo fs fuel = Pipeline.runGenerated E c' s cull ephem P missing fo fs fuel) := by
  obtain ⟨k, -, -⟩ := C77_determines hs ht ht' hw hw' h
  constructor
  · unfold Pipeline.runExternal
    simp only [k.input, rounds_same E k hh]
  · intro hb
    unfold Pipeline.runGenerated
    simp only [k.input, rounds_same E k hh, hb]

/-! ## What the log does not tell -/

/-- C77 fails: the radius of a circular camera with a fill factor is not in the log, but it decides which observations are kept. -/
theorem C77_radius_fails :
    (∀ (lower : String → String) (str : Str) (a : Args) (x : Aux) (c : Config.Cfg) (f : ℚ) (r r' : Option Fl), f ≠ 0 →
      settings lower str a x { c with fov := .circle (some (.fin f)) r } = settings lower str a x { c with fov := .circle (some (.fin f)) r' }) ∧
    Pipeline.Props.exSummary (Pipeline.rounds Pipeline.Props.exEnv { Pipeline.Props.exCfg with fov := .circle (some (.fin (9 / 10))) (some (.fin 2)) }
        Pipeline.Props.exState [Pipeline.Props.exObs]) = some [("A", 1, some 59999), ("A", 2, some 59999), ("A", 3, some 59999)] ∧
    (Pipeline.Props.exSummary (Pipeline.rounds Pipeline.Props.exEnv { Pipeline.Props.exCfg with fov := .circle (some (.fin (9 / 10))) (some (.fin 4)) }
        Pipeline.Props.exState [Pipeline.Props.exObs])).map (·.map (·.1)) = some ["A", "C", "A", "C", "A"] := by
  refine ⟨?_, by decide +kernel, by decide +kernel⟩
  intro lower str a x c f r r' hf
  have : Rng.truthy (some (.fin f)) = true := by simp [Rng.truthy, Fl.eq, hf]
  simp only [settings, camera, this, if_true, files, inputs, limits, linking, ephemerides, output]

/-- C77 fails: without an edge threshold, or with a threshold of zero, the log speaks of a default of two arcseconds, but no such threshold is applied:
without one, each corner of each detector of the LSST camera counts as on the detector, which it is not with a threshold of two arcseconds. -/
theorem C77_edge_fails (lower : String → String) (str : Str) (a : Args) (x : Aux) (c : Config.Cfg) (p : Option String) (e : Option Fl) (he : Idle e) :
    "Default footprint edge threshold used (10px or 2 arcseconds).".toList ∈ settings lower str a x { c with fov := .footprint p e } ∧
    settings lower str a x { c with fov := .footprint p e } = settings lower str a x { c with fov := .footprint p none } ∧
    ∀ d ∈ Cameras.lsstFile, ∀ k ∈ d.2,
      Geom.isOn (Geom.sortCorners (Geom.Detector.init (d.2.map (Cameras.toPt 19)))) Cameras.tolerance none (Geom.projectCorner (Cameras.toPt 19 k)) ∧
      ¬ Geom.isOn (Geom.sortCorners (Geom.Detector.init (d.2.map (Cameras.toPt 19)))) Cameras.tolerance (some 2) (Geom.projectCorner (Cameras.toPt 19 k)) := by
  have h0 := of_idle he
  have hn : Rng.truthy none = false := rfl
  refine ⟨?_, ?_, ?_⟩
  · have hd : "Default footprint edge threshold used (10px or 2 arcseconds).".toList =
        text! "Default footprint edge threshold used (10px or 2 arcseconds)." := by decide +kernel
    rw [hd]
    simp only [settings, camera, h0, Bool.false_eq_true, if_false, List.mem_append, List.mem_singleton, or_true, true_or]
  · simp only [settings, camera, h0, hn, Bool.false_eq_true, if_false, files, inputs, limits, linking, ephemerides, output]
  · intro d hd k hk
    have hconv := Cameras.Props.lsst_convex d hd
    have hmem : Geom.projectCorner (Cameras.toPt 19 k) ∈ (d.2.map (Cameras.toPt 19)).map Geom.projectCorner :=
      List.mem_map_of_mem (List.mem_map_of_mem hk)
    refine ⟨(Geom.Props.C31_tolerance _ hconv Cameras.tolerance (by unfold Cameras.tolerance; positivity) _).1 (subset_convexHull ℝ _ hmem), ?_⟩
    intro hon
    obtain ⟨-, hall⟩ := (Geom.Props.C31_edge _ hconv _ _ _).1 hon
    obtain ⟨hp, -, -⟩ := Geom.Props.sorted_facts _ hconv
    obtain ⟨b, hb⟩ := Geom.Props.es_first (hp.mem_iff.2 hmem)
    have := hall b _ ((Geom.Props.es_iff_side _ hconv _ _).1 hb) _ (right_mem_segment ℝ _ _)
    have hpi := Real.pi_pos
    have h0 : Geom.Spec.dist (Geom.projectCorner (Cameras.toPt 19 k)) (Geom.projectCorner (Cameras.toPt 19 k)) = 0 := by
      simp [Geom.Spec.dist]
    rw [h0] at this
    have : 0 < 2 / 3600 * (Real.pi / 180) := by positivity
    linarith

/-- C77 fails: none of these settings is in the log: `brute_force`, the DES cuts, the efficiency for transients of DES, the query for the visits, and
the name of an activity model other than "comet". -/
theorem C77_hidden_fails (lower : String → String) (str : Str) (a : Args) (x : Aux) (c : Config.Cfg) :
    (∀ b, settings lower str a x { c with expert := { c.expert with bruteForce := b } } = settings lower str a x c) ∧
    (∀ d n o m p, settings lower str a x { c with linking := { c.linking with desDiscovery := d, distanceOn := n, distance := o, motionOn := m, motion := p } } =
      settings lower str a x c) ∧
    (∀ t t', settings lower str a x { c with fading := .des t } = settings lower str a x { c with fading := .des t' }) ∧
    (∀ q q', settings lower str a x { c with fov := .visits q } = settings lower str a x { c with fov := .visits q' }) ∧
    (∀ m m', m ≠ "comet" → m' ≠ "comet" → settings lower str a x { c with activity := some m } = settings lower str a x { c with activity := some m' }) := by
  refine ⟨fun b => rfl, fun d n o m p => rfl, fun t t' => rfl, fun q q' => rfl, fun m m' h h' => ?_⟩
  simp only [settings, files, Option.some.injEq, h, h', if_false, reduceCtorEq, inputs, camera, limits, linking, ephemerides, output]

/-! ## The hypotheses are met -/

/-- A number for each float. -/
noncomputable def code : Fl → ℕ
  | .nan => 0
  | .ninf => 1
  | .pinf => 2
  | .fin q => Encodable.encode q + 3

theorem code_inj : Function.Injective code := by
  intro x y h
  cases x <;> cases y <;> simp [code] at h ⊢ <;> first | omega | exact h

/-- A way to write numbers. -/
noncomputable def exStr : Str where
  fl x := String.ofList (List.replicate (code x) 'a')
  int i := String.ofList (List.replicate (Encodable.encode i) 'a')
  fls l := String.ofList (List.replicate (Encodable.encode (l.map code)) 'a')

theorem tally_inj {m n : ℕ} (h : String.ofList (List.replicate m 'a') = String.ofList (List.replicate n 'a')) : m = n := by
  have := congrArg (fun s => s.toList.length) h
  simpa using this

theorem tally_none (n : ℕ) : String.ofList (List.replicate n 'a') ≠ "None" := by
  intro h
  have h1 : 'N' ∈ (String.ofList (List.replicate n 'a')).toList := by rw [h]; decide
  rw [String.toList_ofList] at h1
  exact absurd (List.eq_of_mem_replicate h1) (by decide)

theorem exStr_faithful : Faithful exStr where
  fl _ _ h := code_inj (tally_inj h)
  int _ _ h := Encodable.encode_injective (tally_inj h)
  fls _ _ h := List.map_injective_iff.2 code_inj (Encodable.encode_injective (tally_inj h))
  flNone _ := tally_none _
  flsNone _ := tally_none _

/-- Two short configuration files. The second has a comment, names the default of a setting, and switches `brute_force` off. -/
def exText : List Ini.Line := [
  chars! "[INPUT]", chars! "ephemerides_type = external", chars! "eph_format = csv", chars! "size_serial_chunk = 10", chars! "aux_format = csv",
  chars! "pointing_sql_query = SELECT", chars! "[SIMULATION]", chars! "[FILTERS]", chars! "observing_filters = r,g", chars! "[PHASECURVES]",
  chars! "phase_function = HG", chars! "[FOV]", chars! "camera_model = circle", chars! "circle_radius = 1.75", chars! "[OUTPUT]",
  chars! "output_format = csv", chars! "output_columns = basic"]
def exText' : List Ini.Line := [
  chars! "[INPUT]", chars! "# a comment", chars! "ephemerides_type = external", chars! "eph_format = csv", chars! "size_serial_chunk = 10",
  chars! "aux_format = csv", chars! "pointing_sql_query = SELECT", chars! "[SIMULATION]", chars! "[FILTERS]", chars! "observing_filters = r , g",
  chars! "[PHASECURVES]", chars! "phase_function = HG", chars! "[FOV]", chars! "camera_model = circle", chars! "circle_radius = 1.750", chars! "[OUTPUT]",
  chars! "output_format = csv", chars! "output_columns = basic", chars! "[EXPERT]", chars! "brute_force = False", chars! "vignetting_on = True"]

/-- The settings of the first. -/
def exSettings : Config.Cfg where
  input := ⟨"external", "csv", 10, "csv", "SELECT"⟩
  simulation := none
  filters := ["r", "g"]
  saturation := ⟨.unset, none⟩
  phase := "HG"
  fov := .circle none (some (.fin (7 / 4)))
  fading := .off
  linking := ⟨none, true, .unset, .unset, none, .unset, none⟩
  output := ⟨"csv", .named "basic", none, none⟩
  lightcurve := none
  activity := none
  expert := ⟨none, none, true, true, .bool true, .bool true, .bool true⟩

theorem exText_read : ((Ini.configure Ini.Props.plainPy [] [] "LSST" exText).toOption.map (·.1)) = some exSettings := by decide +kernel

theorem exText'_read : ((Ini.configure Ini.Props.plainPy [] [] "LSST" exText').toOption.map (·.1)) =
    some { exSettings with expert := { exSettings.expert with bruteForce := false } } := by decide +kernel

/-- The two files give the same log and, by `C77_same_run`, the same output. -/
example (field : V → ℝ × ℝ × ℝ) (answer : Option (List (Pointing.Visit V))) (E : Pipeline.Env G W V) (s : Pipeline.State G)
    (blocks : List (List (Pointing.Obs W))) (a : Args) (x : Aux) :
    Shipped.run Ini.Props.plainPy [] [] "LSST" exText field answer E s blocks = Shipped.run Ini.Props.plainPy [] [] "LSST" exText' field answer E s blocks := by
  have get : ∀ {lines : List Ini.Line} {c : Config.Cfg}, ((Ini.configure Ini.Props.plainPy [] [] "LSST" lines).toOption.map (·.1)) = some c →
      ∃ u, Ini.configure Ini.Props.plainPy [] [] "LSST" lines = .ok (c, u) := by
    intro lines c h
    cases hc : Ini.configure Ini.Props.plainPy [] [] "LSST" lines with
    | error e => rw [hc] at h; simp [Except.toOption] at h
    | ok y => rw [hc] at h; obtain ⟨y1, y2⟩ := y; simp [Except.toOption] at h; exact ⟨y2, by rw [h]⟩
  obtain ⟨u, hu⟩ := get exText_read
  obtain ⟨u', hu'⟩ := get exText'_read
  refine C77_same_run exStr_faithful (by unfold Config.Spec.IsRubin; tauto) hu hu' (a := a) (a' := a) (x := x) (x' := x)
    ((C77_hidden_fails _ _ _ _ exSettings).1 false).symm ⟨?_, ?_⟩ field answer E s blocks
  · rintro f r f' r' h1 h2
    exact .inl (by cases h1; cases h2; rfl)
  · rintro p e p' e' h1
    cases h1

end Sorcha.Log.Props
