import Verif.Ini.Templates

/-!
# C74: which of the files that come with the package are accepted
-/

namespace Sorcha.Ini.Props

open Spec Sorcha.Ini
open Sorcha.Config (Cfg)

variable {py : Config.Py} {rnd : ℚ → ℚ}

theorem float_of (h : Python py rnd) (s : String) (a b : List Char) (h1 : s.toList = a ++ '.' :: b) (h2 : a ≠ [])
    (h3 : (a ++ b).all (fun c => 48 ≤ c.toNat && c.toNat ≤ 57) = true) (q : ℚ) (hq : q = (value (a ++ b) : ℚ) / 10 ^ b.length) :
    py.toFloat s = some (.fin (rnd q)) := by
  have hd : ∀ c ∈ a ++ b, 48 ≤ c.toNat ∧ c.toNat ≤ 57 := by
    intro c hc
    have := List.all_eq_true.1 h3 c hc
    simpa using this
  exact h.float s q ⟨a, b, h1, h2, fun c hc => hd c (by simp [hc]), fun c hc => hd c (by simp [hc]), hq⟩

theorem int_of (h : Python py rnd) (s : String) (n : ℕ) (h1 : s ≠ "") (h2 : s.toList.all (fun c => 48 ≤ c.toNat && c.toNat ≤ 57) = true)
    (hn : n = value s.toList) : py.toInt s = some (n : ℤ) := by
  refine h.int s n ⟨h1, ?_, hn⟩
  intro c hc
  have := List.all_eq_true.1 h2 c hc
  simpa using this

/-- The numbers in the files. -/
structure Numbers (py : Config.Py) (rnd : ℚ → ℚ) : Prop where
  f206 : py.toFloat "2.06" = some (.fin (rnd (206 / 100)))
  f02 : py.toFloat "0.2" = some (.fin (rnd (2 / 10)))
  f16 : py.toFloat "16.0" = some (.fin 16)
  f09 : py.toFloat "0.9" = some (.fin (rnd (9 / 10)))
  f175 : py.toFloat "1.75" = some (.fin (7 / 4))
  f01 : py.toFloat "0.1" = some (.fin (rnd (1 / 10)))
  f1 : py.toFloat "1." = some (.fin 1)
  f2 : py.toFloat "2." = some (.fin 2)
  f095 : py.toFloat "0.95" = some (.fin (rnd (95 / 100)))
  f05 : py.toFloat "0.5" = some (.fin (1 / 2))
  f00625 : py.toFloat "0.0625" = some (.fin (1 / 16))
  i1 : py.toInt "1" = some 1
  i2 : py.toInt "2" = some 2
  i3 : py.toInt "3" = some 3
  i6 : py.toInt "6" = some 6
  i15 : py.toInt "15" = some 15
  i5000 : py.toInt "5000" = some 5000
  i20000 : py.toInt "20000" = some 20000

theorem numbers (h : Python py rnd) : Numbers py rnd where
  f206 := float_of h _ ['2'] ['0', '6'] (by decide +kernel) (by simp) (by decide +kernel) _ (by decide +kernel)
  f02 := float_of h _ ['0'] ['2'] (by decide +kernel) (by simp) (by decide +kernel) _ (by decide +kernel)
  f16 := by
    have := float_of h "16.0" ['1', '6'] ['0'] (by decide +kernel) (by simp) (by decide +kernel) (256 / 16) (by decide +kernel)
    have e := h.exact 256 (by norm_num)
    norm_num at this e
    rw [this, e]
  f09 := float_of h _ ['0'] ['9'] (by decide +kernel) (by simp) (by decide +kernel) _ (by decide +kernel)
  f175 := by
    have := float_of h "1.75" ['1'] ['7', '5'] (by decide +kernel) (by simp) (by decide +kernel) (28 / 16) (by decide +kernel)
    have e := h.exact 28 (by norm_num)
    norm_num at this e
    rw [this, e]
  f01 := float_of h _ ['0'] ['1'] (by decide +kernel) (by simp) (by decide +kernel) _ (by decide +kernel)
  f1 := by
    have := float_of h "1." ['1'] [] (by decide +kernel) (by simp) (by decide +kernel) (16 / 16) (by decide +kernel)
    have e := h.exact 16 (by norm_num)
    norm_num at this e
    rw [this, e]
  f2 := by
    have := float_of h "2." ['2'] [] (by decide +kernel) (by simp) (by decide +kernel) (32 / 16) (by decide +kernel)
    have e := h.exact 32 (by norm_num)
    norm_num at this e
    rw [this, e]
  f095 := float_of h _ ['0'] ['9', '5'] (by decide +kernel) (by simp) (by decide +kernel) _ (by decide +kernel)
  f05 := by
    have := float_of h "0.5" ['0'] ['5'] (by decide +kernel) (by simp) (by decide +kernel) (8 / 16) (by decide +kernel)
    have e := h.exact 8 (by norm_num)
    norm_num at this e
    rw [this]
    norm_num [e]
  f00625 := by
    have := float_of h "0.0625" ['0'] ['0', '6', '2', '5'] (by decide +kernel) (by simp) (by decide +kernel) (1 / 16) (by decide +kernel)
    have e := h.exact 1 (by norm_num)
    norm_num at this e
    rw [this]
    norm_num [e]
  i1 := int_of h _ 1 (by decide) (by decide +kernel) (by decide +kernel)
  i2 := int_of h _ 2 (by decide) (by decide +kernel) (by decide +kernel)
  i3 := int_of h _ 3 (by decide) (by decide +kernel) (by decide +kernel)
  i6 := int_of h _ 6 (by decide) (by decide +kernel) (by decide +kernel)
  i15 := int_of h _ 15 (by decide) (by decide +kernel) (by decide +kernel)
  i5000 := int_of h _ 5000 (by decide) (by decide +kernel) (by decide +kernel)
  i20000 := int_of h _ 20000 (by decide) (by decide +kernel) (by decide +kernel)

/-! ## Evaluating the validation -/

theorem rnd_bounds (h : Python py rnd) : 0 < rnd (1 / 10) ∧ rnd (1 / 10) ≤ 1 / 2 ∧ 0 ≤ rnd (9 / 10) ∧ rnd (9 / 10) ≤ 1 ∧ 0 ≤ rnd (95 / 100) ∧
    rnd (95 / 100) ≤ 1 := by
  have e0 := h.exact 0 (by norm_num)
  have e1 := h.exact 1 (by norm_num)
  have e8 := h.exact 8 (by norm_num)
  have e16 := h.exact 16 (by norm_num)
  norm_num at e0 e1 e8 e16
  have m1 := h.mono (show (1 / 16 : ℚ) ≤ 1 / 10 by norm_num)
  have m2 := h.mono (show (1 / 10 : ℚ) ≤ 1 / 2 by norm_num)
  have m3 := h.mono (show (0 : ℚ) ≤ 9 / 10 by norm_num)
  have m4 := h.mono (show (9 / 10 : ℚ) ≤ 1 by norm_num)
  have m5 := h.mono (show (0 : ℚ) ≤ 95 / 100 by norm_num)
  have m6 := h.mono (show (95 / 100 : ℚ) ≤ 1 by norm_num)
  rw [e1] at m1
  refine ⟨?_, ?_, ?_, ?_, ?_, ?_⟩ <;> linarith

theorem lower_rubin (h : Python py rnd) (survey : String) (hs : Config.Spec.IsRubin survey) :
    py.lower survey = "rubin_sim" ∨ py.lower survey = "lsst" := by
  rcases hs with rfl | rfl | rfl | rfl
  · right; rw [h.lower _ (by unfold Ascii; decide +kernel)]; decide +kernel
  · right; rw [h.lower _ (by unfold Ascii; decide +kernel)]; decide +kernel
  · left; rw [h.lower _ (by unfold Ascii; decide +kernel)]; decide +kernel
  · left; rw [h.lower _ (by unfold Ascii; decide +kernel)]; decide +kernel

/-! One section after the other, with the rounded numbers as variables. -/

theorem ev_input (n : Int) (c a : String) (hc : py.toInt c = some n) (ha : a = "csv" ∨ a = "whitespace") :
    Config.input py [("ephemerides_type", "ar"), ("eph_format", "csv"), ("size_serial_chunk", c), ("aux_format", a),
      ("pointing_sql_query", rubinQuery)] = .ok ⟨"ar", "csv", n, a, rubinQuery⟩ := by
  rcases ha with rfl | rfl <;>
    simp [Config.input, Config.need, Config.get, Config.oneOf, Config.castInt, bind, Except.bind, pure, Except.pure, hc]

theorem ev_simulation (h : Python py rnd) :
    Config.simulation py (some "ar") [("ar_ang_fov", "2.06"), ("ar_fov_buffer", "0.2"), ("ar_picket", "1"), ("ar_obs_code", "X05"),
      ("ar_healpix_order", "6")] = .ok (some ⟨.fin (rnd (206 / 100)), .fin (rnd (2 / 10)), 1, "X05", 6, 101⟩) := by
  obtain ⟨⟩ := numbers h
  generalize rnd (206 / 100) = x at *
  generalize rnd (2 / 10) = y at *
  simp [Config.simulation, Config.need, Config.get, Config.oneOf, Config.castInt, Config.castInt?, Config.castFloat, bind, Except.bind, pure, Except.pure, *]

theorem ev_filters (survey : String) (hs : Config.Spec.IsRubin survey) :
    Config.filters (some survey) [("observing_filters", "r,g,i,z,u,y")] = .ok ["r", "g", "i", "z", "u", "y"] := by
  rcases hs with rfl | rfl | rfl | rfl <;> decide +kernel

theorem ev_saturation (h : Python py rnd) :
    Config.saturation py (some ["r", "g", "i", "z", "u", "y"]) [("bright_limit", "16.0")] =
      .ok ⟨.bool true, some [.fin 16, .fin 16, .fin 16, .fin 16, .fin 16, .fin 16]⟩ := by
  have f := (numbers h).f16
  have : (Config.splitComma "16.0").map Config.strip = ["16.0"] := by decide +kernel
  simp [Config.saturation, Config.get, this, Config.allFloats, List.replicate, f]

theorem ev_circle (h : Python py rnd) (survey : String) :
    Config.fov py survey [("camera_model", "circle"), ("fill_factor", "0.9"), ("circle_radius", "1.75")] =
      .ok (.circle (some (.fin (rnd (9 / 10)))) (some (.fin (7 / 4)))) := by
  have f := (numbers h).f09
  have f' := (numbers h).f175
  obtain ⟨_, _, b1, b2, _, _⟩ := rnd_bounds h
  generalize rnd (9 / 10) = x at *
  have c1 : ¬x < 0 := not_lt.2 b1
  have c2 : ¬1 < x := not_lt.2 b2
  have c3 : ¬(7 / 4 : ℚ) < 0 := by norm_num
  simp [Config.fov, Config.fovCircle, Config.need, Config.get, Config.oneOf, Config.castFloat?, Config.castFloat, Config.stopIf, Config.forbid,
    Fl.lt, bind, Except.bind, pure, Except.pure, Except.map, f, f', c1, c2, c3]

theorem ev_footprint (h : Python py rnd) (survey : String) (hs : Config.Spec.IsRubin survey) :
    Config.fov py survey [("camera_model", "footprint"), ("footprint_edge_threshold", "2.")] = .ok (.footprint none (some (.fin 2))) := by
  have f := (numbers h).f2
  have hl := lower_rubin h survey hs
  have c : (["lsst", "rubin_sim", "des"].contains (py.lower survey)) = true := by rcases hl with e | e <;> rw [e] <;> decide
  have hp : Config.fovPath py survey none = .ok () := by
    unfold Config.fovPath Config.stopIf
    simp only [c, Bool.not_true, Bool.false_eq_true, if_false]
  simp [Config.fov, Config.fovFootprint, hp, Config.need, Config.get, Config.oneOf, Config.castFloat?, Config.castFloat, Config.forbid,
    bind, Except.bind, pure, Except.pure, Except.map, f]

theorem not_des (survey : String) (hs : Config.Spec.IsRubin survey) : ["DES", "des"].contains survey = false := by
  rcases hs with rfl | rfl | rfl | rfl <;> decide

theorem ev_fading (h : Python py rnd) (survey : String) (hs : Config.Spec.IsRubin survey) :
    Config.fading py survey [("fading_function_width", "0.1"), ("fading_function_peak_efficiency", "1.")] =
      .ok (.on (.fin (rnd (1 / 10))) (.fin 1)) := by
  have f := (numbers h).f01
  have f' := (numbers h).f1
  obtain ⟨b1, b2, _, _, _, _⟩ := rnd_bounds h
  generalize rnd (1 / 10) = x at *
  have c1 : Fl.le (.fin x) (.fin 0) = false := by
    unfold Fl.le Fl.lt Fl.eq
    simp [not_lt.2 b1.le, b1.ne']
  have c2 : Fl.lt (.fin (1 / 2)) (.fin x) = false := by
    unfold Fl.lt
    simpa using b2
  have c3 : Fl.lt (.fin 1) (.fin 0) = false := by decide +kernel
  have c4 : Fl.lt (.fin 1) (.fin 1) = false := by decide +kernel
  unfold Config.fading
  rw [if_neg (by rw [not_des survey hs]; simp)]
  simp [Config.fadingOther, Config.get, Config.castFloat, Config.stopIf, bind, Except.bind, pure, Except.pure, f, f', c1, c3, c4]
  rw [if_neg (by simpa [Fl.lt] using c2)]

theorem ev_linking (h : Python py rnd) (survey : String) (hs : Config.Spec.IsRubin survey) :
    Config.linking py survey [("ssp_detection_efficiency", "0.95"), ("ssp_number_observations", "2"), ("ssp_separation_threshold", "0.5"),
      ("ssp_maximum_time", "0.0625"), ("ssp_number_tracklets", "3"), ("ssp_track_window", "15"), ("ssp_night_start_utc", "16.0")] =
      .ok ⟨some ⟨.fin (rnd (95 / 100)), 2, .fin (1 / 2), .fin (1 / 16), 3, 15, .fin 16⟩, true, .unset, .unset, none, .unset, none⟩ := by
  have n := numbers h
  obtain ⟨_, _, _, _, b1, b2⟩ := rnd_bounds h
  have f := n.f095
  generalize rnd (95 / 100) = x at *
  have hl : py.lower survey ≠ "des" := by rcases lower_rubin h survey hs with e | e <;> rw [e] <;> decide
  have c1 : Fl.lt (.fin 1) (.fin x) = false := by unfold Fl.lt; simpa using b2
  have c2 : Fl.lt (.fin x) (.fin 0) = false := by unfold Fl.lt; simpa using b1
  have hssp : Config.ssp py [("ssp_detection_efficiency", "0.95"), ("ssp_number_observations", "2"), ("ssp_separation_threshold", "0.5"),
      ("ssp_maximum_time", "0.0625"), ("ssp_number_tracklets", "3"), ("ssp_track_window", "15"), ("ssp_night_start_utc", "16.0")] =
      .ok ⟨.fin x, 2, .fin (1 / 2), .fin (1 / 16), 3, 15, .fin 16⟩ := by
    have d1 : Fl.eq (.fin (1 / 2)) (.fin 0) = false := by decide +kernel
    have d2 : Fl.lt (.fin (1 / 2)) (.fin 0) = false := by decide +kernel
    have d3 : Fl.lt (.fin (1 / 16)) (.fin 0) = false := by decide +kernel
    have d4 : Fl.lt (.fin 24) (.fin 16) = false := by decide +kernel
    have d5 : Fl.lt (.fin 16) (.fin 0) = false := by decide +kernel
    have g1 := n.f05
    have g2 := n.f00625
    generalize (1 / 2 : ℚ) = u at *
    generalize (1 / 16 : ℚ) = v at *
    simp [Config.ssp, Config.get, Config.castFloat, Config.castInt, Config.stopIf, bind, Except.bind, pure, Except.pure, f, g1, g2, n.f16, n.i2,
      n.i3, n.i15, c1, c2, d1, d2, d3, d4, d5]
  unfold Config.linking
  rw [hssp]
  simp [Config.sspVars, Config.get, hl, Except.map, Config.castBoolOr, Config.Flag.ofRaw, Config.Flag.on, Config.cut, Config.stopIf, bind,
    Except.bind, pure, Except.pure]

theorem ev_no_linking (survey : String) :
    Config.linking py survey [] = .ok ⟨none, true, .unset, .unset, none, .unset, none⟩ := by
  simp [Config.linking, Config.sspVars, Config.get, Config.castBoolOr, Config.Flag.ofRaw, Config.Flag.on, Config.cut, Config.stopIf, bind,
    Except.bind, pure, Except.pure]

theorem ev_no_fading (survey : String) (hs : Config.Spec.IsRubin survey) : Config.fading py survey [] = .ok .off := by
  unfold Config.fading
  rw [if_neg (by rw [not_des survey hs]; simp)]
  rfl

theorem ev_output (f : String) (hf : f = "csv" ∨ f = "sqlite3") :
    Config.output py [("output_format", f), ("output_columns", "basic")] = .ok ⟨f, .named "basic", none, none⟩ := by
  have : "basic".toList.contains ',' = false := by decide +kernel
  rcases hf with rfl | rfl <;>
    simp [Config.output, Config.get, Config.need, Config.oneOf, Config.castInt?, Config.stopIf, bind, Except.bind, pure, Except.pure, Except.map]

theorem ev_expert (survey : String) (hs : Config.Spec.IsRubin survey) (s : Config.Sect) (camera : Option String) (b : Bool)
    (h : s = [] ∧ b = true ∧ camera = none ∨
      s = [("randomization_on", "False"), ("vignetting_on", "False"), ("trailing_losses_on", "False")] ∧ b = false ∧ camera = some "footprint") :
    Config.expert py survey camera s = .ok ⟨none, none, true, true, .bool b, .bool b, .bool b⟩ := by
  have hr : Config.surveyOf survey = .rubin := by rcases hs with rfl | rfl | rfl | rfl <;> decide
  have hf : ∀ k, Config.castBool "False" k = .ok false := by
    intro k
    have : Config.strip "False" = "False" := by decide +kernel
    simp [Config.castBool, this]
  rcases h with ⟨rfl, rfl, rfl⟩ | ⟨rfl, rfl, rfl⟩ <;>
    simp [Config.expert, Config.effects, hr, Config.get, Config.castFloat?, Config.castBoolOr, hf, Config.stopIf, bind, Except.bind, pure,
      Except.pure]

/-- The settings of Rubin_circular_approximation.ini as the run uses them. -/
def circularCfg (rnd : ℚ → ℚ) : Cfg :=
  { input := ⟨"ar", "csv", 20000, "csv", rubinQuery⟩
    simulation := some ⟨.fin (rnd (206 / 100)), .fin (rnd (2 / 10)), 1, "X05", 6, 101⟩
    filters := ["r", "g", "i", "z", "u", "y"]
    saturation := ⟨.bool true, some [.fin 16, .fin 16, .fin 16, .fin 16, .fin 16, .fin 16]⟩
    phase := "HG"
    fov := .circle (some (.fin (rnd (9 / 10)))) (some (.fin (7 / 4)))
    fading := .on (.fin (rnd (1 / 10))) (.fin 1)
    linking := ⟨some ⟨.fin (rnd (95 / 100)), 2, .fin (1 / 2), .fin (1 / 16), 3, 15, .fin 16⟩, true, .unset, .unset, none, .unset, none⟩
    output := ⟨"sqlite3", .named "basic", none, none⟩
    lightcurve := none
    activity := none
    expert := ⟨none, none, true, true, .bool true, .bool true, .bool true⟩ }

/-- The settings of Rubin_full_footprint.ini. -/
def footprintCfg (rnd : ℚ → ℚ) : Cfg := { circularCfg rnd with fov := .footprint none (some (.fin 2)) }

/-- The settings of the demo: the footprint, smaller chunks, columns separated by white space, output as CSV. -/
def demoCfg (rnd : ℚ → ℚ) : Cfg :=
  { footprintCfg rnd with input := ⟨"ar", "csv", 5000, "whitespace", rubinQuery⟩, output := ⟨"csv", .named "basic", none, none⟩ }

/-- The settings of Rubin_known_object_prediction.ini: the footprint, and everything else that removes or changes observations is off. -/
def knownCfg (rnd : ℚ → ℚ) : Cfg :=
  { footprintCfg rnd with
    saturation := ⟨.unset, none⟩
    fading := .off
    linking := ⟨none, true, .unset, .unset, none, .unset, none⟩
    expert := ⟨none, none, true, true, .bool false, .bool false, .bool false⟩ }

theorem ev_no_saturation : Config.saturation py none [] = .ok ⟨.unset, none⟩ := by
  simp [Config.saturation, Config.get, Config.Flag.ofRaw, Config.Flag.on]

theorem circular_ok (h : Python py rnd) (lc ca : List String) (survey : String) (hs : Config.Spec.IsRubin survey) :
    Config.readConfig py lc ca survey rubinCircularSettings = .ok (circularCfg rnd) := by
  simp only [Config.readConfig, Config.sect, rubinCircularSettings]
  simp [Config.construct, Config.fieldsInput, Config.fieldsSimulation, Config.fieldsFilters, Config.fieldsSaturation, Config.fieldsPhasecurves,
    Config.fieldsFov, Config.fieldsFading, Config.fieldsLinking, Config.fieldsOutput, Config.fieldsLightcurve, Config.fieldsActivity,
    Config.fieldsExpert, bind, Except.bind, pure, Except.pure, Config.phasecurves, Config.model, Config.get, Config.need, Config.oneOf,
    ev_input _ _ _ (numbers h).i20000 (.inl rfl), ev_simulation h, ev_filters survey hs, ev_saturation h, ev_circle h survey, ev_fading h survey hs, ev_linking h survey hs,
    ev_output _ (.inr rfl), ev_expert survey hs [] none true (.inl ⟨rfl, rfl, rfl⟩), circularCfg]

theorem footprint_ok (h : Python py rnd) (lc ca : List String) (survey : String) (hs : Config.Spec.IsRubin survey) :
    Config.readConfig py lc ca survey rubinFootprintSettings = .ok (footprintCfg rnd) := by
  simp only [Config.readConfig, Config.sect, rubinFootprintSettings]
  simp [Config.construct, Config.fieldsInput, Config.fieldsSimulation, Config.fieldsFilters, Config.fieldsSaturation, Config.fieldsPhasecurves,
    Config.fieldsFov, Config.fieldsFading, Config.fieldsLinking, Config.fieldsOutput, Config.fieldsLightcurve, Config.fieldsActivity,
    Config.fieldsExpert, bind, Except.bind, pure, Except.pure, Config.phasecurves, Config.model, Config.get, Config.need, Config.oneOf,
    ev_input _ _ _ (numbers h).i20000 (.inl rfl), ev_simulation h, ev_filters survey hs, ev_saturation h, ev_footprint h survey hs, ev_fading h survey hs, ev_linking h survey hs,
    ev_output _ (.inr rfl), ev_expert survey hs [] none true (.inl ⟨rfl, rfl, rfl⟩), circularCfg, footprintCfg]

theorem demo_ok (h : Python py rnd) (lc ca : List String) (survey : String) (hs : Config.Spec.IsRubin survey) :
    Config.readConfig py lc ca survey demoSettings = .ok (demoCfg rnd) := by
  simp only [Config.readConfig, Config.sect, demoSettings]
  simp [Config.construct, Config.fieldsInput, Config.fieldsSimulation, Config.fieldsFilters, Config.fieldsSaturation, Config.fieldsPhasecurves,
    Config.fieldsFov, Config.fieldsFading, Config.fieldsLinking, Config.fieldsOutput, Config.fieldsLightcurve, Config.fieldsActivity,
    Config.fieldsExpert, bind, Except.bind, pure, Except.pure, Config.phasecurves, Config.model, Config.get, Config.need, Config.oneOf,
    ev_input _ _ _ (numbers h).i5000 (.inr rfl), ev_simulation h, ev_filters survey hs, ev_saturation h, ev_footprint h survey hs, ev_fading h survey hs, ev_linking h survey hs,
    ev_output _ (.inl rfl), ev_expert survey hs [] none true (.inl ⟨rfl, rfl, rfl⟩), circularCfg, footprintCfg, demoCfg]

theorem known_ok (h : Python py rnd) (lc ca : List String) (survey : String) (hs : Config.Spec.IsRubin survey) :
    Config.readConfig py lc ca survey rubinKnownSettings = .ok (knownCfg rnd) := by
  simp only [Config.readConfig, Config.sect, rubinKnownSettings]
  simp [Config.construct, Config.fieldsInput, Config.fieldsSimulation, Config.fieldsFilters, Config.fieldsSaturation, Config.fieldsPhasecurves,
    Config.fieldsFov, Config.fieldsFading, Config.fieldsLinking, Config.fieldsOutput, Config.fieldsLightcurve, Config.fieldsActivity,
    Config.fieldsExpert, bind, Except.bind, pure, Except.pure, Config.phasecurves, Config.model, Config.get, Config.need, Config.oneOf,
    ev_input _ _ _ (numbers h).i20000 (.inl rfl), ev_simulation h, ev_filters survey hs, ev_no_saturation, ev_footprint h survey hs, ev_no_fading survey hs, ev_no_linking survey,
    ev_output _ (.inr rfl), ev_expert survey hs _ _ false (.inr ⟨rfl, rfl, rfl⟩), circularCfg, footprintCfg, knownCfg]

/-! ## DES -/

/-- The DES file with the name of one key corrected: `des_transient_efficency` instead of `self.des_transient_efficency`. -/
def desCorrected : List Line :=
  Data.des.map fun l => if l = chars! "self.des_transient_efficency = 0.95529" then chars! "des_transient_efficency = 0.95529" else l

/-- Its settings. -/
def desCorrectedSettings : Config.File :=
  desSettings.map fun s => if s.1 = "FADINGFUNCTION" then (s.1, [("fading_function_on", "True"), ("des_transient_efficency", "0.95529")]) else s

theorem load_desCorrected (h : Python py rnd) : load py.lower desCorrected = .ok desCorrectedSettings := by
  have hs : hasSettings desCorrected desCorrectedSettings = true := by decide +kernel
  exact load_template py rnd h _ _ hs

/-- The settings of the corrected file. -/
def desCfg (rnd : ℚ → ℚ) : Cfg :=
  { input := ⟨"ar", "csv", 20000, "csv", desQuery⟩
    simulation := some ⟨.fin (rnd (13 / 10)), .fin (rnd (2 / 10)), 1, "W84", 6, 101⟩
    filters := ["r", "g", "i", "z"]
    saturation := ⟨.bool true, some [.fin 16, .fin 16, .fin 16, .fin 16]⟩
    phase := "none"
    fov := .visits desVisitsQuery
    fading := .des (.fin (rnd (95529 / 100000)))
    linking := ⟨none, true, .bool true, .unset, none, .unset, none⟩
    output := ⟨"csv", .named "all", none, none⟩
    lightcurve := none
    activity := none
    expert := ⟨none, none, true, true, .bool false, .bool false, .bool false⟩ }

theorem lower_des (h : Python py rnd) (survey : String) (hs : Config.Spec.IsDes survey) : py.lower survey = "des" := by
  rcases hs with rfl | rfl
  · rw [h.lower _ (by unfold Ascii; decide +kernel)]; decide +kernel
  · rw [h.lower _ (by unfold Ascii; decide +kernel)]; decide +kernel

theorem castBool_true (k : String) : Config.castBool "True" k = .ok true := by
  have : Config.strip "True" = "True" := by decide +kernel
  simp [Config.castBool, this]

theorem desCorrected_ok (h : Python py rnd) (lc ca : List String) (survey : String) (hs : Config.Spec.IsDes survey) :
    Config.readConfig py lc ca survey desCorrectedSettings = .ok (desCfg rnd) := by
  have n := numbers h
  have f13 : py.toFloat "1.3" = some (.fin (rnd (13 / 10))) :=
    float_of h _ ['1'] ['3'] (by decide +kernel) (by simp) (by decide +kernel) _ (by decide +kernel)
  have f955 : py.toFloat "0.95529" = some (.fin (rnd (95529 / 100000))) :=
    float_of h _ ['0'] ['9', '5', '5', '2', '9'] (by decide +kernel) (by simp) (by decide +kernel) _ (by decide +kernel)
  have f02 := n.f02
  have f16 := n.f16
  have hl := lower_des h survey hs
  have e1 : Config.input py [("ephemerides_type", "ar"), ("eph_format", "csv"), ("size_serial_chunk", "20000"), ("aux_format", "csv"),
      ("pointing_sql_query", desQuery)] = .ok ⟨"ar", "csv", 20000, "csv", desQuery⟩ := by
    simp [Config.input, Config.need, Config.get, Config.oneOf, Config.castInt, bind, Except.bind, pure, Except.pure, n.i20000]
  have e2 : Config.simulation py (some "ar") [("ar_ang_fov", "1.3"), ("ar_fov_buffer", "0.2"), ("ar_picket", "1"), ("ar_obs_code", "W84"),
      ("ar_healpix_order", "6")] = .ok (some ⟨.fin (rnd (13 / 10)), .fin (rnd (2 / 10)), 1, "W84", 6, 101⟩) := by
    generalize rnd (13 / 10) = x at *
    generalize rnd (2 / 10) = y at *
    simp [Config.simulation, Config.need, Config.get, Config.oneOf, Config.castInt, Config.castInt?, Config.castFloat, bind, Except.bind, pure,
      Except.pure, f13, f02, n.i1, n.i6]
  have e3 : Config.filters (some survey) [("observing_filters", "r,g,i,z")] = .ok ["r", "g", "i", "z"] := by
    rcases hs with rfl | rfl <;> decide +kernel
  have e4 : Config.saturation py (some ["r", "g", "i", "z"]) [("bright_limit", "16.0")] =
      .ok ⟨.bool true, some [.fin 16, .fin 16, .fin 16, .fin 16]⟩ := by
    have : (Config.splitComma "16.0").map Config.strip = ["16.0"] := by decide +kernel
    simp [Config.saturation, Config.get, this, Config.allFloats, List.replicate, f16]
  have e5 : Config.fov py survey [("camera_model", "visits_footprint"), ("visits_query", desVisitsQuery)] = .ok (.visits desVisitsQuery) := by
    simp [Config.fov, Config.fovVisits, hl, Config.need, Config.get, Config.oneOf, Config.forbid, bind, Except.bind, pure, Except.pure]
  have hd : ["DES", "des"].contains survey = true := by rcases hs with rfl | rfl <;> decide
  have e6 : Config.fading py survey [("fading_function_on", "True"), ("des_transient_efficency", "0.95529")] =
      .ok (.des (.fin (rnd (95529 / 100000)))) := by
    generalize rnd (95529 / 100000) = x at *
    unfold Config.fading
    rw [if_pos hd]
    simp [Config.fadingDes, Config.need, Config.get, castBool_true, Config.castFloat?, Config.castFloat, Config.forbid, f955, bind, Except.bind,
      pure, Except.pure, Except.map]
  have e7 : Config.linking py survey [("des_discovery_on", "True")] = .ok ⟨none, true, .bool true, .unset, none, .unset, none⟩ := by
    simp [Config.linking, Config.sspVars, Config.get, Config.castBoolOr, castBool_true, hl, Config.Flag.ofRaw, Config.Flag.on, Config.cut,
      Config.stopIf, bind, Except.bind, pure, Except.pure, Except.map]
  have e8 : Config.output py [("output_format", "csv"), ("output_columns", "all")] = .ok ⟨"csv", .named "all", none, none⟩ := by
    have : "all".toList.contains ',' = false := by decide +kernel
    simp [Config.output, Config.get, Config.need, Config.oneOf, Config.castInt?, Config.stopIf, bind, Except.bind, pure, Except.pure, Except.map]
  have e9 : Config.expert py survey none [] = .ok ⟨none, none, true, true, .bool false, .bool false, .bool false⟩ := by
    have hr : Config.surveyOf survey = .des := by rcases hs with rfl | rfl <;> decide
    simp [Config.expert, Config.effects, hr, Config.get, Config.castFloat?, Config.castBoolOr, Config.stopIf, bind, Except.bind, pure, Except.pure]
  simp only [Config.readConfig, Config.sect, desCorrectedSettings, desSettings]
  simp [Config.construct, Config.fieldsInput, Config.fieldsSimulation, Config.fieldsFilters, Config.fieldsSaturation, Config.fieldsPhasecurves,
    Config.fieldsFov, Config.fieldsFading, Config.fieldsLinking, Config.fieldsOutput, Config.fieldsLightcurve, Config.fieldsActivity,
    Config.fieldsExpert, bind, Except.bind, pure, Except.pure, Config.phasecurves, Config.model, Config.get, Config.need, Config.oneOf,
    e1, e2, e3, e4, e5, e6, e7, e8, e9, desCfg]

/-! ## C74 -/

/-- The addresses of the auxiliary files if the file does not give any. -/
theorem aux_default : ∃ a, Inputs.auxiliary [] = .ok a := by
  cases h : Inputs.auxiliary [] with
  | ok a => exact ⟨a, rfl⟩
  | error e =>
    exfalso
    have : (match Inputs.auxiliary [] with
      | .ok _ => true
      | .error _ => false) = true := by decide +kernel
    rw [h] at this
    exact absurd this (by simp)

theorem configure_ok (lc ca : List String) (survey : String) (lines : List Line) (f : Config.File) (c : Cfg) (h1 : load py.lower lines = .ok f)
    (h2 : Config.readConfig py lc ca survey f = .ok c) (h3 : Config.sect f "AUXILIARY" = none) :
    ∃ a, Inputs.auxiliary [] = .ok a ∧ configure py lc ca survey lines = .ok (c, a) := by
  obtain ⟨a, ha⟩ := aux_default
  refine ⟨a, ha, ?_⟩
  unfold configure
  rw [h1]
  simp only [h2, h3, Option.getD_none]
  have : Config.construct fieldsAuxiliary [] [] = .ok () := by decide
  rw [this]
  simp only [ha]

/-- C74 (templates): the configuration files for Rubin that come with the package and the one of the demo are accepted for each of the names of the
survey, whatever light curve and activity models are installed, and mean what they say. -/
theorem C74_templates (h : Python py rnd) (lc ca : List String) (survey : String) (hs : Config.Spec.IsRubin survey) :
    ∃ a, Inputs.auxiliary [] = .ok a ∧
      configure py lc ca survey Data.rubinCircular = .ok (circularCfg rnd, a) ∧
      configure py lc ca survey Data.rubinFootprint = .ok (footprintCfg rnd, a) ∧
      configure py lc ca survey Data.rubinKnown = .ok (knownCfg rnd, a) ∧
      configure py lc ca survey Data.demo = .ok (demoCfg rnd, a) := by
  obtain ⟨a, ha, h1⟩ := configure_ok lc ca survey _ _ _ (load_circular py rnd h) (circular_ok h lc ca survey hs) (by decide +kernel)
  obtain ⟨a2, ha2, h2⟩ := configure_ok lc ca survey _ _ _ (load_footprint py rnd h) (footprint_ok h lc ca survey hs) (by decide +kernel)
  obtain ⟨a3, ha3, h3⟩ := configure_ok lc ca survey _ _ _ (load_known py rnd h) (known_ok h lc ca survey hs) (by decide +kernel)
  obtain ⟨a4, ha4, h4⟩ := configure_ok lc ca survey _ _ _ (load_demo py rnd h) (demo_ok h lc ca survey hs) (by decide +kernel)
  rw [ha] at ha2 ha3 ha4
  cases ha2
  cases ha3
  cases ha4
  exact ⟨a, ha, h1, h2, h3, h4⟩

/-- **C74 fails** for the DES file that comes with the package: it is rejected whatever the survey and the models, because of the key
`self.des_transient_efficency`. With the name of this one key corrected the file is accepted for DES. -/
theorem C74_des_fails (h : Python py rnd) (lc ca : List String) :
    (∀ survey r, configure py lc ca survey Data.des ≠ .ok r) ∧
      ∀ survey, Config.Spec.IsDes survey → ∃ a, configure py lc ca survey desCorrected = .ok (desCfg rnd, a) := by
  refine ⟨?_, ?_⟩
  · intro survey r hr
    unfold configure at hr
    rw [load_des py rnd h] at hr
    simp only at hr
    split at hr
    · cases hr
    · rename_i c hc
      simp only [Config.readConfig, Config.bind_ok] at hc
      obtain ⟨_, _, _, _, _, _, _, _, _, _, _, _, _, _, _, _, _, _, _, _, _, _, _, _, _, hf, _⟩ := hc
      have : Config.construct Config.fieldsFading ["survey_name"] ((Config.sect desSettings "FADINGFUNCTION").getD []) = .error .typeError := by
        decide +kernel
      rw [this] at hf
      cases hf
  · intro survey hs
    obtain ⟨a, -, ha⟩ := configure_ok lc ca survey _ _ _ (load_desCorrected h) (desCorrected_ok h lc ca survey hs) (by decide +kernel)
    exact ⟨a, ha⟩

/-- The file for the circular approximation with the name of one section in another case. -/
def misspelt : List Line := Data.rubinCircular.map fun l => if l = chars! "[LINKINGFILTER]" then chars! "[LinkingFilter]" else l

/-- **C74 fails** for sections whose name is not written exactly as expected: they are ignored without a message. Here the file for the circular
approximation with the section `[LinkingFilter]`: it is accepted, and the linking filter is off. -/
theorem C74_misspelt_fails (h : Python py rnd) (lc ca : List String) (survey : String) (hs : Config.Spec.IsRubin survey) :
    chars! "[LinkingFilter]" ∈ misspelt ∧
      ∃ c a, configure py lc ca survey misspelt = .ok (c, a) ∧ c.linking.ssp = none := by
  refine ⟨by decide +kernel, ?_⟩
  have hl : load py.lower misspelt = .ok (rubinCircularSettings.filter fun s => s.1 ≠ "LINKINGFILTER") := by
    have hs : hasSettings misspelt (rubinCircularSettings.filter fun s => s.1 ≠ "LINKINGFILTER") = true := by decide +kernel
    exact load_template py rnd h _ _ hs
  have hr : Config.readConfig py lc ca survey (rubinCircularSettings.filter fun s => s.1 ≠ "LINKINGFILTER") =
      .ok { circularCfg rnd with linking := ⟨none, true, .unset, .unset, none, .unset, none⟩ } := by
    simp only [Config.readConfig, Config.sect, rubinCircularSettings]
    simp [Config.construct, Config.fieldsInput, Config.fieldsSimulation, Config.fieldsFilters, Config.fieldsSaturation, Config.fieldsPhasecurves,
      Config.fieldsFov, Config.fieldsFading, Config.fieldsOutput, Config.fieldsLightcurve, Config.fieldsActivity,
      bind, Except.bind, pure, Except.pure, Config.phasecurves, Config.model, Config.get, Config.need, Config.oneOf,
      ev_input _ _ _ (numbers h).i20000 (.inl rfl), ev_simulation h, ev_filters survey hs, ev_saturation h, ev_circle h survey,
      ev_fading h survey hs, ev_no_linking survey, ev_output _ (.inr rfl), ev_expert survey hs [] none true (.inl ⟨rfl, rfl, rfl⟩), circularCfg]
  obtain ⟨a, -, ha⟩ := configure_ok lc ca survey _ _ _ hl hr (by decide +kernel)
  exact ⟨_, a, ha, rfl⟩

/-- **C74 fails** for comments after a value and for indented settings: both become part of the value without a message. The first text gives the
observatory code `X05  # Rubin`, the second one `X05` followed by a line break and the setting that was meant. -/
theorem C74_silent_fails (h : Python py rnd) :
    load py.lower [chars! "[SIMULATION]", chars! "ar_obs_code = X05  # Rubin"] = .ok [("SIMULATION", [("ar_obs_code", "X05  # Rubin")])] ∧
    load py.lower [chars! "[SIMULATION]", chars! "ar_obs_code = X05", chars! " ar_n_sub_intervals = 11"] =
      .ok [("SIMULATION", [("ar_obs_code", "X05\nar_n_sub_intervals = 11")])] := by
  have h1 : hasSettings [chars! "[SIMULATION]", chars! "ar_obs_code = X05  # Rubin"] [("SIMULATION", [("ar_obs_code", "X05  # Rubin")])] = true := by
    decide +kernel
  have h2 : hasSettings [chars! "[SIMULATION]", chars! "ar_obs_code = X05", chars! " ar_n_sub_intervals = 11"]
      [("SIMULATION", [("ar_obs_code", "X05\nar_n_sub_intervals = 11")])] = true := by
    decide +kernel
  exact ⟨load_template py rnd h _ _ h1, load_template py rnd h _ _ h2⟩

/-- **C74 fails** for a single per cent sign in a value, as in an SQL query with LIKE: the file is rejected. The sign has to be doubled. -/
theorem C74_percent_fails (h : Python py rnd) :
    load py.lower [chars! "[INPUT]", chars! "pointing_sql_query = SELECT * FROM t WHERE n LIKE 'a%'"] = .error .percent := by
  have hp : parse lowerAscii St.init [chars! "[INPUT]", chars! "pointing_sql_query = SELECT * FROM t WHERE n LIKE 'a%'"] =
      .ok ⟨[("DEFAULT", []), ("INPUT", [("pointing_sql_query", [chars! "SELECT * FROM t WHERE n LIKE 'a%'"])])], some "INPUT",
        some "pointing_sql_query", 0⟩ := by decide +kernel
  unfold load
  rw [parse_congr py.lower lowerAscii h.lower _ (by decide +kernel), hp]
  rfl

/-! ## The assumptions can be met -/

/-- A reader of plain numbers without rounding. -/
def plainPy : Config.Py where
  toInt s := some (value s.toList)
  toFloat s := some (.fin ((value (s.toList.takeWhile (· ≠ '.') ++ (s.toList.dropWhile (· ≠ '.')).tail) : ℚ) /
    10 ^ ((s.toList.dropWhile (· ≠ '.')).tail).length))
  lower := lowerAscii
  isFile _ := true

theorem plainPy_python : Python plainPy id where
  float := by
    rintro s q ⟨a, b, hs, -, ha, -, rfl⟩
    have hd : ∀ c ∈ a, decide (c ≠ '.') = true := by
      intro c hc
      rw [decide_eq_true_eq]
      rintro rfl
      exact absurd (ha _ hc).1 (by decide)
    have h1 : s.toList.takeWhile (· ≠ '.') = a := by
      rw [hs, List.takeWhile_append_of_pos hd]
      simp
    have h2 : s.toList.dropWhile (· ≠ '.') = '.' :: b := by
      rw [hs, List.dropWhile_append_of_pos hd]
      simp
    simp only [plainPy, h1, h2, List.tail_cons, id_eq]
  int := by
    rintro s n ⟨-, -, rfl⟩
    rfl
  lower := fun _ _ => rfl
  mono := monotone_id
  exact := fun _ _ => rfl

/-- The hypotheses of the theorems about the files that come with the package are met. -/
example : ∃ a, configure plainPy [] [] "LSST" Data.demo = .ok (demoCfg id, a) :=
  let ⟨a, _, _, _, _, h⟩ := C74_templates plainPy_python [] [] "LSST" (by unfold Config.Spec.IsRubin; tauto)
  ⟨a, h⟩

/-- A text in the sense of `C74_reads`: a comment, a section that means something with a value of two lines, and one that means nothing. -/
def sample : List Line :=
  [chars! "# settings", chars! "[FOV]", chars! "", chars! "Camera_Model = circle ", chars! "  #", chars! "visits: a", chars! "  100%%_b", chars! "", chars! "[Notes]"]

/-- A decidable form of white space, to check the sample. -/
theorem spaces_of (w : Line) (h : w.all (fun c => c = ' ' || c = '\t') = true) : Spaces w := by
  intro c hc
  have := List.all_eq_true.1 h c hc
  simp only [Bool.or_eq_true, decide_eq_true_eq] at this
  unfold Config.Spec.Space
  rcases this with rfl | rfl <;> decide

theorem trimmed_of (w : Line) (h : w.all (fun c => decide (33 ≤ c.toNat ∧ c.toNat ≤ 126)) = true) : Trimmed w := by
  have key : ∀ c ∈ w, ¬Config.Spec.Space c := by
    intro c hc hs
    have := List.all_eq_true.1 h c hc
    simp only [decide_eq_true_eq] at this
    unfold Config.Spec.Space at hs
    simp only [List.mem_cons, List.not_mem_nil, or_false] at hs
    omega
  refine ⟨fun c hc => key c (List.mem_of_mem_head? hc), fun c hc => key c (List.mem_of_getLast? hc)⟩

theorem meaning_plain (w : Line) (h : '%' ∉ w) : Meaning w w := by
  induction w with
  | nil => exact .nil
  | cons c r ih =>
    simp only [List.mem_cons, not_or] at h
    exact .char (fun e => h.1 e.symm) (ih h.2)

theorem sample_text : Text sample [(chars! "FOV", [(chars! "Camera_Model", chars! "circle"), (chars! "visits", chars! "a\n100%_b")]), (chars! "Notes", [])] := by
  have h1 : Body (chars! "Camera_Model = circle " :: [chars! "  #"] ++
      (chars! "visits: a" :: [chars! "  100%%_b", chars! ""] ++ [])) [(chars! "Camera_Model", chars! "circle"), (chars! "visits", chars! "a\n100%_b")] := by
    refine .setting (text := chars! "circle") (t := []) (raw := chars! "circle") (w := []) ?_ ?_ rfl (spaces_of _ rfl) (trimmed_of _ (by decide)).2
      (meaning_plain _ (by decide)) ?_
    · exact ⟨[' '], '=', [' '], [' '], rfl, spaces_of _ rfl, spaces_of _ rfl, spaces_of _ rfl, .inl rfl,
        ⟨trimmed_of _ (by decide), by decide, ⟨'C', rfl, by decide, by decide, by decide⟩⟩, trimmed_of _ (by decide)⟩
    · exact .comment ⟨[' ', ' '], '#', [], rfl, spaces_of _ rfl, .inl rfl⟩ .nil
    · refine .setting (text := ['a']) (t := chars! "\n100%%_b\n") (raw := chars! "a\n100%%_b") (w := ['\n']) ?_ ?_ rfl ?_ ?_ ?_ .nil
      · exact ⟨[], ':', [' '], [], rfl, spaces_of _ rfl, spaces_of _ rfl, spaces_of _ rfl, .inr rfl,
          ⟨trimmed_of _ (by decide), by decide, ⟨'v', rfl, by decide, by decide, by decide⟩⟩, trimmed_of _ (by decide)⟩
      · exact Tail.more (pad := [' ', ' ']) (x := chars! "100%%_b") (post := []) (spaces_of _ rfl) (by simp) (spaces_of _ rfl)
          (trimmed_of _ (by decide)) ⟨'1', rfl, by decide, by decide⟩ (.blank (spaces_of _ rfl) .nil)
      · intro c hc
        simp only [List.mem_singleton] at hc
        subst hc
        unfold Config.Spec.Space
        decide
      · intro c hc
        have : c = 'b' := by simpa using hc.symm
        subst this
        unfold Config.Spec.Space
        decide
      · exact .char (by decide) (.char (by decide) (.char (by decide) (.char (by decide) (.char (by decide) (.percent
          (.char (by decide) (.char (by decide) .nil)))))))
  refine ⟨⟨[chars! "# settings"], _, rfl, ?_, ?_⟩, ?_⟩
  · intro x hx
    simp only [List.mem_singleton] at hx
    subst hx
    exact .inr ⟨[], '#', _, rfl, spaces_of _ rfl, .inl rfl⟩
  · refine Sections.cons (l := chars! "[FOV]") (noise := [[]]) (rest := [chars! "[Notes]"]) ⟨[], rfl, spaces_of _ rfl, by simp, by decide⟩ ?_ h1 ?_
    · intro x hx
      simp only [List.mem_singleton] at hx
      subst hx
      exact .inl (spaces_of _ rfl)
    · exact Sections.cons (l := chars! "[Notes]") (noise := []) (ls := []) (rest := []) ⟨[], rfl, spaces_of _ rfl, by simp, by decide⟩ (by simp)
        .nil .nil
  · decide +kernel

/-- What the program sees of it: one section with two settings. -/
example : ∃ f, load lowerAscii sample = .ok f ∧ ("FOV", [("camera_model", "circle"), ("visits", "a\n100%_b")]) ∈ f ∧ ∀ s, ("Notes", s) ∉ f := by
  have hlow : ∀ s, s ≠ "" → lowerAscii s ≠ "" := by
    intro s hs h
    apply hs
    have := congrArg String.toList h
    unfold lowerAscii at this
    rw [String.toList_ofList] at this
    simpa using this
  obtain ⟨f, hf, h⟩ := C74_reads lowerAscii hlow sample _ sample_text ⟨by decide +kernel, by decide +kernel⟩
  refine ⟨f, hf, (h _ _).2 ⟨.fo, [(chars! "Camera_Model", chars! "circle"), (chars! "visits", chars! "a\n100%_b")], ?_, ?_⟩, fun s hs => ?_⟩
  · decide +kernel
  · decide +kernel
  · have := (sectionList_known _).2 ((h _ _).1 hs).1
    exact absurd this (by decide)

/-- A file is rejected if a key is repeated in another case. -/
example : ∃ e, load lowerAscii [chars! "[FOV]", chars! "a = 1", chars! "A = 2"] = .error e := ⟨.keyTwice, by decide +kernel⟩

end Sorcha.Ini.Props
