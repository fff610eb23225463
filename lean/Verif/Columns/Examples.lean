import Verif.Columns.Props

/-!
# Columns: what fails, and examples
-/

namespace Sorcha.Columns.Props
open Sorcha.Columns

/-! ## A run -/

def exCfg : Config.Cfg where
  input := ⟨"ar", "csv", 100, "csv", ""⟩
  simulation := none
  filters := ["r", "g"]
  saturation := ⟨.bool true, some [.fin 16, .fin 16]⟩
  phase := "HG"
  fov := .footprint none none
  fading := .on (.fin 0) (.fin 1)
  linking := ⟨some ⟨.fin 1, 2, .fin 1, .fin 1, 1, 15, .fin 16⟩, false, .unset, .unset, none, .unset, none⟩
  output := ⟨"sqlite3", .named "basic", none, none⟩
  lightcurve := some "sinusoidal"
  activity := none
  expert := ⟨none, some (.fin 24), true, false, .bool true, .bool true, .bool true⟩

/-- A light curve model with two parameters. -/
def exRun : Run := ⟨"r", some ⟨["LCA", "Period", "fieldMJD_TAI"], ["LCphase"]⟩, none, ["r", "g"]⟩

def exFiles : Files where
  ephemeris := none
  orbits := ["ObjID", "FORMAT", "a", "e", "inc", "node", "argPeri", "ma", "epochMJD_TDB"]
  params := ["ObjID", "H_r", "g-r", "GS"]
  complex := ["ObjID", "LCA", "Period"]
  pointing := RubinQuery ++ ["airmass"]

/-- The files of a DES run. -/
def exDesFiles : Files := { exFiles with pointing := DesQuery }

def exDesCfg : Config.Cfg :=
  { exCfg with
    fading := .des (.fin 1)
    fov := .visits "SELECT"
    linking := ⟨none, true, .bool true, .bool true, some (.fin 30, .fin (3/2)), .bool true, some (.fin 3, .fin (1/2))⟩
    output := ⟨"csv", .named "all", none, none⟩
    expert := ⟨none, some (.fin 24), false, false, .bool false, .bool false, .bool false⟩ }

theorem exAux (c : Config.Cfg) (hc : c.lightcurve = some "sinusoidal") (f : Files) : auxFiles c f = [f.orbits, f.params, f.complex] := by
  simp [auxFiles, hc]

theorem exDocumented (q : List String) (c : Config.Cfg) (f : Files) (hc : c.lightcurve = some "sinusoidal") (hf : c.filters = ["r", "g"]) (hp : c.phase = "HG")
    (he : f.ephemeris = none) (ho : f.orbits = exFiles.orbits) (hpar : f.params = exFiles.params) (hcx : f.complex = exFiles.complex) (hq : ∀ x ∈ q, x ∈ f.pointing) :
    Documented q c exRun f where
  ephemeris e h := by rw [he] at h; cases h
  ids := by rw [exAux c hc, ho, hpar, hcx]; decide +kernel
  query := hq
  main := by rw [hpar]; decide +kernel
  colour := by rw [hpar, hf]; decide +kernel
  phase := ⟨["GS"], by rw [hp]; exact .HG, .inl (by rw [hpar]; decide +kernel)⟩
  letters := ⟨by rw [hf]; intro b hb; rcases List.mem_cons.1 hb with rfl | hb
                 · exact ⟨'r', rfl⟩
                 · rw [List.mem_singleton] at hb; exact ⟨'g', hb⟩, by rw [hf]; decide +kernel, by rw [hf]; decide +kernel⟩
  addons := by
    rintro a (h | h) <;> cases h
    intro x hx
    simp only [List.mem_cons, List.not_mem_nil, or_false] at hx
    have hno : ∀ y : String, y.toList.head? ∉ [some 'G', some 'S'] → ∀ ps, PhaseNeeds c.phase ps → ∀ p ∈ ps, ∀ b ∈ c.filters, y ≠ p ++ b := by
      intro y hy ps hps p hp b hb e
      have hb' : ∃ ch, b = String.ofList [ch] := by
        rw [hf] at hb
        rcases List.mem_cons.1 hb with rfl | hb
        · exact ⟨'r', rfl⟩
        · rw [List.mem_singleton] at hb; exact ⟨'g', hb⟩
      exact hy (e ▸ (perFilter_name hps hp hb').1)
    rcases hx with rfl | rfl | rfl
    · exact .inr (.inl ⟨f.complex, by rw [exAux c hc]; simp, by rw [hcx]; decide +kernel, by decide +kernel, hno _ (by decide +kernel)⟩)
    · exact .inr (.inl ⟨f.complex, by rw [exAux c hc]; simp, by rw [hcx]; decide +kernel, by decide +kernel, hno _ (by decide +kernel)⟩)
    · exact .inl (by decide +kernel)

theorem exNoClash (c : Config.Cfg) (f : Files) (hc : c.lightcurve = some "sinusoidal") (ho : f.orbits = exFiles.orbits) (hpar : f.params = exFiles.params)
    (hcx : f.complex = exFiles.complex)
    (hv : ∀ x ∈ f.pointing, x ≠ "q" ∧ x ∉ EphemerisNames ∧ (x ∈ Computed → x ∈ ["fieldJD_TDB", "observationStartMJD_TAI", "observationMidpointMJD_TAI"]))
    (hap : ∀ a ∈ [exFiles.orbits, exFiles.params, exFiles.complex], ∀ x ∈ a, x ∈ f.pointing → x ∈ VisitsOnly) : NoClash c exRun f where
  files := by rw [exAux c hc, ho, hpar, hcx]; decide +kernel
  own := by rw [exAux c hc, ho, hpar, hcx]; decide +kernel
  visits := hv
  apart := by rw [exAux c hc, ho, hpar, hcx]; exact hap
  added := by
    rintro a (h | h) <;> cases h
    decide +kernel

/-- The hypotheses of the theorems about Rubin runs hold. -/
example : Documented RubinQuery exCfg exRun exFiles ∧ NoClash exCfg exRun exFiles ∧ exCfg.output.columns = .named "basic" :=
  ⟨exDocumented _ _ _ rfl rfl rfl rfl rfl rfl rfl (by decide +kernel), exNoClash _ _ rfl rfl rfl rfl (by decide +kernel) (by decide +kernel), rfl⟩

/-- The columns of the example. -/
example : rubin exCfg exRun exFiles = .ok (["ObjID", "FieldID", "fieldMJD_TAI", "fieldJD_TDB", "Range_LTC_km", "RangeRate_LTC_km_s", "RATrue_deg", "RARateCosDec_deg_day",
    "DecTrue_deg", "DecRate_deg_day", "Obj_Sun_x_LTC_km", "Obj_Sun_y_LTC_km", "Obj_Sun_z_LTC_km", "Obj_Sun_vx_LTC_km_s", "Obj_Sun_vy_LTC_km_s", "Obj_Sun_vz_LTC_km_s",
    "Obs_Sun_x_km", "Obs_Sun_y_km", "Obs_Sun_z_km", "Obs_Sun_vx_km_s", "Obs_Sun_vy_km_s", "Obs_Sun_vz_km_s", "phase_deg", "FORMAT", "a", "e", "inc", "node", "argPeri", "ma",
    "epochMJD_TDB", "H_filter", "GS", "LCA", "Period", "q", "visitTime", "visitExposureTime", "optFilter", "seeingFwhmGeom_arcsec", "seeingFwhmEff_arcsec",
    "fieldFiveSigmaDepth_mag", "fieldRA_deg", "fieldDec_deg", "fieldRotSkyPos_deg", "airmass", "H_r", "trailedSourceMagTrue", "LCphase", "Delta_m", "PSFMagTrue",
    "fiveSigmaDepth_mag", "astrometricSigma_deg", "SNRTrailedSourceMag", "trailedSourceMagSigma", "SNRPSFMag", "PSFMagSigma", "trailedSourceMag", "PSFMag", "RA_deg",
    "Dec_deg", "detectorID", "object_linked", "date_linked_MJD"]) := by decide +kernel

/-- The hypotheses of the theorem about DES runs hold. -/
example : Documented DesQuery exDesCfg exRun exDesFiles ∧ NoClash exDesCfg exRun exDesFiles ∧ exDesCfg.expert.trailing.on = false ∧
    exDesCfg.expert.randomization.on = false ∧ exDesCfg.expert.snrLimit = none :=
  ⟨exDocumented _ _ _ rfl rfl rfl rfl rfl rfl rfl (by decide +kernel), exNoClash _ _ rfl rfl rfl rfl (by decide +kernel) (by decide +kernel), by decide +kernel,
    by decide +kernel, rfl⟩

/-- Two chunks of a run: the objects of one were observed in one filter only. -/
example : (rubin exCfg exRun exFiles).toBool = true ∧ (rubin exCfg { exRun with present := ["g"] } exFiles).toBool = true := by decide +kernel

/-- A list of columns that can be written, and one that cannot. -/
example : (rubin exCfg exRun exFiles).bind (written { exCfg with output := ⟨"csv", .listed ["ObjID", "H_r", "airmass"], none, none⟩ }) = .ok ["ObjID", "H_r", "airmass"] ∧
    (rubin exCfg exRun exFiles).bind (written { exCfg with output := ⟨"csv", .listed ["ObjID", "g-r"], none, none⟩ }) = .error (.output .badColumns) := by decide +kernel

/-! ## What fails -/

variable {c : Config.Cfg} {r : Run} {f : Files}

/-- C64 fails for DES runs with the basic columns: these have uncertainties, which a DES run does not compute. No such run gets past its first output. -/
theorem C64_des_basic_fails (hd : Documented DesQuery c r f) (nc : NoClash c r f) (ht : c.expert.trailing.on = false) (hr : c.expert.randomization.on = false)
    (hs : c.expert.snrLimit = none) (hb : c.output.columns = .named "basic") : (des c r f).bind (written c) = .error (.output .keyError) := by
  obtain ⟨cs, h1, h2, -⟩ := C64_des hd nc ht hr hs
  rw [h1]
  change written c cs = _
  have hE : ∀ x ∈ EphemerisNames, x ∈ cs := fun x hx => (h2 x).2 (.ephemeris x hx)
  rw [written_eq (fun x hx => hE x ((by decide +kernel : ∀ y ∈ ["Obj_Sun_x_LTC_km", "Obj_Sun_y_LTC_km", "Obj_Sun_z_LTC_km"], y ∈ EphemerisNames) x hx)), hb]
  have hcol : columnsOf (.named "basic") = .basic := by simp [columnsOf]
  have hno : "astrometricSigma_deg" ∉ put cs "Obj_Sun_LTC_km" := by
    rw [mem_put, h2, common_iff (base_magCol true hd nc) hd.letters.1]
    rintro ((h | h) | h)
    · exact absurd ((base_magCol true hd nc).own _ h (by decide +kernel)) (by decide +kernel)
    · rcases List.mem_append.1 h with h | h
      · exact absurd h (by decide +kernel)
      · cases hc : c.fov <;> rw [hc] at h <;> simp [cameraCols] at h
    · exact absurd h (by decide +kernel)
  have hsel : Output.Frame.select ⟨put cs "Obj_Sun_LTC_km", []⟩ Output.basicColumns .keyError = .error .keyError := by
    unfold Output.Frame.select
    rw [if_neg]
    rw [List.all_eq_true]
    intro h
    have := h "astrometricSigma_deg" (by decide +kernel)
    exact hno (by simpa using this)
  rw [hcol]
  simp only [Output.selectColumns, hsel, bind, Except.bind]

/-- C64 fails for DES runs with a limit of the signal-to-noise ratio: it is not computed, and the run stops as soon as observations are left at this point. -/
theorem C64_des_snr_fails (hd : Documented DesQuery c r f) (nc : NoClash c r f) (ht : c.expert.trailing.on = false) (hr : c.expert.randomization.on = false)
    (hs : c.expert.snrLimit.isSome = true) : des c r f = .error (.key "SNRPSFMag") := by
  obtain ⟨db, d1, d2, d3⟩ := visits_ok (c := c) (r := r) true hd.query nc
  obtain ⟨o, o1, o2, o3⟩ := observations_ok hd nc (db := db) ((d2 _).2 (.inr (.inl (by decide +kernel))))
    ((d2 _).2 (.inl ⟨hd.query _ (by decide +kernel), by decide +kernel, by decide +kernel⟩))
  obtain ⟨m, m1, m2, m3⟩ := matchVisits_ok nc d2 o2
  obtain ⟨g, g1, g2, g3⟩ := magnitudes_ok hd nc m2
  have hP := base_magCol true hd nc
  obtain ⟨t, t1, t2, t3⟩ := trailing_ok (c := c) (L := []) hP (fun h => absurd h (by simp [ht])) (by simpa using g2)
  obtain ⟨p, p1, p2, p3⟩ := depth_ok (c := c) hP (by decide +kernel) t2
  obtain ⟨v, v1, v2, v3⟩ := randomize_ok (c := c) hP (by decide +kernel) (fun h => absurd h (by simp [hr])) (by decide +kernel) p2
  obtain ⟨w, w1, w2, w3⟩ := fieldOfView_ok (c := c) hP (by decide +kernel) (by decide +kernel) v2
  have hno : "SNRPSFMag" ∉ w := by
    rw [w2]
    rintro (h | h)
    · exact absurd (hP.own _ h (by decide +kernel)) (by decide +kernel)
    · rcases List.mem_append.1 h with h | h
      · exact absurd h (by decide +kernel)
      · cases hc : c.fov <;> rw [hc] at h <;> simp [cameraCols] at h
  have hcut : cuts c w = .error (.key "SNRPSFMag") := by
    unfold cuts step need
    rw [if_pos hs, List.singleton_append, List.find?_cons_of_pos (by simpa using hno)]
    rfl
  unfold des
  simp only [bind, Except.bind, d1, o1, m1, g1, t1, p1, v1, w1, hcut]

/-- C64 fails for phase parameters of each filter if there is one filter only: with two filters they are accepted, with one the column without the filter is read. -/
theorem C64_single_filter_fails :
    (rubin exCfg exRun { exFiles with params := ["ObjID", "H_r", "g-r", "GSr", "GSg"] }).toBool = true ∧
    rubin { exCfg with filters := ["r"] } { exRun with present := ["r"] } { exFiles with params := ["ObjID", "H_r", "GSr"] } = .error (.key "GS") := by decide +kernel

/-- C64 fails for phase parameters of each filter in a chunk whose ephemerides have no visit in the filters of the run: `apply` on a table without rows does not give a
column. With parameters for all filters such a chunk is passed over. -/
theorem C64_empty_fails :
    rubin exCfg { exRun with present := [] } { exFiles with params := ["ObjID", "H_r", "g-r", "GSr", "GSg"] } = .error .emptyApply ∧
    (rubin exCfg { exRun with present := [] } exFiles).toBool = true := by decide +kernel

/-- C64 fails if the first filter is not the filter of H and its colour is missing (which is not noticed at the start): chunks without an observation in it are processed,
the run stops with the first chunk that has one. -/
theorem C64_first_filter_fails :
    let c := { exCfg with filters := ["g", "r"], expert := { exCfg.expert with bruteForce := true } }
    let f := { exFiles with params := ["ObjID", "H_r", "r-r", "GS"] }
    (rubin c { exRun with present := ["r"] } f).toBool = true ∧ rubin c { exRun with present := ["r", "g"] } f = .error .noColour := by decide +kernel

/-- C64 fails if an auxiliary file has a column with the name of a column of the visits: both are renamed, and the limiting magnitude is not found. -/
theorem C64_collision_fails :
    rubin exCfg exRun { exFiles with params := ["ObjID", "H_r", "g-r", "GS", "fieldFiveSigmaDepth_mag"] } = .error (.key "fieldFiveSigmaDepth_mag") := by decide +kernel

/-- C64 fails for a database with a list of columns without `optFilter`: the run stops at its end, when the indices are made. -/
theorem C64_index_fails :
    let c := { exCfg with output := ⟨"sqlite3", .listed ["ObjID", "fieldMJD_TAI", "RA_deg", "Dec_deg"], none, none⟩ }
    (rubin c exRun exFiles).bind (written c) = .ok ["ObjID", "fieldMJD_TAI", "RA_deg", "Dec_deg"] ∧
    ((rubin c exRun exFiles).bind (written c)).bind (index c) = .error .noIndex := by decide +kernel

end Sorcha.Columns.Props
