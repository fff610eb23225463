import Verif.Columns.Rest
import Verif.Output.Spec

/-!
# Properties of the columns of a run
-/

namespace Sorcha.Columns.Props
open Sorcha.Columns

variable {c : Config.Cfg} {r : Run} {f : Files}

theorem common_iff {x : String} (h : Base q (MagCol c r f)) (hl : ∀ b ∈ c.filters, ∃ ch, b = String.ofList [ch]) : Common c r f x ↔
    MagCol c r f x ∨ x ∈ (["PSFMagTrue", "fiveSigmaDepth_mag"] ++ ["RATrue_deg", "DecTrue_deg", "trailedSourceMag", "PSFMag"]) ++ cameraCols c.fov := by
  constructor
  · intro hx
    cases hx with
    | ephemeris _ hx => exact .inl (h.ephemeris _ hx)
    | date he => exact .inl (.inl (.inl ⟨.inl (.inr (.inl ⟨he, rfl⟩)), plain_not_removed hl (others_plain _ (by decide +kernel))⟩))
    | perihelion he hb => exact .inl (.inl (.inl ⟨.inl (.inr (.inr (.inl ⟨he, hb, rfl⟩))), plain_not_removed hl (others_plain _ (by decide +kernel))⟩))
    | aux a _ ha hx hn => exact .inl (.inl (.inl ⟨.inl (.inr (.inr (.inr ⟨a, ha, hx⟩))), hn⟩))
    | visit _ h1 h2 h3 hn => exact .inl (.inl (.inl ⟨.inr (.inr ⟨h1, h2, h3⟩), hn⟩))
    | phase ps _ h1 h2 h3 h4 => exact .inl (.inl (.inr (.inl ⟨h1, h2, ps, h3, h4⟩)))
    | lightcurve a ha => exact .inl (.inr (.inr (.inl ⟨a, ha, .inr rfl⟩)))
    | added a _ ha hx =>
      rcases ha with ha | ha
      · exact .inl (.inr (.inr (.inl ⟨a, ha, .inl hx⟩)))
      · exact .inl (.inr (.inr (.inr ⟨a, ha, hx⟩)))
    | computed _ hx =>
      have hd : ∀ y ∈ ["optFilter", "H_filter", "trailedSourceMagTrue", "PSFMagTrue", "fiveSigmaDepth_mag", "RATrue_deg", "DecTrue_deg", "trailedSourceMag", "PSFMag"],
        y ∈ ["optFilter", "H_filter", "trailedSourceMagTrue"] ∨
          y ∈ ["PSFMagTrue", "fiveSigmaDepth_mag"] ++ ["RATrue_deg", "DecTrue_deg", "trailedSourceMag", "PSFMag"] := by decide +kernel
      rcases hd x hx with h' | h'
      · exact .inl (h.made _ h')
      · exact .inr (List.mem_append_left _ h')
    | detector h1 h2 =>
      right
      apply List.mem_append_right
      cases hc : c.fov with
      | footprint _ _ => simp [cameraCols]
      | visits _ => simp [cameraCols]
      | circle q rad => exact absurd hc (h1 q rad)
      | none => exact absurd hc h2
    | perChip s h1 =>
      right
      apply List.mem_append_right
      rw [h1]; simp [cameraCols]
  · rintro (hx | hx)
    · rcases hx with (⟨h1, hn⟩ | ⟨h1, h2, ps, h3, h4⟩ | rfl) | rfl | ⟨a, ha, hx | rfl⟩ | ⟨a, ha, hx⟩
      · rcases h1 with (h1 | ⟨he, rfl⟩ | ⟨he, hb, rfl⟩ | ⟨a, ha, hx⟩) | rfl | ⟨p1, p2, p3⟩
        · exact .ephemeris _ h1
        · exact .date he
        · exact .perihelion he hb
        · exact .aux a _ ha hx hn
        · exact .computed _ (by decide +kernel)
        · exact .visit _ p1 p2 p3 hn
      · exact .phase ps _ h1 h2 h3 h4
      · exact .computed _ (by decide +kernel)
      · exact .computed _ (by decide +kernel)
      · exact .added a _ (.inl ha) hx
      · exact .lightcurve a ha
      · exact .added a _ (.inr ha) hx
    · rcases List.mem_append.1 hx with hx | hx
      · exact .computed _ ((by decide +kernel : ∀ y ∈ ["PSFMagTrue", "fiveSigmaDepth_mag"] ++ ["RATrue_deg", "DecTrue_deg", "trailedSourceMag", "PSFMag"],
          y ∈ ["optFilter", "H_filter", "trailedSourceMagTrue", "PSFMagTrue", "fiveSigmaDepth_mag", "RATrue_deg", "DecTrue_deg", "trailedSourceMag", "PSFMag"]) x hx)
      · cases hc : c.fov with
        | footprint a b =>
          rw [hc] at hx
          simp only [cameraCols, List.mem_singleton] at hx
          subst hx
          exact .detector (by rw [hc]; simp) (by rw [hc]; simp)
        | visits s =>
          rw [hc] at hx
          simp only [cameraCols, List.mem_cons, List.not_mem_nil, or_false] at hx
          rcases hx with rfl | rfl
          · exact .detector (by rw [hc]; simp) (by rw [hc]; simp)
          · exact .perChip s hc
        | circle q rad => rw [hc] at hx; simp [cameraCols] at hx
        | none => rw [hc] at hx; simp [cameraCols] at hx

theorem arrange {Q : Prop} {x : String} {b : Bool} {A B C D E : List String} :
    (Q ∨ x ∈ (((A ++ B) ++ C) ++ D) ++ if b then E else []) ↔ (Q ∨ x ∈ (A ++ C) ++ D) ∨ x ∈ B ∨ b = true ∧ x ∈ E := by
  cases b <;> simp only [List.mem_append, Bool.false_eq_true, if_false, if_true, List.not_mem_nil, false_and, true_and, or_false] <;> tauto

/-- C64: with input as documented and without clashes of names, no chunk of a Rubin run stops because of a column, and the columns handed over for output are exactly those
of `RubinColumn`; none comes twice if none does in a file. -/
theorem C64_rubin (hd : Documented RubinQuery c r f) (nc : NoClash c r f) :
    ∃ cs, rubin c r f = .ok cs ∧ (∀ x, x ∈ cs ↔ RubinColumn c r f x) ∧ ((∀ a ∈ auxFiles c f, a.Nodup) → f.pointing.Nodup → cs.Nodup) := by
  obtain ⟨db, d1, d2, d3⟩ := visits_ok (c := c) (r := r) false hd.query nc
  obtain ⟨o, o1, o2, o3⟩ := observations_ok hd nc (db := db) ((d2 _).2 (.inr (.inl (by decide +kernel))))
    ((d2 _).2 (.inl ⟨hd.query _ (by decide +kernel), by decide +kernel, by decide +kernel⟩))
  obtain ⟨m, m1, m2, m3⟩ := matchVisits_ok nc d2 o2
  obtain ⟨g, g1, g2, g3⟩ := magnitudes_ok hd nc m2
  have hP := base_magCol false hd nc
  obtain ⟨t, t1, t2, t3⟩ := trailing_ok (c := c) (L := []) hP (fun _ => by decide +kernel) (by simpa using g2)
  obtain ⟨p, p1, p2, p3⟩ := depth_ok (c := c) hP (by decide +kernel) t2
  obtain ⟨u, u1, u2, u3⟩ := uncertainties_ok (c := c) hP p2
  obtain ⟨v, v1, v2, v3⟩ := randomize_ok (c := c) hP (by decide +kernel) (fun _ => by decide +kernel) (by decide +kernel) u2
  obtain ⟨w, w1, w2, w3⟩ := fieldOfView_ok (c := c) hP (by decide +kernel) (by decide +kernel) v2
  have hcam : ∀ y ∈ cameraCols c.fov, y = "detectorID" ∨ y = "limMag_perChip" := by
    intro y hy; cases hc : c.fov <;> rw [hc] at hy <;> simp [cameraCols] at hy <;> tauto
  have hnot : ∀ y, y ≠ "detectorID" → y ≠ "limMag_perChip" → ∀ l : List String, y ∉ l → y ∉ l ++ cameraCols c.fov := by
    intro y h1 h2 l hl hy
    rcases List.mem_append.1 hy with h | h
    · exact hl h
    · rcases hcam y h with h | h
      · exact h1 h
      · exact h2 h
  obtain ⟨k, k1, k2, k3⟩ := cuts_ok (c := c) w2 (fun _ => List.mem_append_left _ (by decide +kernel)) (List.mem_append_left _ (by decide +kernel))
  obtain ⟨n, n1, n2, n3⟩ := fade_ok (c := c) false hP k2 (List.mem_append_left _ (by decide +kernel)) (List.mem_append_left _ (by decide +kernel))
    (hnot _ (by decide +kernel) (by decide +kernel) _ (by decide +kernel)) (by simp)
  obtain ⟨b, b1, b2, b3⟩ := bright_ok (c := c) hP n2 (List.mem_append_left _ (by decide +kernel))
  obtain ⟨z, z1, z2, z3⟩ := link_ok (c := c) hP b2 (hnot _ (by decide +kernel) (by decide +kernel) _ (by decide +kernel))
  refine ⟨z, ?_, ?_, ?_⟩
  · unfold rubin
    simp only [bind, Except.bind, d1, o1, m1, g1, t1, p1, u1, v1, w1, k1, n1, b1, z1]
  · intro x
    rw [z2]
    unfold RubinColumn
    rw [common_iff hP hd.letters.1]
    exact arrange
  · intro h1 h2
    exact z3 (b3 (n3 (k3 (w3 (v3 (u3 (p3 (t3 (g3 (m3 (d3 h2) (o3 h1)))))))))))

/-- C64 (DES): the same for a DES run with trailing losses, vignetting and randomisation off, as they have to be, and without a signal-to-noise limit. No uncertainties are
there. -/
theorem C64_des (hd : Documented DesQuery c r f) (nc : NoClash c r f) (ht : c.expert.trailing.on = false) (hr : c.expert.randomization.on = false)
    (hs : c.expert.snrLimit = none) :
    ∃ cs, des c r f = .ok cs ∧ (∀ x, x ∈ cs ↔ Common c r f x) ∧ ((∀ a ∈ auxFiles c f, a.Nodup) → f.pointing.Nodup → cs.Nodup) := by
  obtain ⟨db, d1, d2, d3⟩ := visits_ok (c := c) (r := r) true hd.query nc
  obtain ⟨o, o1, o2, o3⟩ := observations_ok hd nc (db := db) ((d2 _).2 (.inr (.inl (by decide +kernel))))
    ((d2 _).2 (.inl ⟨hd.query _ (by decide +kernel), by decide +kernel, by decide +kernel⟩))
  obtain ⟨m, m1, m2, m3⟩ := matchVisits_ok nc d2 o2
  obtain ⟨g, g1, g2, g3⟩ := magnitudes_ok hd nc m2
  have hP := base_magCol true hd nc
  obtain ⟨t, t1, t2, t3⟩ := trailing_ok (c := c) (L := []) hP (fun h => absurd h (by simp [ht])) (by simpa using g2)
  obtain ⟨p, p1, p2, p3⟩ := depth_ok (c := c) hP (by decide +kernel) t2
  obtain ⟨v, v1, v2, v3⟩ := randomize_ok (c := c) hP (by decide +kernel) (fun h => absurd h (by simp [hr])) (by decide +kernel) p2
  obtain ⟨w, w1, w2, w3⟩ := fieldOfView_ok (c := c) hP (by decide +kernel) (by decide +kernel) v2
  have hcam : ∀ y ∈ cameraCols c.fov, y = "detectorID" ∨ y = "limMag_perChip" := by
    intro y hy; cases hc : c.fov <;> rw [hc] at hy <;> simp [cameraCols] at hy <;> tauto
  have hnot : ∀ y, y ≠ "detectorID" → y ≠ "limMag_perChip" → ∀ l : List String, y ∉ l → y ∉ l ++ cameraCols c.fov := by
    intro y h1 h2 l hl hy
    rcases List.mem_append.1 hy with h | h
    · exact hl h
    · rcases hcam y h with h | h
      · exact h1 h
      · exact h2 h
  obtain ⟨k, k1, k2, k3⟩ := cuts_ok (c := c) w2 (fun h => absurd h (by simp [hs])) (List.mem_append_left _ (by decide +kernel))
  obtain ⟨n, n1, n2, n3⟩ := fade_ok (c := c) true hP k2 (List.mem_append_left _ (by decide +kernel)) (List.mem_append_left _ (by decide +kernel))
    (hnot _ (by decide +kernel) (by decide +kernel) _ (by decide +kernel)) (fun _ => by decide +kernel)
  obtain ⟨b, b1, b2, b3⟩ := bright_ok (c := c) hP n2 (List.mem_append_left _ (by decide +kernel))
  obtain ⟨z, z1, z2, z3⟩ := discover_ok (c := c) hP b2
  refine ⟨z, ?_, ?_, ?_⟩
  · unfold des
    simp only [bind, Except.bind, d1, o1, m1, g1, t1, p1, v1, w1, k1, n1, b1, z1]
  · intro x
    rw [z2, common_iff hP hd.letters.1]
    exact Iff.rfl
  · intro h1 h2
    exact z3 (b3 (n3 (k3 (w3 (v3 (p3 (t3 (g3 (m3 (d3 h2) (o3 h1))))))))))

/-! ## What is written -/

theorem written_eq {cs : Cols} (h : ∀ x ∈ ["Obj_Sun_x_LTC_km", "Obj_Sun_y_LTC_km", "Obj_Sun_z_LTC_km"], x ∈ cs) :
    written c cs = match Output.selectColumns (columnsOf c.output.columns) (c.linking.ssp.isSome && !c.linking.dropUnlinked) ⟨put cs "Obj_Sun_LTC_km", []⟩ with
      | .error e => .error (.output e)
      | .ok g => .ok g.cols := by
  unfold written; rw [need_ok h]; rfl

/-- C64 (basic columns): a Rubin run with the basic columns writes exactly these, and whether the object was linked if unlinked objects are kept. -/
theorem C64_basic (hd : Documented RubinQuery c r f) (nc : NoClash c r f) (hb : c.output.columns = .named "basic") :
    (rubin c r f).bind (written c) = .ok (Output.Spec.basic ++ if c.linking.ssp.isSome ∧ c.linking.dropUnlinked = false then ["object_linked"] else []) := by
  obtain ⟨cs, h1, h2, -⟩ := C64_rubin hd nc
  rw [h1]
  change written c cs = _
  have hE : ∀ x ∈ EphemerisNames, x ∈ cs := fun x hx => (h2 x).2 (.inl (.ephemeris x hx))
  rw [written_eq (fun x hx => hE x ((by decide +kernel : ∀ y ∈ ["Obj_Sun_x_LTC_km", "Obj_Sun_y_LTC_km", "Obj_Sun_z_LTC_km"], y ∈ EphemerisNames) x hx)), hb]
  have hbasic : ∀ x ∈ Output.Spec.basic, x ∈ put cs "Obj_Sun_LTC_km" := by
    have hcases : ∀ y ∈ Output.Spec.basic, y ∈ EphemerisNames ∨ y = "Obj_Sun_LTC_km" ∨ y ∈ ["fieldRA_deg", "fieldDec_deg"] ∨
        y ∈ ["optFilter", "H_filter", "trailedSourceMagTrue", "PSFMagTrue", "fiveSigmaDepth_mag", "RATrue_deg", "DecTrue_deg", "trailedSourceMag", "PSFMag"] ∨
        y ∈ ["astrometricSigma_deg", "SNRTrailedSourceMag", "trailedSourceMagSigma", "SNRPSFMag", "PSFMagSigma"] := by decide +kernel
    intro x hx
    rw [mem_put, h2]
    rcases hcases x hx with h | h | h | h | h
    · exact .inl (.inl (.ephemeris x h))
    · exact .inr h
    · refine .inl (.inl (.visit x (hd.query _ ((by decide +kernel : ∀ y ∈ ["fieldRA_deg", "fieldDec_deg"], y ∈ RubinQuery) x h))
        ((by decide +kernel : ∀ y ∈ ["fieldRA_deg", "fieldDec_deg"], y ∉ VisitsOnly) x h)
        ((by decide +kernel : ∀ y ∈ ["fieldRA_deg", "fieldDec_deg"], y ∉ ["observationId", "filter", "observationStartMJD_TAI", "observationMidpointMJD_TAI"]) x h)
        (plain_not_removed hd.letters.1 ((by decide +kernel : ∀ y ∈ ["fieldRA_deg", "fieldDec_deg"], Plain y) x h))))
    · exact .inl (.inl (.computed x h))
    · exact .inl (.inr (.inl h))
  have hsel : Output.Frame.select ⟨put cs "Obj_Sun_LTC_km", []⟩ Output.basicColumns .keyError = .ok ⟨Output.Spec.basic, []⟩ := by
    have he : Output.basicColumns = Output.Spec.basic := by decide +kernel
    unfold Output.Frame.select
    rw [he, if_pos]
    rw [List.all_eq_true]; intro x hx; simpa using hbasic x hx
  have hcol : columnsOf (.named "basic") = .basic := by simp [columnsOf]
  rw [hcol]
  simp only [Output.selectColumns, hsel, bind, Except.bind]
  by_cases hk : c.linking.ssp.isSome = true ∧ c.linking.dropUnlinked = false
  · have hk' : (c.linking.ssp.isSome && !c.linking.dropUnlinked) = true := by simp [hk.1, hk.2]
    have hin : (put cs "Obj_Sun_LTC_km").contains "object_linked" = true := by
      have : "object_linked" ∈ put cs "Obj_Sun_LTC_km" := by
        rw [mem_put, h2]; exact .inl (.inr (.inr ⟨hk.1, by decide +kernel⟩))
      simpa using this
    simp only [hk', if_true, hin, if_pos hk]
    rfl
  · have hk' : (c.linking.ssp.isSome && !c.linking.dropUnlinked) = false := by
      cases h : c.linking.ssp.isSome <;> cases h' : c.linking.dropUnlinked <;> simp_all
    simp only [hk', Bool.false_eq_true, if_false, if_neg hk, List.append_nil]

/-- C64 (all columns): with all columns the columns are those of the run and the heliocentric distance, in this order. -/
theorem C64_all (hd : Documented RubinQuery c r f) (nc : NoClash c r f) (hb : c.output.columns = .named "all") :
    ∃ cs, rubin c r f = .ok cs ∧ written c cs = .ok (cs ++ ["Obj_Sun_LTC_km"]) ∧ ∀ x, x ∈ cs ↔ RubinColumn c r f x := by
  obtain ⟨cs, h1, h2, -⟩ := C64_rubin hd nc
  refine ⟨cs, h1, ?_, h2⟩
  have hE : ∀ x ∈ EphemerisNames, x ∈ cs := fun x hx => (h2 x).2 (.inl (.ephemeris x hx))
  rw [written_eq (fun x hx => hE x ((by decide +kernel : ∀ y ∈ ["Obj_Sun_x_LTC_km", "Obj_Sun_y_LTC_km", "Obj_Sun_z_LTC_km"], y ∈ EphemerisNames) x hx)), hb]
  have hcol : columnsOf (.named "all") = .all := by simp [columnsOf]
  have hno : "Obj_Sun_LTC_km" ∉ cs := by
    rw [h2]
    unfold RubinColumn
    rw [common_iff (base_magCol false hd nc) hd.letters.1]
    rintro ((h | h) | h | ⟨-, h⟩)
    · exact absurd ((base_magCol false hd nc).own _ h (by decide +kernel)) (by decide +kernel)
    · rcases List.mem_append.1 h with h | h
      · exact absurd h (by decide +kernel)
      · cases hc : c.fov <;> rw [hc] at h <;> simp [cameraCols] at h
    · exact absurd h (by decide +kernel)
    · exact absurd h (by decide +kernel)
  rw [hcol]
  simp only [Output.selectColumns, put, if_neg hno]

/-- C64 (a list of columns): it is written as it is if all of its columns are there; otherwise the run stops with the message that a column does not exist. -/
theorem C64_listed (hd : Documented RubinQuery c r f) (nc : NoClash c r f) {l : List String} (hl : 1 < l.length) (hb : c.output.columns = .listed l) :
    ((rubin c r f).bind (written c) = .ok l ↔ ∀ x ∈ l, RubinColumn c r f x ∨ x = "Obj_Sun_LTC_km") ∧
    ((rubin c r f).bind (written c) = .error (.output .badColumns) ↔ ∃ x ∈ l, ¬ RubinColumn c r f x ∧ x ≠ "Obj_Sun_LTC_km") := by
  obtain ⟨cs, h1, h2, -⟩ := C64_rubin hd nc
  rw [h1]
  change (written c cs = _ ↔ _) ∧ (written c cs = _ ↔ _)
  have hE : ∀ x ∈ EphemerisNames, x ∈ cs := fun x hx => (h2 x).2 (.inl (.ephemeris x hx))
  rw [written_eq (fun x hx => hE x ((by decide +kernel : ∀ y ∈ ["Obj_Sun_x_LTC_km", "Obj_Sun_y_LTC_km", "Obj_Sun_z_LTC_km"], y ∈ EphemerisNames) x hx)), hb]
  have hmem : ∀ x, x ∈ put cs "Obj_Sun_LTC_km" ↔ RubinColumn c r f x ∨ x = "Obj_Sun_LTC_km" := by intro x; rw [mem_put, h2]
  simp only [columnsOf, Output.selectColumns, hl, if_true, Output.Frame.select]
  by_cases hall : ∀ x ∈ l, x ∈ put cs "Obj_Sun_LTC_km"
  · have : (l.all fun x => (put cs "Obj_Sun_LTC_km").contains x) = true := by
      rw [List.all_eq_true]; intro x hx; simpa using hall x hx
    simp only [this, if_true, true_iff]
    refine ⟨fun x hx => (hmem x).1 (hall x hx), ?_⟩
    constructor
    · intro h; cases h
    · rintro ⟨x, hx, h3, h4⟩
      rcases (hmem x).1 (hall x hx) with h | h
      · exact absurd h h3
      · exact absurd h h4
  · have : (l.all fun x => (put cs "Obj_Sun_LTC_km").contains x) = false := by
      rw [List.all_eq_false]
      push Not at hall
      obtain ⟨x, hx, hn⟩ := hall
      exact ⟨x, hx, by simpa using hn⟩
    simp only [this, Bool.false_eq_true, if_false]
    constructor
    · constructor
      · intro h; cases h
      · intro h
        exact absurd (fun x hx => (hmem x).2 (h x hx)) hall
    · simp only [true_iff]
      push Not at hall
      obtain ⟨x, hx, hn⟩ := hall
      rw [hmem] at hn
      push Not at hn
      exact ⟨x, hx, hn⟩

/-- C64 (statistics): with input as documented the statistics find their columns. -/
theorem C64_stats (hd : Documented RubinQuery c r f) (nc : NoClash c r f) : (rubin c r f).bind (stats c) = .ok () := by
  obtain ⟨cs, h1, h2, -⟩ := C64_rubin hd nc
  rw [h1]
  change stats c cs = _
  refine need_ok ?_
  intro x hx
  rw [h2]
  rcases List.mem_append.1 hx with hx | hx
  · have : ∀ y ∈ ["ObjID", "optFilter", "trailedSourceMag", "phase_deg"], y ∈ EphemerisNames ∨
        y ∈ ["optFilter", "H_filter", "trailedSourceMagTrue", "PSFMagTrue", "fiveSigmaDepth_mag", "RATrue_deg", "DecTrue_deg", "trailedSourceMag", "PSFMag"] := by decide +kernel
    rcases this x hx with h | h
    · exact .inl (.ephemeris x h)
    · exact .inl (.computed x h)
  · by_cases hs : c.linking.ssp.isSome = true
    · rw [if_pos hs] at hx
      refine .inr (.inr ⟨hs, ?_⟩)
      split_ifs at hx
      · rw [List.mem_singleton] at hx; rw [hx]; decide +kernel
      · exact hx
    · rw [if_neg hs] at hx; simp at hx

/-- C64 (indices): with basic or all columns the indices of the database can be made at the end of the run. -/
theorem C64_index (hd : Documented RubinQuery c r f) (nc : NoClash c r f) (hb : c.output.columns = .named "basic" ∨ c.output.columns = .named "all") :
    ((rubin c r f).bind (written c)).bind (index c) = .ok () := by
  unfold index
  rcases hb with hb | hb
  · rw [C64_basic hd nc hb]
    generalize hE : (if c.linking.ssp.isSome = true ∧ c.linking.dropUnlinked = false then ["object_linked"] else []) = E
    change (if _ then if _ then _ else _ else _) = _
    have : (["ObjID", "fieldMJD_TAI", "optFilter"].all fun x => x ∈ Output.Spec.basic ++ E) = true := by
      rw [List.all_eq_true]
      intro x hx
      simp only [decide_eq_true_eq]
      exact List.mem_append_left _ ((by decide +kernel : ∀ y ∈ ["ObjID", "fieldMJD_TAI", "optFilter"], y ∈ Output.Spec.basic) x hx)
    rw [if_pos this, ite_self]
  · obtain ⟨cs, h1, h2, h3⟩ := C64_all hd nc hb
    rw [h1]
    change (written c cs).bind _ = _
    rw [h2]
    change (if _ then if _ then _ else _ else _) = _
    split_ifs with h1 h2
    · rfl
    · refine absurd ?_ h2
      rw [List.all_eq_true]
      intro x hx
      simp only [decide_eq_true_eq]
      refine List.mem_append_left _ ((h3 x).2 (.inl ?_))
      by_cases ho : x = "optFilter"
      · rw [ho]; exact .computed _ (by decide +kernel)
      · exact .ephemeris x ((by decide +kernel : ∀ y ∈ ["ObjID", "fieldMJD_TAI", "optFilter"], y ≠ "optFilter" → y ∈ EphemerisNames) x hx ho)
    · rfl

/-! ## The same columns in all chunks -/

theorem ok_bind {α β : Type} {e : Except Err α} {g : α → Except Err β} {b : β} (h : e.bind g = .ok b) : ∃ a, e = .ok a ∧ g a = .ok b := by
  cases e with
  | error _ => cases h
  | ok a => exact ⟨a, rfl, h⟩

theorem phase_same {r' : Run} (hm : r'.main = r.main) {cs m m' : Cols} (h : phase c r cs = .ok m) (h' : phase c r' cs = .ok m') : m = m' := by
  unfold phase at h h'
  rw [hm] at h'
  cases hp : Mags.phaseParams c.phase with
  | none => rw [hp] at h; cases h
  | some ps =>
    simp only [hp] at h h'
    split_ifs at h h' with h1 h2 h3 h4
    · cases h; cases h'; rfl
    · simp only [bind, Except.bind] at h h'
      split at h
      · cases h
      · split at h'
        · cases h'
        · cases h; cases h'; rfl

theorem colours_same {r' : Run} (hm : r'.main = r.main) {cs m m' : Cols} (h : colours c r cs = .ok m) (h' : colours c r' cs = .ok m') : m = m' := by
  unfold colours at h h'
  rw [hm] at h'
  simp only [bind, Except.bind] at h h'
  split at h
  · cases h
  · split at h'
    · cases h'
    · split_ifs at h h'
      split at h
      · cases h
      · split at h'
        · cases h'
        · next _ e1 _ _ e2 =>
          cases h; cases h'
          rw [phase_same hm e1 e2]

theorem magnitudes_same {r' : Run} (hm : r'.main = r.main) (hl : r'.lightcurve = r.lightcurve) (ha : r'.activity = r.activity) {cs m m' : Cols}
    (h : magnitudes c r cs = .ok m) (h' : magnitudes c r' cs = .ok m') : m = m' := by
  have hin : ∀ t, inFilter c r' t = inFilter c r t := by intro t; unfold inFilter; rw [hl, ha]
  unfold magnitudes at h h'
  rw [hm] at h'
  by_cases hlen : c.filters.length > 1
  · simp only [if_pos hlen] at h h'
    obtain ⟨t, e1, h⟩ := ok_bind h
    obtain ⟨t', e2, h'⟩ := ok_bind h'
    rw [hin, ← colours_same hm e1 e2, h] at h'
    cases h'; rfl
  · simp only [if_neg hlen] at h h'
    obtain ⟨t, e1, h⟩ := ok_bind h
    obtain ⟨t', e2, h'⟩ := ok_bind h'
    rw [e1] at e2; cases e2
    rw [hin, h] at h'
    cases h'; rfl

/-- C64 (chunks): chunks of one run (which may differ in the filters in which their objects were observed) that do not stop it have the same columns in the same order,
whatever the input. -/
theorem C64_same {present' : List String} {cs cs' : Cols} (h : rubin c r f = .ok cs) (h' : rubin c { r with present := present' } f = .ok cs') : cs' = cs := by
  obtain ⟨db, e1, h⟩ := ok_bind h
  obtain ⟨o, e2, h⟩ := ok_bind h
  obtain ⟨m, e3, h⟩ := ok_bind h
  obtain ⟨g, e4, h⟩ := ok_bind h
  obtain ⟨db', e1', h'⟩ := ok_bind h'
  obtain ⟨o', e2', h'⟩ := ok_bind h'
  obtain ⟨m', e3', h'⟩ := ok_bind h'
  obtain ⟨g', e4', h'⟩ := ok_bind h'
  rw [e1] at e1'; cases e1'
  have : observations c { r with present := present' } f db = observations c r f db := rfl
  rw [this, e2] at e2'; cases e2'
  rw [e3] at e3'; cases e3'
  obtain rfl := magnitudes_same (r := r) (r' := { r with present := present' }) rfl rfl rfl e4 e4'
  rw [h] at h'
  cases h'; rfl

/-- C64 (chunks of a DES run): the same. -/
theorem C64_des_same {present' : List String} {cs cs' : Cols} (h : des c r f = .ok cs) (h' : des c { r with present := present' } f = .ok cs') : cs' = cs := by
  obtain ⟨db, e1, h⟩ := ok_bind h
  obtain ⟨o, e2, h⟩ := ok_bind h
  obtain ⟨m, e3, h⟩ := ok_bind h
  obtain ⟨g, e4, h⟩ := ok_bind h
  obtain ⟨db', e1', h'⟩ := ok_bind h'
  obtain ⟨o', e2', h'⟩ := ok_bind h'
  obtain ⟨m', e3', h'⟩ := ok_bind h'
  obtain ⟨g', e4', h'⟩ := ok_bind h'
  rw [e1] at e1'; cases e1'
  have : observations c { r with present := present' } f db = observations c r f db := rfl
  rw [this, e2] at e2'; cases e2'
  rw [e3] at e3'; cases e3'
  obtain rfl := magnitudes_same (r := r) (r' := { r with present := present' }) rfl rfl rfl e4 e4'
  rw [h] at h'
  cases h'; rfl

end Sorcha.Columns.Props
