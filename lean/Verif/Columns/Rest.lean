import Verif.Columns.Stages

/-!
# Lemmas about columns: from the magnitudes to the output
-/

namespace Sorcha.Columns

variable {c : Config.Cfg} {r : Run} {f : Files}

/-- The columns after the magnitudes have been computed. -/
def MagCol (c : Config.Cfg) (r : Run) (f : Files) (x : String) : Prop :=
  HCol c r f x ∨ x = "trailedSourceMagTrue" ∨ (∃ a, r.lightcurve = some a ∧ (x ∈ a.adds ∨ x = "Delta_m")) ∨ ∃ a, r.activity = some a ∧ x ∈ a.adds

theorem magnitudes_ok {q : List String} (hd : Documented q c r f) (nc : NoClash c r f) {cs : Cols} (hcs : ∀ x, x ∈ cs ↔ MatchCol c f x) :
    ∃ m, magnitudes c r cs = .ok m ∧ (∀ x, x ∈ m ↔ MagCol c r f x) ∧ (cs.Nodup → m.Nodup) := by
  obtain ⟨hl, hmain, hpres⟩ := hd.letters
  obtain ⟨ps, hps, hphase⟩ := id hd.phase
  have hE : ∀ x ∈ EphemerisNames, HCol c r f x := fun x hx => .inl ⟨.inl (.inl hx), plain_not_removed hl (ephemeris_plain x hx)⟩
  have hfirst : ∃ m, (if c.filters.length > 1 then colours c r cs else step ["H_" ++ r.main] ["H_filter"] cs) = .ok m ∧ (∀ x, x ∈ m ↔ HCol c r f x) ∧
      (cs.Nodup → m.Nodup) := by
    by_cases hlen : c.filters.length > 1
    · rw [if_pos hlen]; exact colours_ok hd nc hlen hcs
    · rw [if_neg hlen, step_ok (by intro x hx; rw [List.mem_singleton] at hx; rw [hx, hcs]; exact mem_params hd.main)]
      refine ⟨_, rfl, ?_, fun h => nodup_puts _ h⟩
      intro x
      rw [mem_puts, hcs]
      have hlen' : ¬ 1 < c.filters.length := hlen
      unfold HCol Removed
      simp only [hlen', false_and, not_false_eq_true, and_true, false_or, List.mem_singleton]
  obtain ⟨m, m1, m2, m3⟩ := hfirst
  have hpar : ∀ p ∈ ps, HCol c r f p := by
    intro p hp
    have hn := phase_names hps p hp
    have hplain : p.toList[1]? ≠ some '-' := (by decide +kernel : ∀ y ∈ ["G1", "G2", "GS", "G12", "S"], y.toList[1]? ≠ some '-') p hn
    by_cases hP : PerFilter c f
    · by_cases hlen : 1 < c.filters.length
      · exact .inr (.inl ⟨hlen, hP, ps, hps, hp⟩)
      · rcases hphase with h | ⟨h, -⟩
        · exact .inl ⟨mem_params (h p hp), fun hr => hlen hr.1⟩
        · exact absurd h hlen
    · have hg : Given c f p := by
        by_contra hg
        exact hP ⟨ps, hps, p, hp, hg⟩
      refine .inl ⟨(matchCol_given hn).2 hg, ?_⟩
      rintro ⟨-, h | ⟨h, -⟩⟩
      · exact not_colour hplain h
      · exact hP h
  have hn1 : need ["Range_LTC_km"] m = .ok () := need_ok (by
    intro x hx; rw [List.mem_singleton] at hx; rw [hx, m2]; exact hE _ (by decide +kernel))
  have hn2 : need (if "Obj_Sun_LTC_km" ∈ m then [] else ["Obj_Sun_x_LTC_km", "Obj_Sun_y_LTC_km", "Obj_Sun_z_LTC_km"]) m = .ok () := need_ok (by
    intro x hx
    rw [m2]
    split_ifs at hx
    · simp at hx
    · exact hE _ ((by decide +kernel : ∀ y ∈ ["Obj_Sun_x_LTC_km", "Obj_Sun_y_LTC_km", "Obj_Sun_z_LTC_km"], y ∈ EphemerisNames) x hx))
  have hn3 : need ["phase_deg", "H_filter"] m = .ok () := need_ok (by
    intro x hx
    simp only [List.mem_cons, List.not_mem_nil, or_false] at hx
    rw [m2]
    rcases hx with rfl | rfl
    · exact hE _ (by decide +kernel)
    · exact .inr (.inr rfl))
  have hn4 : need ((Mags.phaseParams c.phase).getD []) m = .ok () := need_ok (by
    intro x hx
    rw [phaseParams_iff.2 hps] at hx
    rw [m2]; exact hpar x hx)
  have hreads : ∀ a, r.lightcurve = some a ∨ r.activity = some a → ∀ x ∈ a.reads, HCol c r f x ∨ x = "trailedSourceMagTrue" := by
    intro a ha x hx
    rcases hd.addons a ha x hx with h | ⟨t, ht, hxt, hdash, hno⟩ | h
    · exact .inl (hE x h)
    · refine .inl (.inl ⟨.inl (.inr (.inr (.inr ⟨t, ht, hxt⟩))), ?_⟩)
      rintro ⟨-, h | ⟨-, ps', h', p, hp, b, hb, e⟩⟩
      · exact not_colour hdash h
      · exact hno ps' h' p hp b hb e
    · simp only [List.mem_cons, List.not_mem_nil, or_false] at h
      rcases h with rfl | rfl | rfl
      · exact .inl (.inl ⟨.inr (.inl rfl), plain_not_removed hl (others_plain _ (by decide +kernel))⟩)
      · exact .inl (.inr (.inr rfl))
      · exact .inr rfl
  set m' := put m "trailedSourceMagTrue" with hm'
  have mm' : ∀ x, x ∈ m' ↔ HCol c r f x ∨ x = "trailedSourceMagTrue" := by intro x; rw [hm', mem_put, m2]
  have hlc : ∃ t, (match r.lightcurve with | none => (.ok m' : Except Err Cols) | some a => step a.reads (a.adds ++ ["Delta_m"]) m') = .ok t ∧
      (∀ x, x ∈ t ↔ (HCol c r f x ∨ x = "trailedSourceMagTrue") ∨ ∃ a, r.lightcurve = some a ∧ (x ∈ a.adds ∨ x = "Delta_m")) ∧ (m'.Nodup → t.Nodup) := by
    cases hr : r.lightcurve with
    | none => exact ⟨m', rfl, by intro x; rw [mm']; simp, id⟩
    | some a =>
      refine ⟨_, step_ok (fun x hx => (mm' x).2 (hreads a (.inl hr) x hx)), ?_, nodup_puts _⟩
      intro x; rw [mem_puts, mm']; simp
  obtain ⟨t, t1, t2, t3⟩ := hlc
  have hac : ∃ u, (match r.activity with | none => (.ok t : Except Err Cols) | some a => step a.reads a.adds t) = .ok u ∧
      (∀ x, x ∈ u ↔ x ∈ t ∨ ∃ a, r.activity = some a ∧ x ∈ a.adds) ∧ (t.Nodup → u.Nodup) := by
    cases hr : r.activity with
    | none => exact ⟨t, rfl, by simp, id⟩
    | some a =>
      refine ⟨_, step_ok (fun x hx => (t2 x).2 (.inl (hreads a (.inr hr) x hx))), ?_, nodup_puts _⟩
      intro x; rw [mem_puts]; simp
  obtain ⟨u, u1, u2, u3⟩ := hac
  refine ⟨u, ?_, ?_, fun h => u3 (t3 (nodup_put _ (m3 h)))⟩
  · have hmag : magnitudes c r cs = inFilter c r m := by
      unfold magnitudes
      by_cases hlen : c.filters.length > 1
      · rw [if_pos hlen] at m1
        simp only [if_pos hlen, m1, bind, Except.bind]
      · rw [if_neg hlen] at m1
        simp only [if_neg hlen, m1, bind, Except.bind]
    rw [hmag]
    unfold inFilter
    simp only [bind, Except.bind, hn1, hn2, hn3, hn4, ← hm']
    cases hr : r.lightcurve with
    | none =>
      simp only [hr] at t1 ⊢
      cases t1
      exact u1
    | some a =>
      simp only [hr] at t1 ⊢
      rw [t1]
      exact u1
  · intro x; rw [u2, t2]; unfold MagCol; simp only [or_assoc]

/-- What the later stages rely on. -/
structure Base (q : List String) (P : String → Prop) : Prop where
  ephemeris : ∀ x ∈ EphemerisNames, P x
  made : ∀ x ∈ ["optFilter", "H_filter", "trailedSourceMagTrue"], P x
  query : ∀ x ∈ q, x ∉ ["observationId", "filter", "observationStartMJD_TAI", "observationMidpointMJD_TAI"] → P x
  own : ∀ x, P x → x ∈ Computed → x ∈ ["fieldJD_TDB", "optFilter", "H_filter", "trailedSourceMagTrue", "Delta_m"]

theorem base_magCol (des : Bool) (hd : Documented (queryOf des) c r f) (nc : NoClash c r f) : Base (queryOf des) (MagCol c r f) where
  ephemeris x hx := .inl (.inl ⟨.inl (.inl hx), plain_not_removed hd.letters.1 (ephemeris_plain x hx)⟩)
  made x hx := by
    simp only [List.mem_cons, List.not_mem_nil, or_false] at hx
    rcases hx with rfl | rfl | rfl
    · exact .inl (.inl ⟨.inr (.inl rfl), plain_not_removed hd.letters.1 (others_plain _ (by decide +kernel))⟩)
    · exact .inl (.inr (.inr rfl))
    · exact .inr (.inl rfl)
  query x hx hn := by
    have h1 : x ∉ VisitsOnly := by
      cases des
      · exact (by decide +kernel : ∀ y ∈ RubinQuery, y ∉ VisitsOnly) x hx
      · exact (by decide +kernel : ∀ y ∈ DesQuery, y ∉ VisitsOnly) x hx
    have h2 : Plain x := by
      cases des
      · exact (by decide +kernel : ∀ y ∈ RubinQuery, Plain y) x hx
      · exact (by decide +kernel : ∀ y ∈ DesQuery, Plain y) x hx
    exact .inl (.inl ⟨.inr (.inr ⟨hd.query x hx, h1, hn⟩), plain_not_removed hd.letters.1 h2⟩)
  own x hP hx := by
    rcases hP with (⟨h, -⟩ | ⟨-, -, ps, hps, h⟩ | rfl) | rfl | ⟨a, ha, h | rfl⟩ | ⟨a, ha, h⟩
    · rcases matchCol_computed nc h hx with rfl | rfl <;> decide +kernel
    · exact absurd hx ((by decide +kernel : ∀ y ∈ ["G1", "G2", "GS", "G12", "S"], y ∉ Computed) x (phase_names hps x h))
    · decide +kernel
    · decide +kernel
    · exact absurd hx (nc.added a (.inl ha) x h)
    · decide +kernel
    · exact absurd hx (nc.added a (.inr ha) x h)

variable {q : List String} {P : String → Prop} {cs : Cols} {L : List String}

/-- A step in the later stages. -/
theorem stage_ok (hcs : ∀ x, x ∈ cs ↔ P x ∨ x ∈ L) {reads writes : List String} (hr : ∀ x ∈ reads, P x ∨ x ∈ L) :
    ∃ m, step reads writes cs = .ok m ∧ (∀ x, x ∈ m ↔ P x ∨ x ∈ L ++ writes) ∧ (cs.Nodup → m.Nodup) :=
  ⟨_, step_ok fun x hx => (hcs x).2 (hr x hx), by intro x; rw [mem_puts, hcs, List.mem_append, or_assoc], nodup_puts _⟩

theorem trailing_ok (hP : Base q P) (hq : c.expert.trailing.on = true → ∀ x ∈ ["seeingFwhmEff_arcsec", "visitExposureTime"], x ∈ q)
    (hcs : ∀ x, x ∈ cs ↔ P x ∨ x ∈ L) :
    ∃ m, trailing c cs = .ok m ∧ (∀ x, x ∈ m ↔ P x ∨ x ∈ L ++ ["PSFMagTrue"]) ∧ (cs.Nodup → m.Nodup) := by
  refine stage_ok hcs ?_
  intro x hx
  left
  rcases List.mem_append.1 hx with hx | hx
  · by_cases ht : c.expert.trailing.on = true
    · rw [if_pos ht] at hx
      simp only [List.mem_cons, List.not_mem_nil, or_false] at hx
      rcases hx with rfl | rfl | rfl | rfl
      · exact hP.ephemeris _ (by decide +kernel)
      · exact hP.ephemeris _ (by decide +kernel)
      · exact hP.query _ (hq ht _ (by decide +kernel)) (by decide +kernel)
      · exact hP.query _ (hq ht _ (by decide +kernel)) (by decide +kernel)
    · rw [if_neg ht] at hx; simp at hx
  · rw [List.mem_singleton] at hx; rw [hx]; exact hP.made _ (by decide +kernel)

theorem depth_ok (hP : Base q P) (hq : ∀ x ∈ ["fieldRA_deg", "fieldDec_deg", "fieldFiveSigmaDepth_mag"], x ∈ q) (hcs : ∀ x, x ∈ cs ↔ P x ∨ x ∈ L) :
    ∃ m, depth c cs = .ok m ∧ (∀ x, x ∈ m ↔ P x ∨ x ∈ L ++ ["fiveSigmaDepth_mag"]) ∧ (cs.Nodup → m.Nodup) := by
  refine stage_ok hcs ?_
  intro x hx
  left
  rcases List.mem_append.1 hx with hx | hx
  · by_cases ht : c.expert.vignetting.on = true
    · rw [if_pos ht] at hx
      simp only [List.mem_cons, List.not_mem_nil, or_false] at hx
      rcases hx with rfl | rfl | rfl | rfl
      · exact hP.ephemeris _ (by decide +kernel)
      · exact hP.ephemeris _ (by decide +kernel)
      · exact hP.query _ (hq _ (by decide +kernel)) (by decide +kernel)
      · exact hP.query _ (hq _ (by decide +kernel)) (by decide +kernel)
    · rw [if_neg ht] at hx; simp at hx
  · rw [List.mem_singleton] at hx; rw [hx]; exact hP.query _ (hq _ (by decide +kernel)) (by decide +kernel)

theorem uncertainties_ok (hP : Base RubinQuery P) (hcs : ∀ x, x ∈ cs ↔ P x ∨ x ∈ ["PSFMagTrue", "fiveSigmaDepth_mag"]) :
    ∃ m, uncertainties c cs = .ok m ∧ (∀ x, x ∈ m ↔ P x ∨
      x ∈ ["PSFMagTrue", "fiveSigmaDepth_mag"] ++ ["astrometricSigma_deg", "SNRTrailedSourceMag", "trailedSourceMagSigma", "SNRPSFMag", "PSFMagSigma"]) ∧
      (cs.Nodup → m.Nodup) := by
  refine stage_ok hcs ?_
  intro x hx
  rcases List.mem_append.1 hx with hx | hx
  · by_cases ht : c.expert.trailing.on = true
    · rw [if_pos ht] at hx
      simp only [List.mem_cons, List.not_mem_nil, or_false] at hx
      left
      rcases hx with rfl | rfl | rfl | rfl
      · exact hP.ephemeris _ (by decide +kernel)
      · exact hP.ephemeris _ (by decide +kernel)
      · exact hP.query _ (by decide +kernel) (by decide +kernel)
      · exact hP.query _ (by decide +kernel) (by decide +kernel)
    · rw [if_neg ht] at hx; simp at hx
  · simp only [List.mem_cons, List.not_mem_nil, or_false] at hx
    rcases hx with rfl | rfl | rfl | rfl
    · exact .inl (hP.made _ (by decide +kernel))
    · exact .inr (by decide +kernel)
    · exact .inl (hP.query _ (by decide +kernel) (by decide +kernel))
    · exact .inr (by decide +kernel)

theorem rename_inj {a a' b b' x y : String} (hab : a' ≠ b') (h1 : x ≠ a') (h2 : x ≠ b') (h3 : y ≠ a') (h4 : y ≠ b')
    (h : (if x = a then a' else if x = b then b' else x) = if y = a then a' else if y = b then b' else y) : x = y := by
  split_ifs at h <;> simp_all

theorem randomize_ok (hP : Base q P) (hL : "PSFMagTrue" ∈ L)
    (hon : c.expert.randomization.on = true → ∀ x ∈ ["astrometricSigma_deg", "SNRPSFMag", "trailedSourceMagSigma", "PSFMagSigma"], x ∈ L)
    (hno : "RATrue_deg" ∉ L ∧ "DecTrue_deg" ∉ L) (hcs : ∀ x, x ∈ cs ↔ P x ∨ x ∈ L) :
    ∃ m, randomize c cs = .ok m ∧ (∀ x, x ∈ m ↔ P x ∨ x ∈ L ++ ["RATrue_deg", "DecTrue_deg", "trailedSourceMag", "PSFMag"]) ∧ (cs.Nodup → m.Nodup) := by
  have hRA : P "RA_deg" := hP.ephemeris _ (by decide +kernel)
  have hDec : P "Dec_deg" := hP.ephemeris _ (by decide +kernel)
  have hT : P "trailedSourceMagTrue" := hP.made _ (by decide +kernel)
  unfold randomize
  by_cases hr : c.expert.randomization.on = true
  · have hon := hon hr
    rw [if_pos hr]
    have n1 : need (if c.expert.defaultSnrCut then ["SNRPSFMag"] else []) cs = .ok () := need_ok (by
      intro x hx
      split_ifs at hx
      · rw [List.mem_singleton] at hx; rw [hx, hcs]; exact .inr (hon _ (by decide +kernel))
      · simp at hx)
    have s1 : step ["trailedSourceMagTrue", "trailedSourceMagSigma"] ["trailedSourceMag"] cs = .ok (["trailedSourceMag"].foldl put cs) := step_ok (by
      intro x hx
      simp only [List.mem_cons, List.not_mem_nil, or_false] at hx
      rw [hcs]
      rcases hx with rfl | rfl
      · exact .inl hT
      · exact .inr (hon _ (by decide +kernel)))
    have s2 : step (if c.expert.trailing.on then ["PSFMagTrue", "PSFMagSigma"] else []) ["PSFMag"] (["trailedSourceMag"].foldl put cs) =
        .ok (["PSFMag"].foldl put (["trailedSourceMag"].foldl put cs)) := step_ok (by
      intro x hx
      rw [mem_puts, hcs]
      split_ifs at hx
      · simp only [List.mem_cons, List.not_mem_nil, or_false] at hx
        rcases hx with rfl | rfl
        · exact .inl (.inr hL)
        · exact .inl (.inr (hon _ (by decide +kernel)))
      · simp at hx)
    set d := ["PSFMag"].foldl put (["trailedSourceMag"].foldl put cs) with hd
    have md : ∀ x, x ∈ d ↔ P x ∨ x ∈ L ∨ x = "trailedSourceMag" ∨ x = "PSFMag" := by
      intro x; rw [hd, mem_puts, mem_puts, hcs]; simp only [List.mem_singleton, or_assoc]
    have n2 : need ["RA_deg", "Dec_deg", "astrometricSigma_deg"] d = .ok () := need_ok (by
      intro x hx
      simp only [List.mem_cons, List.not_mem_nil, or_false] at hx
      rw [md]
      rcases hx with rfl | rfl | rfl
      · exact .inl hRA
      · exact .inl hDec
      · exact .inr (.inl (hon _ (by decide +kernel))))
    simp only [bind, Except.bind, n1, s1, s2, n2, pure, Except.pure]
    refine ⟨_, rfl, ?_, ?_⟩
    · intro x
      rw [mem_put, mem_put, List.mem_map, List.mem_append]
      simp only [List.mem_cons, List.not_mem_nil, or_false]
      constructor
      · rintro ((⟨y, hy, rfl⟩ | rfl) | rfl)
        · rw [md] at hy
          by_cases a : y = "RA_deg"
          · rw [if_pos a]; exact .inr (.inr (.inl rfl))
          · by_cases b : y = "Dec_deg"
            · rw [if_neg a, if_pos b]; exact .inr (.inr (.inr (.inl rfl)))
            · rw [if_neg a, if_neg b]
              rcases hy with h | h | h | h
              · exact .inl h
              · exact .inr (.inl h)
              · exact .inr (.inr (.inr (.inr (.inl h))))
              · exact .inr (.inr (.inr (.inr (.inr h))))
        · exact .inl hRA
        · exact .inl hDec
      · intro h
        by_cases a : x = "RA_deg"
        · exact .inl (.inr a)
        · by_cases b : x = "Dec_deg"
          · exact .inr b
          · left; left
            rcases h with h | h | rfl | rfl | h | h
            · exact ⟨x, (md x).2 (.inl h), by rw [if_neg a, if_neg b]⟩
            · exact ⟨x, (md x).2 (.inr (.inl h)), by rw [if_neg a, if_neg b]⟩
            · exact ⟨"RA_deg", (md _).2 (.inl hRA), rfl⟩
            · exact ⟨"Dec_deg", (md _).2 (.inl hDec), rfl⟩
            · exact ⟨x, (md x).2 (.inr (.inr (.inl h))), by rw [if_neg a, if_neg b]⟩
            · exact ⟨x, (md x).2 (.inr (.inr (.inr h))), by rw [if_neg a, if_neg b]⟩
    · intro hn
      have hR : "RATrue_deg" ∉ d := by
        rw [md]
        rintro (h | h | h | h)
        · exact absurd (hP.own _ h (by decide +kernel)) (by decide +kernel)
        · exact hno.1 h
        · exact absurd h (by decide +kernel)
        · exact absurd h (by decide +kernel)
      have hD : "DecTrue_deg" ∉ d := by
        rw [md]
        rintro (h | h | h | h)
        · exact absurd (hP.own _ h (by decide +kernel)) (by decide +kernel)
        · exact hno.2 h
        · exact absurd h (by decide +kernel)
        · exact absurd h (by decide +kernel)
      refine nodup_put _ (nodup_put _ (List.Nodup.map_on ?_ (nodup_puts _ (nodup_puts _ hn))))
      intro x hx y hy hxy
      have hx1 : x ≠ "RATrue_deg" := fun e => hR (e ▸ hx)
      have hx2 : x ≠ "DecTrue_deg" := fun e => hD (e ▸ hx)
      have hy1 : y ≠ "RATrue_deg" := fun e => hR (e ▸ hy)
      have hy2 : y ≠ "DecTrue_deg" := fun e => hD (e ▸ hy)
      exact rename_inj (by decide +kernel) hx1 hx2 hy1 hy2 hxy
  · rw [if_neg hr]
    have := stage_ok hcs (reads := ["RA_deg", "Dec_deg", "trailedSourceMagTrue", "PSFMagTrue"])
      (writes := ["RATrue_deg", "DecTrue_deg", "trailedSourceMag", "PSFMag"]) (by
        intro x hx
        simp only [List.mem_cons, List.not_mem_nil, or_false] at hx
        rcases hx with rfl | rfl | rfl | rfl
        · exact .inl hRA
        · exact .inl hDec
        · exact .inl hT
        · exact .inr hL)
    exact this

/-- The columns added by the camera. -/
def cameraCols : Config.Fov → List String
  | .footprint _ _ => ["detectorID"]
  | .visits _ => ["detectorID", "limMag_perChip"]
  | _ => []

theorem fieldOfView_ok (hP : Base q P) (hq : ∀ x ∈ ["fieldRA_deg", "fieldDec_deg"], x ∈ q) (hL : "object_separation" ∉ L) (hcs : ∀ x, x ∈ cs ↔ P x ∨ x ∈ L) :
    ∃ m, fieldOfView c cs = .ok m ∧ (∀ x, x ∈ m ↔ P x ∨ x ∈ L ++ cameraCols c.fov) ∧ (cs.Nodup → m.Nodup) := by
  have hfour : ∀ x ∈ ["RA_deg", "Dec_deg", "fieldRA_deg", "fieldDec_deg"], P x := by
    intro x hx
    simp only [List.mem_cons, List.not_mem_nil, or_false] at hx
    rcases hx with rfl | rfl | rfl | rfl
    · exact hP.ephemeris _ (by decide +kernel)
    · exact hP.ephemeris _ (by decide +kernel)
    · exact hP.query _ (hq _ (by decide +kernel)) (by decide +kernel)
    · exact hP.query _ (hq _ (by decide +kernel)) (by decide +kernel)
  unfold fieldOfView
  cases c.fov with
  | footprint p e => exact stage_ok hcs (fun x hx => .inl (hfour x hx))
  | visits s =>
    refine stage_ok hcs ?_
    intro x hx
    left
    simp only [List.mem_cons, List.not_mem_nil, or_false] at hx
    rcases hx with rfl | rfl | rfl | rfl
    · exact hP.ephemeris _ (by decide +kernel)
    · exact hP.ephemeris _ (by decide +kernel)
    · exact hP.ephemeris _ (by decide +kernel)
    · exact hP.query _ (hq _ (by decide +kernel)) (by decide +kernel)
  | circle fill radius =>
    simp only [cameraCols, List.append_nil]
    by_cases ht : Rng.truthy radius = true
    · rw [if_pos ht, need_ok (fun x hx => (hcs x).2 (.inl (hfour x hx)))]
      refine ⟨cs.filter fun x => x ≠ "object_separation", rfl, ?_, fun h => h.filter _⟩
      intro x
      rw [List.mem_filter, hcs]
      simp only [decide_eq_true_eq]
      refine ⟨And.left, fun h => ⟨h, ?_⟩⟩
      rintro rfl
      rcases h with h | h
      · exact absurd (hP.own _ h (by decide +kernel)) (by decide +kernel)
      · exact hL h
    · rw [if_neg ht]; exact ⟨cs, rfl, hcs, id⟩
  | none => simp only [cameraCols, List.append_nil]; exact ⟨cs, rfl, hcs, id⟩

theorem cuts_ok (hcs : ∀ x, x ∈ cs ↔ P x ∨ x ∈ L) (hs : c.expert.snrLimit.isSome → "SNRPSFMag" ∈ L) (hm : "trailedSourceMag" ∈ L) :
    ∃ m, cuts c cs = .ok m ∧ (∀ x, x ∈ m ↔ P x ∨ x ∈ L) ∧ (cs.Nodup → m.Nodup) := by
  have := stage_ok (P := P) (L := L) hcs (reads := (if c.expert.snrLimit.isSome then ["SNRPSFMag"] else []) ++ if c.expert.magLimit.isSome then ["trailedSourceMag"] else [])
    (writes := []) (by
      intro x hx
      right
      rcases List.mem_append.1 hx with hx | hx
      · split_ifs at hx with h
        · rw [List.mem_singleton] at hx; rw [hx]; exact hs h
        · simp at hx
      · split_ifs at hx with h
        · rw [List.mem_singleton] at hx; rw [hx]; exact hm
        · simp at hx)
  rw [List.append_nil] at this
  exact this

theorem fade_ok (des : Bool) (hP : Base q P) (hcs : ∀ x, x ∈ cs ↔ P x ∨ x ∈ L) (h1 : "PSFMag" ∈ L) (h2 : "fiveSigmaDepth_mag" ∈ L)
    (hL : "detection_probability" ∉ L) (hck : des = true → ∀ x ∈ ["c", "k"], x ∈ q) :
    ∃ m, fade des c cs = .ok m ∧ (∀ x, x ∈ m ↔ P x ∨ x ∈ L) ∧ (cs.Nodup → m.Nodup) := by
  unfold fade
  by_cases hf : c.fading = .off
  · rw [if_pos hf]; exact ⟨cs, rfl, hcs, id⟩
  · rw [if_neg hf]
    have hn : need (if des = true then ["PSFMag", "fiveSigmaDepth_mag", "c", "k"]
        else ["PSFMag", if "limMag_perChip" ∈ cs then "limMag_perChip" else "fiveSigmaDepth_mag"]) cs = .ok () := need_ok (by
      intro x hx
      split_ifs at hx with hd hp
      · simp only [List.mem_cons, List.not_mem_nil, or_false] at hx
        rw [hcs]
        rcases hx with rfl | rfl | rfl | rfl
        · exact .inr h1
        · exact .inr h2
        · exact .inl (hP.query _ (hck hd _ (by decide +kernel)) (by decide +kernel))
        · exact .inl (hP.query _ (hck hd _ (by decide +kernel)) (by decide +kernel))
      · simp only [List.mem_cons, List.not_mem_nil, or_false] at hx
        rcases hx with rfl | rfl
        · exact (hcs _).2 (.inr h1)
        · exact hp
      · simp only [List.mem_cons, List.not_mem_nil, or_false] at hx
        rw [hcs]
        rcases hx with rfl | rfl
        · exact .inr h1
        · exact .inr h2)
    rw [hn]
    refine ⟨cs.filter fun x => x ≠ "detection_probability", rfl, ?_, fun h => h.filter _⟩
    intro x
    rw [List.mem_filter, hcs]
    simp only [decide_eq_true_eq]
    refine ⟨And.left, fun h => ⟨h, ?_⟩⟩
    rintro rfl
    rcases h with h | h
    · exact absurd (hP.own _ h (by decide +kernel)) (by decide +kernel)
    · exact hL h

theorem bright_ok (hP : Base q P) (hcs : ∀ x, x ∈ cs ↔ P x ∨ x ∈ L) (h1 : "PSFMag" ∈ L) :
    ∃ m, bright c cs = .ok m ∧ (∀ x, x ∈ m ↔ P x ∨ x ∈ L) ∧ (cs.Nodup → m.Nodup) := by
  have := stage_ok (P := P) (L := L) hcs
    (reads := if c.saturation.on.on then "PSFMag" :: (if (c.saturation.limits.getD []).length = 1 then [] else ["optFilter"]) else [])
    (writes := []) (by
      intro x hx
      split_ifs at hx
      · rw [List.mem_singleton] at hx; rw [hx]; exact .inr h1
      · simp only [List.mem_cons, List.not_mem_nil, or_false] at hx
        rcases hx with rfl | rfl
        · exact .inr h1
        · exact .inl (hP.made _ (by decide +kernel))
      · simp at hx)
  rw [List.append_nil] at this
  exact this

theorem link_ok (hP : Base q P) (hcs : ∀ x, x ∈ cs ↔ P x ∨ x ∈ L) (hL : "date_linked_MJD" ∉ L) :
    ∃ m, link c cs = .ok m ∧ (∀ x, x ∈ m ↔ P x ∨ x ∈ L ++ if c.linking.ssp.isSome then ["object_linked", "date_linked_MJD"] else []) ∧ (cs.Nodup → m.Nodup) := by
  unfold link
  by_cases hs : c.linking.ssp.isSome = true
  · rw [if_pos hs, if_pos hs]
    have hstep : step ["ObjID", "FieldID", "fieldMJD_TAI", "RA_deg", "Dec_deg"] ["object_linked"] cs = .ok (["object_linked"].foldl put cs) := step_ok (by
      intro x hx
      rw [hcs]
      exact .inl (hP.ephemeris _ ((by decide +kernel : ∀ y ∈ ["ObjID", "FieldID", "fieldMJD_TAI", "RA_deg", "Dec_deg"], y ∈ EphemerisNames) x hx)))
    have hm : ∀ x, x ∈ ["object_linked"].foldl put cs ↔ P x ∨ x ∈ L ∨ x = "object_linked" := by
      intro x; rw [mem_puts, hcs, List.mem_singleton, or_assoc]
    have hclash : ∀ x ∈ ["object_linked"].foldl put cs, x ∈ ["ObjID", "date_linked_MJD"] → x = "ObjID" := by
      intro x hx hx'
      simp only [List.mem_cons, List.not_mem_nil, or_false] at hx'
      rcases hx' with h | rfl
      · exact h
      · rcases (hm _).1 hx with h | h | h
        · exact absurd (hP.own _ h (by decide +kernel)) (by decide +kernel)
        · exact absurd h hL
        · exact absurd h (by decide +kernel)
    have hO : "ObjID" ∈ ["object_linked"].foldl put cs := (hm _).2 (.inl (hP.ephemeris _ (by decide +kernel)))
    rw [hstep]
    refine ⟨_, rfl, ?_, ?_⟩
    · intro x
      rw [merge_ok hclash, mem_merged hO, hm, List.mem_append]
      simp only [List.mem_cons, List.not_mem_nil, or_false]
      have : x = "ObjID" → P x := by rintro rfl; exact hP.ephemeris _ (by decide +kernel)
      constructor
      · rintro ((h | h | h) | (h | h))
        · exact .inl h
        · exact .inr (.inl h)
        · exact .inr (.inr (.inl h))
        · exact .inl (this h)
        · exact .inr (.inr (.inr h))
      · rintro (h | h | h | h)
        · exact .inl (.inl h)
        · exact .inl (.inr (.inl h))
        · exact .inl (.inr (.inr h))
        · exact .inr (.inr h)
    · intro hn
      rw [merge_ok hclash]
      exact nodup_merged (nodup_puts _ hn) (by decide +kernel) hclash
  · rw [if_neg hs, if_neg hs, List.append_nil]; exact ⟨cs, rfl, hcs, id⟩

theorem discover_ok (hP : Base q P) (hcs : ∀ x, x ∈ cs ↔ P x ∨ x ∈ L) :
    ∃ m, discover c cs = .ok m ∧ (∀ x, x ∈ m ↔ P x ∨ x ∈ L) ∧ (cs.Nodup → m.Nodup) := by
  have hE : ∀ y ∈ ["ObjID", "fieldMJD_TAI", "Obj_Sun_x_LTC_km", "Obj_Sun_y_LTC_km", "Obj_Sun_z_LTC_km", "RARateCosDec_deg_day", "DecRate_deg_day"], y ∈ EphemerisNames := by
    decide +kernel
  have := stage_ok (P := P) (L := L) hcs
    (reads := (if c.linking.distanceOn.on then ["Obj_Sun_x_LTC_km", "Obj_Sun_y_LTC_km", "Obj_Sun_z_LTC_km", "ObjID"] else []) ++
      (if c.linking.motionOn.on then ["RARateCosDec_deg_day", "DecRate_deg_day"] else []) ++
      if c.linking.desDiscovery.on then ["ObjID", "fieldMJD_TAI", "Obj_Sun_x_LTC_km", "Obj_Sun_y_LTC_km", "Obj_Sun_z_LTC_km"] else [])
    (writes := []) (by
      intro x hx
      left
      refine hP.ephemeris _ (hE x ?_)
      simp only [List.mem_append] at hx
      rcases hx with (hx | hx) | hx <;> split_ifs at hx <;> simp only [List.mem_cons, List.not_mem_nil, or_false] at hx ⊢ <;> tauto)
  rw [List.append_nil] at this
  exact this

end Sorcha.Columns
