import Verif.Shipped.Lemmas

/-!
# C75: what the supplied Rubin configurations give

From the text of a supplied configuration file to the rows of the output tables.
-/

namespace Sorcha.Shipped.Props

open Sorcha.Pipeline (Env Row Final State)
open Sorcha.Pipeline.Props
open Sorcha.Filters.Spec (Below num Saturated)
open Sorcha.Ini.Props (circularCfg footprintCfg knownCfg demoCfg)
open Spec

variable {G W V : Type} {py : Config.Py} {rnd : ℚ → ℚ} {lc ca : List String} {survey : String} {lines : List Ini.Line} {field : V → ℝ × ℝ × ℝ}
  {answer : List (Pointing.Visit V)} {E : Env G W V} {s : State G} {blocks : List (List (Pointing.Obs W))} {outs : List (List (Final W V))}

theorem six (f : String) (h : f ∈ (circularCfg rnd).filters) : Band f := by
  simp only [circularCfg, List.mem_cons, List.not_mem_nil, or_false] at h
  unfold Band
  tauto

theorem from_stems {db : List (Pointing.Visit V)} {ds : List (Row W V → Bool)} {filters : List String} (hf : ∀ f ∈ filters, Band f)
    (hdb : Pointing.readPointing (some answer) filters survey false false = .ok db) {obs : List (Pointing.Obs W)} {r : Row W V}
    (h : Pipeline.Spec.Stems { E with db := db, detectors := ds } obs r) : From survey answer E obs r := by
  obtain ⟨o, ho, v, hv, m, h1, h2, h3, h4, h5, h6, h7⟩ := h
  exact ⟨o, ho, v, mem_visited hf hdb v hv, h1, h2, h4, h5, h6, m, h3, h7⟩

theorem not_saturated {c : Config.Cfg} (hfil : c.filters = ["r", "g", "i", "z", "u", "y"])
    (hsat : c.saturation = ⟨.bool true, some [.fin 16, .fin 16, .fin 16, .fin 16, .fin 16, .fin 16]⟩) {r : Row W V} (hf : Band r.optFilter)
    (h : Pipeline.Spec.WithinLimits c r) : ¬ Below r.psfMag (.fin 16) := by
  obtain ⟨ls, h1, h2⟩ := h.bright (by rw [hsat]; rfl)
  rw [hsat] at h1
  have h1 := Option.some.inj h1
  subst h1
  intro hb
  apply h2
  rw [hfil]
  rcases hf with e | e | e | e | e | e
  · exact ⟨4, "u", .fin 16, rfl, rfl, e, hb⟩
  · exact ⟨1, "g", .fin 16, rfl, rfl, e, hb⟩
  · exact ⟨0, "r", .fin 16, rfl, rfl, e, hb⟩
  · exact ⟨2, "i", .fin 16, rfl, rfl, e, hb⟩
  · exact ⟨3, "z", .fin 16, rfl, rfl, e, hb⟩
  · exact ⟨5, "y", .fin 16, rfl, rfl, e, hb⟩

theorem discovered {c : Config.Cfg} {s1 s2 : State G} {b : List (Pointing.Obs W)} {t : List (Final W V)} (hE : Library E) {eff : Fl}
    (hl : c.linking.ssp = some ⟨eff, 2, .fin (1 / 2), .fin (1 / 16), 3, 15, .fin 16⟩) (hdrop : c.linking.dropUnlinked = true)
    (hp : Pipeline.process E c s1 b = .ok (t, s2)) (hne : t ≠ []) (f : Final W V) (hf : f ∈ t) :
    ∃ D, f.link = some (true, some D) ∧ Discovered E.linkSep (t.map (·.row)) f.row.objId D := by
  obtain ⟨lc, surv, hset, -, -, -, -, hperm, hall⟩ :=
    C11_linked hE.sortIndex hE.sortOut hE.sortT hl (by norm_num) (by norm_num) hp hne
  obtain ⟨e1, e2, -, e4, e5, e6, e7, e8⟩ := hset
  simp only [Fl.fin.injEq] at e1 e2 e4
  have e5 : lc.minObs = 2 := e5
  have e6 : lc.window = 15 := e6
  have e7 : lc.nlink = 3 := e7
  obtain ⟨d, hd1, hd2, hd3⟩ := hall f hf
  obtain ⟨D, rfl⟩ := Option.isSome_iff_exists.1 (hd2 hdrop)
  refine ⟨D, hd1, ?_⟩
  have hD := hd3 D rfl
  unfold Linking.Spec.DiscoveryNight at hD
  rw [e6, e7] at hD
  refine ⟨_, hD, ?_⟩
  intro n hn
  unfold Linking.Spec.inWindow at hn
  simp only [Finset.mem_filter, Finset.mem_Icc] at hn
  obtain ⟨⟨hn1, hn2⟩, o, -, -, hlen, htr⟩ := hn
  refine ⟨by push_cast at hn1; linarith, hn2, ?_⟩
  rcases htr with h1 | ⟨before, first, between, last, after, happ, g1, g2, g3, -⟩
  · omega
  · have hrow : ∀ x : Linking.Obs, x ∈ ((E.sortT (Pipeline.Spec.seenOf f.row.objId surv)).filter fun o => Linking.Spec.nightOf lc o = n) →
        ∃ a ∈ t.map (·.row), a.objId = f.row.objId ∧ night a = n ∧ Pipeline.Spec.seen a = x := by
      intro x hx
      obtain ⟨hx1, hx2⟩ := List.mem_filter.1 hx
      have hx1 := (hE.sortT _).1.subset hx1
      unfold Pipeline.Spec.seenOf at hx1
      obtain ⟨a, ha, rfl⟩ := List.mem_map.1 hx1
      have ha' := (hperm f hf).symm.subset ha
      obtain ⟨ha1, ha2⟩ := List.mem_filter.1 ha'
      refine ⟨a, ha1, of_decide_eq_true ha2, ?_, rfl⟩
      have hx2 := of_decide_eq_true hx2
      unfold Linking.Spec.nightOf Pipeline.Spec.seen at hx2
      unfold night
      rw [show (16 : ℚ) / 24 = lc.nightStart by linarith]
      exact hx2
    obtain ⟨a, ha, ha1, ha2, rfl⟩ := hrow first (by rw [happ]; simp)
    obtain ⟨b, hb, hb1, hb2, rfl⟩ := hrow last (by rw [happ]; simp)
    refine ⟨a, ha, b, hb, ha1, hb1, ha2, hb2, g1, ?_, ?_⟩
    · have : b.rest.src.1.mjd - a.rest.src.1.mjd < lc.maxdt := g2
      rw [← e1] at this
      linarith
    · have : lc.minlen < lc.sep b.rest.ra b.rest.dec a.rest.ra a.rest.dec := g3
      rw [e8] at this
      linarith

theorem chip_of_view {ds : List (Row W V → Bool)} {c : Config.Cfg} {db : List (Pointing.Visit V)} (hc : c.fov = .footprint none (some (.fin 2)))
    (hds : ds = detectors field Cameras.lsstCamera (some 2)) {r : Row W V} (hfield : |(field r.rest.src.2.rest).2.1| < 90) :
    Pipeline.Spec.InView { E with db := db, detectors := ds } c r ↔ ∃ k, r.rest.detector = some k ∧ OnChip (position field r) k := by
  unfold Pipeline.Spec.InView
  rw [hc]
  simp only
  constructor
  · rintro ⟨k, d, h1, h2, h3⟩
    refine ⟨k, h1, ?_⟩
    have := (chip_iff field (Pipeline.Spec.bare r) k hfield).1 ⟨d, by rw [← hds]; exact h2, h3⟩
    exact this
  · rintro ⟨k, h1, h2⟩
    obtain ⟨d, h3, h4⟩ := (chip_iff field (Pipeline.Spec.bare r) k hfield).2 h2
    exact ⟨k, d, h1, by rw [hds]; exact h3, h4⟩

theorem library_with (hE : Library E) (db : List (Pointing.Visit V)) (ds : List (Row W V → Bool)) : Library { E with db := db, detectors := ds } :=
  ⟨hE.sortIndex, hE.sortOut, hE.sortT⟩

/-- C75 (camera footprint): in a Rubin run with the supplied configuration for the camera footprint, or with the demo's, each row of each output table
stems from an observation and a visit of the survey in one of the six filters, has an SNR above 2, a magnitude not below 16 and a position more than two
arcseconds inside the detector of the LSST camera whose number it carries, and belongs to an object discovered in the night it carries: the table
itself has tracklets (two observations less than 90 minutes and more than half an arcsecond apart) of it in three of the fifteen nights up to that one. -/
theorem C75_footprint (hpy : Ini.Spec.Python py rnd) (hs : Config.Spec.IsRubin survey) (hl : lines = Ini.Data.rubinFootprint ∨ lines = Ini.Data.demo)
    (hE : Library E) (hfield : ∀ v ∈ answer, |(field v.rest).2.1| < 90)
    (h : run py lc ca survey lines field (some answer) E s blocks = .ok outs) (t : List (Final W V)) (ht : t ∈ outs) (f : Final W V) (hf : f ∈ t) :
    (∃ b ∈ blocks, From survey answer E b f.row) ∧ Below (.fin 2) f.row.snr ∧ ¬ Below f.row.psfMag (.fin 16) ∧
    (∃ k, f.row.rest.detector = some k ∧ OnChip (position field f.row) k) ∧
    ∃ D, f.link = some (true, some D) ∧ Discovered E.linkSep (t.map (·.row)) f.row.objId D := by
  obtain ⟨a, -, -, h2, -, h4⟩ := Ini.Props.C74_templates hpy lc ca survey hs
  obtain ⟨c, hc, hfov, hfil, hsat, hlink, hexp⟩ : ∃ c : Config.Cfg, Ini.configure py lc ca survey lines = .ok (c, a) ∧
      c.fov = .footprint none (some (.fin 2)) ∧ c.filters = ["r", "g", "i", "z", "u", "y"] ∧ c.saturation = (footprintCfg rnd).saturation ∧
      c.linking = (footprintCfg rnd).linking ∧ c.expert = (footprintCfg rnd).expert := by
    rcases hl with rfl | rfl
    · exact ⟨_, h2, rfl, rfl, rfl, rfl, rfl⟩
    · exact ⟨_, h4, rfl, rfl, rfl, rfl, rfl⟩
  obtain ⟨db, ds, hdb, hcam, hr⟩ := run_ok hc h
  rw [hfov, camera_lsst hpy survey hs] at hcam
  have hcam := (Except.ok.inj hcam).symm
  obtain ⟨hne, b, hb, s1, s2, hp⟩ := C11_rounds hr t ht
  have hE' := library_with hE db ds
  obtain ⟨g1, g2, g3, g4, -⟩ := C11_sound hE'.sortIndex hE'.sortOut hp f hf
  have hsix : ∀ f ∈ c.filters, Band f := by rw [hfil]; exact fun f hf => six (rnd := rnd) f hf
  have hfrom := from_stems hsix hdb g1
  obtain ⟨o, ho, v, ⟨v0, hv0, hprep, hvf⟩, -, -, hsrc, -, hopt, -⟩ := hfrom
  have hdec : |(field f.row.rest.src.2.rest).2.1| < 90 := by
    rw [hsrc]
    simp only
    rw [show v.rest = v0.rest from hprep.2.2.2.2.2.2.2]
    exact hfield v0 hv0
  refine ⟨⟨b, hb, from_stems hsix hdb g1⟩, g4 (by rw [hexp]; rfl) (by rw [hexp]; rfl), not_saturated hfil hsat (by rw [hopt]; exact hvf) g3,
    (chip_of_view hfov hcam hdec).1 g2, ?_⟩
  exact discovered hE' (eff := .fin (rnd (95 / 100))) (by rw [hlink]; rfl) (by rw [hlink]; rfl) hp hne f hf

/-- C75 (circular approximation): the same with the supplied configuration for a circular field of view, except that the position is within 1.75 degrees
of the field centre instead of on a detector. -/
theorem C75_circular (hpy : Ini.Spec.Python py rnd) (hs : Config.Spec.IsRubin survey) (hE : Library E)
    (h : run py lc ca survey Ini.Data.rubinCircular field (some answer) E s blocks = .ok outs) (t : List (Final W V)) (ht : t ∈ outs)
    (f : Final W V) (hf : f ∈ t) :
    (∃ b ∈ blocks, From survey answer E b f.row) ∧ Below (.fin 2) f.row.snr ∧ ¬ Below f.row.psfMag (.fin 16) ∧
    Below (E.sep f.row) (.fin (7 / 4)) ∧
    ∃ D, f.link = some (true, some D) ∧ Discovered E.linkSep (t.map (·.row)) f.row.objId D := by
  obtain ⟨a, -, h1, -⟩ := Ini.Props.C74_templates hpy lc ca survey hs
  obtain ⟨db, ds, hdb, hcam, hr⟩ := run_ok h1 h
  obtain ⟨hne, b, hb, s1, s2, hp⟩ := C11_rounds hr t ht
  have hE' := library_with hE db ds
  obtain ⟨g1, g2, g3, g4, -⟩ := C11_sound hE'.sortIndex hE'.sortOut hp f hf
  have hfrom := from_stems six hdb g1
  obtain ⟨o, ho, v, ⟨v0, hv0, hprep, hvf⟩, -, -, hsrc, -, hopt, -⟩ := hfrom
  refine ⟨⟨b, hb, from_stems six hdb g1⟩, g4 rfl rfl, not_saturated rfl rfl (by rw [hopt]; exact hvf) g3, ?_, ?_⟩
  · exact g2 (.fin (7 / 4)) rfl (by simp [num])
  · exact discovered hE' (eff := .fin (rnd (95 / 100))) rfl rfl hp hne f hf

theorem prepared_unique (hs : Config.Spec.IsRubin survey) {v0 v v' : Pointing.Visit V} (h : Pointing.Spec.Prepared survey v0 v)
    (h' : Pointing.Spec.Prepared survey v0 v') : v = v' := by
  obtain ⟨a, a1, a2, a3, a4, a5, a6, a7⟩ := h
  obtain ⟨b, b1, b2, b3, b4, b5, b6, b7⟩ := h'
  have hd : ¬ (survey = "DES" ∨ survey = "des") := by
    rcases hs with rfl | rfl | rfl | rfl <;> decide
  rcases a with ⟨-, a8, a9⟩ | ⟨h, -⟩
  · rcases b with ⟨-, b8, b9⟩ | ⟨h, -⟩
    · obtain ⟨⟩ := v
      obtain ⟨⟩ := v'
      simp only at *
      subst a1 a2 a3 a4 a5 a6 a7 a8 b1 b2 b3 b4 b5 b6 b7 b8
      congr 1
      linarith
    · exact (hd h).elim
  · exact (hd h).elim

theorem visited_mem (hs : Config.Spec.IsRubin survey) {filters : List String} {db : List (Pointing.Visit V)}
    (hf : ∀ f, Band f → f ∈ filters) (h : Pointing.readPointing (some answer) filters survey false false = .ok db) (v : Pointing.Visit V)
    (hv : Visited survey answer v) : v ∈ db := by
  obtain ⟨v0, hv0, hp, hb⟩ := hv
  obtain ⟨-, ⟨df, hdf, hall⟩, -⟩ := Pointing.Props.C40_read h
  have := Option.some.inj hdf
  subst this
  obtain ⟨v', hv', hp'⟩ := mem_forall₂ hall v0 (List.mem_filter.2 ⟨hv0, by simpa [← hp.2.2.1] using hf _ hb⟩)
  rw [prepared_unique hs hp hp']
  exact hv'

/-- C75 (known objects): in a Rubin run with the supplied configuration for predicting known objects, the rows of the output tables are exactly those of the
observations during visits of their fields in one of the six filters whose computed position is more than two arcseconds inside a detector of the LSST
camera, with the values computed for them; no row is said to be of a discovered object. -/
theorem C75_known (hpy : Ini.Spec.Python py rnd) (hs : Config.Spec.IsRubin survey) (hE : Library E) (hfield : ∀ v ∈ answer, |(field v.rest).2.1| < 90)
    (h : run py lc ca survey Ini.Data.rubinKnown field (some answer) E s blocks = .ok outs) :
    (∀ t ∈ outs, ∀ f ∈ t, f.link = none) ∧
    ∀ r : Row W V, r ∈ outs.flatten.map (·.row) ↔ ∃ b ∈ blocks, ∃ o ∈ b, ∃ v m k, Visited survey answer v ∧ v.id = o.field ∧ E.measure (o, v) = some m ∧
      OnChip (image m.ra m.dec (field v.rest).1 (field v.rest).2.1 (field v.rest).2.2) k ∧
      r = ⟨o.obj, v.filter, m.trailed, m.trailed, m.snr, m.x, m.y, m.z, m.raRate, m.decRate, ⟨(o, v), m.ra, m.dec, some k⟩⟩ := by
  obtain ⟨a, -, -, -, h3, -⟩ := Ini.Props.C74_templates hpy lc ca survey hs
  obtain ⟨db, ds, hdb, hcam, hr⟩ := run_ok h3 h
  rw [show (knownCfg rnd).fov = .footprint none (some (.fin 2)) from rfl, camera_lsst hpy survey hs] at hcam
  have hcam := (Except.ok.inj hcam).symm
  have hE' := library_with hE db ds
  have hdet : Pipeline.Spec.Deterministic (knownCfg rnd) := by
    refine ⟨rfl, rfl, ?_⟩
    intro fill radius hh
    cases hh
  have hv : ∀ v, v ∈ db ↔ Visited survey answer v := fun v => ⟨mem_visited (six (rnd := rnd)) hdb v, visited_mem hs (fun f hf => by
    simp only [knownCfg, footprintCfg, circularCfg, List.mem_cons, List.not_mem_nil, or_false]
    unfold Band at hf
    tauto) hdb v⟩
  have hdec : ∀ v, Visited survey answer v → |(field v.rest).2.1| < 90 := by
    rintro v ⟨v0, hv0, hp, -⟩
    rw [show v.rest = v0.rest from hp.2.2.2.2.2.2.2]
    exact hfield v0 hv0
  -- the rows of one block
  have hblock : ∀ (b : List (Pointing.Obs W)) (r : Row W V), r ∈ Pipeline.Spec.survivors { E with db := db, detectors := ds } (knownCfg rnd) b ↔
      ∃ o ∈ b, ∃ v m k, Visited survey answer v ∧ v.id = o.field ∧ E.measure (o, v) = some m ∧
      OnChip (image m.ra m.dec (field v.rest).1 (field v.rest).2.1 (field v.rest).2.2) k ∧
      r = ⟨o.obj, v.filter, m.trailed, m.trailed, m.snr, m.x, m.y, m.z, m.raRate, m.decRate, ⟨(o, v), m.ra, m.dec, some k⟩⟩ := by
    intro b r
    unfold Pipeline.Spec.survivors Pipeline.Spec.candidates
    rw [mem_keep]
    constructor
    · rintro ⟨hm, hview, -⟩
      obtain ⟨o, ho, hm⟩ := List.mem_flatMap.1 hm
      obtain ⟨v, hvm, hm⟩ := List.mem_flatMap.1 hm
      obtain ⟨hvd, hvid⟩ := List.mem_filter.1 hvm
      have hvis := (hv v).1 hvd
      cases hme : E.measure (o, v) with
      | none => simp [hme] at hm
      | some m =>
        simp only [hme] at hm
        obtain ⟨k, -, rfl⟩ := List.mem_map.1 hm
        obtain ⟨k', hk', hon⟩ := (chip_of_view (E := E) (db := db) (c := knownCfg rnd) rfl hcam (hdec v hvis)).1 hview
        cases hk'
        exact ⟨o, ho, v, m, k, hvis, of_decide_eq_true hvid, hme, hon, rfl⟩
    · rintro ⟨o, ho, v, m, k, hvis, hid, hme, hon, rfl⟩
      have hview := (chip_of_view (E := E) (db := db) (c := knownCfg rnd) (ds := ds)
        (r := ⟨o.obj, v.filter, m.trailed, m.trailed, m.snr, m.x, m.y, m.z, m.raRate, m.decRate, ⟨(o, v), m.ra, m.dec, some k⟩⟩)
        rfl hcam (hdec v hvis)).2 ⟨k, rfl, hon⟩
      refine ⟨?_, hview, ⟨?_, ?_, ?_⟩⟩
      · refine List.mem_flatMap.2 ⟨o, ho, List.mem_flatMap.2 ⟨v, List.mem_filter.2 ⟨(hv v).2 hvis, by simpa using hid⟩, ?_⟩⟩
        simp only [hme]
        obtain ⟨k', d, e1, e2, -⟩ := hview
        cases e1
        refine List.mem_map.2 ⟨k, List.mem_range.2 (List.getElem?_eq_some_iff.1 e2).1, rfl⟩
      · intro l hl; cases hl
      · intro l hl; cases hl
      · intro hl; cases hl
  refine ⟨?_, ?_⟩
  · intro t ht f hf
    obtain ⟨-, b, hb, s1, s2, hp⟩ := C11_rounds hr t ht
    exact (C11_exact hE'.sortIndex hdet rfl hp).2 f hf
  · intro r
    obtain ⟨tables, hall, rfl⟩ := C11_rounds_all hr
    constructor
    · intro hm
      obtain ⟨f, hf, rfl⟩ := List.mem_map.1 hm
      obtain ⟨t, ht, hf⟩ := List.mem_flatten.1 hf
      obtain ⟨b, hb, s1, s2, hp⟩ := mem_forall₂ hall.flip t (List.mem_filter.1 ht).1
      have := (C11_exact hE'.sortIndex hdet rfl hp).1.subset (List.mem_map.2 ⟨f, hf, rfl⟩)
      exact ⟨b, hb, (hblock b f.row).1 this⟩
    · rintro ⟨b, hb, hm⟩
      obtain ⟨t, ht, s1, s2, hp⟩ := mem_forall₂ hall b hb
      have := (C11_exact hE'.sortIndex hdet rfl hp).1.symm.subset ((hblock b r).2 hm)
      obtain ⟨f, hf, rfl⟩ := List.mem_map.1 this
      refine List.mem_map.2 ⟨f, List.mem_flatten.2 ⟨t, List.mem_filter.2 ⟨ht, ?_⟩, hf⟩, rfl⟩
      simpa using List.ne_nil_of_mem hf

theorem one_detector (r : Row W V) {i j : ℕ} {d e : Row W V → Bool} (hi : (detectors field Cameras.lsstCamera (some 2))[i]? = some d)
    (hj : (detectors field Cameras.lsstCamera (some 2))[j]? = some e) (hd : d r = true) (he : e r = true) : i = j := by
  have key : ∀ {i j : ℕ} {d e : Row W V → Bool}, i < j → (detectors field Cameras.lsstCamera (some 2))[i]? = some d →
      (detectors field Cameras.lsstCamera (some 2))[j]? = some e → d r = true → e r = true → False := by
    intro i j d e hij hi hj hd he
    unfold detectors at hi hj
    rw [List.getElem?_map, Option.map_eq_some_iff] at hi hj
    obtain ⟨d0, hd0, rfl⟩ := hi
    obtain ⟨e0, he0, rfl⟩ := hj
    simp only [decide_eq_true_eq] at hd he
    exact Cameras.Props.lsst_disjoint i j hij d0 e0 _ _ _ hd0 he0 hd he
  rcases lt_trichotomy i j with h | h | h
  · exact (key h hi hj hd he).elim
  · exact h
  · exact (key h hj hi he hd).elim

theorem loud_nodup (c : Config.Cfg) {obs : List (Pointing.Obs W)} (ho : obs.Nodup) (hdb : E.db.Nodup) :
    ((Pipeline.Spec.loud E c obs).map (·.rest.src)).Nodup := by
  unfold Pipeline.Spec.loud
  refine ((keep_sublist _ _).map _).nodup ?_
  rw [List.map_flatMap, List.nodup_flatMap]
  constructor
  · intro o _
    rw [List.map_filterMap]
    refine List.Nodup.filterMap ?_ (hdb.filter _)
    intro v v' p h h'
    simp only [Option.mem_def, Option.map_map, Option.map_eq_some_iff] at h h'
    obtain ⟨m, -, rfl⟩ := h
    obtain ⟨m', -, h'⟩ := h'
    have : (o, v') = (o, v) := h'
    exact (Prod.mk.inj this).2.symm
  · refine ho.imp_of_mem ?_
    intro o o' _ _ hne p hp hp'
    obtain ⟨r, hr, rfl⟩ := List.mem_map.1 hp
    obtain ⟨r', hr', hrr⟩ := List.mem_map.1 hp'
    obtain ⟨v, -, hv⟩ := List.mem_filterMap.1 hr
    obtain ⟨v', -, hv'⟩ := List.mem_filterMap.1 hr'
    obtain ⟨m, -, rfl⟩ := Option.map_eq_some_iff.1 hv
    obtain ⟨m', -, rfl⟩ := Option.map_eq_some_iff.1 hv'
    have : (o', v') = (o, v) := hrr
    exact hne (Prod.mk.inj this).1.symm

theorem flatten_nodup {α β γ : Type} {R : List α → List β → Prop} (g : β → α × γ) (hR : ∀ b t, R b t → b.Nodup → (t.map g).Nodup ∧ ∀ x ∈ t, (g x).1 ∈ b)
    {blocks : List (List α)} {tables : List (List β)} (h : List.Forall₂ R blocks tables) (hn : blocks.flatten.Nodup) :
    (tables.flatten.map g).Nodup ∧ ∀ x ∈ tables.flatten, (g x).1 ∈ blocks.flatten := by
  induction h with
  | nil => simp
  | @cons b t blocks tables h1 _ ih =>
    rw [List.flatten_cons, List.nodup_append] at hn
    obtain ⟨n1, n2, n3⟩ := hn
    obtain ⟨i1, i2⟩ := ih n2
    obtain ⟨j1, j2⟩ := hR b t h1 n1
    refine ⟨?_, ?_⟩
    · rw [List.flatten_cons, List.map_append, List.nodup_append]
      refine ⟨j1, i1, ?_⟩
      intro x hx y hy
      obtain ⟨x, hx1, rfl⟩ := List.mem_map.1 hx
      obtain ⟨y, hy1, rfl⟩ := List.mem_map.1 hy
      intro hxy
      exact n3 _ (j2 x hx1) _ (i2 y hy1) (by rw [hxy])
    · intro x hx
      rw [List.flatten_cons, List.mem_append] at hx ⊢
      rcases hx with hx | hx
      · exact .inl (j2 x hx)
      · exact .inr (i2 x hx)

theorem block_once {c : Config.Cfg} {s1 s2 : State G} {b : List (Pointing.Obs W)} {t : List (Final W V)} (hE : Library E) (hb : b.Nodup)
    (hdb : E.db.Nodup) (hfov : (∃ a ρ, c.fov = .circle a ρ) ∨ (∃ a ε, c.fov = .footprint a ε) ∧ E.detectors = detectors field Cameras.lsstCamera (some 2))
    (hp : Pipeline.process E c s1 b = .ok (t, s2)) : (t.map (·.row.rest.src)).Nodup ∧ ∀ f ∈ t, f.row.rest.src.1 ∈ b := by
  have hsub := C11_once hE.sortIndex hE.sortOut hp
  constructor
  · have hnd : (t.map fun f => (f.row.rest.src, f.row.rest.detector)).Nodup := by
      obtain ⟨l, hl1, hl2⟩ := hsub
      refine hl1.nodup_iff.1 (hl2.nodup ?_)
      have hplaces : (places E c).Nodup := by
        unfold places
        split
        · exact List.Nodup.map (fun x y h => Option.some.inj h) List.nodup_range
        · simp
      rw [List.nodup_flatMap]
      constructor
      · intro o _
        rw [List.nodup_flatMap]
        constructor
        · intro v _
          exact hplaces.map fun x y h => (Prod.mk.inj h).2
        · refine (hdb.filter _).imp_of_mem ?_
          intro v v' _ _ hne p hp hp'
          obtain ⟨x, -, rfl⟩ := List.mem_map.1 hp
          obtain ⟨y, -, hy⟩ := List.mem_map.1 hp'
          exact hne (Prod.mk.inj (Prod.mk.inj hy).1).2.symm
      · refine hb.imp_of_mem ?_
        intro o o' _ _ hne p hp hp'
        obtain ⟨v, -, hp⟩ := List.mem_flatMap.1 hp
        obtain ⟨v', -, hp'⟩ := List.mem_flatMap.1 hp'
        obtain ⟨x, -, rfl⟩ := List.mem_map.1 hp
        obtain ⟨y, -, hy⟩ := List.mem_map.1 hp'
        exact hne (Prod.mk.inj (Prod.mk.inj hy).1).1.symm
    have hsame : ∀ f ∈ t, ∀ f' ∈ t, f.row.rest.src = f'.row.rest.src → f.row.rest.detector = f'.row.rest.detector := by
      intro f hf f' hf' hsrc
      rcases hfov with ⟨fill, ρ, hfov⟩ | ⟨⟨path, ε, hfov⟩, hds⟩
      · have hnone : ∀ f ∈ t, f.row.rest.detector = none := by
          intro f hf
          have := hsub.subset (List.mem_map.2 ⟨f, hf, rfl⟩)
          obtain ⟨o, -, this⟩ := List.mem_flatMap.1 this
          obtain ⟨v, -, this⟩ := List.mem_flatMap.1 this
          obtain ⟨d, hd, this⟩ := List.mem_map.1 this
          unfold places at hd
          rw [hfov] at hd
          simp only [List.mem_singleton] at hd
          rw [← (Prod.mk.inj this).2, hd]
        rw [hnone f hf, hnone f' hf']
      · have hbare : Pipeline.Spec.bare f.row = Pipeline.Spec.bare f'.row := by
          by_cases hr : c.expert.randomization.on = true
          · obtain ⟨m, i, a1, a2, a3, a4, e1, e2, e3, e4⟩ := C11_noise hE.sortIndex hE.sortOut hp hr f hf
            obtain ⟨m', i', a1', a2', a3', a4', e1', e2', e3', e4'⟩ := C11_noise hE.sortIndex hE.sortOut hp hr f' hf'
            rw [← hsrc] at e1' e2' e3' e4'
            rw [e1] at e1'
            have := Option.some.inj e1'
            subst this
            have hl := loud_nodup c hb hdb
            have hii : i = i' := by
              have g1 : ((Pipeline.Spec.loud E c b).map (·.rest.src))[i]? = some f.row.rest.src := by rw [List.getElem?_map, e2]; rfl
              have g2 : ((Pipeline.Spec.loud E c b).map (·.rest.src))[i']? = some f.row.rest.src := by rw [List.getElem?_map, e2']; rfl
              obtain ⟨l1, g1⟩ := List.getElem?_eq_some_iff.1 g1
              obtain ⟨l2, g2⟩ := List.getElem?_eq_some_iff.1 g2
              exact (hl.getElem_inj_iff (hi := l1) (hj := l2)).1 (g1.trans g2.symm)
            subst hii
            rw [e3] at e3'
            simp only [Prod.mk.injEq] at e3'
            obtain ⟨rfl, rfl, rfl, rfl⟩ := e3'
            rw [e4, e4']
          · have hr : c.expert.randomization.on = false := by simpa using hr
            obtain ⟨m, e1, e2⟩ := (C11_sound hE.sortIndex hE.sortOut hp f hf).2.2.2.2 hr
            obtain ⟨m', e1', e2'⟩ := (C11_sound hE.sortIndex hE.sortOut hp f' hf').2.2.2.2 hr
            rw [← hsrc] at e1' e2'
            rw [e1] at e1'
            rw [e2, e2', Option.some.inj e1']
        have h1 := (C11_sound hE.sortIndex hE.sortOut hp f hf).2.1
        have h2 := (C11_sound hE.sortIndex hE.sortOut hp f' hf').2.1
        unfold Pipeline.Spec.InView at h1 h2
        rw [hfov] at h1 h2
        simp only at h1 h2
        obtain ⟨i, d, hi1, hi2, hi3⟩ := h1
        obtain ⟨j, e, hj1, hj2, hj3⟩ := h2
        rw [hds] at hi2 hj2
        rw [← hbare] at hj3
        rw [hi1, hj1, one_detector _ hi2 hj2 hi3 hj3]
    have := hnd
    rw [List.Nodup, List.pairwise_map] at this ⊢
    refine this.imp_of_mem ?_
    intro f f' hf hf' hne hsrc
    exact hne (Prod.ext hsrc (hsame f hf f' hf' hsrc))
  · intro f hf
    obtain ⟨o, ho, v, hv, m, -, -, -, e, -⟩ := (C11_sound hE.sortIndex hE.sortOut hp f hf).1
    rw [e]
    exact ho

/-- C75 (no duplicates): if no observation is given twice and visit numbers are unique, a Rubin run with any of the supplied configurations outputs no
observation twice for the same visit. -/
theorem C75_once (hpy : Ini.Spec.Python py rnd) (hs : Config.Spec.IsRubin survey)
    (hl : lines = Ini.Data.rubinCircular ∨ lines = Ini.Data.rubinFootprint ∨ lines = Ini.Data.rubinKnown ∨ lines = Ini.Data.demo)
    (hE : Library E) (hobs : blocks.flatten.Nodup) (hids : (answer.map (·.id)).Nodup)
    (h : run py lc ca survey lines field (some answer) E s blocks = .ok outs) : (outs.flatten.map (·.row.rest.src)).Nodup := by
  obtain ⟨a, -, h1, h2, h3, h4⟩ := Ini.Props.C74_templates hpy lc ca survey hs
  obtain ⟨c, hc, hfov⟩ : ∃ c : Config.Cfg, Ini.configure py lc ca survey lines = .ok (c, a) ∧
      ((∃ a ρ, c.fov = .circle a ρ) ∨ c.fov = .footprint none (some (.fin 2))) := by
    rcases hl with rfl | rfl | rfl | rfl
    · exact ⟨_, h1, .inl ⟨_, _, rfl⟩⟩
    · exact ⟨_, h2, .inr rfl⟩
    · exact ⟨_, h3, .inr rfl⟩
    · exact ⟨_, h4, .inr rfl⟩
  obtain ⟨db, ds, hdb, hcam, hr⟩ := run_ok hc h
  have hE' := library_with hE db ds
  obtain ⟨tables, hall, rfl⟩ := C11_rounds_all hr
  have hdbn : db.Nodup := by
    obtain ⟨-, ⟨df, hdf, hprep⟩, -⟩ := Pointing.Props.C40_read hdb
    have := Option.some.inj hdf
    subst this
    have hmap : (db.map (·.id)) = ((answer.filter fun v => decide (v.filter ∈ c.filters)).map (·.id)) := by
      have key : ∀ {l l' : List (Pointing.Visit V)}, List.Forall₂ (Pointing.Spec.Prepared survey) l l' → l'.map (·.id) = l.map (·.id) := by
        intro l l' hh
        induction hh with
        | nil => rfl
        | cons h1 _ ih => rw [List.map_cons, List.map_cons, ih, h1.2.1]
      exact key hprep
    refine List.Nodup.of_map (·.id) ?_
    rw [hmap]
    exact ((List.filter_sublist).map _).nodup hids
  have hview : (∃ a ρ, c.fov = .circle a ρ) ∨ (∃ a ε, c.fov = .footprint a ε) ∧ ds = detectors field Cameras.lsstCamera (some 2) := by
    rcases hfov with h | h
    · exact .inl h
    · rw [h, camera_lsst hpy survey hs] at hcam
      exact .inr ⟨⟨_, _, h⟩, (Except.ok.inj hcam).symm⟩
  have := (flatten_nodup (fun f : Final W V => f.row.rest.src) (fun b t hbt hb => by
    obtain ⟨s1, s2, hp⟩ := hbt
    exact block_once hE' hb hdbn hview hp) hall hobs).1
  rwa [show (tables.filter fun t => decide (t ≠ [])).flatten = tables.flatten from by
    clear this hall hr h
    induction tables with
    | nil => rfl
    | cons t ts ih =>
      by_cases ht : t = []
      · subst ht
        rw [List.filter_cons_of_neg (by simp), ih]; rfl
      · rw [List.filter_cons_of_pos (by simpa using ht), List.flatten_cons, List.flatten_cons, ih]]

theorem mapM_some {α β : Type} (f : α → Option β) (l : List α) (h : ∀ a ∈ l, ∃ b, f a = some b) : ∃ r, l.mapM f = some r :=
  Pointing.Props.mapM_of_all f l fun a ha => by obtain ⟨b, hb⟩ := h a ha; rw [hb]; simp

theorem known_round {c : Config.Cfg} (hc : c = knownCfg rnd) (b : List (Pointing.Obs W))
    (hm : ∀ o ∈ b, ∀ v ∈ E.db, v.id = o.field → Pointing.Spec.Agree v.start o.mjd ∧ ∃ m, E.measure (o, v) = some m) (s : State G) :
    ∃ t s', Pipeline.process E c s b = .ok (t, s') := by
  subst hc
  unfold Pipeline.process
  by_cases hb : b.length = 0
  · rw [if_pos hb]; exact ⟨_, _, rfl⟩
  · rw [if_neg hb]
    have hpair : ∀ p ∈ (b.flatMap fun o => (E.db.filter (·.id = o.field)).map fun v => (o, v)),
        Pointing.Spec.Agree p.2.start p.1.mjd ∧ ∃ m, E.measure p = some m := by
      intro p hp
      obtain ⟨o, ho, hp⟩ := List.mem_flatMap.1 hp
      obtain ⟨v, hv, rfl⟩ := List.mem_map.1 hp
      obtain ⟨hv1, hv2⟩ := List.mem_filter.1 hv
      exact hm o ho v hv1 (of_decide_eq_true hv2)
    have hmatch : Pointing.matchPointing b E.db = .ok (b.flatMap fun o => (E.db.filter (·.id = o.field)).map fun v => (o, v)) := by
      unfold Pointing.matchPointing
      simp only [Pointing.Props.merge_filterMap]
      rw [if_pos]
      rw [List.all_eq_true]
      intro p hp
      exact (Pointing.Props.isclose_iff _ _).2 (hpair p hp).1
    obtain ⟨rs, hrs⟩ := mapM_some (fun p => (E.measure p).map (Pipeline.mkRow (knownCfg rnd) p))
      (b.flatMap fun o => (E.db.filter (·.id = o.field)).map fun v => (o, v)) (fun p hp => by
        obtain ⟨-, m, hm⟩ := hpair p hp
        exact ⟨_, by rw [hm]; rfl⟩)
    have h1 : Pipeline.measured E (knownCfg rnd) b = .ok (Pipeline.ofRows rs) := by
      simp only [Pipeline.measured, hmatch, Except.mapError, bind, Except.bind, hrs]
    simp only [h1, bind, Except.bind, pure, Except.pure]
    simp only [Pipeline.randomize, Pipeline.fieldOfView, Pipeline.fade, Pipeline.brightCut, Pipeline.link, knownCfg, footprintCfg]
    simp [Config.Flag.on]

/-- C75 (known objects, no failure): such a run is completed whenever the survey is named `rubin_sim`, has a visit in one of the six filters and the
calculations give a result for each observation and visit of its field, with times that agree. -/
theorem C75_known_runs (hpy : Ini.Spec.Python py rnd) (hs : survey = "rubin_sim" ∨ survey = "RUBIN_SIM") (hband : ∃ v ∈ answer, Band v.filter)
    (hm : ∀ b ∈ blocks, ∀ o ∈ b, ∀ v, Visited survey answer v → v.id = o.field → Pointing.Spec.Agree v.start o.mjd ∧ ∃ m, E.measure (o, v) = some m) :
    ∃ outs, run py lc ca survey Ini.Data.rubinKnown field (some answer) E s blocks = .ok outs := by
  have hs' : Config.Spec.IsRubin survey := by rcases hs with h | h <;> simp [Config.Spec.IsRubin, h]
  obtain ⟨a, -, -, -, h3, -⟩ := Ini.Props.C74_templates hpy lc ca survey hs'
  obtain ⟨db, hdb⟩ := Pointing.Props.C40_read_ok answer (knownCfg rnd).filters survey (by tauto) (by
    obtain ⟨v, hv, hb⟩ := hband
    refine ⟨v, hv, ?_⟩
    simp only [knownCfg, footprintCfg, circularCfg, List.mem_cons, List.not_mem_nil, or_false]
    unfold Band at hb
    tauto)
  have hrounds : ∀ (bs : List (List (Pointing.Obs W))), (∀ b ∈ bs, b ∈ blocks) → ∀ s : State G, ∃ outs,
      Pipeline.rounds { E with db := db, detectors := detectors field Cameras.lsstCamera (some 2) } (knownCfg rnd) s bs = .ok outs := by
    intro bs
    induction bs with
    | nil => intro _ s; exact ⟨_, rfl⟩
    | cons b bs ih =>
      intro hsub s
      obtain ⟨t, s', hp⟩ := known_round (E := { E with db := db, detectors := detectors field Cameras.lsstCamera (some 2) }) (rnd := rnd) rfl b
        (fun o ho v hv hid => hm b (hsub b (by simp)) o ho v (mem_visited (six (rnd := rnd)) hdb v hv) hid) s
      obtain ⟨outs, hr⟩ := ih (fun b hb => hsub b (by simp [hb])) s'
      simp only [Pipeline.rounds, bind, Except.bind, hp, hr, pure, Except.pure]
      exact ⟨_, rfl⟩
  obtain ⟨outs, hr⟩ := hrounds blocks (fun _ h => h) s
  refine ⟨outs, ?_⟩
  unfold run
  rw [h3]
  simp only [hdb]
  rw [show (knownCfg rnd).fov = .footprint none (some (.fin 2)) from rfl, camera_lsst hpy survey hs']
  simp only [hr]

/-- With the survey name LSST or lsst the supplied configurations are accepted, but no run is ever completed. -/
theorem C75_lsst_fails (hpy : Ini.Spec.Python py rnd) (hs : survey = "LSST" ∨ survey = "lsst")
    (hl : lines = Ini.Data.rubinCircular ∨ lines = Ini.Data.rubinFootprint ∨ lines = Ini.Data.rubinKnown ∨ lines = Ini.Data.demo)
    (db : Option (List (Pointing.Visit V))) :
    (∃ x, Ini.configure py lc ca survey lines = .ok x) ∧ ¬ ∃ outs, run py lc ca survey lines field db E s blocks = .ok outs := by
  obtain ⟨a, -, h1, h2, h3, h4⟩ := Ini.Props.C74_templates hpy lc ca survey (by rcases hs with h | h <;> simp [Config.Spec.IsRubin, h])
  obtain ⟨c, hc⟩ : ∃ c : Config.Cfg, Ini.configure py lc ca survey lines = .ok (c, a) := by
    rcases hl with rfl | rfl | rfl | rfl
    · exact ⟨_, h1⟩
    · exact ⟨_, h2⟩
    · exact ⟨_, h3⟩
    · exact ⟨_, h4⟩
  refine ⟨⟨_, hc⟩, ?_⟩
  rintro ⟨outs, h⟩
  obtain ⟨vs, ds, hdb, -⟩ := run_ok hc h
  obtain ⟨hne, ⟨df, -, hall⟩, -⟩ := Pointing.Props.C40_read hdb
  obtain ⟨v, hv⟩ := List.exists_mem_of_ne_nil vs hne
  obtain ⟨v0, -, ⟨⟨h, -⟩ | ⟨h, -⟩, -⟩⟩ := mem_forall₂ hall.flip v hv
  all_goals rcases hs with rfl | rfl <;> revert h <;> decide

end Sorcha.Shipped.Props
