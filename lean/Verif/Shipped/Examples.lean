import Verif.Shipped.Props
import Verif.Pipeline.Props2

/-!
# Concrete runs that meet the hypotheses of the theorems on the supplied configurations
-/

namespace Sorcha.Shipped.Props

open Sorcha.Pipeline (Env Row Final State)
open Sorcha.Pipeline.Props (exEnv exState exSummary exRegular)
open Sorcha.Ini.Props (circularCfg footprintCfg knownCfg plainPy plainPy_python)
open Spec

/-- Two visits, 45 minutes apart, in each of three nights. -/
def exVisits : List (Pointing.Visit Unit) :=
  [⟨1, "r", 60000 + 1/4, 0, 30, 30, none, none, ()⟩, ⟨2, "g", 60000 + 9/32, 0, 30, 30, none, none, ()⟩, ⟨3, "r", 60001 + 1/4, 0, 30, 30, none, none, ()⟩,
   ⟨4, "y", 60001 + 9/32, 0, 30, 30, none, none, ()⟩, ⟨5, "u", 60004 + 1/4, 0, 30, 30, none, none, ()⟩, ⟨6, "z", 60004 + 9/32, 0, 30, 30, none, none, ()⟩,
   ⟨7, "w", 60004 + 9/32, 0, 30, 30, none, none, ()⟩]

/-- Object A is observed in all six visits, object B in four of them; object C is outside the field, and visit 7 has another filter. -/
def exBlock : List (Pointing.Obs Unit) :=
  [⟨"A", 1, 60000 + 1/4, ()⟩, ⟨"A", 2, 60000 + 9/32, ()⟩, ⟨"A", 3, 60001 + 1/4, ()⟩, ⟨"A", 4, 60001 + 9/32, ()⟩, ⟨"A", 5, 60004 + 1/4, ()⟩,
   ⟨"A", 6, 60004 + 9/32, ()⟩, ⟨"A", 7, 60004 + 9/32, ()⟩, ⟨"B", 1, 60000 + 1/4, ()⟩, ⟨"B", 2, 60000 + 9/32, ()⟩, ⟨"B", 3, 60001 + 1/4, ()⟩,
   ⟨"B", 4, 60001 + 9/32, ()⟩, ⟨"C", 1, 60000 + 1/4, ()⟩]

theorem exLibrary : Library exEnv := ⟨exRegular.sortIndex, exRegular.sortOut, exRegular.sortT⟩

/-- The visits as the run uses them. -/
def exUsed : List (Pointing.Visit Unit) := (exVisits.take 6).map fun v => { v with mid := v.start + 15 / 86400 }

/-- The supplied configuration for a circular field of view: the six observations of A are output, with the night of its discovery. -/
theorem ex_circular : exSummary ((run plainPy [] [] "rubin_sim" Ini.Data.rubinCircular (fun _ : Unit => (0, 0, 0)) (some exVisits) exEnv exState
    [exBlock]).mapError fun _ => Pipeline.Err.camera) = some [("A", 1, some 60003), ("A", 2, some 60003), ("A", 3, some 60003), ("A", 4, some 60003),
      ("A", 5, some 60003), ("A", 6, some 60003)] := by
  obtain ⟨a, -, h1, -⟩ := Ini.Props.C74_templates plainPy_python [] [] "rubin_sim" (.inr (.inr (.inl rfl)))
  have h2 : Pointing.readPointing (some exVisits) (circularCfg id).filters "rubin_sim" false false = .ok exUsed := by decide +kernel
  have h3 : camera (W := Unit) plainPy.lower "rubin_sim" (fun _ : Unit => (0, 0, 0)) (circularCfg id).fov = .ok [] := rfl
  unfold run
  rw [h1]
  simp only [h2, h3]
  have h4 : exSummary (Pipeline.rounds { exEnv with db := exUsed, detectors := [] } (circularCfg id) exState [exBlock]) =
      some [("A", 1, some 60003), ("A", 2, some 60003), ("A", 3, some 60003), ("A", 4, some 60003), ("A", 5, some 60003), ("A", 6, some 60003)] := by
    decide +kernel
  rw [← h4]
  cases Pipeline.rounds { exEnv with db := exUsed, detectors := [] } (circularCfg id) exState [exBlock] <;> rfl

/-! ## The camera footprint: all observations at the field centre -/

/-- The field centre is on the detector with number 94. -/
theorem center_on : OnChip (image 0 0 0 0 0) 94 := by
  obtain ⟨h1, h2⟩ := Cameras.Props.center_inside
  obtain ⟨d, hd, hn⟩ : ∃ d, Cameras.lsstFile[94]? = some d ∧ d.1 = "94" := by
    have : (Cameras.lsstFile[94]?).map (·.1) = some "94" := by decide +kernel
    obtain ⟨d, hd, hn⟩ := Option.map_eq_some_iff.1 this
    exact ⟨d, hd, hn⟩
  have hm := List.mem_of_getElem? hd
  have hcor : Geom.Props.cornersOf Cameras.lsstCamera d.1 = d.2.map (Cameras.toPt 19) := Cameras.filter_read 19 Cameras.lsstFile Cameras.names_lsst d hm
  rw [← hn, hcor, ← lsst_polygon d hm] at h1 h2
  have h0 : image 0 0 0 0 0 = (0, 0) := by simp [image]
  rw [h0]
  exact ⟨d, hd, h1, h2⟩

/-- As `exEnv`, with all objects at the field centre; the linker's separations are made up. -/
def exHere : Env Unit Unit Unit :=
  { exEnv with
    measure := fun p => some ⟨.fin (if p.1.obj = "D" then 15 else 21), .fin (-1/10), .fin 10, .fin 1, .fin 0, .fin 0, .fin 1, .fin 1, 0, 0⟩
    linkSep := fun _ _ _ _ => 1 }

theorem exHere_library : Library exHere := ⟨exRegular.sortIndex, exRegular.sortOut, exRegular.sortT⟩

/-- The supplied configuration for known objects: the run is completed and outputs a row. -/
theorem ex_known : ∃ outs, run plainPy [] [] "rubin_sim" Ini.Data.rubinKnown (fun _ : Unit => (0, 0, 0)) (some exVisits) exHere exState [exBlock] = .ok outs ∧
    outs.flatten ≠ [] := by
  have hvis : ∀ v, Visited "rubin_sim" exVisits v → ∃ v0 ∈ exVisits, v.id = v0.id ∧ v.start = v0.start := by
    rintro v ⟨v0, hv0, ⟨h, h2, -⟩, -⟩
    refine ⟨v0, hv0, h2, ?_⟩
    rcases h with ⟨-, h, -⟩ | ⟨h, -⟩
    · exact h
    · exact absurd h (by decide)
  obtain ⟨outs, h⟩ := C75_known_runs (lc := []) (ca := []) (field := fun _ : Unit => (0, 0, 0)) (answer := exVisits) (E := exHere) (s := exState) (blocks := [exBlock])
    plainPy_python (.inl rfl) ⟨_, List.mem_cons_self, .inr (.inr (.inl rfl))⟩ (by
      intro b hb o ho v hv hid
      obtain ⟨v0, hv0, e1, e2⟩ := hvis v hv
      refine ⟨?_, _, rfl⟩
      rw [List.mem_singleton] at hb
      subst hb
      rw [e1] at hid
      rw [e2]
      have key : ∀ o ∈ exBlock, ∀ v0 ∈ exVisits, v0.id = o.field → v0.start = o.mjd := by decide +kernel
      rw [key o ho v0 hv0 hid]
      unfold Pointing.Spec.Agree
      rw [sub_self, abs_zero]
      positivity)
  refine ⟨outs, h, ?_⟩
  have hk := center_on
  have := ((C75_known plainPy_python (.inr (.inr (.inl rfl))) exHere_library (by intro v _; simp) h).2 _).2
    ⟨exBlock, by simp, ⟨"A", 1, 60000 + 1/4, ()⟩, by simp [exBlock], ⟨1, "r", 60000 + 1/4, 60000 + 1/4 + 15 / 86400, 30, 30, none, none, ()⟩, _, 94,
      ⟨⟨1, "r", 60000 + 1/4, 0, 30, 30, none, none, ()⟩, by simp [exVisits], ⟨.inl ⟨.inl rfl, rfl, by norm_num⟩, rfl, rfl, rfl, rfl, rfl, rfl, rfl⟩,
        .inr (.inr (.inl rfl))⟩, rfl, rfl, by simpa using hk, rfl⟩
  intro h0
  rw [h0] at this
  simp at this

/-- Detectors that agree on the rows of a table give the same rows. -/
theorem onDetectors_congr (ds ds' : List (Row Unit Unit → Bool)) (t : Table (Row Unit Unit)) (hl : ds.length = ds'.length)
    (h : ∀ (i : ℕ) (d d' : Row Unit Unit → Bool), ds[i]? = some d → ds'[i]? = some d' → ∀ r ∈ t, d r.2 = d' r.2) :
    Pipeline.onDetectors ds t = Pipeline.onDetectors ds' t := by
  have key : ∀ (n : ℕ) (ds ds' : List (Row Unit Unit → Bool)), ds.length = ds'.length →
      (∀ (i : ℕ) (d d' : Row Unit Unit → Bool), ds[i]? = some d → ds'[i]? = some d' → ∀ r ∈ t, d r.2 = d' r.2) →
      ((ds.zipIdx n).flatMap fun d => (t.filter fun r => d.1 r.2).map fun r => (r.1, { r.2 with rest := { r.2.rest with detector := some d.2 } })) =
      ((ds'.zipIdx n).flatMap fun d => (t.filter fun r => d.1 r.2).map fun r => (r.1, { r.2 with rest := { r.2.rest with detector := some d.2 } })) := by
    intro n ds
    induction ds generalizing n with
    | nil =>
      intro ds' hl _
      rw [List.eq_nil_of_length_eq_zero hl.symm]
    | cons d ds ih =>
      intro ds' hl h
      cases ds' with
      | nil => simp at hl
      | cons d' ds' =>
        simp only [List.zipIdx_cons, List.flatMap_cons]
        rw [ih (n + 1) ds' (by simpa using hl) (fun i e e' h1 h2 => h (i + 1) e e' (by simpa using h1) (by simpa using h2))]
        congr 2
        refine List.filter_congr fun r hr => ?_
        exact h 0 d d' rfl rfl r hr
  exact key 0 ds ds' hl h

/-- The detectors of the LSST camera as seen from the field centre: on detector 94 and on no other. -/
def exChips : List (Row Unit Unit → Bool) := (List.range 189).map fun i _ => decide (i = 94)

theorem exChips_same (r : Row Unit Unit) (hr : r.rest.ra = 0 ∧ r.rest.dec = 0) (i : ℕ) (d d' : Row Unit Unit → Bool)
    (hd : (detectors (fun _ : Unit => (0, 0, 0)) Cameras.lsstCamera (some 2))[i]? = some d) (hd' : exChips[i]? = some d') : d r = d' r := by
  have hpos : position (fun _ : Unit => (0, 0, 0)) r = image 0 0 0 0 0 := by
    unfold position
    rw [hr.1, hr.2]
    simp
  have h1 : d' r = decide (i = 94) := by
    unfold exChips at hd'
    rw [List.getElem?_map, Option.map_eq_some_iff] at hd'
    obtain ⟨j, hj, rfl⟩ := hd'
    rw [List.getElem?_range (by
      by_contra hc
      rw [List.getElem?_eq_none (by simpa using hc)] at hj
      simp at hj)] at hj
    rw [Option.some.inj hj]
  rw [h1]
  by_cases hi : i = 94
  · obtain ⟨e, he, ht⟩ := (chip_iff (fun _ : Unit => (0, 0, 0)) r 94 (by simp)).2 (by rw [hpos]; exact center_on)
    rw [hi] at hd
    rw [hd] at he
    rw [Option.some.inj he, ht, hi]; rfl
  · rw [show decide (i = 94) = false from by simpa using hi]
    by_contra hne
    have ht : d r = true := by simpa using hne
    have := (chip_iff (fun _ : Unit => (0, 0, 0)) r i (by simp)).1 ⟨d, hd, ht⟩
    rw [hpos] at this
    exact hi (chip_unique _ _ _ this center_on)

/-- The supplied configuration for the camera footprint: the run is completed and the six observations of A are output, with the night of its discovery. -/
theorem ex_footprint : exSummary ((run plainPy [] [] "rubin_sim" Ini.Data.rubinFootprint (fun _ : Unit => (0, 0, 0)) (some exVisits) exHere exState
    [exBlock]).mapError fun _ => Pipeline.Err.camera) = some [("A", 1, some 60003), ("A", 2, some 60003), ("A", 3, some 60003), ("A", 4, some 60003),
      ("A", 5, some 60003), ("A", 6, some 60003)] := by
  obtain ⟨a, -, -, h1, -⟩ := Ini.Props.C74_templates plainPy_python [] [] "rubin_sim" (.inr (.inr (.inl rfl)))
  have h2 : Pointing.readPointing (some exVisits) (footprintCfg id).filters "rubin_sim" false false = .ok exUsed := by decide +kernel
  have h3 := camera_lsst (W := Unit) plainPy_python "rubin_sim" (.inr (.inr (.inl rfl))) (fun _ : Unit => (0, 0, 0))
  unfold run
  rw [h1]
  simp only [h2]
  rw [show (footprintCfg id).fov = .footprint none (some (.fin 2)) from rfl, h3]
  simp only
  have h4 : exSummary (Pipeline.rounds { exHere with db := exUsed, detectors := exChips } (footprintCfg id) exState [exBlock]) =
      some [("A", 1, some 60003), ("A", 2, some 60003), ("A", 3, some 60003), ("A", 4, some 60003), ("A", 5, some 60003), ("A", 6, some 60003)] := by
    decide +kernel
  have h5 : Pipeline.rounds { exHere with db := exUsed, detectors := detectors (fun _ : Unit => (0, 0, 0)) Cameras.lsstCamera (some 2) } (footprintCfg id)
      exState [exBlock] = Pipeline.rounds { exHere with db := exUsed, detectors := exChips } (footprintCfg id) exState [exBlock] := by
    have hp : Pipeline.process { exHere with db := exUsed, detectors := detectors (fun _ : Unit => (0, 0, 0)) Cameras.lsstCamera (some 2) } (footprintCfg id)
        exState exBlock = Pipeline.process { exHere with db := exUsed, detectors := exChips } (footprintCfg id) exState exBlock := by
      have hz : ∃ t, Pipeline.measured { exHere with db := exUsed } (footprintCfg id) exBlock = .ok t ∧
          ∀ r ∈ (Pipeline.randomize { exHere with db := exUsed } (footprintCfg id) exState t).1, r.2.rest.ra = 0 ∧ r.2.rest.dec = 0 := by
        have : ((Pipeline.measured { exHere with db := exUsed } (footprintCfg id) exBlock).toOption.map fun t =>
            decide (∀ r ∈ (Pipeline.randomize { exHere with db := exUsed } (footprintCfg id) exState t).1, r.2.rest.ra = 0 ∧ r.2.rest.dec = 0)) = some true := by
          decide +kernel
        cases hm : Pipeline.measured { exHere with db := exUsed } (footprintCfg id) exBlock with
        | error e => rw [hm] at this; simp [Except.toOption] at this
        | ok t =>
          rw [hm] at this
          simp only [Except.toOption, Option.map_some, Option.some.injEq, decide_eq_true_eq] at this
          exact ⟨t, rfl, this⟩
      obtain ⟨t, hm, hz⟩ := hz
      have hon := onDetectors_congr (detectors (fun _ : Unit => (0, 0, 0)) Cameras.lsstCamera (some 2)) exChips
        (Pipeline.randomize { exHere with db := exUsed } (footprintCfg id) exState t).1 (by
          unfold detectors exChips
          rw [List.length_map, List.length_map, List.length_range]
          exact Cameras.Props.C73_lsst_detectors.1) (fun i d d' hd hd' r hr => exChips_same r.2 (hz r hr) i d d' hd hd')
      have hm' : ∀ ds, Pipeline.measured { exHere with db := exUsed, detectors := ds } (footprintCfg id) exBlock = .ok t := fun _ => hm
      have hz' : ∀ ds, Pipeline.randomize { exHere with db := exUsed, detectors := ds } (footprintCfg id) exState t =
        Pipeline.randomize { exHere with db := exUsed } (footprintCfg id) exState t := fun _ => rfl
      unfold Pipeline.process
      simp only [hm', hz', bind, Except.bind]
      have hv : ∀ ds s' tt, Pipeline.fieldOfView { exHere with db := exUsed, detectors := ds } (footprintCfg id) s' tt =
        .ok (if tt.length > 0 then (exHere.sortIndex (Pipeline.onDetectors ds tt), s') else (tt, s')) := fun _ _ _ => rfl
      obtain ⟨F, hf⟩ : ∃ F, ∀ ds s' tt, Pipeline.fade { exHere with db := exUsed, detectors := ds } (footprintCfg id) s' tt = F s' tt :=
        ⟨fun s' tt => Pipeline.fade exHere (footprintCfg id) s' tt, fun _ _ _ => rfl⟩
      obtain ⟨L, hl⟩ : ∃ L, ∀ ds s' tt, Pipeline.link { exHere with db := exUsed, detectors := ds } (footprintCfg id) s' tt = L s' tt :=
        ⟨fun s' tt => Pipeline.link exHere (footprintCfg id) s' tt, fun _ _ _ => rfl⟩
      simp only [hv, hf, hl, hon]
    simp only [Pipeline.rounds, hp]
  rw [h5, ← h4]
  cases Pipeline.rounds { exHere with db := exUsed, detectors := exChips } (footprintCfg id) exState [exBlock] <;> rfl

end Sorcha.Shipped.Props
