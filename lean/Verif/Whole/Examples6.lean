import Verif.Driver.Examples
import Verif.Whole.Examples4
import Verif.Whole.Props7

/-!
# Examples: from the orbits to the results
-/

namespace Sorcha.Whole.Props

open Sorcha.Csv (Str)
open Sorcha.Readers (Rec)
open Sorcha.History (Disk)
open Sorcha.Driver.Spec (Answers)

/-- Three visits, the fields on the line of `Driver/Examples.lean`. -/
def lineV : Pointing.Visit ℚ := ⟨1, "r", 60000 + 1/4, 60000 + 1/4, 30, 30, none, none, 10⟩
def lineVs : List (Pointing.Visit ℚ) := [⟨2, "g", 60000 + 1/3, 60000 + 1/3, 30, 30, none, none, 20⟩, ⟨3, "r", 60002 + 1/4, 60002 + 1/4, 30, 30, none, none, 12⟩]

/-- A moves from the first to the third field; B, which is faint, and C are in the second; D is in none. -/
def lineStart (r : Rec Str) : ℚ × ℚ × ℕ := if r.id = "A" then (10, 1, 0) else if r.id = "D" then (40, 0, 0) else (20, 0, 0)

def lineE : Driver.Env ℚ ℚ ℚ (ℚ × ℚ × ℕ) ℚ ℚ := Driver.Props.exE 1 (1/2)

theorem lineAnswers (r : Rec Str) : Answers lineE (lineStart r) fun t _ => (lineStart r).1 + (lineStart r).2.1 * t := by
  intro a ha t x
  have : a.1 = (lineStart r).1 ∧ a.2.1 = (lineStart r).2.1 := by
    induction ha with
    | start => exact ⟨rfl, rfl⟩
    | next _ _ _ ih => exact ih
  simp only [lineE, Driver.Props.exE, this.1, this.2]

def lineEnv : Pipeline.Env Unit (ℚ × List Str) ℚ where
  db := lineV :: lineVs
  measure p := some ⟨.fin 21, .fin (-1/10), .fin 10, .fin 1, .fin 0, .fin 0, .fin 1, .fin 1, p.1.rest.1, 3⟩
  noise _ _ _ r := (r.trailedSourceMag, r.psfMag, r.rest.ra, r.rest.dec)
  gen := ⟨fun _ => (), fun _ => (1/2, ())⟩
  md5 := fun s => s.length
  sep _ := .fin 1
  detectors := []
  sortIndex := id
  prob _ _ _ := .fin 1
  linkSep a b c d := |a - c| + |b - d|
  sortT l := l.insertionSort fun a b => a.mjd ≤ b.mjd
  sortOut l := l.insertionSort fun a b => a.row.obs.mjd ≤ b.row.obs.mjd
  weights _ _ i := 2 ^ i
  draws _ _ := 1/2

def lineWorld : World Unit (ℚ × List Str) ℚ where
  py := Ini.Props.plainPy
  lightCurves := []
  activities := []
  ids := ⟨fun _ => false, fun _ => none, fun _ => none, fun _ => none⟩
  missing := []
  goodEphemeris _ := true
  goodOrbits _ := true
  goodParameters _ := true
  goodComplex _ := true
  env _ _ _ := some lineEnv
  state _ _ := Pipeline.Props.exState
  parse cells := (digits (cells.headD []), (digits (cells.getD 1 []) : ℚ) / 100, (0, []))
  cull _ _ r := r.id = "B"
  ephem _ _ := Driver.generate lineE lineStart (0, 0, 0) ⟨fun _ => false, fun _ => none, fun _ => none, fun _ => none⟩ [] lineV lineVs
  ephemFrame _ := ⟨[], []⟩
  columns _ _ := ["ObjID", "optFilter", "trailedSourceMag"]
  cells f := fun c => if c = "ObjID" then .text f.row.objId else if c = "optFilter" then .text f.row.optFilter else .null
  dist _ _ _ := .null
  stats _ := ⟨[], []⟩
  start := []
  messages _ := []
  stamp := []
  glob := charGlob
  lines := Csv.Props.textLines
  isDir p := p = "out"

theorem line_objects : Spec.Objects lineWorld.ids arDisk exArgs arCfg (recsOf exOrbRows) [recsOf exPhysRows] where
  orbits := ex_table (ns := ["a"]) rfl (by simp) (by decide)
  unique := by decide +kernel
  given := .inl ⟨rfl, rfl, _, rfl, ex_table (ns := ["H_r"]) rfl (by simp) (by decide)⟩
  same := by
    intro t ht
    rw [List.mem_singleton] at ht
    subst ht
    decide +kernel

theorem line_visits : Spec.GoodVisits lineEnv arCfg (lineV :: lineVs) where
  table := rfl
  numbers := by decide
  times := by unfold Pointing.Spec.Agree; decide +kernel
  values := fun _ _ _ => by simp [lineEnv]
  sortIndex := fun l => List.Perm.refl l
  linking := fun _ h => by cases h

theorem line_configured : Configured lineWorld arDisk exArgs arCfg := ar_configured

theorem line_place : Spec.InPlace lineWorld.isDir arDisk exArgs :=
  ex_place _ (by
    intro p hp
    have hm : p ∈ arDisk.paths := by
      simp only [arDisk, Disk.paths, List.map_cons, List.map_nil]
      revert p
      decide
    exact (History.mem_paths _ p).1 hm)

theorem line_made (a : Cli.CmdArgs) : lineWorld.ephem arCfg a = Driver.generate lineE lineStart (0, 0, 0) lineWorld.ids [] lineV lineVs := rfl

theorem line_chron : ((lineV :: lineVs).map lineE.jd).Pairwise (· ≤ ·) := by decide +kernel

theorem line_iterates : Driver.Spec.Iterates lineE := Driver.Props.exIterates 1 (1/2)

/-- C89 (runs finish) for a concrete run. -/
theorem line_finishes : ∃ d' log, Invoked lineWorld exArgv arDisk d' log .finished :=
  (C89_finishes (w := lineWorld) exArgv_args charGlob_sound exArgs_differ arDisk_one
    line_place line_configured (by decide +kernel) ⟨by decide, by decide, by decide, fun h => by cases h⟩ (by decide) line_objects
    (fun _ _ _ _ _ _ _ => rfl) (fun _ _ _ _ _ _ _ => rfl) (fun _ _ _ _ _ _ _ _ _ _ => rfl)
    (fun _ _ => ⟨by simp only [lineWorld]; decide +kernel, fun h => absurd rfl h⟩) line_iterates (fun a _ => line_made a) (fun h => absurd rfl h)
    (fun _ _ => ⟨_, rfl, line_visits⟩)).2

/-- Its rows. -/
example : (match plan lineWorld exCmd (checked lineWorld exArgs arDisk) with
    | .writes _ chunks _ => (chunks.filterMap fun c => c.results.map (·.1)).flatMap fun g => g.cells.map (·.take 2)
    | .other => []) = [[.text "A", .text "r"], [.text "C,1", .text "g"], [.text "A", .text "r"]] := by
  decide +kernel

/-- C89 for this run. -/
example : ∃ d' log, Invoked lineWorld exArgv arDisk d' log .finished ∧ ∃ τs, List.Forall₂ (fun (y : Pointing.Visit ℚ) τ => |y.mid - τ| ≤ 1 / 2) (lineV :: lineVs) τs ∧
    Spec.ResultsFile lineWorld.dist Csv.Props.someShown Csv.read arCfg ["ObjID", "optFilter", "trailedSourceMag"] (fun r => lineWorld.cells ⟨r, none⟩)
      (Pipeline.Spec.survivors lineEnv arCfg ((Spec.bright arCfg (fun r => r.id = "B") (recsOf exOrbRows) [recsOf exPhysRows]).flatMap
        (Spec.foundRows lineE (fun r t _ => (lineStart r).1 + (lineStart r).2.1 * t) (lineV :: lineVs) τs))) (d'.get "out/run.csv") := by
  obtain ⟨d', log, h⟩ := line_finishes
  refine ⟨d', log, h, ?_⟩
  obtain ⟨a, Q, τs, -, hQ, hτ, hf⟩ := C89_results exArgv_args h line_configured (by decide) rfl ⟨rfl, rfl, fun _ _ h => by cases h; exact .inl rfl⟩ rfl charGlob_sound
    exArgs_differ arDisk_one line_objects line_iterates (by decide +kernel) line_chron (fun a _ => line_made a) (fun _ _ r _ => lineAnswers r)
    (shown := Csv.Props.someShown) rfl (fun _ _ => by simp [lineWorld]) (fun _ Q _ hQ => by cases hQ; exact fun l => List.Perm.refl l)
  cases hQ
  exact ⟨τs, hτ, hf⟩

end Sorcha.Whole.Props
