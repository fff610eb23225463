import Verif.DesRun.Props
import Verif.Pipeline.Props2
import Verif.Visits.Witness

/-! # A small DES run: the hypotheses of the theorems are met -/

namespace Sorcha.DesRun.Props
open Sorcha.Pipeline (Row State Final)
open Sorcha.Pipeline.Spec (Whole PartOf)
open Sorcha.DesRun Sorcha.DesRun.Spec Sorcha.Filters.Spec Sorcha.Filters

/-- Ten visits in ten nights. -/
def exDb : List (Pointing.Visit Unit) := (List.range 10).map fun i => ⟨i, "r", 57000 + i, 57000 + i, 30, 30, none, none, ()⟩

/-- Object N is at 10 au, F at 40 au, all others at 2 au in the first visit and 1 au otherwise; B is bright; S moves slowly; D is outside the field. -/
def exMeas (p : Pointing.Obs Unit × Pointing.Visit Unit) : Pipeline.Meas :=
  ⟨.fin (if p.1.obj = "B" then 15 else 21), .fin (-1/10), .fin 10,
    .fin (149597870 * if p.1.obj = "N" then 10 else if p.1.obj = "F" then 40 else if p.2.id = 0 then 2 else 1), .fin 0, .fin 0,
    .fin (if p.1.obj = "S" then 1/1000 else 1), .fin 0, 10, 3⟩

def exSortTime (l : List (Des.Row (Row Unit Unit))) : List (Des.Row (Row Unit Unit)) := l.insertionSort fun a b => a.t ≤ b.t

def exEnv (x : Visits.Ext) (chips : String → List Visits.Chip) : Env Unit Unit Unit where
  base := { Pipeline.Props.exEnv with db := exDb, measure := fun p => some (exMeas p), sep := fun r => .fin (if r.objId = "D" then 3 else 1) }
  ext := x
  chips := chips
  fieldKey n := if n = 0 then "v0" else "v"
  fieldRA _ := 10
  prob _ _ := .fin 1
  sortTime := exSortTime

def exCfg : Config.Cfg where
  input := ⟨"external", "csv", 1, "csv", ""⟩
  simulation := none
  filters := ["r", "g"]
  saturation := ⟨.bool true, some [.fin 16, .fin 16]⟩
  phase := "HG"
  fov := .circle none (some (.fin 2))
  fading := .off
  linking := ⟨none, true, .bool true, .bool true, some (.fin 30, .fin (3/2)), .bool true, some (.fin 3, .fin (1/2))⟩
  output := ⟨"csv", .named "all", none, none⟩
  lightcurve := none
  activity := none
  expert := ⟨none, some (.fin 24), false, false, .bool false, .bool false, .bool false⟩

def exSee (id : String) (n : ℕ) : List (Pointing.Obs Unit) := (List.range n).map fun i => ⟨id, i, 57000 + i, ()⟩

/-- N is seen in nine nights, A too, M in two; the other objects in nine each fail one of the filters. -/
def exObs : List (Pointing.Obs Unit) :=
  exSee "N" 9 ++ exSee "A" 9 ++ exSee "M" 2 ++ exSee "F" 9 ++ exSee "B" 9 ++ exSee "S" 9 ++ exSee "D" 9 ++ ((exSee "G" 10).drop 1)

def exSummary (r : Except Err (List (List (Row Unit Unit)))) : Option (List (String × ℕ)) :=
  r.toOption.map fun outs => (["N", "A", "M", "F", "B", "S", "D", "G"].map fun id => (id, (outs.flatten.filter fun r => r.objId = id).length)).filter fun p => p.2 ≠ 0

def exExt : Visits.Ext := ⟨fun _ _ => false, fun _ _ _ => [], id, id⟩

/-- Only N and A come through: M is not discovered, F is too far away, B is saturated, S too slow, D outside the field, G always too near the Sun. -/
example : exSummary (rounds (exEnv exExt fun _ => []) exCfg Pipeline.Props.exState [exObs]) = some [("N", 9), ("A", 9)] := by decide +kernel

/-- The same in two blocks. -/
example : exSummary (rounds (exEnv exExt fun _ => []) exCfg Pipeline.Props.exState [exObs.filter fun o => o.obj ≠ "A", exObs.filter fun o => o.obj = "A"]) =
    some [("N", 9), ("A", 9)] := by decide +kernel

/-- Without the discovery filter M is in the output. -/
example : exSummary (rounds (exEnv exExt fun _ => []) { exCfg with linking := { exCfg.linking with desDiscovery := .unset } } Pipeline.Props.exState [exObs]) =
    some [("N", 9), ("A", 9), ("M", 2)] := by decide +kernel

theorem exSorts : Des.Spec.SortSound exSortTime where
  perm l := List.perm_insertionSort _ l
  sorted l := List.pairwise_insertionSort (fun a b : Des.Row (Row Unit Unit) => a.t ≤ b.t) l

theorem exDet : Deterministic exCfg := ⟨rfl, fun fill radius h => by cases h; exact .inl rfl, fun q h => by cases h⟩

example : Sound (exEnv exExt fun _ => []) exCfg exObs := ⟨fun l => List.Perm.refl _, exSorts, fun q h => by cases h⟩

example : Sensible exCfg := by
  refine ⟨fun u l h => ?_, fun u l h => ?_⟩
  · obtain ⟨rfl, rfl⟩ := Prod.mk.inj (Option.some.inj h)
    exact ⟨_, _, rfl, rfl, by norm_num, by norm_num⟩
  · obtain ⟨rfl, rfl⟩ := Prod.mk.inj (Option.some.inj h)
    exact ⟨_, _, rfl, rfl, by norm_num, by norm_num⟩

example : Whole [exObs] ∧ Whole [exObs.filter fun o => o.obj ≠ "A", exObs.filter fun o => o.obj = "A"] :=
  ⟨by unfold Whole; decide +kernel, by unfold Whole; decide +kernel⟩

/-- The hypotheses on the files are those of C16: chunk sizes one and two give the two rows of A and the one of B. -/
example : ((runExternal (exEnv exExt fun _ => []) { exCfg with linking := ⟨none, true, .unset, .unset, none, .unset, none⟩, saturation := ⟨.unset, none⟩ } Pipeline.Props.exState
    (fun cells => (cells.headD 0 |>.num.toNat, cells.tail.headD 0, ())) Pipeline.Props.exIds []
    (Pipeline.Props.exFile [⟨"A", [1, 57001]⟩, ⟨"B", [1, 57001]⟩, ⟨"A", [2, 57002]⟩]) (Pipeline.Props.exFile Pipeline.Props.exOrb) [Pipeline.Props.exFile Pipeline.Props.exOrb] 2).bind
    exSummary) = some [("A", 2), ("B", 1)] := by decide +kernel

example : ((runGenerated (exEnv exExt fun _ => []) { exCfg with linking := ⟨none, true, .unset, .unset, none, .unset, none⟩, saturation := ⟨.unset, none⟩ } Pipeline.Props.exState
    (fun r => r.id = "A") (fun objs => objs.flatMap fun r => exSee r.id 3) Pipeline.Props.exIds [] (Pipeline.Props.exFile Pipeline.Props.exOrb)
    [Pipeline.Props.exFile Pipeline.Props.exOrb] 2).bind exSummary) = some [("B", 3)] := by decide +kernel

/-- With an SNR limit the run stops. -/
example : (rounds (exEnv exExt fun _ => []) { exCfg with expert := { exCfg.expert with snrLimit := some (.fin 5) } } Pipeline.Props.exState [exObs]).toBool = false := by decide +kernel

/-- The distance cut without limits. -/
example : (rounds (exEnv exExt fun _ => []) { exCfg with linking := { exCfg.linking with distance := none, distanceOn := .text "False" } } Pipeline.Props.exState [exObs]).toBool =
    false := by decide +kernel

/-- The visits footprint: a chip around the position of the rows, a search radius of two degrees. -/
noncomputable def exChip : Visits.Chip := ⟨(9, 2), (11, 2), (11, 4), (9, 4), (10, 3), 7, 24⟩

def exVisits : Config.Cfg := { exCfg with fov := .visits "", simulation := some ⟨.fin 1, .fin 1, 1, "", 1, 1⟩ }

example : ∃ x : Visits.Ext, Visits.Spec.Rectangles x ∧ Sound (exEnv x fun _ => [exChip]) exVisits (exSee "N" 2) := by
  obtain ⟨x, hx, hr⟩ := Visits.Props.exists_sound
  refine ⟨x, hr, fun l => List.Perm.refl _, exSorts, ?_⟩
  intro q _
  refine ⟨hx, ?_⟩
  rintro b ⟨a, f, g, ha, hf, hg, rfl⟩
  cases ha; cases hf; cases hg
  have hpl : ∀ o ∈ (Pipeline.Spec.candidates (exEnv x fun _ => [exChip]).base exVisits (exSee "N" 2)).map (place (exEnv x fun _ => [exChip])),
      o.ra = 10 ∧ o.dec = 3 ∧ o.fieldRA = 10 := by
    intro o ho
    obtain ⟨r, hr, rfl⟩ := List.mem_map.1 ho
    obtain ⟨ob, -, hr⟩ := List.mem_flatMap.1 hr
    obtain ⟨v, -, hr⟩ := List.mem_flatMap.1 hr
    have hr : r = Pipeline.Spec.rowOf exVisits (ob, v) (exMeas (ob, v)) := List.mem_singleton.1 hr
    subst hr
    refine ⟨?_, ?_, rfl⟩
    · show (((10 : ℚ) : ℝ)) = 10; norm_num
    · show (((3 : ℚ) : ℝ)) = 3; norm_num
  refine ⟨by norm_num, ⟨?_, ?_, ?_, ?_⟩⟩
  · intro o ho o' ho' _; rw [(hpl o ho).2.2, (hpl o' ho').2.2]
  · intro o ho; rw [(hpl o ho).2.2]; norm_num
  · intro o ho; rw [(hpl o ho).1]; norm_num
  · intro o ho
    refine ⟨10, ⟨0, by rw [(hpl o ho).1]; norm_num⟩, ?_⟩
    rw [(hpl o ho).2.2]; norm_num

/-- With external ephemerides the footprint cannot be used. -/
example : (∃ q, { exVisits with simulation := none }.fov = .visits q) ∧ ({ exVisits with simulation := none }.expert.randomization.on = false) ∧
    (∀ p ∈ Pipeline.pairs (exEnv exExt fun _ => []).base (exSee "N" 2), p.2.start = p.1.mjd) ∧ Pipeline.pairs (exEnv exExt fun _ => []).base (exSee "N" 2) ≠ [] := by
  refine ⟨⟨_, rfl⟩, rfl, by decide +kernel, by decide +kernel⟩

end Sorcha.DesRun.Props
