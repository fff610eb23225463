import Verif.Whole.Examples9

/-!
# C94: a concrete population in two runs that make their ephemerides
-/

namespace Sorcha.Whole.Props

open Sorcha.Csv (Str)
open Sorcha.Readers (Rec)
open Sorcha.History (Disk)
open Sorcha.Whole.Spec (Run sized)

def arSplitWorld : World Unit Unit Unit := { arWorld with isDir := fun p => p = "out" || p = "res" }

def arSplitDisk : Disk := [("c.ini", .text arText), ("c3.ini", .text arText), ("v.db", .text []), ("e.csv", .text []),
  ("p.csv", .text (fileText ["ObjID", "H_r"] Which.whole.physRows)), ("o.csv", .text (fileText ["ObjID", "a"] Which.whole.orbRows)),
  ("p1.csv", .text (fileText ["ObjID", "H_r"] Which.one.physRows)), ("o1.csv", .text (fileText ["ObjID", "a"] Which.one.orbRows)),
  ("p2.csv", .text (fileText ["ObjID", "H_r"] Which.two.physRows)), ("o2.csv", .text (fileText ["ObjID", "a"] Which.two.orbRows))]

/-- The runs, each on its own copy of the files. -/
def arSplitRun (i : Which) : Run where
  argv := splitArgv i
  args := splitArgs i
  verbose := true
  before := arSplitDisk
  after := gone arSplitWorld (splitArgs i) arSplitDisk
  log := goneLog arSplitWorld (splitArgs i) arSplitDisk
  chunk := 3
  orb := recsOf i.orbRows
  others := [recsOf i.physRows]
  eph := []

theorem arSplit_ran (i : Which) : (go arSplitWorld (splitArgs i) arSplitDisk).isSome = true := by cases i <;> decide +kernel

theorem arSplit_one (i : Which) : History.Spec.AtMostOne (splitArgs i) arSplitDisk := by
  constructor
  · intro p q hp _ h _
    exfalso
    have h1 := History.Props.belongs_chars h
    have hm := (History.mem_paths _ p).2 hp
    have h2 : (arSplitDisk.paths.all fun p => !((i.dir.toList ++ '/' :: i.stem.toList ++ ['.']).isPrefixOf p.toList)) = true := by cases i <;> decide +kernel
    have h3 := List.all_eq_true.1 h2 p hm
    rw [List.isPrefixOf_iff_prefix.2 (show (i.dir.toList ++ '/' :: i.stem.toList ++ ['.']) <+: p.toList from h1)] at h3
    cases h3
  · rintro p q - - ⟨n, hn, -⟩
    cases hn

theorem arSplit_configured (i : Which) : Configured arSplitWorld arSplitDisk (splitArgs i) (sized arCfg 3) := by
  have ht : arSplitDisk.get i.conf = some (.text arText) := by cases i <;> decide +kernel
  have h : (match Ini.configure arSplitWorld.py arSplitWorld.lightCurves arSplitWorld.activities (splitArgs i).s (configLines arText) with
      | .ok (c, _) => decide (c = sized arCfg 3) | .error _ => false) = true := by
    cases i <;> decide +kernel
  cases hc : Ini.configure arSplitWorld.py arSplitWorld.lightCurves arSplitWorld.activities (splitArgs i).s (configLines arText) with
  | error e => rw [hc] at h; cases h
  | ok x =>
    obtain ⟨c, y⟩ := x
    rw [hc] at h
    refine ⟨_, y, ht, ?_⟩
    rw [hc, of_decide_eq_true h]

theorem arSplit_objects (i : Which) : Spec.Objects arSplitWorld.ids arSplitDisk (splitArgs i) (sized arCfg 3) (recsOf i.orbRows) [recsOf i.physRows] where
  orbits := ex_table (ns := ["a"]) (by cases i <;> decide +kernel) (by simp) (by cases i <;> decide)
  unique := by cases i <;> decide +kernel
  given := .inl ⟨rfl, rfl, _, rfl, ex_table (ns := ["H_r"]) (by cases i <;> decide +kernel) (by simp) (by cases i <;> decide)⟩
  same := by
    intro t ht
    rw [List.mem_singleton] at ht
    subst ht
    cases i <;> decide +kernel

theorem arSplit_finished (i : Which) : Finished arSplitWorld arCfg (arSplitRun i) :=
  ⟨splitArgv_args i, gone_invoked (splitArgv_args i) (arSplit_ran i), arSplit_configured i, split_differ i, arSplit_one i, arSplit_objects i⟩

theorem arSplit_cases {P : Run → Prop} (h : ∀ i, P (arSplitRun i)) : ∀ r ∈ arSplitRun .whole :: [arSplitRun .one, arSplitRun .two], P r := by
  intro r hr
  simp only [List.mem_cons, List.not_mem_nil, or_false] at hr
  rcases hr with rfl | rfl | rfl <;> exact h _

/-- The texts of the results of the runs. -/
example : [Which.whole, .one, .two].map (fun i => (arSplitRun i).after.get (i.dir ++ "/" ++ i.stem ++ ".csv")) =
    [chars! "ObjID,optFilter,trailedSourceMag\nA,r,\nA,g,\n\"C,1\",r,\n\"C,1\",g,\nD,r,\nD,g,\n", chars! "ObjID,optFilter,trailedSourceMag\nD,r,\nD,g,\nA,r,\nA,g,\n",
      chars! "ObjID,optFilter,trailedSourceMag\n\"C,1\",r,\n\"C,1\",g,\n"].map fun t => some (.text t) := by
  decide +kernel

theorem arSplit_alone : Spec.EachAlone (fun objs => objs.flatMap fun r : Rec Str => [(⟨r.id, 1, 60000 + 1/4, ()⟩ : Pointing.Obs Unit), ⟨r.id, 2, 60000 + 7/25, ()⟩])
    (recsOf Which.whole.orbRows) := by
  rintro objs - id
  induction objs with
  | nil => rfl
  | cons r objs ih =>
    have ih' : (objs.flatMap fun r : Rec Str => [(⟨r.id, 1, 60000 + 1/4, ()⟩ : Pointing.Obs Unit), ⟨r.id, 2, 60000 + 7/25, ()⟩]).filter (fun o => decide (o.obj = id)) = _ := ih
    show (([⟨r.id, 1, 60000 + 1/4, ()⟩, ⟨r.id, 2, 60000 + 7/25, ()⟩] ++ objs.flatMap _ : List (Pointing.Obs Unit))).filter _ = _
    rw [List.filter_append, ih', List.filter_cons]
    by_cases h : r.id = id <;> simp [h]

/-- C94 for concrete runs that make their ephemerides. -/
example : Spec.LinesTogether Csv.read ((arSplitRun .whole).after.get "out/run.csv") [(arSplitRun .one).after.get "res/part1.csv", (arSplitRun .two).after.get "res/part2.csv"] :=
  (C94_generated (whole := arSplitRun .whole) (parts := [arSplitRun .one, arSplitRun .two]) charGlob_sound (arSplit_cases arSplit_finished) (by decide)
    (ephem := fun objs => objs.flatMap fun r => [⟨r.id, 1, 60000 + 1/4, ()⟩, ⟨r.id, 2, 60000 + 7/25, ()⟩]) (cull := fun r => r.id = "B") (arSplit_cases fun _ _ _ => ⟨rfl, rfl⟩)
    arSplit_alone
    ⟨fun p hp => by
      simp only [List.mem_cons, List.not_mem_nil, or_false] at hp
      rcases hp with rfl | rfl
      · exact .cons (by decide +kernel) (.cons (by decide +kernel) .nil)
      · exact .cons (by decide +kernel) (.cons (by decide +kernel) .nil), by decide +kernel⟩
    (by unfold Pipeline.Spec.OncePerTime; decide +kernel) (columns := ["ObjID", "optFilter", "trailedSourceMag"]) (arSplit_cases fun _ _ _ => rfl)
    (E := Pipeline.Props.exEnv) (arSplit_cases fun _ _ _ _ h => (Option.some.inj h).symm)
    (by
      have hr := Pipeline.Props.exRegular
      exact ⟨⟨rfl, rfl, fun _ _ h => by cases h; exact .inl rfl⟩, hr.visits, hr.sortIndex, hr.sortOut, hr.sortT, hr.weights, fun _ h => by cases h⟩)
    (shown := Csv.Props.someShown) rfl (by decide)).1 rfl

end Sorcha.Whole.Props
