import Verif.Whole.Examples13
import Verif.Whole.Props16

/-!
# C101: concrete runs at the same time; two runs with the same name
-/

namespace Sorcha.Whole.Props

open Sorcha.Csv (Str)
open Sorcha.Cli (CmdArgs)
open Sorcha.History (Disk Effect Outcome)
open Sorcha.Whole.Spec (Run sized)

/-! ## Schedules that can be computed -/

/-- The next step of a process that is not killed; nothing if it is over. -/
def move (x : Proc) (args : Cli.Args) : Phase → Disk → Option (Phase × Disk)
  | .waiting, d =>
    match (x.commandLine args d).1 with
    | .ok a => some (.accepted a, d.keep (x.commandLine args d).2)
    | .error _ => some (.over x.startLog .refused, d.keep (x.commandLine args d).2)
  | .accepted a, d =>
    match x.plan a d with
    | .writes fmt chunks finishes => some (.running (x.effects a fmt chunks finishes) x.startLog (if finishes then .finished else .stopped), d)
    | .other => none
  | .running (e :: es) log out, d =>
    match History.perform e ⟨d, log⟩ with
    | .ok s => some (.running es s.log out, s.disk)
    | .error _ => some (.over log .stopped, d)
  | .running [] log out, d => some (.over log out, d)
  | .over _ _, _ => none

theorem move_step {x : Proc} {args : Cli.Args} {v : Bool} (h : Argv.parseRun x.argv = .ok (args, v)) {ph : Phase} {d : Disk} {r : Phase × Disk} (hm : move x args ph d = some r) :
    Step x ph d r.1 r.2 := by
  cases ph with
  | waiting =>
    unfold move at hm
    cases hc : (x.commandLine args d).1 with
    | error e => simp only [hc] at hm; cases hm; exact .refused h hc
    | ok a => simp only [hc] at hm; cases hm; exact .check h hc
  | accepted a =>
    unfold move at hm
    cases hp : x.plan a d with
    | other => simp only [hp] at hm; cases hm
    | writes fmt chunks finishes => simp only [hp] at hm; cases hm; exact .read hp
  | running es log out =>
    cases es with
    | nil => cases hm; exact .done
    | cons e es =>
      unfold move at hm
      cases hp : History.perform e ⟨d, log⟩ with
      | error e => simp only [hp] at hm; cases hm; exact .stop
      | ok s => simp only [hp] at hm; cases hm; exact .effect hp
  | over log out => cases hm

/-- Steps in the given order. -/
def play {ι : Type} [DecidableEq ι] (procs : ι → Proc) (args : ι → Cli.Args) : List ι → (ι → Phase) × Disk → (ι → Phase) × Disk
  | [], s => s
  | i :: is, s =>
    match move (procs i) (args i) (s.1 i) s.2 with
    | none => play procs args is s
    | some r => play procs args is (Function.update s.1 i r.1, r.2)

theorem play_schedule {ι : Type} [DecidableEq ι] {procs : ι → Proc} {args : ι → Cli.Args} {v : ι → Bool} (h : ∀ i, Argv.parseRun (procs i).argv = .ok (args i, v i)) {ph0 : ι → Phase} {d0 : Disk} :
    ∀ {is : List ι} {s : (ι → Phase) × Disk}, Schedule procs ph0 d0 s.1 s.2 → Schedule procs ph0 d0 (play procs args is s).1 (play procs args is s).2
  | [], _, hs => hs
  | i :: is, s, hs => by
    unfold play
    cases hm : move (procs i) (args i) (s.1 i) s.2 with
    | none => exact play_schedule h hs
    | some r => exact play_schedule h (.snoc i hs (move_step (h i) hm))

def _root_.Sorcha.Whole.Phase.said : Phase → List Char
  | .over log _ => log
  | _ => []

def _root_.Sorcha.Whole.Phase.isFinished : Phase → Bool
  | .over _ .finished => true
  | _ => false

theorem isFinished_over {ph : Phase} (h : ph.isFinished = true) : ph = .over ph.said .finished := by
  cases ph with
  | over log out => cases out <;> first | rfl | cases h
  | _ => cases h

/-! ## The two parts of C94's population at the same time, taking turns -/

def bothWhich (i : Bool) : Which := if i then .two else .one

def bothProcs (i : Bool) : Proc := rubin logWorld (splitArgv (bothWhich i))

def turns : List Bool := (List.replicate 12 [false, true]).flatten

def bothEnd : (Bool → Phase) × Disk := play bothProcs (fun i => splitArgs (bothWhich i)) turns (allWaiting, splitDisk)

theorem both_finished (i : Bool) : (bothEnd.1 i).isFinished = true := by cases i <;> decide +kernel

/-- What happens: the log of the one is written between the effects of the other. -/
example : bothEnd.2.paths = splitDisk.paths ++ ["res/part1.db", "res/part2.db"] ∧
    bothEnd.2.get "res/part1.db" = some (.db (some (["ObjID", "fieldMJD_TAI", "optFilter"], [[.text "A", .null, .text "r"], [.text "A", .null, .text "r"]]))
      ["ObjID", "fieldMJD_TAI", "optFilter"]) ∧
    bothEnd.2.get "res/part2.db" = some (.db (some (["ObjID", "fieldMJD_TAI", "optFilter"], [[.text "B", .null, .text "g"]])) ["ObjID", "fieldMJD_TAI", "optFilter"]) := by
  refine ⟨?_, ?_, ?_⟩ <;> decide +kernel

theorem both_schedule : Schedule bothProcs allWaiting splitDisk (fun i => .over (bothEnd.1 i).said .finished) bothEnd.2 := by
  have h := play_schedule (procs := bothProcs) (args := fun i => splitArgs (bothWhich i)) (v := fun _ => true) (fun i => splitArgv_args (bothWhich i)) (is := turns)
    (s := (allWaiting, splitDisk)) .nil
  have e : (fun i => Phase.over (bothEnd.1 i).said .finished) = bothEnd.1 := funext fun i => (isFinished_over (both_finished i)).symm
  rw [e]
  exact h

/-- The files a run of the example reads. -/
def splitReads (i : Which) (p : String) : Prop := Spec.Named (splitArgs i) p

theorem splitReads_mem {i : Which} {p : String} (h : splitReads i p) : p ∈ [i.phys, i.orb, i.conf, i.dir, "v.db", "e.csv"] := by
  rcases h with rfl | rfl | rfl | rfl | rfl | h | h | h
  · simp [splitArgs]
  · simp [splitArgs]
  · simp [splitArgs]
  · simp [splitArgs]
  · simp [splitArgs]
  · cases h
  · cases h
  · cases h; simp

theorem both_reads (i : Bool) : Reads (bothProcs i) (splitArgs (bothWhich i)) (splitReads (bothWhich i)) :=
  C101_reads (splitArgv_args _) charGlob_sound (fun _ h => h) (fun _ _ _ _ _ => rfl)

theorem both_separate : Spec.Separate (fun i => splitArgs (bothWhich i)) (fun i => splitReads (bothWhich i)) where
  outputs i j h := by
    cases i <;> cases j
    · exact absurd rfl h
    · exact split_apart.1
    · exact split_apart.2
    · exact absurd rfl h
  inputs i j _ p hp ho := by
    have h1 := split_output ho
    have h2 : ∀ q ∈ [(bothWhich i).phys, (bothWhich i).orb, (bothWhich i).conf, (bothWhich i).dir, "v.db", "e.csv"],
        ¬ ((bothWhich j).dir.toList ++ '/' :: (bothWhich j).stem.toList ++ ['.']) <+: q.toList := by cases i <;> cases j <;> decide +kernel
    exact h2 p (splitReads_mem hp) h1

/-- C101 for the two runs: each has left what it leaves alone. -/
example (i : Bool) : ∃ d', Invoked logWorld (splitArgv (bothWhich i)) splitDisk d' (bothEnd.1 i).said .finished ∧
    ∀ p, Spec.IsOutput (splitArgs (bothWhich i)) p → bothEnd.2.get p = d'.get p :=
  (C101_alone both_reads both_separate (fun i => split_fresh (bothWhich i)) both_schedule (i := i) rfl).1 _ _ _ logWorld _ rfl

/-- The two runs as parts of the population. -/
def bothRuns (i : Bool) : Run where
  argv := splitArgv (bothWhich i)
  args := splitArgs (bothWhich i)
  verbose := true
  before := splitDisk
  after := []
  log := (bothEnd.1 i).said
  chunk := 3
  orb := recsOf (bothWhich i).orbRows
  others := [recsOf (bothWhich i).physRows]
  eph := recsOf exEphRows

theorem both_atOnce : AtOnce (rubin logWorld) logWorld splitCfg bothRuns (fun i => splitReads (bothWhich i)) splitDisk bothEnd.2 where
  said i := splitArgv_args (bothWhich i)
  looks := both_reads
  separate := both_separate
  before _ := rfl
  ended := both_schedule
  configured i := by cases i; exacts [camp_configured .one, camp_configured .two]
  names i := split_differ (bothWhich i)
  one i := split_fresh (bothWhich i)
  objects i := by cases i; exacts [camp_objects .one, camp_objects .two]

theorem both_cases {P : Run → Prop} (h0 : P campWhole) (h1 : ∀ i, P (bothRuns i)) : ∀ r ∈ campWhole :: [false, true].map bothRuns, P r := by
  intro r hr
  rcases List.mem_cons.1 hr with rfl | hr
  · exact h0
  · obtain ⟨x, -, rfl⟩ := List.mem_map.1 hr
    exact h1 x

theorem both_divided : Spec.Divided campWhole ([false, true].map bothRuns) := by
  refine ⟨fun p hp => ?_, split_divided.objects⟩
  simp only [List.map_cons, List.map_nil, List.mem_cons, List.not_mem_nil, or_false] at hp
  rcases hp with rfl | rfl
  exacts [split_divided.rows (splitRun .one) (by simp), split_divided.rows (splitRun .two) (by simp)]

/-- C101 for the population in two runs at the same time. -/
example : Spec.TableTogether (campWhole.after.get "out/run.db") [bothEnd.2.get "res/part1.db", bothEnd.2.get "res/part2.db"] :=
  (C101_external (whole := campWhole) (runs := bothRuns) (all := [false, true]) charGlob_sound campWhole_finished both_atOnce rfl
    (both_cases ⟨"e.csv", rfl, ex_table (ns := ["FieldID", "fieldMJD_TAI"]) (rows := exEphRows) (by decide +kernel) (by simp) (by decide)⟩
      (fun _ => ⟨"e.csv", rfl, ex_table (ns := ["FieldID", "fieldMJD_TAI"]) (rows := exEphRows) (d := splitDisk) (by decide +kernel) (by simp) (by decide)⟩))
    both_divided (fun p hp id _ => by
      obtain ⟨x, hx, rfl⟩ := List.mem_map.1 hp
      rfl)
    (by unfold Pipeline.Spec.OncePerTime; decide +kernel) (columns := ["ObjID", "optFilter", "fieldMJD_TAI"]) (both_cases (fun _ _ => rfl) (fun _ _ _ => rfl))
    (E := Pipeline.Props.exEnv) (both_cases (fun _ _ _ h => (Option.some.inj h).symm) (fun _ _ _ _ h => (Option.some.inj h).symm))
    (by
      have hr := Pipeline.Props.exRegular
      exact ⟨⟨rfl, rfl, fun _ _ h => by cases h; exact .inl rfl⟩, hr.visits, hr.sortIndex, hr.sortOut, hr.sortT, hr.weights, fun _ h => by cases h⟩)
    (shown := Csv.Props.someShown) rfl (by decide)).2 rfl

/-- C101_same for the two runs: taking turns and one after the other leave the same files. -/
def onceEnd : (Bool → Phase) × Disk := play bothProcs (fun i => splitArgs (bothWhich i)) (List.replicate 12 true ++ List.replicate 12 false) (allWaiting, splitDisk)

theorem once_finished (i : Bool) : (onceEnd.1 i).isFinished = true := by cases i <;> decide +kernel

example : (∀ p, bothEnd.2.get p = onceEnd.2.get p) ∧ (fun i => (bothEnd.1 i).said) = fun i => (onceEnd.1 i).said := by
  refine C101_same both_reads both_separate (fun i => split_fresh (bothWhich i)) both_schedule ?_
  have h := play_schedule (procs := bothProcs) (args := fun i => splitArgs (bothWhich i)) (v := fun _ => true) (fun i => splitArgv_args (bothWhich i))
    (is := List.replicate 12 true ++ List.replicate 12 false) (s := (allWaiting, splitDisk)) .nil
  have e : (fun i => Phase.over (onceEnd.1 i).said .finished) = onceEnd.1 := funext fun i => (isFinished_over (once_finished i)).symm
  rw [e]
  exact h

/-! ## Two runs with the same name -/

/-- The files of C85's example, without old results. -/
def plainDisk : Disk := (exDisk '1').take 5

/-- Without `-f`. -/
def twinProcs (_ : Bool) : Proc := rubin exWorld (splitArgv .whole)

def twinEnd : (Bool → Phase) × Disk := play twinProcs (fun _ => splitArgs .whole) turns (allWaiting, plainDisk)

theorem twin_finished (i : Bool) : (twinEnd.1 i).isFinished = true := by cases i <;> decide +kernel

/-- The results of one run, and of the two. -/
def twinText : Str := match (gone exWorld (splitArgs .whole) plainDisk).get "out/run.csv" with | some (.text t) => t | _ => []
def twinText2 : Str := match twinEnd.2.get "out/run.csv" with | some (.text t) => t | _ => []

/-- C101 (the same name): the check that an output does not exist yet does not keep two runs apart that are at it at the same time. Neither of them has `-f` and nothing is there in the
beginning; both are accepted and finish, and the file of results is not the one of a single run: it has all its lines twice. One after the other, the second is refused. -/
theorem C101_shared_fails :
    ∃ (ph : Bool → Phase) (D : Disk) (t t' : Str) (header : List Str) (lines lines' : List (List Str)), Schedule twinProcs allWaiting plainDisk ph D ∧
      (∀ i, ∃ log, ph i = .over log .finished) ∧ D.get "out/run.csv" = some (.text t') ∧ Csv.read t' = some (header :: lines') ∧ lines'.Perm (lines ++ lines) ∧ lines ≠ [] ∧
      Csv.read t = some (header :: lines) ∧
      (∃ d' log, Invoked exWorld (splitArgv .whole) plainDisk d' log .finished) ∧
      ∀ d' log, Invoked exWorld (splitArgv .whole) plainDisk d' log .finished → d'.get "out/run.csv" = some (.text t) ∧
        ∀ d'' log' out, Invoked exWorld (splitArgv .whole) d' d'' log' out → out = .refused := by
  have hgo : (go exWorld (splitArgs .whole) plainDisk).isSome = true := by decide +kernel
  have hrun := gone_invoked (splitArgv_args .whole) hgo
  have hget : (gone exWorld (splitArgs .whole) plainDisk).get "out/run.csv" = some (.text twinText) := by decide +kernel
  refine ⟨twinEnd.1, twinEnd.2, twinText, twinText2, ["ObjID".toList, "optFilter".toList, "trailedSourceMag".toList],
    [["A".toList, "r".toList, []], ["A".toList, "r".toList, []], ["B".toList, "g".toList, []]],
    [["A".toList, "r".toList, []], ["A".toList, "r".toList, []], ["A".toList, "r".toList, []], ["A".toList, "r".toList, []], ["B".toList, "g".toList, []], ["B".toList, "g".toList, []]],
    ?_, fun i => ⟨_, isFinished_over (twin_finished i)⟩, by decide +kernel, by decide +kernel, by decide +kernel, by simp, by decide +kernel, ⟨_, _, hrun⟩, ?_⟩
  · exact play_schedule (procs := twinProcs) (args := fun _ => splitArgs .whole) (v := fun _ => true) (fun _ => splitArgv_args .whole) (is := turns) (s := (allWaiting, plainDisk)) .nil
  · intro d' log h
    have e : d' = gone exWorld (splitArgs .whole) plainDisk := (single_same (rubin_single h) (rubin_single hrun)).1
    rw [e]
    clear e h
    refine ⟨hget, fun d'' log' out h2 => ?_⟩
    have hc : (match (Cli.commandLine (existing exWorld (gone exWorld (splitArgs .whole) plainDisk)) exWorld.isDir exWorld.glob (splitArgs .whole)
        (gone exWorld (splitArgs .whole) plainDisk).paths).1 with | .ok _ => false | .error _ => true) = true := by decide +kernel
    clear hget hrun hgo
    generalize gone exWorld (splitArgs .whole) plainDisk = D1 at hc h2
    cases h2 with
    | usage _ => rfl
    | refused _ _ => rfl
    | ran h hok _ _ =>
      rw [splitArgv_args .whole] at h
      cases h
      rw [hok] at hc
      cases hc
    | failed h hok _ _ =>
      rw [splitArgv_args .whole] at h
      cases h
      rw [hok] at hc
      cases hc

end Sorcha.Whole.Props
