import Verif.Whole.Props2

/-!
# Lemmas: the same run again
-/

namespace Sorcha.Whole

open Sorcha.Csv (Str)
open Sorcha.History (Disk Chunk Format)

variable {G W V : Type}

theorem found_optional {exist exist' : String → Bool} {sk : Bool} {q : Option String} {n : String} {x y : Option String}
    (h : Cli.findOptional exist sk q n = .ok x) (h' : Cli.findOptional exist' sk q n = .ok y) : x = y := by
  unfold Cli.findOptional Cli.findFile at h h'
  cases q with
  | none => simp_all
  | some p =>
    simp only at h h'
    by_cases hs : (sk && p.isEmpty) = true
    · rw [if_pos hs] at h h'; simp_all
    · rw [if_neg hs] at h h'
      by_cases h1 : exist p = true
      · rw [if_pos h1] at h
        by_cases h2 : exist' p = true
        · rw [if_pos h2] at h'; rw [h] at h'; exact Except.ok.inj h'
        · rw [if_neg h2] at h'; cases h'
      · rw [if_neg h1] at h; cases h

theorem found_inputs {exist exist' : String → Bool} {args : Cli.Args} {x y} (h : Cli.findInputs exist args = .ok x) (h' : Cli.findInputs exist' args = .ok y) : x = y := by
  unfold Cli.findInputs at h h'
  simp only [bind, Except.bind, pure, Except.pure] at h h'
  repeat' split at h
  all_goals first | (cases h; done) | skip
  repeat' split at h'
  all_goals first | (cases h'; done) | skip
  cases h
  cases h'
  exact Prod.ext (found_optional ‹Cli.findOptional exist true args.cp _ = _› ‹Cli.findOptional exist' true args.cp _ = _›)
    (found_optional ‹Cli.findOptional exist false args.vd _ = _› ‹Cli.findOptional exist' false args.vd _ = _›)

/-- What the command line says does not depend on the files, or on `-f`, if it is accepted at all. -/
theorem accepted_same {exist exist' isDir isDir' : String → Bool} {g g' : Cli.Glob} {args args' : Cli.Args} (hf : { args' with f := args.f } = args) {fs fs' : Cli.FS}
    {a a' : Cli.CmdArgs} (h : (Cli.commandLine exist isDir g args fs).1 = .ok a) (h' : (Cli.commandLine exist' isDir' g' args' fs').1 = .ok a') : a = a' := by
  unfold Cli.commandLine at h h'
  cases h1 : Cli.findInputs exist args with
  | error e => rw [h1] at h; cases h
  | ok x =>
    cases h2 : Cli.findInputs exist' args' with
    | error e => rw [h2] at h'; cases h'
    | ok y =>
      have hxy : x = y := by
        refine found_inputs h1 (exist' := exist') ?_
        rw [← h2, ← hf]
        rfl
      subst hxy
      rw [h1] at h
      rw [h2] at h'
      simp only at h h'
      cases h3 : (Cli.checkOutputs isDir g args fs).1 with
      | error e => rw [h3] at h; cases h
      | ok u =>
        cases h4 : (Cli.checkOutputs isDir' g' args' fs').1 with
        | error e => rw [h4] at h'; cases h'
        | ok u' =>
          rw [h3] at h
          rw [h4] at h'
          have h := Except.ok.inj h
          have h' := Except.ok.inj h'
          rw [← h, ← h', ← hf]

/-! ## The plan depends on the files only -/

/-- The calculations see the files through what is in them. -/
def SeesFiles (w : World G W V) : Prop := ∀ c a d e, (∀ p, Disk.get d p = Disk.get e p) → w.env c a d = w.env c a e

theorem textAt_congr {d e : Disk} (h : ∀ p, d.get p = e.get p) (p : String) : textAt d p = textAt e p := by
  unfold textAt
  rw [h]

theorem contains_congr {d e : Disk} (h : ∀ p, d.get p = e.get p) : (fun p => d.paths.contains p) = fun p => e.paths.contains p := by
  funext p
  rw [Bool.eq_iff_iff, List.contains_iff_mem, List.contains_iff_mem, History.mem_paths, History.mem_paths, h]

theorem plan_congr {w : World G W V} (hw : SeesFiles w) {d e : Disk} (h : ∀ p, d.get p = e.get p) (a : Cli.CmdArgs) : plan w a d = plan w a e := by
  have ht : textAt d = textAt e := funext (textAt_congr h)
  have ho : ∀ c, observations w c a d = observations w c a e := by
    intro c
    unfold observations auxSources
    rw [ht]
  unfold plan
  rw [ht, contains_congr h]
  simp only [ho, hw _ a d e h]

end Sorcha.Whole
