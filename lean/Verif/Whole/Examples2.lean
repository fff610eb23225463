import Verif.Whole.Props3
import Verif.Whole.Examples

/-!
# Examples: the same run again
-/

namespace Sorcha.Whole.Props

open Sorcha.Csv (Str)
open Sorcha.History (Disk Chunk)

theorem exWorld_sees : SeesFiles exWorld := fun _ _ _ _ _ => rfl

/-- No output of the example but `out/run.` and an extension. -/
theorem ex_output {p : String} (h : Spec.IsOutput exArgs p) : ("out".toList ++ '/' :: "run".toList ++ ['.']) <+: p.toList := by
  rcases h with h | ⟨n, hn, -⟩ | ⟨n, hn, -⟩
  · exact History.Props.belongs_chars h
  · cases hn
  · cases hn

theorem ex_apart : Spec.InputsApart exArgs := by
  intro p hp h
  have := ex_output h
  simp only [exArgs, Option.toList, List.append_nil, List.mem_cons, List.not_mem_nil, or_false] at hp
  rcases hp with rfl | rfl | rfl | rfl | rfl
  all_goals revert this; decide

/-- A run that is killed as soon as the old results are deleted. -/
theorem ex_killed : ∃ d log, Invoked exWorld exArgv (exDisk '1') d log .stopped ∧ d.get "out/run.csv" = none := by
  have ha := History.Props.accepted_force (a := exArgs) rfl (ex_empty true) (fs' := (exDisk '1').paths)
  obtain ⟨chunks, hp⟩ := ex_plan true
  have hne : History.runEffects exWorld.lines exCmd .csv chunks exWorld.stamp ≠ [] := by
    unfold History.runEffects
    intro h
    have := (List.append_eq_nil_iff.1 h).2
    simp at this
  obtain ⟨e, es, hes⟩ := List.exists_cons_of_ne_nil hne
  have he : History.Ends false (History.runEffects exWorld.lines exCmd .csv chunks exWorld.stamp)
      ⟨checked exWorld exArgs (exDisk '1'), exWorld.start.flatMap fun l => l ++ ['\n']⟩ ⟨checked exWorld exArgs (exDisk '1'), exWorld.start.flatMap fun l => l ++ ['\n']⟩ false := by
    rw [hes]
    exact .stopped
  exact ⟨_, _, Invoked.ran exArgv_args ha hp he, by decide +kernel⟩

/-- C86 for a concrete history: a run is killed, and then run again; the files are those of a run that was not killed. -/
example : ∃ d2 log1 e1 log2 e2 log3, Invoked exWorld exArgv (exDisk '1') d2 log1 .finished ∧ Invoked exWorld exArgv (exDisk '1') e1 log2 .stopped ∧
    Invoked exWorld exArgv e1 e2 log3 .finished ∧ ∀ p, e2.get p = d2.get p := by
  obtain ⟨d2, log1, h1⟩ := ex_finishes true
  obtain ⟨e1, log2, h2, -⟩ := ex_killed
  obtain ⟨e2, log3, h3, h4⟩ := C86_recovers exWorld_sees charGlob_sound exArgv_args exArgv_args rfl rfl exArgs_differ ex_apart (exDisk_one true) (exDisk_one true)
    (fun _ _ => rfl) .nil (.cons h2 charGlob_sound (fun args v h => by rw [exArgv_args] at h; cases h; exact ⟨rfl, rfl, rfl, rfl⟩) .nil) h1 (ex_configured true)
    (fun h => absurd rfl h)
  exact ⟨d2, log1, e1, log2, e2, log3, h1, h2, h3, h4⟩

end Sorcha.Whole.Props
