import Verif.Whole.Examples13
import Verif.Whole.Examples14

/-!
# Properties: a run that failed stays named, however often it is run again (C97, C98)
-/

namespace Sorcha.Whole.Props

open Sorcha.Csv (Str)
open Sorcha.History (Disk)

variable {G W V : Type}

/-- C97 (an old try stays named): if the log of one of the runs does not have the completion message, then `sorcha outputs check-logs`, on a directory above all the logs,
never says that all went well, and, if it prints the failed runs, names this run, whatever was run for the same part later. -/
theorem C97_named {xs : List (Attempt (World G W V))} {d D : Disk} (h : Session Invoked xs d D) (hg : ∀ x ∈ xs, Cli.Spec.GlobSound x.world.glob) (hn : Named xs)
    (hd : ∀ p, "sorcha.log".toList <:+ p.toList → d.get p = none)
    {dirs : String → Bool} (hdirs : {p | dirs p = true}.Finite) (bytes : History.Content → List Char) {root : String} (hroot : ∀ x ∈ xs, Setup.Spec.Below root x.path)
    {walk : Setup.Walk} (hw : Setup.Spec.WalkSound walk) {br : Char → Bool} (hbn : br '\n' = true) (hbr : ∀ c ∈ History.Spec.completed, br c = false)
    {csv : List Setup.LogRow → List Char} {dirname : String → String} {out : Option String} (hout : ∀ p, out = some p → ".csv".toList <:+ p.toList) {force : Bool}
    {t : Setup.Told} (ht : (Setup.cmdCheckLogs walk br csv dirname root out force (asFiles dirs bytes D)).result = .ok t)
    {x : Attempt (World G W V)} (hx : x ∈ xs) (hno : ¬ Cli.Spec.Occurs History.Spec.completed x.log) :
    t ≠ .allGood ∧ ∀ failed, t = .printed failed → x.path ∈ failed.map (·.filename) := by
  by_cases hr : t = .refused
  · subst hr
    exact ⟨fun h => (nomatch h), fun _ h => (nomatch h)⟩
  obtain ⟨h1, h2, h3⟩ := session_logs invoked_gentle h hg hn hd dirs bytes hroot
  have key := tells (whole := fun x => Cli.Spec.Occurs History.Spec.completed x.log) (finished := fun x => x.outcome = .finished) hw hbn hbr hout
    (asFiles_finite hdirs bytes D) h2 h3 (fun x hx hf => invoked_finished (by have := h1 x hx; rwa [hf] at this)) (fun _ _ ho => ho) ht hr
  exact ⟨fun hgood => hno (key.good hgood x hx), fun failed hf => by
    by_contra hm
    exact hno (((key.printed failed hf).2.2 x hx).2 hm)⟩

/-- C98 (an old try stays named), for the program with both surveys. -/
theorem C98_named {xs : List (Attempt (DesWorld G W V))} {d D : Disk} (h : Session DesInvoked xs d D) (hg : ∀ x ∈ xs, Cli.Spec.GlobSound x.world.base.glob) (hn : Named xs)
    (hd : ∀ p, "sorcha.log".toList <:+ p.toList → d.get p = none)
    {dirs : String → Bool} (hdirs : {p | dirs p = true}.Finite) (bytes : History.Content → List Char) {root : String} (hroot : ∀ x ∈ xs, Setup.Spec.Below root x.path)
    {walk : Setup.Walk} (hw : Setup.Spec.WalkSound walk) {br : Char → Bool} (hbn : br '\n' = true) (hbr : ∀ c ∈ History.Spec.completed, br c = false)
    {csv : List Setup.LogRow → List Char} {dirname : String → String} {out : Option String} (hout : ∀ p, out = some p → ".csv".toList <:+ p.toList) {force : Bool}
    {t : Setup.Told} (ht : (Setup.cmdCheckLogs walk br csv dirname root out force (asFiles dirs bytes D)).result = .ok t)
    {x : Attempt (DesWorld G W V)} (hx : x ∈ xs) (hno : ¬ Cli.Spec.Occurs History.Spec.completed x.log) :
    t ≠ .allGood ∧ ∀ failed, t = .printed failed → x.path ∈ failed.map (·.filename) := by
  by_cases hr : t = .refused
  · subst hr
    exact ⟨fun h => (nomatch h), fun _ h => (nomatch h)⟩
  obtain ⟨h1, h2, h3⟩ := session_logs desInvoked_gentle h hg hn hd dirs bytes hroot
  have key := tells (whole := fun x => Cli.Spec.Occurs History.Spec.completed x.log) (finished := fun x => x.outcome = .finished) hw hbn hbr hout
    (asFiles_finite hdirs bytes D) h2 h3 (fun x hx hf => desInvoked_finished (by have := h1 x hx; rwa [hf] at this)) (fun _ _ ho => ho) ht hr
  exact ⟨fun hgood => hno (key.good hgood x hx), fun failed hf => by
    by_contra hm
    exact hno (((key.printed failed hf).2.2 x hx).2 hm)⟩

/-- The natural wish that `check-logs` say all is well once the last run for each part went through fails: in this campaign the first run for a part was killed and the
second went through, as did the one for the other part; still `check-logs` does not say that all is well. -/
theorem C97_all_well_fails (bytes : History.Content → List Char) {walk : Setup.Walk} (hw : Setup.Spec.WalkSound walk) {csv : List Setup.LogRow → List Char}
    {dirname : String → String} {force : Bool} {t : Setup.Told}
    (ht : (Setup.cmdCheckLogs walk lineEnd csv dirname "res" none force (asFiles sessDirs bytes campEnd)).result = .ok t) :
    (∀ p ∈ campParts, Invoked logWorld p.attempt.argv p.attempt.before p.attempt.after p.attempt.log .finished) ∧ t ≠ .allGood := by
  refine ⟨part_cases camp3_ran camp2_ran, ?_⟩
  exact (C97_named camp_session (fun x hx => by rw [camp_campaign.world x hx]; exact charGlob_sound) ⟨camp_orderly.stamps, camp_orderly.noClash,
    .cons (fun y hy => by
      simp only [List.mem_cons, List.not_mem_nil, or_false] at hy
      rcases hy with rfl | rfl
      · exact fun h => absurd h.2.2 (by decide +kernel)
      · exact fun h => absurd h.2.2 (by decide +kernel))
      (.cons (fun y hy => by
        rw [List.mem_singleton.1 hy]
        exact fun h => absurd h.2.2 (by decide +kernel)) (.cons (fun _ h => by cases h) .nil))⟩
    sess_clean (Set.Finite.subset (Set.finite_singleton "res") fun p hp => by
      have : (decide (p = "res")) = true := hp
      exact of_decide_eq_true this) bytes
    (camp_cases ⟨"part1-2025-01-01-12-00-00-p7-sorcha.log", by decide +kernel⟩ ⟨"part2-2025-01-01-12-00-01-p8-sorcha.log", by decide +kernel⟩
      ⟨"part1-2025-01-01-12-05-00-p9-sorcha.log", by decide +kernel⟩)
    hw (by decide) completed_line (out := none) (fun _ h => by cases h) ht (x := camp1) (by simp)
    (by
      rintro ⟨a, b, h⟩
      have := congrArg List.length h
      have h1 : camp1.log.length = 11 := by decide +kernel
      have h2 : History.Spec.completed.length = 29 := by decide +kernel
      simp only [List.length_append, h1, h2] at this
      omega)).1

end Sorcha.Whole.Props
