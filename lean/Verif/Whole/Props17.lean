import Verif.Whole.ParallelLogs
import Verif.Whole.Props11
import Verif.Whole.Props16

/-!
# Properties: the logs of runs at the same time, and `check-logs` (C102)
-/

namespace Sorcha.Whole.Props

open Sorcha.Csv (Str)
open Sorcha.Cli (CmdArgs)
open Sorcha.History (Disk Effect Outcome get_put_self get_put_ne)
open Sorcha.Readers (Rec)
open Sorcha.Output (Cell)
open Sorcha.Whole.Spec (Run sized)

variable {G W V : Type} {ι : Type} [DecidableEq ι]

/-- What is asked of the names: times and numbers as the program writes them, no outputs named like logs (C96), and no run reads a file whose name ends like that of a log. -/
structure WellNamed (args : ι → Cli.Args) (reads : ι → String → Prop) (names : ι → Ident) : Prop where
  stamps : ∀ i, Spec.Stamp (names i).stamp ∧ Spec.Decimal (names i).pid
  apart : ∀ i, Spec.NoClash (args i)
  unread : ∀ i p, reads i p → ¬ "sorcha.log".toList <:+ p.toList ∧ ¬ "sorcha.err".toList <:+ p.toList

omit [DecidableEq ι] in
theorem named_outputs {args : ι → Cli.Args} {reads : ι → String → Prop} {names : ι → Ident} (hn : WellNamed args reads names) (i j : ι) :
    ¬ Spec.IsOutput (args i) ((names j).log (args j)) ∧ ¬ Spec.IsOutput (args i) ((names j).err (args j)) := by
  constructor
  · obtain ⟨a1, a2, a3⟩ := C96_apart (dir := (args j).o) (kind := "sorcha.log") (.inl rfl) (hn.apart j).dot (hn.stamps j).1 (hn.stamps j).2 (hn.apart i).stem (hn.apart i).ephemeris
    rintro (h | h | h)
    exacts [a1 h, a2 h, a3 h]
  · obtain ⟨a1, a2, a3⟩ := C96_apart (dir := (args j).o) (kind := "sorcha.err") (.inr rfl) (hn.apart j).dot (hn.stamps j).1 (hn.stamps j).2 (hn.apart i).stem (hn.apart i).ephemeris
    rintro (h | h | h)
    exacts [a1 h, a2 h, a3 h]

theorem logged_suffix (dir stem stamp pid kind : String) : kind.toList <:+ (loggedAt dir stem stamp pid kind).toList := by
  rw [loggedAt_chars]
  exact ⟨_, by rw [List.append_cons]⟩

omit [DecidableEq ι] in
theorem named_reads {args : ι → Cli.Args} {reads : ι → String → Prop} {names : ι → Ident} (hn : WellNamed args reads names) (i j : ι) :
    ¬ reads i ((names j).log (args j)) ∧ ¬ reads i ((names j).err (args j)) :=
  ⟨fun h => (hn.unread i _ h).1 (logged_suffix ..), fun h => (hn.unread i _ h).2 (logged_suffix ..)⟩

omit [DecidableEq ι] in
theorem named_differ {args : ι → Cli.Args} {reads : ι → String → Prop} {names : ι → Ident} (hn : WellNamed args reads names) (hsep : Spec.Separate args reads) {i j : ι} (hij : i ≠ j) :
    (names i).log (args i) ≠ (names j).log (args j) := by
  intro h
  have h := (logged_inj (hn.stamps i).1 (hn.stamps j).1 (hn.stamps i).2 (hn.stamps j).2 h).1
  have h1 := isOutput_csv (args i)
  rw [h] at h1
  exact hsep.outputs i j hij _ h1 (isOutput_csv (args j))

/-! ## The invariant -/

theorem put_get {n : Ident} {a : Cli.Args} {log errors : List Char} {d : Disk} {p : String} (h1 : p ≠ n.log a) (h2 : p ≠ n.err a) : (n.put a log errors d).get p = d.get p := by
  unfold Ident.put
  rw [get_put_ne _ _ h2, get_put_ne _ _ h1]

theorem put_log {n : Ident} {a : Cli.Args} {log errors : List Char} {d : Disk} : (n.put a log errors d).get (n.log a) = some (.text log) := by
  unfold Ident.put
  rw [get_put_ne _ _ (show n.log a ≠ n.err a from log_ne_err), get_put_self]

theorem logged_along {procs : ι → Proc} {args : ι → Cli.Args} {reads : ι → String → Prop} {names : ι → Ident} (hr : ∀ i, Reads (procs i) (args i) (reads i))
    (hsep : Spec.Separate args reads) (hn : WellNamed args reads names) {d D : Disk} (hone : ∀ i, History.Spec.AtMostOne (args i) d) {ph : ι → Option Phase}
    (h : LoggedSchedule procs args names d ph D) :
    (∀ p, (∀ i, ¬ Spec.IsOutput (args i) p) → (∀ i, ph i ≠ none → p ≠ (names i).log (args i) ∧ p ≠ (names i).err (args i)) → D.get p = d.get p) ∧
    (∀ i q, ph i = some q → D.get ((names i).log (args i)) = some (.text ((procs i).logged q)) ∧ ∃ v, Argv.parseRun (procs i).argv = .ok (args i, v)) ∧
    ∀ i, ∃ e, Along (procs i) (args i) d ((ph i).getD .waiting) e ∧ (∀ p, reads i p → D.get p = e.get p) ∧ ∀ p, Spec.IsOutput (args i) p → D.get p = e.get p := by
  induction h with
  | nil => exact ⟨fun _ _ _ => rfl, fun i q h => (nomatch h), fun i => ⟨_, .waiting, fun _ _ => rfl, fun _ _ => rfl⟩⟩
  | @start ph1 d1 i v h hi hu ih =>
    obtain ⟨ih1, ih2, ih3⟩ := ih
    have hfree : ∀ p log errors, (∃ j, reads j p) ∨ (∃ j, Spec.IsOutput (args j) p) → ((names i).put (args i) log errors d1).get p = d1.get p := by
      intro p log errors hp
      refine put_get ?_ ?_ <;> rintro rfl <;> rcases hp with ⟨j, hj⟩ | ⟨j, hj⟩
      exacts [(named_reads hn j i).1 hj, (named_outputs hn j i).1 hj, (named_reads hn j i).2 hj, (named_outputs hn j i).2 hj]
    refine ⟨fun p hp hl => ?_, fun j q hj => ?_, fun j => ?_⟩
    · obtain ⟨l1, l2⟩ := hl i (by simp)
      rw [put_get l1 l2]
      refine ih1 p hp fun j hj => hl j ?_
      by_cases hji : j = i
      · subst hji; simp
      · rwa [Function.update_of_ne hji]
    · by_cases hji : j = i
      · subst hji
        simp only [Function.update_self, Option.some.injEq] at hj
        subst hj
        exact ⟨put_log, v, hu⟩
      · rw [Function.update_of_ne hji] at hj
        obtain ⟨k1, k2⟩ := ih2 j q hj
        exact ⟨by rw [put_get (named_differ hn hsep hji) log_ne_err, k1], k2⟩
    · obtain ⟨e, f1, f2, f3⟩ := ih3 j
      refine ⟨e, ?_, fun q hq => (hfree q _ _ (.inl ⟨j, hq⟩)).trans (f2 q hq), fun q hq => (hfree q _ _ (.inr ⟨j, hq⟩)).trans (f3 q hq)⟩
      by_cases hji : j = i
      · subst hji
        rw [hi] at f1
        simpa using f1
      · rwa [Function.update_of_ne hji]
  | @step ph1 d1 d2 i p q errors h hi hs ih =>
    obtain ⟨ih1, ih2, ih3⟩ := ih
    have hfree : ∀ p log errors, (∃ j, reads j p) ∨ (∃ j, Spec.IsOutput (args j) p) → ((names i).put (args i) log errors d2).get p = d2.get p := by
      intro p log errors hp
      refine put_get ?_ ?_ <;> rintro rfl <;> rcases hp with ⟨j, hj⟩ | ⟨j, hj⟩
      exacts [(named_reads hn j i).1 hj, (named_outputs hn j i).1 hj, (named_reads hn j i).2 hj, (named_outputs hn j i).2 hj]
    obtain ⟨e, ha, hread, hout⟩ := ih3 i
    rw [hi] at ha
    obtain ⟨k1, e', k2, k3⟩ := step_along (hr i) (hone i) hs ha hread hout
    refine ⟨fun p hp hl => ?_, fun j r hj => ?_, fun j => ?_⟩
    · obtain ⟨l1, l2⟩ := hl i (by simp)
      rw [put_get l1 l2, k1 p (hp i)]
      refine ih1 p hp fun j hj => hl j ?_
      by_cases hji : j = i
      · subst hji; simp
      · rwa [Function.update_of_ne hji]
    · by_cases hji : j = i
      · subst hji
        simp only [Function.update_self, Option.some.injEq] at hj
        subst hj
        exact ⟨put_log, (ih2 j p hi).2⟩
      · rw [Function.update_of_ne hji] at hj
        obtain ⟨m1, m2⟩ := ih2 j r hj
        exact ⟨by rw [put_get (named_differ hn hsep hji) log_ne_err, k1 _ (named_outputs hn i j).1, m1], m2⟩
    · by_cases hji : j = i
      · subst hji
        refine ⟨e', by simpa using k2, fun q hq => (hfree q _ _ (.inl ⟨j, hq⟩)).trans (k3 q (hread q hq)), fun q hq => (hfree q _ _ (.inr ⟨j, hq⟩)).trans (k3 q (hout q hq))⟩
      · obtain ⟨f, f1, f2, f3⟩ := ih3 j
        refine ⟨f, by rwa [Function.update_of_ne hji], fun q hq => ?_, fun q hq => ?_⟩
        · rw [hfree q _ _ (.inl ⟨j, hq⟩), k1 q (hsep.inputs j i hji q hq), f2 q hq]
        · rw [hfree q _ _ (.inr ⟨j, hq⟩), k1 q (hsep.outputs j i hji q hq), f3 q hq]

/-! ## The properties -/

/-- C102 (the logs): `sorcha run` processes as in C101, started one by one, their steps in any order, each with its logs among the files. At every moment the log of a process that is over
holds what it has logged; it has ended in a way it could have ended alone, on the files of the beginning, with this log, the same outcome and the same outputs. -/
theorem C102_alone {procs : ι → Proc} {args : ι → Cli.Args} {reads : ι → String → Prop} {names : ι → Ident} (hr : ∀ i, Reads (procs i) (args i) (reads i))
    (hsep : Spec.Separate args reads) (hn : WellNamed args reads names) {d D : Disk} (hone : ∀ i, History.Spec.AtMostOne (args i) d) {ph : ι → Option Phase}
    (h : LoggedSchedule procs args names d ph D) {i : ι} {log : List Char} {out : Outcome} (hi : ph i = some (.over log out)) :
    D.get ((names i).log (args i)) = some (.text log) ∧
    (∀ (G W V : Type) (w : World G W V) (argv : List Str), procs i = rubin w argv →
      ∃ d', Invoked w argv d d' log out ∧ ∀ p, Spec.IsOutput (args i) p → D.get p = d'.get p) ∧
    ∀ (G W V : Type) (w : DesWorld G W V) (argv : List Str), procs i = eitherSurvey w argv →
      ∃ d', DesInvoked w argv d d' log out ∧ ∀ p, Spec.IsOutput (args i) p → D.get p = d'.get p := by
  obtain ⟨-, k2, k3⟩ := logged_along hr hsep hn hone h
  obtain ⟨e, h1, -, h3⟩ := k3 i
  rw [hi] at h1
  refine ⟨(k2 i _ hi).1, ?_⟩
  cases h1 with
  | over h1 =>
    refine ⟨fun G W V w argv hw => ⟨e, ?_, h3⟩, fun G W V w argv hw => ⟨e, ?_, h3⟩⟩
    · rw [hw] at h1
      exact single_rubin h1
    · rw [hw] at h1
      exact single_either h1

/-- C102 (other files): at every moment all files are as they were but for the outputs and the logs of the processes started. -/
theorem C102_others {procs : ι → Proc} {args : ι → Cli.Args} {reads : ι → String → Prop} {names : ι → Ident} (hr : ∀ i, Reads (procs i) (args i) (reads i))
    (hsep : Spec.Separate args reads) (hn : WellNamed args reads names) {d D : Disk} (hone : ∀ i, History.Spec.AtMostOne (args i) d) {ph : ι → Option Phase}
    (h : LoggedSchedule procs args names d ph D) {p : String} (hp : ∀ i, ¬ Spec.IsOutput (args i) p)
    (hl : ∀ i, ph i ≠ none → p ≠ (names i).log (args i) ∧ p ≠ (names i).err (args i)) : D.get p = d.get p :=
  (logged_along hr hsep hn hone h).1 p hp hl

/-! ## `check-logs` at any moment -/

/-- A process that has got to its work has done so far what a run that is stopped here has done. -/
theorem along_single {x : Proc} {args : Cli.Args} {d e : Disk} {ph : Phase} (h : Along x args d ph e) :
    (x.logged ph = [] ∧ e = d) ∨ (x.logged ph = x.startLog ∧ e = d.keep (x.commandLine args d).2) ∨ ∃ out, Single x d e (x.logged ph) out := by
  cases h with
  | waiting => exact .inl ⟨rfl, rfl⟩
  | accepted h hc => exact .inr (.inl ⟨rfl, rfl⟩)
  | @running v a fmt chunks finishes es log e h hc hp hin he =>
    cases es with
    | nil => exact .inr (.inr ⟨_, .ran h hc hp (he _ _ .finished)⟩)
    | cons f es => exact .inr (.inr ⟨_, .ran h hc hp (he _ _ .stopped)⟩)
  | over h => exact .inr (.inr ⟨_, h⟩)

theorem tells_mono {κ : Type} {xs : List κ} {path : κ → String} {whole whole' finished : κ → Prop} {csv : List Setup.LogRow → List Char} {out : Option String} {t : Setup.Told}
    {disk : Setup.Disk} (h : Spec.Tells xs path whole finished csv out t disk) (hw : ∀ i, whole i → whole' i) : Spec.Tells xs path whole' finished csv out t disk where
  good ht i hi := hw i (h.good ht i hi)
  printed failed ht := ⟨(h.printed failed ht).1, (h.printed failed ht).2.1, fun i hi => ⟨((h.printed failed ht).2.2 i hi).1, fun hp => hw i (((h.printed failed ht).2.2 i hi).2 hp)⟩⟩
  saved ht := by
    obtain ⟨p, rows, h1, h2, h3, h4⟩ := h.saved ht
    refine ⟨p, rows, h1, h2, h3, fun i hi => ?_⟩
    obtain ⟨r, hr, k1, k2, k3⟩ := h4 i hi
    exact ⟨r, hr, k1, fun hs => hw i (k2 hs), k3⟩
  all := h.all

/-- Something a run, however it ends, makes: it has the extension of an output. -/
def MakesOutputs (x : Proc) (d : Disk) : Prop := ∀ d' log out, Single x d d' log out → ∀ p, d'.get p ≠ none → d.get p ≠ none ∨ ".csv".toList <:+ p.toList ∨ ".db".toList <:+ p.toList

theorem log_no_extension {p : String} (hp : "sorcha.log".toList <:+ p.toList) : ¬ (".csv".toList <:+ p.toList ∨ ".db".toList <:+ p.toList) := by
  obtain ⟨a, ha⟩ := hp
  rintro (⟨b, hb⟩ | ⟨b, hb⟩)
  · rw [← ha, show "sorcha.log".toList = "sorcha".toList ++ ".log".toList by decide, ← List.append_assoc] at hb
    exact absurd (List.append_inj' hb (by decide)).2 (by decide)
  · rw [← ha, show "sorcha.log".toList = "sorcha.".toList ++ "log".toList by decide, ← List.append_assoc] at hb
    exact absurd (List.append_inj' hb (by decide)).2 (by decide)

theorem logged_tells {procs : ι → Proc} {args : ι → Cli.Args} {reads : ι → String → Prop} {names : ι → Ident} (hr : ∀ i, Reads (procs i) (args i) (reads i))
    (hsep : Spec.Separate args reads) (hn : WellNamed args reads names) {d D : Disk} (hone : ∀ i, History.Spec.AtMostOne (args i) d) {ph : ι → Option Phase}
    (h : LoggedSchedule procs args names d ph D) {xs : List ι} (hxs : ∀ i, i ∈ xs ↔ ph i ≠ none) (hd : ∀ p, "sorcha.log".toList <:+ p.toList → d.get p = none)
    (hnew : ∀ i v, Argv.parseRun (procs i).argv = .ok (args i, v) → MakesOutputs (procs i) d)
    (hfin : ∀ i d' log, Single (procs i) d d' log .finished → ∃ x, log = x ++ History.Spec.completed ++ ['\n'])
    (hstart : ∀ i, ¬ Cli.Spec.Occurs History.Spec.completed (procs i).startLog)
    (hwhole : ∀ i d' log out, Single (procs i) d d' log out → Cli.Spec.Occurs History.Spec.completed log → ∃ log', Single (procs i) d d' log' .finished)
    {dirs : String → Bool} (hdirs : {p | dirs p = true}.Finite) (bytes : History.Content → List Char) {root : String} (hroot : ∀ i ∈ xs, Setup.Spec.Below root ((names i).log (args i)))
    {walk : Setup.Walk} (hw : Setup.Spec.WalkSound walk) {br : Char → Bool} (hbn : br '\n' = true) (hbr : ∀ c ∈ History.Spec.completed, br c = false)
    {csv : List Setup.LogRow → List Char} {dirname : String → String} {out : Option String} (hout : ∀ p, out = some p → ".csv".toList <:+ p.toList) {force : Bool}
    {t : Setup.Told} (ht : (Setup.cmdCheckLogs walk br csv dirname root out force (asFiles dirs bytes D)).result = .ok t) (hnr : t ≠ .refused) :
    Spec.Tells xs (fun i => (names i).log (args i)) (fun i => ∃ d' log', Single (procs i) d d' log' .finished ∧ ∀ p, Spec.IsOutput (args i) p → D.get p = d'.get p)
      (fun i => ∃ log, ph i = some (.over log .finished)) csv out t (Setup.cmdCheckLogs walk br csv dirname root out force (asFiles dirs bytes D)).disk := by
  obtain ⟨k1, k2, k3⟩ := logged_along hr hsep hn hone h
  have hlog : ∀ i ∈ xs, D.get ((names i).log (args i)) = some (.text ((procs i).logged ((ph i).getD .waiting))) := by
    intro i hi
    obtain ⟨q, hq⟩ := Option.ne_none_iff_exists'.1 ((hxs i).1 hi)
    rw [hq]
    exact (k2 i q hq).1
  refine tells (log := fun i => (procs i).logged ((ph i).getD .waiting)) hw hbn hbr hout (asFiles_finite hdirs bytes D) (fun p => ⟨?_, ?_⟩) (fun i hi => ?_) (fun i hi => ?_)
    (fun i hi ho => ?_) ht hnr
  · rintro ⟨hf, -, hs⟩
    have hf := asFiles_file.1 hf
    by_contra hnone
    by_cases hp : ∀ i, ¬ Spec.IsOutput (args i) p
    · refine hf ((k1 p hp fun i hi => ⟨fun he => hnone ⟨i, (hxs i).2 hi, he.symm⟩, ?_⟩).trans (hd p hs))
      rintro rfl
      exact (C96_names (dir := (args i).o) (stem := (args i).t) (dir' := (args i).o) (stem' := (args i).t) (hn.stamps i).1 (hn.stamps i).1 (hn.stamps i).2 (hn.stamps i).2).2.2.2 hs
    · obtain ⟨i, hi⟩ := not_forall.1 hp
      have hi := not_not.1 hi
      obtain ⟨e, e1, -, e3⟩ := k3 i
      rw [e3 p hi] at hf
      rcases along_single e1 with ⟨-, rfl⟩ | ⟨-, rfl⟩ | ⟨o, hs1⟩
      · exact hf (hd p hs)
      · rw [History.get_keep, hd p hs] at hf
        simp at hf
      · cases hph : ph i with
        | none =>
          rw [hph] at e1
          cases e1
          exact hf (hd p hs)
        | some q =>
          obtain ⟨v, hv⟩ := (k2 i q hph).2
          rcases hnew i v hv _ _ _ hs1 p hf with h | h
          · exact h (hd p hs)
          · exact log_no_extension hs h
  · rintro ⟨i, hi, rfl⟩
    exact ⟨asFiles_file.2 (by rw [hlog i hi]; simp), hroot i hi, logged_suffix ..⟩
  · unfold asFiles
    rw [hlog i hi]
  · rintro ⟨log, hl⟩
    obtain ⟨e, e1, -, -⟩ := k3 i
    rw [hl] at e1 ⊢
    cases e1 with
    | over e1 => exact hfin i _ _ e1
  · obtain ⟨e, e1, -, e3⟩ := k3 i
    rcases along_single e1 with ⟨h1, -⟩ | ⟨h1, -⟩ | ⟨o, h1⟩
    · rw [h1] at ho
      obtain ⟨a, b, h⟩ := ho
      exact absurd (List.append_eq_nil_iff.1 (List.append_eq_nil_iff.1 h.symm).1).2 completed_ne
    · rw [h1] at ho
      exact absurd ho (hstart i)
    · obtain ⟨log', h2⟩ := hwhole i _ _ _ h1 ho
      exact ⟨e, log', h2, e3⟩

/-- C102 (check-logs): `sorcha outputs check-logs`, at any moment while such processes are running, on a directory above all their logs in which there was no log before, tells which of them
went through. One that it calls successful has left the outputs of a run that finished, alone, on the files of the beginning; one that it calls failed has not come to its end. -/
theorem C102_told {w : ι → World G W V} {argv : ι → List Str} {args : ι → Cli.Args} {reads : ι → String → Prop} {names : ι → Ident}
    (hr : ∀ i, Reads (rubin (w i) (argv i)) (args i) (reads i))
    (hsep : Spec.Separate args reads) (hn : WellNamed args reads names) {d D : Disk} (hone : ∀ i, History.Spec.AtMostOne (args i) d) {ph : ι → Option Phase}
    (h : LoggedSchedule (fun i => rubin (w i) (argv i)) args names d ph D) {xs : List ι} (hxs : ∀ i, i ∈ xs ↔ ph i ≠ none)
    (hd : ∀ p, "sorcha.log".toList <:+ p.toList → d.get p = none) (hquiet : ∀ i, Spec.Quiet (w i).start (w i).messages)
    {dirs : String → Bool} (hdirs : {p | dirs p = true}.Finite) (bytes : History.Content → List Char) {root : String} (hroot : ∀ i ∈ xs, Setup.Spec.Below root ((names i).log (args i)))
    {walk : Setup.Walk} (hw : Setup.Spec.WalkSound walk) {br : Char → Bool} (hbn : br '\n' = true) (hbr : ∀ c ∈ History.Spec.completed, br c = false)
    {csv : List Setup.LogRow → List Char} {dirname : String → String} {out : Option String} (hout : ∀ p, out = some p → ".csv".toList <:+ p.toList) {force : Bool}
    {t : Setup.Told} (ht : (Setup.cmdCheckLogs walk br csv dirname root out force (asFiles dirs bytes D)).result = .ok t) (hnr : t ≠ .refused) :
    Spec.Tells xs (fun i => (names i).log (args i))
      (fun i => ∃ d' log', Invoked (w i) (argv i) d d' log' .finished ∧ ∀ p, Spec.IsOutput (args i) p → D.get p = d'.get p)
      (fun i => ∃ log, ph i = some (.over log .finished)) csv out t (Setup.cmdCheckLogs walk br csv dirname root out force (asFiles dirs bytes D)).disk :=
  tells_mono (logged_tells hr hsep hn hone h hxs hd (fun i _ hv _ _ _ hs => (invoked_gentle hv (hr i).glob (single_rubin hs)).2) (fun _ _ _ hs => invoked_finished (single_rubin hs))
    (fun i => quiet_lines (hquiet i).1)
    (fun i _ _ _ hs ho => let ⟨log', h⟩ := invoked_whole (single_rubin hs) (hquiet i) ho; ⟨log', rubin_single h⟩)
    hdirs bytes hroot hw hbn hbr hout ht hnr) fun _ ⟨d', log', h1, h2⟩ => ⟨d', log', single_rubin h1, h2⟩

/-- C102 (check-logs), for the program with both surveys. -/
theorem C102_told_des {w : ι → DesWorld G W V} {argv : ι → List Str} {args : ι → Cli.Args} {reads : ι → String → Prop} {names : ι → Ident}
    (hr : ∀ i, Reads (eitherSurvey (w i) (argv i)) (args i) (reads i))
    (hsep : Spec.Separate args reads) (hn : WellNamed args reads names) {d D : Disk} (hone : ∀ i, History.Spec.AtMostOne (args i) d) {ph : ι → Option Phase}
    (h : LoggedSchedule (fun i => eitherSurvey (w i) (argv i)) args names d ph D) {xs : List ι} (hxs : ∀ i, i ∈ xs ↔ ph i ≠ none)
    (hd : ∀ p, "sorcha.log".toList <:+ p.toList → d.get p = none) (hquiet : ∀ i, Spec.Quiet (w i).base.start (w i).base.messages)
    {dirs : String → Bool} (hdirs : {p | dirs p = true}.Finite) (bytes : History.Content → List Char) {root : String} (hroot : ∀ i ∈ xs, Setup.Spec.Below root ((names i).log (args i)))
    {walk : Setup.Walk} (hw : Setup.Spec.WalkSound walk) {br : Char → Bool} (hbn : br '\n' = true) (hbr : ∀ c ∈ History.Spec.completed, br c = false)
    {csv : List Setup.LogRow → List Char} {dirname : String → String} {out : Option String} (hout : ∀ p, out = some p → ".csv".toList <:+ p.toList) {force : Bool}
    {t : Setup.Told} (ht : (Setup.cmdCheckLogs walk br csv dirname root out force (asFiles dirs bytes D)).result = .ok t) (hnr : t ≠ .refused) :
    Spec.Tells xs (fun i => (names i).log (args i))
      (fun i => ∃ d' log', DesInvoked (w i) (argv i) d d' log' .finished ∧ ∀ p, Spec.IsOutput (args i) p → D.get p = d'.get p)
      (fun i => ∃ log, ph i = some (.over log .finished)) csv out t (Setup.cmdCheckLogs walk br csv dirname root out force (asFiles dirs bytes D)).disk :=
  tells_mono (logged_tells hr hsep hn hone h hxs hd (fun i _ hv _ _ _ hs => (desInvoked_gentle hv (hr i).glob (single_either hs)).2) (fun _ _ _ hs => desInvoked_finished (single_either hs))
    (fun i => quiet_lines (hquiet i).1)
    (fun i _ _ _ hs ho => let ⟨log', h⟩ := desInvoked_whole (single_either hs) (hquiet i) ho; ⟨log', either_single h⟩)
    hdirs bytes hroot hw hbn hbr hout ht hnr) fun _ ⟨d', log', h1, h2⟩ => ⟨d', log', single_either h1, h2⟩

/-- C102 (too early): as long as one of the processes has opened its log and not written to it, `check-logs` does not tell anything, of none of them: the one empty log stops it
(C43). -/
theorem C102_early_fails {procs : ι → Proc} {args : ι → Cli.Args} {reads : ι → String → Prop} {names : ι → Ident} (hr : ∀ i, Reads (procs i) (args i) (reads i))
    (hsep : Spec.Separate args reads) (hn : WellNamed args reads names) {d D : Disk} (hone : ∀ i, History.Spec.AtMostOne (args i) d) {ph : ι → Option Phase}
    (h : LoggedSchedule procs args names d ph D) {i : ι} (hi : ph i = some .waiting)
    {dirs : String → Bool} (hdirs : {p | dirs p = true}.Finite) (bytes : History.Content → List Char) {root : String} (hroot : Setup.Spec.Below root ((names i).log (args i)))
    {walk : Setup.Walk} (hw : Setup.Spec.WalkSound walk) {br : Char → Bool} {csv : List Setup.LogRow → List Char} {dirname : String → String} {out : Option String}
    (hout : ∀ p, out = some p → ".csv".toList <:+ p.toList) {force : Bool}
    {t : Setup.Told} (ht : (Setup.cmdCheckLogs walk br csv dirname root out force (asFiles dirs bytes D)).result = .ok t) : t = .refused := by
  by_contra hnr
  obtain ⟨-, k2, -⟩ := logged_along hr hsep hn hone h
  have hlog : D.get ((names i).log (args i)) = some (.text []) := (k2 i _ hi).1
  obtain ⟨rows, hrep, -, -⟩ := Setup.Props.C68_report hw (asFiles_finite hdirs bytes D) out hout t ht hnr
  obtain ⟨r, hr, he⟩ := List.mem_map.1 ((hrep.logs ((names i).log (args i))).2 ⟨asFiles_file.2 (by rw [hlog]; simp), hroot, logged_suffix ..⟩)
  obtain ⟨text, l, h1, ⟨before, rest, h2, -, -, h3⟩, -⟩ := hrep.rows r hr
  have he : r.filename = (names i).log (args i) := he
  rw [he] at h1
  unfold asFiles at h1
  rw [hlog] at h1
  injection h1 with h1
  injection h1 with h1
  rw [← h1] at h2
  have h2 := List.append_eq_nil_iff.1 h2.symm
  rcases h3 with ⟨-, h3⟩ | ⟨c, -, h3⟩
  · exact h3 (List.append_eq_nil_iff.1 h2.1).2
  · rw [h3] at h2
    exact absurd h2.2 (by simp)

/-! ## Parts of a population, once `check-logs` finds all of them good -/

/-- Runs that were all started on the files `d`, at the same time, with their logs among the files; at the moment when the files are `D`, `sorcha outputs check-logs` on a directory above all
their logs finds all of them successful. Nothing is said about where they are. Otherwise as `AtOnce`. (`after` and `log` of the runs are not used.) -/
structure FoundGood (mk : List Str → Proc) (w : World G W V) (c : Config.Cfg) (runs : ι → Run) (all : List ι) (reads : ι → String → Prop) (d D : Disk) : Prop where
  said : ∀ i, Argv.parseRun (runs i).argv = .ok ((runs i).args, (runs i).verbose)
  looks : ∀ i, Reads (mk (runs i).argv) (runs i).args (reads i)
  separate : Spec.Separate (fun i => (runs i).args) reads
  before : ∀ i, (runs i).before = d
  configured : ∀ i, Configured w d (runs i).args (sized c (runs i).chunk)
  names : ∀ i, History.Spec.NamesDiffer (runs i).args
  one : ∀ i, History.Spec.AtMostOne (runs i).args d
  objects : ∀ i, Spec.Objects w.ids d (runs i).args (sized c (runs i).chunk) (runs i).orb (runs i).others
  every : ∀ i, i ∈ all
  nolog : ∀ p, "sorcha.log".toList <:+ p.toList → d.get p = none
  quiet : Spec.Quiet w.start w.messages
  good : ∃ (names : ι → Ident) (ph : ι → Option Phase) (walk : Setup.Walk) (br : Char → Bool) (csv : List Setup.LogRow → List Char) (dirname : String → String) (root : String)
    (out : Option String) (force : Bool) (dirs : String → Bool) (bytes : History.Content → List Char),
    WellNamed (fun i => (runs i).args) reads names ∧ LoggedSchedule (fun i => mk (runs i).argv) (fun i => (runs i).args) names d ph D ∧ (∀ i, ph i ≠ none) ∧
    Setup.Spec.WalkSound walk ∧ br '\n' = true ∧ (∀ c ∈ History.Spec.completed, br c = false) ∧ (∀ p, out = some p → ".csv".toList <:+ p.toList) ∧ {p | dirs p = true}.Finite ∧
    (∀ i, Setup.Spec.Below root ((names i).log (runs i).args)) ∧ (Setup.cmdCheckLogs walk br csv dirname root out force (asFiles dirs bytes D)).result = .ok .allGood

theorem foundGood_rubin {w : World G W V} {c : Config.Cfg} {runs : ι → Run} {all : List ι} {reads : ι → String → Prop} {d D : Disk}
    (h : FoundGood (rubin w) w c runs all reads d D) :
    ∃ (log : ι → List Char) (after : ι → Disk), (∀ i, Finished w c { runs i with log := log i, after := after i }) ∧ ∀ i p, Spec.IsOutput (runs i).args p → D.get p = (after i).get p := by
  obtain ⟨names, ph, walk, br, csv, dirname, root, out, force, dirs, bytes, g1, g2, g3, g4, g5, g6, g7, g8, g9, g10⟩ := h.good
  have ht := C102_told (w := fun _ => w) (argv := fun i => (runs i).argv) h.looks h.separate g1 h.one g2 (xs := all) (fun i => ⟨fun _ => g3 i, fun _ => h.every i⟩) h.nolog (fun _ => h.quiet)
    g8 bytes (fun i _ => g9 i) g4 g5 g6 g7 g10 (fun h => (nomatch h))
  have key := fun i => ht.good rfl i (h.every i)
  choose after log k1 k2 using key
  exact ⟨log, after, fun i => ⟨h.said i, by rw [h.before i]; exact k1 i, by rw [h.before i]; exact h.configured i, h.names i, by rw [h.before i]; exact h.one i,
    by rw [h.before i]; exact h.objects i⟩, k2⟩

theorem foundGood_des {w : DesWorld G W V} {c : Config.Cfg} {runs : ι → Run} {all : List ι} {reads : ι → String → Prop} {d D : Disk}
    (h : FoundGood (eitherSurvey w) w.base c runs all reads d D) (hdes : ∀ i, IsDes (runs i).args) :
    ∃ (log : ι → List Char) (after : ι → Disk), (∀ i, DesFinished w c { runs i with log := log i, after := after i }) ∧ ∀ i p, Spec.IsOutput (runs i).args p → D.get p = (after i).get p := by
  obtain ⟨names, ph, walk, br, csv, dirname, root, out, force, dirs, bytes, g1, g2, g3, g4, g5, g6, g7, g8, g9, g10⟩ := h.good
  have ht := C102_told_des (w := fun _ => w) (argv := fun i => (runs i).argv) h.looks h.separate g1 h.one g2 (xs := all) (fun i => ⟨fun _ => g3 i, fun _ => h.every i⟩) h.nolog
    (fun _ => h.quiet) g8 bytes (fun i _ => g9 i) g4 g5 g6 g7 g10 (fun h => (nomatch h))
  have key := fun i => ht.good rfl i (h.every i)
  choose after log k1 k2 using key
  exact ⟨log, after, fun i => ⟨h.said i, hdes i, by rw [h.before i]; exact k1 i, by rw [h.before i]; exact h.configured i, h.names i, by rw [h.before i]; exact h.one i,
    by rw [h.before i]; exact h.objects i⟩, k2⟩

omit [DecidableEq ι] in
theorem same_divided {whole : Run} {runs : ι → Run} {all : List ι} (h : Spec.Divided whole (all.map runs)) (log : ι → List Char) :
    Spec.Divided whole (all.map fun i => { runs i with log := log i }) := by
  refine ⟨fun p hp => ?_, ?_⟩
  · obtain ⟨i, hi, rfl⟩ := List.mem_map.1 hp
    exact h.rows (runs i) (List.mem_map_of_mem hi)
  · have := h.objects
    rw [List.flatMap_map] at this ⊢
    exact this

/-- C102 (parts, given ephemerides): take a run that has finished, and runs on parts of its objects as in C94, carried out at the same time, with their steps in any order, each of them
refused, failing, killed, still running or finished. As soon as `check-logs` finds all of them good, their results have together the lines of the whole run's results. -/
theorem C102_external {w : World G W V} {c : Config.Cfg} {whole : Run} {runs : ι → Run} {all : List ι} {reads : ι → String → Prop} {d D : Disk}
    (hg : Cli.Spec.GlobSound w.glob) (hwhole : Finished w c whole) (h : FoundGood (rubin w) w c runs all reads d D)
    (hext : c.input.ephemeridesType = "external")
    (heph : ∀ r ∈ whole :: all.map runs, ∃ pe, r.args.er = some pe ∧ Spec.Table w.ids c.input.ephFormat r.before pe r.eph)
    (hdiv : Spec.Divided whole (all.map runs)) (hsame : Spec.SameEphemerides whole (all.map runs))
    (ho : Pipeline.Spec.OncePerTime (Spec.observed w.parse whole.eph whole.orb whole.others))
    {columns : List String} (hcols : ∀ r ∈ whole :: all.map runs, ∀ a, Accepted w r.before r.args a → w.columns (sized c r.chunk) a = columns)
    {E : Pipeline.Env G W V}
    (henv : ∀ r ∈ whole :: all.map runs, ∀ a E', Accepted w r.before r.args a → w.env (sized c r.chunk) a (checked w r.args r.before) = some E' → E' = E)
    (hreg : Pipeline.Spec.Regular E c)
    {shown : Cell → Str} (hshown : w.lines.output = Csv.line shown) (h2 : 2 ≤ columns.length) :
    (c.output.format = "csv" → Spec.LinesTogether Csv.read (whole.after.get (whole.args.o ++ "/" ++ whole.args.t ++ ".csv"))
      (all.map fun i => D.get ((runs i).args.o ++ "/" ++ (runs i).args.t ++ ".csv"))) ∧
    (c.output.format = "sqlite3" → Spec.TableTogether (whole.after.get (whole.args.o ++ "/" ++ whole.args.t ++ ".db"))
      (all.map fun i => D.get ((runs i).args.o ++ "/" ++ (runs i).args.t ++ ".db"))) := by
  obtain ⟨log, after, hfin, hout⟩ := foundGood_rubin h
  have hin : ∀ i ∈ all, runs i ∈ whole :: all.map runs := fun i hi => List.mem_cons_of_mem _ (List.mem_map_of_mem hi)
  refine leaving_together (runs := fun i => { runs i with log := log i }) hout (C94_external (whole := whole) (parts := all.map (leaving (fun i => { runs i with log := log i }) after)) hg (leaving_mem hwhole fun i _ => hfin i) hext
    (leaving_mem (heph whole List.mem_cons_self) fun i hi => heph (runs i) (hin i hi)) (leaving_divided (runs := fun i => { runs i with log := log i }) (same_divided hdiv log) after)
    (fun p hp => by obtain ⟨i, hi, rfl⟩ := List.mem_map.1 hp; exact hsame (runs i) (List.mem_map_of_mem hi)) ho
    (leaving_mem (hcols whole List.mem_cons_self) fun i hi => hcols (runs i) (hin i hi))
    (leaving_mem (henv whole List.mem_cons_self) fun i hi => henv (runs i) (hin i hi)) hreg hshown h2)

/-- C102 (parts, generated ephemerides). -/
theorem C102_generated {w : World G W V} {c : Config.Cfg} {whole : Run} {runs : ι → Run} {all : List ι} {reads : ι → String → Prop} {d D : Disk}
    (hg : Cli.Spec.GlobSound w.glob) (hwhole : Finished w c whole) (h : FoundGood (rubin w) w c runs all reads d D)
    (hext : c.input.ephemeridesType ≠ "external") {ephem : List (Rec Str) → List (Pointing.Obs W)} {cull : Rec Str → Bool}
    (hephem : ∀ r ∈ whole :: all.map runs, ∀ a, Accepted w r.before r.args a → w.ephem (sized c r.chunk) a = ephem ∧ w.cull (sized c r.chunk) a = cull)
    (halone : Spec.EachAlone ephem whole.orb) (hdiv : Spec.Divided whole (all.map runs))
    (ho : Pipeline.Spec.OncePerTime ((Spec.bright c cull whole.orb whole.others).flatMap fun r => ephem [r]))
    {columns : List String} (hcols : ∀ r ∈ whole :: all.map runs, ∀ a, Accepted w r.before r.args a → w.columns (sized c r.chunk) a = columns)
    {E : Pipeline.Env G W V}
    (henv : ∀ r ∈ whole :: all.map runs, ∀ a E', Accepted w r.before r.args a → w.env (sized c r.chunk) a (checked w r.args r.before) = some E' → E' = E)
    (hreg : Pipeline.Spec.Regular E c)
    {shown : Cell → Str} (hshown : w.lines.output = Csv.line shown) (h2 : 2 ≤ columns.length) :
    (c.output.format = "csv" → Spec.LinesTogether Csv.read (whole.after.get (whole.args.o ++ "/" ++ whole.args.t ++ ".csv"))
      (all.map fun i => D.get ((runs i).args.o ++ "/" ++ (runs i).args.t ++ ".csv"))) ∧
    (c.output.format = "sqlite3" → Spec.TableTogether (whole.after.get (whole.args.o ++ "/" ++ whole.args.t ++ ".db"))
      (all.map fun i => D.get ((runs i).args.o ++ "/" ++ (runs i).args.t ++ ".db"))) := by
  obtain ⟨log, after, hfin, hout⟩ := foundGood_rubin h
  have hin : ∀ i ∈ all, runs i ∈ whole :: all.map runs := fun i hi => List.mem_cons_of_mem _ (List.mem_map_of_mem hi)
  refine leaving_together (runs := fun i => { runs i with log := log i }) hout (C94_generated (whole := whole) (parts := all.map (leaving (fun i => { runs i with log := log i }) after)) hg (leaving_mem hwhole fun i _ => hfin i) hext
    (leaving_mem (hephem whole List.mem_cons_self) fun i hi => hephem (runs i) (hin i hi)) halone (leaving_divided (runs := fun i => { runs i with log := log i }) (same_divided hdiv log) after) ho
    (leaving_mem (hcols whole List.mem_cons_self) fun i hi => hcols (runs i) (hin i hi))
    (leaving_mem (henv whole List.mem_cons_self) fun i hi => henv (runs i) (hin i hi)) hreg hshown h2)

/-- C102 (parts of a DES run, given ephemerides). -/
theorem C102_external_des {w : DesWorld G W V} {c : Config.Cfg} {whole : Run} {runs : ι → Run} {all : List ι} {reads : ι → String → Prop} {d D : Disk}
    (hg : Cli.Spec.GlobSound w.base.glob) (hwhole : DesFinished w c whole) (h : FoundGood (eitherSurvey w) w.base c runs all reads d D) (hdes : ∀ i, IsDes (runs i).args)
    (hext : c.input.ephemeridesType = "external")
    (heph : ∀ r ∈ whole :: all.map runs, ∃ pe, r.args.er = some pe ∧ Spec.Table w.base.ids c.input.ephFormat r.before pe r.eph)
    (hdiv : Spec.Divided whole (all.map runs)) (hsame : Spec.SameEphemerides whole (all.map runs))
    {columns : List String} (hcols : ∀ r ∈ whole :: all.map runs, ∀ a, Accepted w.base r.before r.args a → w.columns (sized c r.chunk) a = columns)
    {E : DesRun.Env G W V}
    (henv : ∀ r ∈ whole :: all.map runs, ∀ a E', Accepted w.base r.before r.args a → w.env (sized c r.chunk) a (checked w.base r.args r.before) = some E' → E' = E)
    (hdet : DesRun.Spec.Deterministic c) (hs : ∀ l, (E.base.sortIndex l).Perm l) (ht : Des.Spec.SortSound E.sortTime)
    {shown : Cell → Str} (hshown : w.base.lines.output = Csv.line shown) (h2 : 2 ≤ columns.length) :
    (c.output.format = "csv" → Spec.LinesTogether Csv.read (whole.after.get (whole.args.o ++ "/" ++ whole.args.t ++ ".csv"))
      (all.map fun i => D.get ((runs i).args.o ++ "/" ++ (runs i).args.t ++ ".csv"))) ∧
    (c.output.format = "sqlite3" → Spec.TableTogether (whole.after.get (whole.args.o ++ "/" ++ whole.args.t ++ ".db"))
      (all.map fun i => D.get ((runs i).args.o ++ "/" ++ (runs i).args.t ++ ".db"))) := by
  obtain ⟨log, after, hfin, hout⟩ := foundGood_des h hdes
  have hin : ∀ i ∈ all, runs i ∈ whole :: all.map runs := fun i hi => List.mem_cons_of_mem _ (List.mem_map_of_mem hi)
  refine leaving_together (runs := fun i => { runs i with log := log i }) hout (C98_external (whole := whole) (parts := all.map (leaving (fun i => { runs i with log := log i }) after)) hg (leaving_mem hwhole fun i _ => hfin i) hext
    (leaving_mem (heph whole List.mem_cons_self) fun i hi => heph (runs i) (hin i hi)) (leaving_divided (runs := fun i => { runs i with log := log i }) (same_divided hdiv log) after)
    (fun p hp => by obtain ⟨i, hi, rfl⟩ := List.mem_map.1 hp; exact hsame (runs i) (List.mem_map_of_mem hi))
    (leaving_mem (hcols whole List.mem_cons_self) fun i hi => hcols (runs i) (hin i hi))
    (leaving_mem (henv whole List.mem_cons_self) fun i hi => henv (runs i) (hin i hi)) hdet hs ht hshown h2)

/-- C102 (parts of a DES run, generated ephemerides). -/
theorem C102_generated_des {w : DesWorld G W V} {c : Config.Cfg} {whole : Run} {runs : ι → Run} {all : List ι} {reads : ι → String → Prop} {d D : Disk}
    (hg : Cli.Spec.GlobSound w.base.glob) (hwhole : DesFinished w c whole) (h : FoundGood (eitherSurvey w) w.base c runs all reads d D) (hdes : ∀ i, IsDes (runs i).args)
    (hext : c.input.ephemeridesType ≠ "external") {ephem : List (Rec Str) → List (Pointing.Obs W)} {cull : Rec Str → Bool}
    (hephem : ∀ r ∈ whole :: all.map runs, ∀ a, Accepted w.base r.before r.args a → w.base.ephem (sized c r.chunk) a = ephem ∧ w.base.cull (sized c r.chunk) a = cull)
    (halone : Spec.EachAlone ephem whole.orb) (hdiv : Spec.Divided whole (all.map runs))
    {columns : List String} (hcols : ∀ r ∈ whole :: all.map runs, ∀ a, Accepted w.base r.before r.args a → w.columns (sized c r.chunk) a = columns)
    {E : DesRun.Env G W V}
    (henv : ∀ r ∈ whole :: all.map runs, ∀ a E', Accepted w.base r.before r.args a → w.env (sized c r.chunk) a (checked w.base r.args r.before) = some E' → E' = E)
    (hdet : DesRun.Spec.Deterministic c) (hs : ∀ l, (E.base.sortIndex l).Perm l) (ht : Des.Spec.SortSound E.sortTime)
    {shown : Cell → Str} (hshown : w.base.lines.output = Csv.line shown) (h2 : 2 ≤ columns.length) :
    (c.output.format = "csv" → Spec.LinesTogether Csv.read (whole.after.get (whole.args.o ++ "/" ++ whole.args.t ++ ".csv"))
      (all.map fun i => D.get ((runs i).args.o ++ "/" ++ (runs i).args.t ++ ".csv"))) ∧
    (c.output.format = "sqlite3" → Spec.TableTogether (whole.after.get (whole.args.o ++ "/" ++ whole.args.t ++ ".db"))
      (all.map fun i => D.get ((runs i).args.o ++ "/" ++ (runs i).args.t ++ ".db"))) := by
  obtain ⟨log, after, hfin, hout⟩ := foundGood_des h hdes
  have hin : ∀ i ∈ all, runs i ∈ whole :: all.map runs := fun i hi => List.mem_cons_of_mem _ (List.mem_map_of_mem hi)
  refine leaving_together (runs := fun i => { runs i with log := log i }) hout (C98_generated (whole := whole) (parts := all.map (leaving (fun i => { runs i with log := log i }) after)) hg (leaving_mem hwhole fun i _ => hfin i) hext
    (leaving_mem (hephem whole List.mem_cons_self) fun i hi => hephem (runs i) (hin i hi)) halone (leaving_divided (runs := fun i => { runs i with log := log i }) (same_divided hdiv log) after)
    (leaving_mem (hcols whole List.mem_cons_self) fun i hi => hcols (runs i) (hin i hi))
    (leaving_mem (henv whole List.mem_cons_self) fun i hi => henv (runs i) (hin i hi)) hdet hs ht hshown h2)

end Sorcha.Whole.Props
