import Verif.Whole.Session
import Verif.Whole.DesProps

/-!
# Properties: the logs of runs, one after another, and `check-logs` on them (C96)
-/

namespace Sorcha.Whole.Props

open Sorcha.Csv (Str)
open Sorcha.History (Disk get_put_self get_put_ne)

variable {G W V : Type}

/-! ## What a run does to other files -/

/-- A kind of run that, however it ends, changes only its outputs and makes only files with the extensions of outputs. -/
def Gentle {World : Type} (run : World → List Str → Disk → Disk → List Char → History.Outcome → Prop) (glob : World → Cli.Glob) : Prop :=
  ∀ {w argv d d' log out args v}, Argv.parseRun argv = .ok (args, v) → Cli.Spec.GlobSound (glob w) → run w argv d d' log out →
    (∀ p, ¬ History.Spec.IsResults args p → ¬ History.Spec.IsEphemeris args p → ¬ History.Spec.IsStats args p → d'.get p = d.get p) ∧
    ∀ p, d'.get p ≠ none → d.get p ≠ none ∨ ".csv".toList <:+ p.toList ∨ ".db".toList <:+ p.toList

theorem gentle_effects {ls : History.Lines} {args : Cli.Args} {a : Cli.CmdArgs} (hn : History.Names args a) {fmt : History.Format} {es : List History.Effect}
    (hes : ∀ e ∈ es, History.Kind ls args fmt e ∨ (fmt = .sqlite ∧ e = .index (History.pathOf args .sqlite))) {s s' : History.State} {done : Bool}
    (he : History.Ends false es s s' done) :
    (∀ p, ¬ History.Spec.IsResults args p → ¬ History.Spec.IsEphemeris args p → ¬ History.Spec.IsStats args p → s'.disk.get p = s.disk.get p) ∧
    ∀ p, s'.disk.get p ≠ none → s.disk.get p ≠ none ∨ ".csv".toList <:+ p.toList ∨ ".db".toList <:+ p.toList := by
  have hcsv : ∀ q : String, ".csv".toList <:+ (q ++ ".csv").toList := fun q => ⟨q.toList, by rw [String.toList_append]⟩
  have hdb : ∀ q : String, ".db".toList <:+ (q ++ ".db").toList := fun q => ⟨q.toList, by rw [String.toList_append]⟩
  constructor
  · intro p h1 h2 h3
    exact History.ends_untouched (fun e hm => History.kind_untouched fmt (History.Props.ne_path_of_not_results h1) (History.Props.ne_path_of_not_ephemeris h2) h3 (hes e hm)) he
  · intro p hp
    by_contra hno
    push Not at hno
    obtain ⟨h0, h1, h2⟩ := hno
    refine hp ((History.ends_untouched (fun e hm => History.kind_untouched fmt ?_ ?_ ?_ (hes e hm)) he).trans h0)
    · rintro rfl
      cases fmt
      · exact h1 (hcsv _)
      · exact h2 (hdb _)
    · rintro n - - rfl
      exact h1 (hcsv _)
    · rintro ⟨n, -, rfl⟩
      exact h1 (hcsv _)

theorem invoked_gentle : Gentle (Invoked (G := G) (W := W) (V := V)) (·.glob) := by
  intro w argv d d' log out args v hargs hg h
  cases h with
  | usage _ => exact ⟨fun _ _ _ _ => rfl, fun _ h => .inl h⟩
  | @refused args' v' e h hc =>
    rw [hargs] at h; cases h
    obtain ⟨h1, h2⟩ := History.Props.refused_files (exist := existing w d) (isDir := w.isDir) hg (a := args) (d := d)
    exact ⟨h1, fun p hp => .inl (h2 p hp)⟩
  | @ran args' v' a fmt chunks s done h hc hp he =>
    rw [hargs] at h; cases h
    obtain ⟨h1, h2⟩ := History.Props.refused_files (exist := existing w d) (isDir := w.isDir) hg (a := args) (d := d)
    obtain ⟨h3, h4⟩ := gentle_effects (History.Props.names_of hc) (History.run_kinds (History.Props.names_of hc) fmt chunks w.stamp) he
    exact ⟨fun p a b c => (h3 p a b c).trans (h1 p a b c), fun p hp => (h4 p hp).imp_left (h2 p)⟩
  | @failed args' v' a fmt chunks s done h hc hp he =>
    rw [hargs] at h; cases h
    obtain ⟨h1, h2⟩ := History.Props.refused_files (exist := existing w d) (isDir := w.isDir) hg (a := args) (d := d)
    obtain ⟨h3, h4⟩ := gentle_effects (History.Props.names_of hc) (fun e hm => .inl (History.chunks_kinds (History.Props.names_of hc) fmt chunks e hm)) he
    exact ⟨fun p a b c => (h3 p a b c).trans (h1 p a b c), fun p hp => (h4 p hp).imp_left (h2 p)⟩

theorem desInvoked_gentle : Gentle (DesInvoked (G := G) (W := W) (V := V)) (·.base.glob) := by
  intro w argv d d' log out args v hargs hg h
  cases h with
  | usage _ => exact ⟨fun _ _ _ _ => rfl, fun _ h => .inl h⟩
  | @refused args' v' e h hc =>
    rw [hargs] at h; cases h
    obtain ⟨h1, h2⟩ := History.Props.refused_files (exist := existing w.base d) (isDir := w.base.isDir) hg (a := args) (d := d)
    exact ⟨h1, fun p hp => .inl (h2 p hp)⟩
  | @ran args' v' a fmt chunks s done h hc hp he =>
    rw [hargs] at h; cases h
    obtain ⟨h1, h2⟩ := History.Props.refused_files (exist := existing w.base d) (isDir := w.base.isDir) hg (a := args) (d := d)
    obtain ⟨h3, h4⟩ := gentle_effects (History.Props.names_of hc) (History.run_kinds (History.Props.names_of hc) fmt chunks w.base.stamp) he
    exact ⟨fun p a b c => (h3 p a b c).trans (h1 p a b c), fun p hp => (h4 p hp).imp_left (h2 p)⟩
  | @failed args' v' a fmt chunks s done h hc hp he =>
    rw [hargs] at h; cases h
    obtain ⟨h1, h2⟩ := History.Props.refused_files (exist := existing w.base d) (isDir := w.base.isDir) hg (a := args) (d := d)
    obtain ⟨h3, h4⟩ := gentle_effects (History.Props.names_of hc) (fun e hm => .inl (History.chunks_kinds (History.Props.names_of hc) fmt chunks e hm)) he
    exact ⟨fun p a b c => (h3 p a b c).trans (h1 p a b c), fun p hp => (h4 p hp).imp_left (h2 p)⟩

/-! ## The names -/

/-- C96 (names): the name of a log tells the directory, the stem, the time and the process of its run; it ends as `check-logs` expects; it is not the name of a log of errors. -/
theorem C96_names {dir stem stamp pid dir' stem' stamp' pid' : String} (h1 : Spec.Stamp stamp) (h2 : Spec.Stamp stamp') (h3 : Spec.Decimal pid) (h4 : Spec.Decimal pid') :
    (loggedAt dir stem stamp pid "sorcha.log" = loggedAt dir' stem' stamp' pid' "sorcha.log" → dir ++ "/" ++ stem = dir' ++ "/" ++ stem' ∧ stamp = stamp' ∧ pid = pid') ∧
    loggedAt dir stem stamp pid "sorcha.log" ≠ loggedAt dir' stem' stamp' pid' "sorcha.err" ∧
    "sorcha.log".toList <:+ (loggedAt dir stem stamp pid "sorcha.log").toList ∧ ¬ "sorcha.log".toList <:+ (loggedAt dir stem stamp pid "sorcha.err").toList := by
  refine ⟨logged_inj h1 h2 h3 h4, log_ne_err, ?_, ?_⟩
  · rw [loggedAt_chars]
    exact ⟨_, by rw [List.append_cons]⟩
  · rw [loggedAt_chars]
    rintro ⟨a, h⟩
    rw [List.append_cons] at h
    exact absurd (List.append_inj' h (by decide)).2 (by decide)

/-- C96 (names and outputs): no run has among its outputs a log, of itself or another run, whose stem has no dot, unless the run's stem or its name for the ephemerides ends like
the name of a log. -/
theorem C96_apart {dir stem stamp pid kind : String} (hkind : kind = "sorcha.log" ∨ kind = "sorcha.err") (hdot : '.' ∉ stem.toList) (hs : Spec.Stamp stamp)
    (hp : Spec.Decimal pid) {a : Cli.Args} (ha : ¬ "-sorcha".toList <:+ a.t.toList) (he : ∀ n, a.ew = some n → ¬ "-sorcha".toList <:+ n.toList) :
    ¬ History.Spec.IsResults a (loggedAt dir stem stamp pid kind) ∧ ¬ History.Spec.IsEphemeris a (loggedAt dir stem stamp pid kind) ∧
      ¬ History.Spec.IsStats a (loggedAt dir stem stamp pid kind) := by
  have key : ∀ {o n : String}, Cli.Spec.BelongsTo o n (loggedAt dir stem stamp pid kind) → "-sorcha".toList <:+ n.toList := by
    intro o n hb
    rcases hkind with rfl | rfl
    · exact log_not_belongs (ext := "log".toList) hdot hs hp (by decide) (by decide) (by decide) hb
    · exact log_not_belongs (ext := "err".toList) hdot hs hp (by decide) (by decide) (by decide) hb
  refine ⟨fun h => ha (key h), fun ⟨n, hn, _, hb⟩ => he n hn (key hb), ?_⟩
  rintro ⟨n, -, h⟩
  have h := congrArg String.toList h
  rw [loggedAt_chars, String.toList_append] at h
  rcases hkind with rfl | rfl
  · rw [show '-' :: "sorcha.log".toList = "-sorcha".toList ++ ".log".toList by decide, ← List.append_assoc] at h
    exact absurd (List.append_inj' h (by decide)).2 (by decide)
  · rw [show '-' :: "sorcha.err".toList = "-sorcha".toList ++ ".err".toList by decide, ← List.append_assoc] at h
    exact absurd (List.append_inj' h (by decide)).2 (by decide)

/-! ## Runs one after another -/

/-- What is asked of the names of the runs. -/
structure Named {World : Type} (xs : List (Attempt World)) : Prop where
  stamps : ∀ x ∈ xs, Spec.Stamp x.stamp ∧ Spec.Decimal x.pid
  apart : ∀ x ∈ xs, Spec.NoClash x.args
  differ : xs.Pairwise fun x y => ¬ (x.args.o ++ "/" ++ x.args.t = y.args.o ++ "/" ++ y.args.t ∧ x.stamp = y.stamp ∧ x.pid = y.pid)

theorem session_kept {World : Type} {run : World → List Str → Disk → Disk → List Char → History.Outcome → Prop} {glob : World → Cli.Glob} (hgentle : Gentle run glob)
    {xs : List (Attempt World)} {d D : Disk} (h : Session run xs d D) (hg : ∀ x ∈ xs, Cli.Spec.GlobSound (glob x.world)) (hn : Named xs) :
    (∀ x ∈ xs, x.path = x.logPath ∧ run x.world x.argv x.before x.after x.log x.outcome ∧ D.get x.logPath = some (.text x.log)) ∧
    (∀ p, "sorcha.log".toList <:+ p.toList → D.get p ≠ none → d.get p ≠ none ∨ ∃ x ∈ xs, x.logPath = p) ∧
    ∀ dir stem stamp pid, '.' ∉ stem.toList → Spec.Stamp stamp → Spec.Decimal pid →
      (∀ x ∈ xs, ¬ (dir ++ "/" ++ stem = x.args.o ++ "/" ++ x.args.t ∧ stamp = x.stamp ∧ pid = x.pid)) →
      D.get (loggedAt dir stem stamp pid "sorcha.log") = d.get (loggedAt dir stem stamp pid "sorcha.log") := by
  induction h with
  | nil => exact ⟨fun _ h => (nomatch h), fun _ _ h => .inl h, fun _ _ _ _ _ _ _ _ => rfl⟩
  | @cons x xs d D hargs hpath hbefore hrun hrest ih =>
    obtain ⟨hd1, hd2⟩ := List.pairwise_cons.1 hn.differ
    have hn' : Named xs := ⟨fun y hy => hn.stamps y (List.mem_cons_of_mem _ hy), fun y hy => hn.apart y (List.mem_cons_of_mem _ hy), hd2⟩
    obtain ⟨i1, i2, i3⟩ := ih (fun y hy => hg y (List.mem_cons_of_mem _ hy)) hn'
    have hx : x ∈ x :: xs := List.mem_cons_self ..
    obtain ⟨g1, g2⟩ := hgentle hargs (hg x hx) hrun
    obtain ⟨s1, s2⟩ := hn.stamps x hx
    have hc := hn.apart x hx
    have hown : (x.closed x.after).get x.logPath = some (.text x.log) := by
      unfold Attempt.closed
      rw [get_put_ne _ _ (show x.logPath ≠ x.errPath from log_ne_err), get_put_self]
    refine ⟨fun y hy => ?_, fun p hp hD => ?_, fun dir stem stamp pid k1 k2 k3 k4 => ?_⟩
    · rcases List.mem_cons.1 hy with rfl | hy
      · exact ⟨hpath, hrun, (i3 _ _ _ _ hc.dot s1 s2 hd1).trans hown⟩
      · exact i1 y hy
    · rcases i2 p hp hD with h | ⟨y, hy, rfl⟩
      · by_cases h1 : p = x.logPath
        · exact .inr ⟨x, hx, h1.symm⟩
        · have hpe : p ≠ x.errPath := by
            rintro rfl
            exact (C96_names (dir := x.args.o) (stem := x.args.t) (dir' := x.args.o) (stem' := x.args.t) s1 s1 s2 s2).2.2.2 hp
          unfold Attempt.closed at h
          rw [get_put_ne _ _ hpe, get_put_ne _ _ h1] at h
          rcases g2 p h with h | h | h
          · rw [hbefore] at h
            unfold Attempt.opened at h
            rw [get_put_ne _ _ hpe, get_put_ne _ _ h1] at h
            exact .inl h
          · exfalso
            obtain ⟨a, ha⟩ := hp
            obtain ⟨b, hb⟩ := h
            rw [← ha, show "sorcha.log".toList = "sorcha".toList ++ ".log".toList by decide, ← List.append_assoc] at hb
            exact absurd (List.append_inj' hb (by decide)).2 (by decide)
          · exfalso
            obtain ⟨a, ha⟩ := hp
            obtain ⟨b, hb⟩ := h
            rw [← ha, show "sorcha.log".toList = "sorcha.".toList ++ "log".toList by decide, ← List.append_assoc] at hb
            exact absurd (List.append_inj' hb (by decide)).2 (by decide)
      · exact .inr ⟨y, List.mem_cons_of_mem _ hy, rfl⟩
    · rw [i3 dir stem stamp pid k1 k2 k3 fun y hy => k4 y (List.mem_cons_of_mem _ hy)]
      have hne : loggedAt dir stem stamp pid "sorcha.log" ≠ x.logPath := fun h => k4 x hx (logged_inj k2 s1 k3 s2 h)
      have hne' : loggedAt dir stem stamp pid "sorcha.log" ≠ x.errPath := log_ne_err
      obtain ⟨a1, a2, a3⟩ := C96_apart (dir := dir) (kind := "sorcha.log") (.inl rfl) k1 k2 k3 hc.stem hc.ephemeris
      unfold Attempt.closed
      rw [get_put_ne _ _ hne', get_put_ne _ _ hne, g1 _ a1 a2 a3, hbefore]
      unfold Attempt.opened
      rw [get_put_ne _ _ hne', get_put_ne _ _ hne]

/-- C96 (the logs stay): after any number of runs of `sorcha run`, one after another, each refused, failed, killed or finished, each with the -f option or not, each run has a log
of its own, which holds what the run has logged; and no other file with the name of a log has come into being. -/
theorem C96_kept {xs : List (Attempt (World G W V))} {d D : Disk} (h : Session Invoked xs d D) (hg : ∀ x ∈ xs, Cli.Spec.GlobSound x.world.glob) (hn : Named xs) :
    (∀ x ∈ xs, D.get x.logPath = some (.text x.log)) ∧ ∀ p, "sorcha.log".toList <:+ p.toList → D.get p ≠ none → d.get p ≠ none ∨ ∃ x ∈ xs, x.logPath = p :=
  let ⟨h1, h2, _⟩ := session_kept invoked_gentle h hg hn
  ⟨fun x hx => (h1 x hx).2.2, h2⟩

/-- C96 (the logs stay), for the program with both surveys. -/
theorem C96_kept_des {xs : List (Attempt (DesWorld G W V))} {d D : Disk} (h : Session DesInvoked xs d D) (hg : ∀ x ∈ xs, Cli.Spec.GlobSound x.world.base.glob) (hn : Named xs) :
    (∀ x ∈ xs, D.get x.logPath = some (.text x.log)) ∧ ∀ p, "sorcha.log".toList <:+ p.toList → D.get p ≠ none → d.get p ≠ none ∨ ∃ x ∈ xs, x.logPath = p :=
  let ⟨h1, h2, _⟩ := session_kept desInvoked_gentle h hg hn
  ⟨fun x hx => (h1 x hx).2.2, h2⟩

/-! ## `check-logs` afterwards -/

theorem asFiles_finite {dirs : String → Bool} (hdirs : {p | dirs p = true}.Finite) (bytes : History.Content → List Char) (d : Disk) : Setup.Spec.Finite (asFiles dirs bytes d) := by
  refine Set.Finite.subset (Set.Finite.union (List.finite_toSet d.paths) hdirs) fun p hp => ?_
  by_cases h : d.get p = none
  · right
    by_contra hd
    apply hp
    show asFiles dirs bytes d p = none
    unfold asFiles
    rw [h]
    exact if_neg hd
  · exact .inl ((History.mem_paths d p).2 h)

theorem asFiles_file {dirs : String → Bool} {bytes : History.Content → List Char} {d : Disk} {p : String} : Setup.Spec.FileAt (asFiles dirs bytes d) p ↔ d.get p ≠ none := by
  unfold Setup.Spec.FileAt asFiles
  cases h : d.get p with
  | none => cases dirs p <;> simp
  | some c => cases c <;> simp

theorem session_logs {World : Type} {run : World → List Str → Disk → Disk → List Char → History.Outcome → Prop} {glob : World → Cli.Glob} (hgentle : Gentle run glob)
    {xs : List (Attempt World)} {d D : Disk} (h : Session run xs d D) (hg : ∀ x ∈ xs, Cli.Spec.GlobSound (glob x.world)) (hn : Named xs)
    (hd : ∀ p, "sorcha.log".toList <:+ p.toList → d.get p = none) (dirs : String → Bool) (bytes : History.Content → List Char) {root : String}
    (hroot : ∀ x ∈ xs, Setup.Spec.Below root x.path) :
    (∀ x ∈ xs, run x.world x.argv x.before x.after x.log x.outcome) ∧
    (∀ p, Setup.Spec.IsLog (asFiles dirs bytes D) root p ↔ ∃ x ∈ xs, x.path = p) ∧ ∀ x ∈ xs, asFiles dirs bytes D x.path = some (.file x.log) := by
  obtain ⟨h1, h2, -⟩ := session_kept hgentle h hg hn
  refine ⟨fun x hx => (h1 x hx).2.1, fun p => ⟨?_, ?_⟩, fun x hx => ?_⟩
  · rintro ⟨hf, -, hs⟩
    rcases h2 p hs (asFiles_file.1 hf) with h | ⟨x, hx, rfl⟩
    · exact absurd (hd p hs) h
    · exact ⟨x, hx, (h1 x hx).1⟩
  · rintro ⟨x, hx, rfl⟩
    obtain ⟨s1, s2⟩ := hn.stamps x hx
    refine ⟨asFiles_file.2 ?_, hroot x hx, ?_⟩
    · rw [(h1 x hx).1, (h1 x hx).2.2]; simp
    · rw [(h1 x hx).1]
      exact (C96_names (dir' := "") (stem' := "") s1 s1 s2 s2).2.2.1
  · unfold asFiles
    rw [(h1 x hx).1, (h1 x hx).2.2]

/-- C96 (check-logs): after any number of runs of `sorcha run`, one after another, however each of them has ended, `sorcha outputs check-logs` on a directory above all their
logs, in which there was no log before, tells which of them went through. -/
theorem C96_told {xs : List (Attempt (World G W V))} {d D : Disk} (h : Session Invoked xs d D) (hg : ∀ x ∈ xs, Cli.Spec.GlobSound x.world.glob) (hn : Named xs)
    (hd : ∀ p, "sorcha.log".toList <:+ p.toList → d.get p = none) (hquiet : ∀ x ∈ xs, Spec.Quiet x.world.start x.world.messages)
    {dirs : String → Bool} (hdirs : {p | dirs p = true}.Finite) (bytes : History.Content → List Char) {root : String} (hroot : ∀ x ∈ xs, Setup.Spec.Below root x.path)
    {walk : Setup.Walk} (hw : Setup.Spec.WalkSound walk) {br : Char → Bool} (hbn : br '\n' = true) (hbr : ∀ c ∈ History.Spec.completed, br c = false)
    {csv : List Setup.LogRow → List Char} {dirname : String → String} {out : Option String} (hout : ∀ p, out = some p → ".csv".toList <:+ p.toList) {force : Bool}
    {t : Setup.Told} (ht : (Setup.cmdCheckLogs walk br csv dirname root out force (asFiles dirs bytes D)).result = .ok t) (hr : t ≠ .refused) :
    Spec.Tells xs (·.path) (fun x => ∃ log, Invoked x.world x.argv x.before x.after log .finished) (fun x => x.outcome = .finished) csv out t
      (Setup.cmdCheckLogs walk br csv dirname root out force (asFiles dirs bytes D)).disk :=
  let ⟨h1, h2, h3⟩ := session_logs invoked_gentle h hg hn hd dirs bytes hroot
  tells hw hbn hbr hout (asFiles_finite hdirs bytes D) h2 h3 (fun x hx hf => invoked_finished (by have := h1 x hx; rwa [hf] at this))
    (fun x hx ho => invoked_whole (h1 x hx) (hquiet x hx) ho) ht hr

/-- C96 (check-logs), for the program with both surveys. -/
theorem C96_told_des {xs : List (Attempt (DesWorld G W V))} {d D : Disk} (h : Session DesInvoked xs d D) (hg : ∀ x ∈ xs, Cli.Spec.GlobSound x.world.base.glob) (hn : Named xs)
    (hd : ∀ p, "sorcha.log".toList <:+ p.toList → d.get p = none) (hquiet : ∀ x ∈ xs, Spec.Quiet x.world.base.start x.world.base.messages)
    {dirs : String → Bool} (hdirs : {p | dirs p = true}.Finite) (bytes : History.Content → List Char) {root : String} (hroot : ∀ x ∈ xs, Setup.Spec.Below root x.path)
    {walk : Setup.Walk} (hw : Setup.Spec.WalkSound walk) {br : Char → Bool} (hbn : br '\n' = true) (hbr : ∀ c ∈ History.Spec.completed, br c = false)
    {csv : List Setup.LogRow → List Char} {dirname : String → String} {out : Option String} (hout : ∀ p, out = some p → ".csv".toList <:+ p.toList) {force : Bool}
    {t : Setup.Told} (ht : (Setup.cmdCheckLogs walk br csv dirname root out force (asFiles dirs bytes D)).result = .ok t) (hr : t ≠ .refused) :
    Spec.Tells xs (·.path) (fun x => ∃ log, DesInvoked x.world x.argv x.before x.after log .finished) (fun x => x.outcome = .finished) csv out t
      (Setup.cmdCheckLogs walk br csv dirname root out force (asFiles dirs bytes D)).disk :=
  let ⟨h1, h2, h3⟩ := session_logs desInvoked_gentle h hg hn hd dirs bytes hroot
  tells hw hbn hbr hout (asFiles_finite hdirs bytes D) h2 h3 (fun x hx hf => desInvoked_finished (by have := h1 x hx; rwa [hf] at this))
    (fun x hx ho => desInvoked_whole (h1 x hx) (hquiet x hx) ho) ht hr

end Sorcha.Whole.Props
