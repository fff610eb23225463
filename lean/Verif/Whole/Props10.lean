import Verif.Whole.Logs
import Verif.Whole.Props9

/-!
# Properties: `sorcha outputs check-logs` after the runs of a campaign (C95)
-/

namespace Sorcha.Whole.Props

open Sorcha.Csv (Str)
open Sorcha.History (Disk)
open Sorcha.Output (Cell)
open Sorcha.Whole.Spec (Run sized)

variable {G W V : Type}

/-- A run that was begun, in whatever way it has ended: what it did, and the path of its log. -/
structure Begun (World : Type) where
  world : World
  argv : List Str
  before : Disk
  after : Disk
  log : List Char
  outcome : History.Outcome
  path : String

/-- C95: after any number of runs of `sorcha run`, each of which was refused, ended with an error, was killed at any moment or came to its end, `sorcha outputs check-logs` tells
which of them went through. A run that it calls successful has left the files of a run that finished; a run that it calls failed did not finish. The logs below the directory are
those of the runs, and what is logged on the way does not contain the message that a run is completed. -/
theorem C95_rubin {runs : List (Begun (World G W V))} (hran : ∀ x ∈ runs, Invoked x.world x.argv x.before x.after x.log x.outcome)
    (hquiet : ∀ x ∈ runs, Spec.Quiet x.world.start x.world.messages) {walk : Setup.Walk} (hw : Setup.Spec.WalkSound walk)
    {br : Char → Bool} (hn : br '\n' = true) (hbr : ∀ c ∈ History.Spec.completed, br c = false) {csv : List Setup.LogRow → List Char} {dirname : String → String} {root : String}
    {out : Option String} (hout : ∀ p, out = some p → ".csv".toList <:+ p.toList) {force : Bool} {D : Setup.Disk} (hD : Setup.Spec.Finite D)
    (hlogs : ∀ p, Setup.Spec.IsLog D root p ↔ ∃ x ∈ runs, x.path = p) (htext : ∀ x ∈ runs, D x.path = some (.file x.log))
    {t : Setup.Told} (h : (Setup.cmdCheckLogs walk br csv dirname root out force D).result = .ok t) (ht : t ≠ .refused) :
    Spec.Tells runs (·.path) (fun x => ∃ log, Invoked x.world x.argv x.before x.after log .finished) (fun x => x.outcome = .finished) csv out t
      (Setup.cmdCheckLogs walk br csv dirname root out force D).disk :=
  tells hw hn hbr hout hD hlogs htext (fun x hx hf => invoked_finished (by have := hran x hx; rwa [hf] at this))
    (fun x hx ho => invoked_whole (hran x hx) (hquiet x hx) ho) h ht

/-- C95 for the program with both surveys. -/
theorem C95_des {runs : List (Begun (DesWorld G W V))} (hran : ∀ x ∈ runs, DesInvoked x.world x.argv x.before x.after x.log x.outcome)
    (hquiet : ∀ x ∈ runs, Spec.Quiet x.world.base.start x.world.base.messages) {walk : Setup.Walk} (hw : Setup.Spec.WalkSound walk)
    {br : Char → Bool} (hn : br '\n' = true) (hbr : ∀ c ∈ History.Spec.completed, br c = false) {csv : List Setup.LogRow → List Char} {dirname : String → String} {root : String}
    {out : Option String} (hout : ∀ p, out = some p → ".csv".toList <:+ p.toList) {force : Bool} {D : Setup.Disk} (hD : Setup.Spec.Finite D)
    (hlogs : ∀ p, Setup.Spec.IsLog D root p ↔ ∃ x ∈ runs, x.path = p) (htext : ∀ x ∈ runs, D x.path = some (.file x.log))
    {t : Setup.Told} (h : (Setup.cmdCheckLogs walk br csv dirname root out force D).result = .ok t) (ht : t ≠ .refused) :
    Spec.Tells runs (·.path) (fun x => ∃ log, DesInvoked x.world x.argv x.before x.after log .finished) (fun x => x.outcome = .finished) csv out t
      (Setup.cmdCheckLogs walk br csv dirname root out force D).disk :=
  tells hw hn hbr hout hD hlogs htext (fun x hx hf => desInvoked_finished (by have := hran x hx; rwa [hf] at this))
    (fun x hx ho => desInvoked_whole (hran x hx) (hquiet x hx) ho) h ht

/-- A run that was begun with the settings `c`, in whatever way it has ended; otherwise as `Finished`. -/
structure Started (w : World G W V) (c : Config.Cfg) (r : Run) (outcome : History.Outcome) : Prop where
  said : Argv.parseRun r.argv = .ok (r.args, r.verbose)
  ran : Invoked w r.argv r.before r.after r.log outcome
  configured : Configured w r.before r.args (sized c r.chunk)
  names : History.Spec.NamesDiffer r.args
  one : History.Spec.AtMostOne r.args r.before
  objects : Spec.Objects w.ids r.before r.args (sized c r.chunk) r.orb r.others

/-- The part, with another log. -/
def relogged (log : Run → List Char) (r : Run) : Run := { r with log := log r }

/-- When the command finds all well, the parts have finished, but perhaps for the end of their logs. -/
theorem all_good {w : World G W V} {c : Config.Cfg} {parts : List Run} {outcome : Run → History.Outcome} {path : Run → String}
    (hp : ∀ r ∈ parts, Started w c r (outcome r)) (hquiet : Spec.Quiet w.start w.messages) {walk : Setup.Walk} (hw : Setup.Spec.WalkSound walk)
    {br : Char → Bool} (hn : br '\n' = true) (hbr : ∀ c ∈ History.Spec.completed, br c = false) {csv : List Setup.LogRow → List Char} {dirname : String → String} {root : String}
    {out : Option String} (hout : ∀ p, out = some p → ".csv".toList <:+ p.toList) {force : Bool} {D : Setup.Disk} (hD : Setup.Spec.Finite D)
    (hlogs : ∀ p, Setup.Spec.IsLog D root p ↔ ∃ r ∈ parts, path r = p) (htext : ∀ r ∈ parts, D (path r) = some (.file r.log))
    (h : (Setup.cmdCheckLogs walk br csv dirname root out force D).result = .ok .allGood) :
    ∃ log : Run → List Char, ∀ r ∈ parts, Finished w c (relogged log r) := by
  have ht : Spec.Tells parts path (fun r => ∃ log, Invoked w r.argv r.before r.after log .finished) (fun r => outcome r = .finished) csv out .allGood
      (Setup.cmdCheckLogs walk br csv dirname root out force D).disk :=
    tells hw hn hbr hout hD hlogs htext (fun x hx hf => invoked_finished (by have := (hp x hx).ran; rwa [hf] at this))
      (fun x hx ho => invoked_whole (hp x hx).ran hquiet ho) h (by intro h; cases h)
  have hg := ht.good rfl
  choose! log hl using hg
  exact ⟨log, fun r hr => ⟨(hp r hr).said, hl r hr, (hp r hr).configured, (hp r hr).names, (hp r hr).one, (hp r hr).objects⟩⟩

/-- C95 (a population in parts): the parts of a population were run, each in whatever way it has ended, and `sorcha outputs check-logs` finds all of them successful. Then their
results have together the lines of the results of one run on the whole population that has finished (as in C94, for given ephemerides). -/
theorem C95_campaign {w : World G W V} {c : Config.Cfg} {whole : Run} {parts : List Run} (hg : Cli.Spec.GlobSound w.glob) (hf : Finished w c whole)
    {outcome : Run → History.Outcome} {path : Run → String}
    (hp : ∀ r ∈ parts, Started w c r (outcome r)) (hquiet : Spec.Quiet w.start w.messages) {walk : Setup.Walk} (hw : Setup.Spec.WalkSound walk)
    {br : Char → Bool} (hn : br '\n' = true) (hbr : ∀ c ∈ History.Spec.completed, br c = false) {csv : List Setup.LogRow → List Char} {dirname : String → String} {root : String}
    {out : Option String} (hout : ∀ p, out = some p → ".csv".toList <:+ p.toList) {force : Bool} {D : Setup.Disk} (hD : Setup.Spec.Finite D)
    (hlogs : ∀ p, Setup.Spec.IsLog D root p ↔ ∃ r ∈ parts, path r = p) (htext : ∀ r ∈ parts, D (path r) = some (.file r.log))
    (h : (Setup.cmdCheckLogs walk br csv dirname root out force D).result = .ok .allGood)
    (hext : c.input.ephemeridesType = "external")
    (heph : ∀ r ∈ whole :: parts, ∃ pe, r.args.er = some pe ∧ Spec.Table w.ids c.input.ephFormat r.before pe r.eph)
    (hdiv : Spec.Divided whole parts) (hsame : Spec.SameEphemerides whole parts)
    (ho : Pipeline.Spec.OncePerTime (Spec.observed w.parse whole.eph whole.orb whole.others))
    {columns : List String} (hcols : ∀ r ∈ whole :: parts, ∀ a, Accepted w r.before r.args a → w.columns (sized c r.chunk) a = columns)
    {E : Pipeline.Env G W V}
    (henv : ∀ r ∈ whole :: parts, ∀ a E', Accepted w r.before r.args a → w.env (sized c r.chunk) a (checked w r.args r.before) = some E' → E' = E)
    (hreg : Pipeline.Spec.Regular E c) {shown : Cell → Str} (hshown : w.lines.output = Csv.line shown) (h2 : 2 ≤ columns.length) :
    (c.output.format = "csv" → Spec.LinesTogether Csv.read (whole.after.get (whole.args.o ++ "/" ++ whole.args.t ++ ".csv"))
      (parts.map fun p => p.after.get (p.args.o ++ "/" ++ p.args.t ++ ".csv"))) ∧
    (c.output.format = "sqlite3" → Spec.TableTogether (whole.after.get (whole.args.o ++ "/" ++ whole.args.t ++ ".db"))
      (parts.map fun p => p.after.get (p.args.o ++ "/" ++ p.args.t ++ ".db"))) := by
  obtain ⟨log, hfin⟩ := all_good hp hquiet hw hn hbr hout hD hlogs htext h
  have hmem : ∀ {P : Run → Prop}, P whole → (∀ r ∈ parts, P (relogged log r)) → ∀ r ∈ whole :: parts.map (relogged log), P r := by
    intro P h0 h1 r hr
    rcases List.mem_cons.1 hr with rfl | hr
    · exact h0
    · obtain ⟨x, hx, rfl⟩ := List.mem_map.1 hr
      exact h1 x hx
  have hself : whole ∈ whole :: parts := List.mem_cons_self ..
  have hpart : ∀ r ∈ parts, r ∈ whole :: parts := fun r hr => List.mem_cons_of_mem _ hr
  have hdiv' : Spec.Divided whole (parts.map (relogged log)) := by
    refine ⟨fun p hp => ?_, ?_⟩
    · obtain ⟨x, hx, rfl⟩ := List.mem_map.1 hp
      exact hdiv.rows x hx
    · rw [List.flatMap_map]
      exact hdiv.objects
  have hsame' : Spec.SameEphemerides whole (parts.map (relogged log)) := by
    intro p hp
    obtain ⟨x, hx, rfl⟩ := List.mem_map.1 hp
    exact hsame x hx
  have key := C94_external (whole := whole) (parts := parts.map (relogged log)) hg (hmem hf hfin) hext (hmem (heph _ hself) fun r hr => heph r (hpart r hr)) hdiv' hsame' ho
    (hmem (hcols _ hself) fun r hr => hcols r (hpart r hr)) (hmem (henv _ hself) fun r hr => henv r (hpart r hr)) hreg hshown h2
  simp only [List.map_map] at key
  exact key

end Sorcha.Whole.Props
