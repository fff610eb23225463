import Verif.Whole.Campaign

/-!
# Properties: parts of a population, each run again until it goes through (C97)
-/

namespace Sorcha.Whole.Props

open Sorcha.Csv (Str)
open Sorcha.Readers (Rec)
open Sorcha.History (Disk)
open Sorcha.Output (Cell)
open Sorcha.Whole.Spec (Run sized)

variable {G W V : Type}

/-- A part of a population: one of the runs for it, its chunk size, and what is in its input files. -/
structure Part (World : Type) where
  attempt : Attempt World
  chunk : ℤ
  orb : List (Rec Str)
  others : List (List (Rec Str))
  eph : List (Rec Str)

/-- The run of a part, as in C94. -/
def Part.run {World : Type} (p : Part World) : Run :=
  ⟨p.attempt.argv, p.attempt.args, p.attempt.verbose, p.attempt.before, p.attempt.after, p.attempt.log, p.chunk, p.orb, p.others, p.eph⟩

/-- Runs for the parts of a population, from the files `d`: all with the same program; any two of them either have the same names for their outputs or no output in common;
before the first there is at most one file of results and one of ephemerides of each. For each part a run is chosen after which no other has its names. The inputs of the parts
are in the files `d`, and are no outputs and no logs. -/
structure Campaign (w : World G W V) (c : Config.Cfg) (xs : List (Attempt (World G W V))) (d : Disk) (parts : List (Part (World G W V))) : Prop where
  world : ∀ x ∈ xs, x.world = w
  orderly : Orderly xs
  first : ∀ x ∈ xs, History.Spec.AtMostOne x.args d
  last : ∀ p ∈ parts, ∃ ys zs, xs = ys ++ p.attempt :: zs ∧ ∀ z ∈ zs, ¬ History.Spec.SameNames p.attempt.args z.args
  configured : ∀ p ∈ parts, Configured w d p.attempt.args (sized c p.chunk)
  objects : ∀ p ∈ parts, Spec.Objects w.ids d p.attempt.args (sized c p.chunk) p.orb p.others
  inputs : ∀ p ∈ parts, ∀ q, Spec.IsInput p.attempt.args q → ∀ x ∈ xs, ¬ Spec.IsOutput x.args q ∧ q ≠ x.logPath ∧ q ≠ x.errPath

/-- C97 (the last run counts): after any runs, one after another, however each of them ended, the outputs of the last run of each command are as it has left them; and when
it began there was at most one file of old results and one of old ephemerides. -/
theorem C97_last {xs : List (Attempt (World G W V))} {d D : Disk} (h : Session Invoked xs d D) (hg : ∀ x ∈ xs, Cli.Spec.GlobSound x.world.glob) (ho : Orderly xs)
    (hfirst : ∀ x ∈ xs, History.Spec.AtMostOne x.args d) {ys zs : List (Attempt (World G W V))} {x : Attempt (World G W V)} (hx : xs = ys ++ x :: zs)
    (hlast : ∀ z ∈ zs, ¬ History.Spec.SameNames x.args z.args) :
    (∀ p, Spec.IsOutput x.args p → D.get p = x.after.get p) ∧ History.Spec.AtMostOne x.args x.before := by
  subst hx
  have hm : x ∈ ys ++ x :: zs := by simp
  exact ⟨fun p hp => session_last invoked_gentle h hg ho hlast hp,
    (session_one invoked_gentle invoked_tidy h hg ho (ho.noClash x hm) (fun y hy => ho.apart x hm y hy) (hfirst x hm)).2 x hm⟩

theorem campaign_finished {w : World G W V} {c : Config.Cfg} {xs : List (Attempt (World G W V))} {d D : Disk} {parts : List (Part (World G W V))} (hg : Cli.Spec.GlobSound w.glob)
    (h : Session Invoked xs d D) (hc : Campaign w c xs d parts) {p : Part (World G W V)} (hp : p ∈ parts) {log : List Char}
    (hdone : Invoked w p.attempt.argv p.attempt.before p.attempt.after log .finished) :
    Finished w c { p.run with log := log } ∧ (∀ q, Spec.IsInput p.attempt.args q → p.attempt.before.get q = d.get q) ∧
      ∀ q, Spec.IsOutput p.attempt.args q → D.get q = p.attempt.after.get q := by
  obtain ⟨ys, zs, hx, hl⟩ := hc.last p hp
  have hm : p.attempt ∈ xs := by rw [hx]; simp
  have hgs : ∀ x ∈ xs, Cli.Spec.GlobSound x.world.glob := fun x hx => by rw [hc.world x hx]; exact hg
  obtain ⟨h1, h2⟩ := C97_last h hgs hc.orderly hc.first hx hl
  have hin : ∀ q, Spec.IsInput p.attempt.args q → p.attempt.before.get q = d.get q := fun q hq => (session_others invoked_gentle h hgs (hc.inputs p hp q hq)).2 _ hm
  exact ⟨⟨(session_said h _ hm).1, hdone, configured_agree (hin _ (.inl rfl)) (hc.configured p hp), hc.orderly.names _ hm, h2, objects_agree hin (hc.objects p hp)⟩, hin, h1⟩

/-- C97 (given ephemerides): parts of a population are run, one after another in any order, each as often as one likes, each run refused, failed, killed or finished; at last, for
each part, the last run for it went through. Then the files of results of the parts that are there have together the lines of the results of one run on the whole population. -/
theorem C97_external {w : World G W V} {c : Config.Cfg} {whole : Run} {xs : List (Attempt (World G W V))} {d D : Disk} {parts : List (Part (World G W V))}
    (hg : Cli.Spec.GlobSound w.glob) (hf : Finished w c whole) (h : Session Invoked xs d D) (hc : Campaign w c xs d parts)
    (hdone : ∀ p ∈ parts, ∃ log, Invoked w p.attempt.argv p.attempt.before p.attempt.after log .finished)
    (hext : c.input.ephemeridesType = "external")
    (heph : ∃ pe, whole.args.er = some pe ∧ Spec.Table w.ids c.input.ephFormat whole.before pe whole.eph)
    (hephs : ∀ p ∈ parts, ∃ pe, p.attempt.args.er = some pe ∧ Spec.Table w.ids c.input.ephFormat d pe p.eph)
    (hdiv : Spec.Divided whole (parts.map Part.run)) (hsame : Spec.SameEphemerides whole (parts.map Part.run))
    (ho : Pipeline.Spec.OncePerTime (Spec.observed w.parse whole.eph whole.orb whole.others))
    {columns : List String} (hcols : ∀ r ∈ whole :: parts.map Part.run, ∀ a, Accepted w r.before r.args a → w.columns (sized c r.chunk) a = columns)
    {E : Pipeline.Env G W V}
    (henv : ∀ r ∈ whole :: parts.map Part.run, ∀ a E', Accepted w r.before r.args a → w.env (sized c r.chunk) a (checked w r.args r.before) = some E' → E' = E)
    (hreg : Pipeline.Spec.Regular E c) {shown : Cell → Str} (hshown : w.lines.output = Csv.line shown) (h2 : 2 ≤ columns.length) :
    (c.output.format = "csv" → Spec.LinesTogether Csv.read (whole.after.get (whole.args.o ++ "/" ++ whole.args.t ++ ".csv"))
      (parts.map fun p => D.get (p.attempt.args.o ++ "/" ++ p.attempt.args.t ++ ".csv"))) ∧
    (c.output.format = "sqlite3" → Spec.TableTogether (whole.after.get (whole.args.o ++ "/" ++ whole.args.t ++ ".db"))
      (parts.map fun p => D.get (p.attempt.args.o ++ "/" ++ p.attempt.args.t ++ ".db"))) := by
  choose! log hlog using hdone
  let fixed : Part (World G W V) → Run := fun p => { p.run with log := log p }
  have hmem : ∀ {P : Run → Prop}, P whole → (∀ p ∈ parts, P (fixed p)) → ∀ r ∈ whole :: parts.map fixed, P r := by
    intro P h0 h1 r hr
    rcases List.mem_cons.1 hr with rfl | hr
    · exact h0
    · obtain ⟨x, hx, rfl⟩ := List.mem_map.1 hr
      exact h1 x hx
  have hself : whole ∈ whole :: parts.map Part.run := List.mem_cons_self ..
  have hpart : ∀ p ∈ parts, p.run ∈ whole :: parts.map Part.run := fun r hr => List.mem_cons_of_mem _ (List.mem_map_of_mem hr)
  have hdiv' : Spec.Divided whole (parts.map fixed) := by
    refine ⟨fun p hp => ?_, ?_⟩
    · obtain ⟨x, hx, rfl⟩ := List.mem_map.1 hp
      exact hdiv.rows x.run (List.mem_map_of_mem hx)
    · have := hdiv.objects
      rw [List.flatMap_map] at this ⊢
      exact this
  have hsame' : Spec.SameEphemerides whole (parts.map fixed) := by
    intro p hp
    obtain ⟨x, hx, rfl⟩ := List.mem_map.1 hp
    exact hsame x.run (List.mem_map_of_mem hx)
  have hfin : ∀ p ∈ parts, _ := fun p hp => campaign_finished hg h hc hp (hlog p hp)
  have key := C94_external (whole := whole) (parts := parts.map fixed) hg (hmem hf fun p hp => (hfin p hp).1) hext
    (hmem heph fun p hp => by
      obtain ⟨pe, e1, e2⟩ := hephs p hp
      exact ⟨pe, e1, table_agree ((hfin p hp).2.1 pe (.inr (.inr (.inr (.inr e1))))) e2⟩)
    hdiv' hsame' ho (hmem (hcols _ hself) fun p hp => hcols p.run (hpart p hp)) (hmem (henv _ hself) fun p hp => henv p.run (hpart p hp)) hreg hshown h2
  simp only [List.map_map] at key
  refine ⟨fun hfmt => ?_, fun hfmt => ?_⟩
  · rw [List.map_congr_left (g := fun p => p.attempt.after.get (p.attempt.args.o ++ "/" ++ p.attempt.args.t ++ ".csv")) fun p hp =>
      (hfin p hp).2.2 _ (.inl (History.belongs_csv _ _))]
    exact key.1 hfmt
  · rw [List.map_congr_left (g := fun p => p.attempt.after.get (p.attempt.args.o ++ "/" ++ p.attempt.args.t ++ ".db")) fun p hp =>
      (hfin p hp).2.2 _ (.inl (History.belongs_db _ _))]
    exact key.2 hfmt

/-- C97 (generated ephemerides). -/
theorem C97_generated {w : World G W V} {c : Config.Cfg} {whole : Run} {xs : List (Attempt (World G W V))} {d D : Disk} {parts : List (Part (World G W V))}
    (hg : Cli.Spec.GlobSound w.glob) (hf : Finished w c whole) (h : Session Invoked xs d D) (hc : Campaign w c xs d parts)
    (hdone : ∀ p ∈ parts, ∃ log, Invoked w p.attempt.argv p.attempt.before p.attempt.after log .finished)
    (hext : c.input.ephemeridesType ≠ "external") {ephem : List (Rec Str) → List (Pointing.Obs W)} {cull : Rec Str → Bool}
    (hephem : ∀ r ∈ whole :: parts.map Part.run, ∀ a, Accepted w r.before r.args a → w.ephem (sized c r.chunk) a = ephem ∧ w.cull (sized c r.chunk) a = cull)
    (halone : Spec.EachAlone ephem whole.orb) (hdiv : Spec.Divided whole (parts.map Part.run))
    (ho : Pipeline.Spec.OncePerTime ((Spec.bright c cull whole.orb whole.others).flatMap fun r => ephem [r]))
    {columns : List String} (hcols : ∀ r ∈ whole :: parts.map Part.run, ∀ a, Accepted w r.before r.args a → w.columns (sized c r.chunk) a = columns)
    {E : Pipeline.Env G W V}
    (henv : ∀ r ∈ whole :: parts.map Part.run, ∀ a E', Accepted w r.before r.args a → w.env (sized c r.chunk) a (checked w r.args r.before) = some E' → E' = E)
    (hreg : Pipeline.Spec.Regular E c) {shown : Cell → Str} (hshown : w.lines.output = Csv.line shown) (h2 : 2 ≤ columns.length) :
    (c.output.format = "csv" → Spec.LinesTogether Csv.read (whole.after.get (whole.args.o ++ "/" ++ whole.args.t ++ ".csv"))
      (parts.map fun p => D.get (p.attempt.args.o ++ "/" ++ p.attempt.args.t ++ ".csv"))) ∧
    (c.output.format = "sqlite3" → Spec.TableTogether (whole.after.get (whole.args.o ++ "/" ++ whole.args.t ++ ".db"))
      (parts.map fun p => D.get (p.attempt.args.o ++ "/" ++ p.attempt.args.t ++ ".db"))) := by
  choose! log hlog using hdone
  let fixed : Part (World G W V) → Run := fun p => { p.run with log := log p }
  have hmem : ∀ {P : Run → Prop}, P whole → (∀ p ∈ parts, P (fixed p)) → ∀ r ∈ whole :: parts.map fixed, P r := by
    intro P h0 h1 r hr
    rcases List.mem_cons.1 hr with rfl | hr
    · exact h0
    · obtain ⟨x, hx, rfl⟩ := List.mem_map.1 hr
      exact h1 x hx
  have hself : whole ∈ whole :: parts.map Part.run := List.mem_cons_self ..
  have hpart : ∀ p ∈ parts, p.run ∈ whole :: parts.map Part.run := fun r hr => List.mem_cons_of_mem _ (List.mem_map_of_mem hr)
  have hdiv' : Spec.Divided whole (parts.map fixed) := by
    refine ⟨fun p hp => ?_, ?_⟩
    · obtain ⟨x, hx, rfl⟩ := List.mem_map.1 hp
      exact hdiv.rows x.run (List.mem_map_of_mem hx)
    · have := hdiv.objects
      rw [List.flatMap_map] at this ⊢
      exact this
  have hfin : ∀ p ∈ parts, _ := fun p hp => campaign_finished hg h hc hp (hlog p hp)
  have key := C94_generated (whole := whole) (parts := parts.map fixed) hg (hmem hf fun p hp => (hfin p hp).1) hext
    (hmem (hephem _ hself) fun p hp => hephem p.run (hpart p hp)) halone
    hdiv' ho (hmem (hcols _ hself) fun p hp => hcols p.run (hpart p hp)) (hmem (henv _ hself) fun p hp => henv p.run (hpart p hp)) hreg hshown h2
  simp only [List.map_map] at key
  refine ⟨fun hfmt => ?_, fun hfmt => ?_⟩
  · rw [List.map_congr_left (g := fun p => p.attempt.after.get (p.attempt.args.o ++ "/" ++ p.attempt.args.t ++ ".csv")) fun p hp =>
      (hfin p hp).2.2 _ (.inl (History.belongs_csv _ _))]
    exact key.1 hfmt
  · rw [List.map_congr_left (g := fun p => p.attempt.after.get (p.attempt.args.o ++ "/" ++ p.attempt.args.t ++ ".db")) fun p hp =>
      (hfin p hp).2.2 _ (.inl (History.belongs_db _ _))]
    exact key.2 hfmt

/-- C97 (what check-logs says): when after all these runs `sorcha outputs check-logs`, on a directory above all the logs, does not name the last run of a part as failed, then
that run went through, whatever it says of the others. So C97 can be used for parts none of whose last runs is named. -/
theorem C97_told {w : World G W V} {c : Config.Cfg} {xs : List (Attempt (World G W V))} {d D : Disk} {parts : List (Part (World G W V))} (hg : Cli.Spec.GlobSound w.glob)
    (h : Session Invoked xs d D) (hc : Campaign w c xs d parts)
    (hdiffer : xs.Pairwise fun x y => ¬ (x.args.o ++ "/" ++ x.args.t = y.args.o ++ "/" ++ y.args.t ∧ x.stamp = y.stamp ∧ x.pid = y.pid))
    (hd : ∀ p, "sorcha.log".toList <:+ p.toList → d.get p = none) (hquiet : Spec.Quiet w.start w.messages)
    {dirs : String → Bool} (hdirs : {p | dirs p = true}.Finite) (bytes : History.Content → List Char) {root : String} (hroot : ∀ x ∈ xs, Setup.Spec.Below root x.path)
    {walk : Setup.Walk} (hw : Setup.Spec.WalkSound walk) {br : Char → Bool} (hbn : br '\n' = true) (hbr : ∀ c ∈ History.Spec.completed, br c = false)
    {csv : List Setup.LogRow → List Char} {dirname : String → String} {force : Bool} {t : Setup.Told}
    (ht : (Setup.cmdCheckLogs walk br csv dirname root none force (asFiles dirs bytes D)).result = .ok t) {p : Part (World G W V)} (hp : p ∈ parts)
    (hn : Spec.NotNamed t p.attempt.path) : ∃ log, Invoked w p.attempt.argv p.attempt.before p.attempt.after log .finished := by
  obtain ⟨ys, zs, hx, -⟩ := hc.last p hp
  have hm : p.attempt ∈ xs := by rw [hx]; simp
  have hr : t ≠ .refused := by
    rcases hn with rfl | ⟨f, rfl, -⟩ <;> (intro h; cases h)
  have tells := C96_told h (fun x hx => by rw [hc.world x hx]; exact hg) ⟨hc.orderly.stamps, hc.orderly.noClash, hdiffer⟩ hd (fun x hx => by rw [hc.world x hx]; exact hquiet) hdirs
    bytes hroot hw hbn hbr (out := none) (fun _ h => by cases h) ht hr
  have hw' := hc.world _ hm
  rcases hn with h1 | ⟨f, h1, h2⟩
  · have := tells.good h1 _ hm
    rwa [hw'] at this
  · have := ((tells.printed f h1).2.2 _ hm).2 h2
    rwa [hw'] at this

end Sorcha.Whole.Props
