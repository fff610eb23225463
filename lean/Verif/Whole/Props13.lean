import Verif.Whole.DesParts

/-!
# Properties: one population in several DES runs, each run again until it goes through (C98)
-/

namespace Sorcha.Whole.Props

open Sorcha.Csv (Str)
open Sorcha.Readers (Rec)
open Sorcha.History (Disk)
open Sorcha.Output (Cell)
open Sorcha.DesRun (Env)
open Sorcha.DesRun.Spec (Deterministic)
open Sorcha.Whole.Spec (Run sized)

variable {G W V : Type}

/-- C98 (given ephemerides): take a DES run that has finished, and DES runs on parts of its objects, each object in just one part, with the rows it has in the inputs of the
whole run, and the same settings but for the chunk size, with or without the discovery filter but without random features and the visits footprint. Then the results of the
parts have together the lines of the whole run's results. -/
theorem C98_external {w : DesWorld G W V} {c : Config.Cfg} {whole : Run} {parts : List Run} (hg : Cli.Spec.GlobSound w.base.glob) (hf : ∀ r ∈ whole :: parts, DesFinished w c r)
    (hext : c.input.ephemeridesType = "external")
    (heph : ∀ r ∈ whole :: parts, ∃ pe, r.args.er = some pe ∧ Spec.Table w.base.ids c.input.ephFormat r.before pe r.eph)
    (hdiv : Spec.Divided whole parts) (hsame : Spec.SameEphemerides whole parts)
    {columns : List String} (hcols : ∀ r ∈ whole :: parts, ∀ a, Accepted w.base r.before r.args a → w.columns (sized c r.chunk) a = columns)
    {E : Env G W V}
    (henv : ∀ r ∈ whole :: parts, ∀ a E', Accepted w.base r.before r.args a → w.env (sized c r.chunk) a (checked w.base r.args r.before) = some E' → E' = E)
    (hdet : Deterministic c) (hs : ∀ l, (E.base.sortIndex l).Perm l) (ht : Des.Spec.SortSound E.sortTime)
    {shown : Cell → Str} (hshown : w.base.lines.output = Csv.line shown) (h2 : 2 ≤ columns.length) :
    (c.output.format = "csv" → Spec.LinesTogether Csv.read (whole.after.get (whole.args.o ++ "/" ++ whole.args.t ++ ".csv"))
      (parts.map fun p => p.after.get (p.args.o ++ "/" ++ p.args.t ++ ".csv"))) ∧
    (c.output.format = "sqlite3" → Spec.TableTogether (whole.after.get (whole.args.o ++ "/" ++ whole.args.t ++ ".db"))
      (parts.map fun p => p.after.get (p.args.o ++ "/" ++ p.args.t ++ ".db"))) := by
  refine des_together hg hf (obs := fun r => Spec.observed w.base.parse r.eph r.orb r.others) ?_ hdiv.objects ?_ ?_ hcols henv hdet hs ht hshown h2
  · intro r hr a _
    obtain ⟨pe, h1, h3⟩ := heph r hr
    exact .inl ⟨hext, pe, r.eph, h1, h3, rfl⟩
  · intro p hp id
    exact external_part (hf p (List.mem_cons_of_mem _ hp)).objects (hf whole (List.mem_cons_self ..)).objects (hdiv.rows p hp) (hsame p hp) id
  · intro id hid
    rw [observed_own]; exact if_neg hid

/-- C98 (generated ephemerides). -/
theorem C98_generated {w : DesWorld G W V} {c : Config.Cfg} {whole : Run} {parts : List Run} (hg : Cli.Spec.GlobSound w.base.glob) (hf : ∀ r ∈ whole :: parts, DesFinished w c r)
    (hext : c.input.ephemeridesType ≠ "external") {ephem : List (Rec Str) → List (Pointing.Obs W)} {cull : Rec Str → Bool}
    (hephem : ∀ r ∈ whole :: parts, ∀ a, Accepted w.base r.before r.args a → w.base.ephem (sized c r.chunk) a = ephem ∧ w.base.cull (sized c r.chunk) a = cull)
    (halone : Spec.EachAlone ephem whole.orb) (hdiv : Spec.Divided whole parts)
    {columns : List String} (hcols : ∀ r ∈ whole :: parts, ∀ a, Accepted w.base r.before r.args a → w.columns (sized c r.chunk) a = columns)
    {E : Env G W V}
    (henv : ∀ r ∈ whole :: parts, ∀ a E', Accepted w.base r.before r.args a → w.env (sized c r.chunk) a (checked w.base r.args r.before) = some E' → E' = E)
    (hdet : Deterministic c) (hs : ∀ l, (E.base.sortIndex l).Perm l) (ht : Des.Spec.SortSound E.sortTime)
    {shown : Cell → Str} (hshown : w.base.lines.output = Csv.line shown) (h2 : 2 ≤ columns.length) :
    (c.output.format = "csv" → Spec.LinesTogether Csv.read (whole.after.get (whole.args.o ++ "/" ++ whole.args.t ++ ".csv"))
      (parts.map fun p => p.after.get (p.args.o ++ "/" ++ p.args.t ++ ".csv"))) ∧
    (c.output.format = "sqlite3" → Spec.TableTogether (whole.after.get (whole.args.o ++ "/" ++ whole.args.t ++ ".db"))
      (parts.map fun p => p.after.get (p.args.o ++ "/" ++ p.args.t ++ ".db"))) := by
  have hal : ∀ p ∈ parts, Spec.EachAlone ephem p.orb := by
    intro p hp objs hpo
    refine halone objs ⟨hpo.1, fun r hr => ?_⟩
    obtain ⟨x, hx, he⟩ := List.mem_map.1 (hpo.2 r hr)
    exact List.mem_map.2 ⟨x, (List.forall₂_cons.1 (hdiv.rows p hp)).1 x hx, he⟩
  refine des_together hg hf (obs := fun r => (Spec.bright c cull r.orb r.others).flatMap fun x => ephem [x]) ?_ hdiv.objects ?_ ?_ hcols henv hdet hs ht hshown h2
  · intro r hr a ha
    obtain ⟨h1, h3⟩ := hephem r hr a ha
    refine .inr ⟨hext, ?_, ?_⟩
    · rw [h1]
      rcases List.mem_cons.1 hr with rfl | hr
      · exact halone
      · exact hal r hr
    · rw [h1, h3]; rfl
  · intro p hp id
    exact generated_part (hf p (List.mem_cons_of_mem _ hp)).objects (hf whole (List.mem_cons_self ..)).objects (hdiv.rows p hp) (hal p hp) halone id
  · intro id hid
    rw [bright_own c cull halone (hf whole (List.mem_cons_self ..)).objects.unique]; exact if_neg hid

/-! ## Runs again and again -/

/-- DES runs for the parts of a population, from the files `d`, as `Campaign` for Rubin. -/
structure DesCampaign (w : DesWorld G W V) (c : Config.Cfg) (xs : List (Attempt (DesWorld G W V))) (d : Disk) (parts : List (Part (DesWorld G W V))) : Prop where
  world : ∀ x ∈ xs, x.world = w
  orderly : Orderly xs
  first : ∀ x ∈ xs, History.Spec.AtMostOne x.args d
  survey : ∀ p ∈ parts, IsDes p.attempt.args
  last : ∀ p ∈ parts, ∃ ys zs, xs = ys ++ p.attempt :: zs ∧ ∀ z ∈ zs, ¬ History.Spec.SameNames p.attempt.args z.args
  configured : ∀ p ∈ parts, Configured w.base d p.attempt.args (sized c p.chunk)
  objects : ∀ p ∈ parts, Spec.Objects w.base.ids d p.attempt.args (sized c p.chunk) p.orb p.others
  inputs : ∀ p ∈ parts, ∀ q, Spec.IsInput p.attempt.args q → ∀ x ∈ xs, ¬ Spec.IsOutput x.args q ∧ q ≠ x.logPath ∧ q ≠ x.errPath

/-- C98 (the last run counts): after any DES runs, one after another, however each of them ended, the outputs of the last run of each command are as it has left them; and when
it began there was at most one file of old results and one of old ephemerides. -/
theorem C98_last {xs : List (Attempt (DesWorld G W V))} {d D : Disk} (h : Session DesInvoked xs d D) (hg : ∀ x ∈ xs, Cli.Spec.GlobSound x.world.base.glob) (ho : Orderly xs)
    (hfirst : ∀ x ∈ xs, History.Spec.AtMostOne x.args d) {ys zs : List (Attempt (DesWorld G W V))} {x : Attempt (DesWorld G W V)} (hx : xs = ys ++ x :: zs)
    (hlast : ∀ z ∈ zs, ¬ History.Spec.SameNames x.args z.args) :
    (∀ p, Spec.IsOutput x.args p → D.get p = x.after.get p) ∧ History.Spec.AtMostOne x.args x.before := by
  subst hx
  have hm : x ∈ ys ++ x :: zs := by simp
  exact ⟨fun p hp => session_last desInvoked_gentle h hg ho hlast hp,
    (session_one desInvoked_gentle desInvoked_tidy h hg ho (ho.noClash x hm) (fun y hy => ho.apart x hm y hy) (hfirst x hm)).2 x hm⟩

theorem desCampaign_finished {w : DesWorld G W V} {c : Config.Cfg} {xs : List (Attempt (DesWorld G W V))} {d D : Disk} {parts : List (Part (DesWorld G W V))} (hg : Cli.Spec.GlobSound w.base.glob)
    (h : Session DesInvoked xs d D) (hc : DesCampaign w c xs d parts) {p : Part (DesWorld G W V)} (hp : p ∈ parts) {log : List Char}
    (hdone : DesInvoked w p.attempt.argv p.attempt.before p.attempt.after log .finished) :
    DesFinished w c { p.run with log := log } ∧ (∀ q, Spec.IsInput p.attempt.args q → p.attempt.before.get q = d.get q) ∧
      ∀ q, Spec.IsOutput p.attempt.args q → D.get q = p.attempt.after.get q := by
  obtain ⟨ys, zs, hx, hl⟩ := hc.last p hp
  have hm : p.attempt ∈ xs := by rw [hx]; simp
  have hgs : ∀ x ∈ xs, Cli.Spec.GlobSound x.world.base.glob := fun x hx => by rw [hc.world x hx]; exact hg
  obtain ⟨h1, h2⟩ := C98_last h hgs hc.orderly hc.first hx hl
  have hin : ∀ q, Spec.IsInput p.attempt.args q → p.attempt.before.get q = d.get q := fun q hq => (session_others desInvoked_gentle h hgs (hc.inputs p hp q hq)).2 _ hm
  exact ⟨⟨(session_said h _ hm).1, hc.survey p hp, hdone, configured_agree (hin _ (.inl rfl)) (hc.configured p hp), hc.orderly.names _ hm, h2, objects_agree hin (hc.objects p hp)⟩, hin, h1⟩

/-- C98 (runs again, given ephemerides): parts of a population are run for DES, one after another in any order, each as often as one likes, each run refused, failed, killed or
finished; at last, for each part, the last run for it went through. Then the files of results of the parts that are there have together the lines of the results of one run on
the whole population. -/
theorem C98_again_external {w : DesWorld G W V} {c : Config.Cfg} {whole : Run} {xs : List (Attempt (DesWorld G W V))} {d D : Disk} {parts : List (Part (DesWorld G W V))}
    (hg : Cli.Spec.GlobSound w.base.glob) (hf : DesFinished w c whole) (h : Session DesInvoked xs d D) (hc : DesCampaign w c xs d parts)
    (hdone : ∀ p ∈ parts, ∃ log, DesInvoked w p.attempt.argv p.attempt.before p.attempt.after log .finished)
    (hext : c.input.ephemeridesType = "external")
    (heph : ∃ pe, whole.args.er = some pe ∧ Spec.Table w.base.ids c.input.ephFormat whole.before pe whole.eph)
    (hephs : ∀ p ∈ parts, ∃ pe, p.attempt.args.er = some pe ∧ Spec.Table w.base.ids c.input.ephFormat d pe p.eph)
    (hdiv : Spec.Divided whole (parts.map Part.run)) (hsame : Spec.SameEphemerides whole (parts.map Part.run))
    {columns : List String} (hcols : ∀ r ∈ whole :: parts.map Part.run, ∀ a, Accepted w.base r.before r.args a → w.columns (sized c r.chunk) a = columns)
    {E : Env G W V}
    (henv : ∀ r ∈ whole :: parts.map Part.run, ∀ a E', Accepted w.base r.before r.args a → w.env (sized c r.chunk) a (checked w.base r.args r.before) = some E' → E' = E)
    (hdet : Deterministic c) (hs : ∀ l, (E.base.sortIndex l).Perm l) (ht : Des.Spec.SortSound E.sortTime)
    {shown : Cell → Str} (hshown : w.base.lines.output = Csv.line shown) (h2 : 2 ≤ columns.length) :
    (c.output.format = "csv" → Spec.LinesTogether Csv.read (whole.after.get (whole.args.o ++ "/" ++ whole.args.t ++ ".csv"))
      (parts.map fun p => D.get (p.attempt.args.o ++ "/" ++ p.attempt.args.t ++ ".csv"))) ∧
    (c.output.format = "sqlite3" → Spec.TableTogether (whole.after.get (whole.args.o ++ "/" ++ whole.args.t ++ ".db"))
      (parts.map fun p => D.get (p.attempt.args.o ++ "/" ++ p.attempt.args.t ++ ".db"))) := by
  choose! log hlog using hdone
  let fixed : Part (DesWorld G W V) → Run := fun p => { p.run with log := log p }
  have hmem : ∀ {P : Run → Prop}, P whole → (∀ p ∈ parts, P (fixed p)) → ∀ r ∈ whole :: parts.map fixed, P r := by
    intro P h0 h1 r hr
    rcases List.mem_cons.1 hr with rfl | hr
    · exact h0
    · obtain ⟨x, hx, rfl⟩ := List.mem_map.1 hr
      exact h1 x hx
  have hself : whole ∈ whole :: parts.map Part.run := List.mem_cons_self ..
  have hpart : ∀ p ∈ parts, p.run ∈ whole :: parts.map Part.run := fun r hr => List.mem_cons_of_mem _ (List.mem_map_of_mem hr)
  have hdiv' : Spec.Divided whole (parts.map fixed) := by
    refine ⟨fun p hp => ?_, ?_⟩
    · obtain ⟨x, hx, rfl⟩ := List.mem_map.1 hp
      exact hdiv.rows x.run (List.mem_map_of_mem hx)
    · have := hdiv.objects
      rw [List.flatMap_map] at this ⊢
      exact this
  have hsame' : Spec.SameEphemerides whole (parts.map fixed) := by
    intro p hp
    obtain ⟨x, hx, rfl⟩ := List.mem_map.1 hp
    exact hsame x.run (List.mem_map_of_mem hx)
  have hfin : ∀ p ∈ parts, _ := fun p hp => desCampaign_finished hg h hc hp (hlog p hp)
  have key := C98_external (whole := whole) (parts := parts.map fixed) hg (hmem hf fun p hp => (hfin p hp).1) hext
    (hmem heph fun p hp => by
      obtain ⟨pe, e1, e2⟩ := hephs p hp
      exact ⟨pe, e1, table_agree ((hfin p hp).2.1 pe (.inr (.inr (.inr (.inr e1))))) e2⟩)
    hdiv' hsame' (hmem (hcols _ hself) fun p hp => hcols p.run (hpart p hp)) (hmem (henv _ hself) fun p hp => henv p.run (hpart p hp)) hdet hs ht hshown h2
  simp only [List.map_map] at key
  refine ⟨fun hfmt => ?_, fun hfmt => ?_⟩
  · rw [List.map_congr_left (g := fun p => p.attempt.after.get (p.attempt.args.o ++ "/" ++ p.attempt.args.t ++ ".csv")) fun p hp =>
      (hfin p hp).2.2 _ (.inl (History.belongs_csv _ _))]
    exact key.1 hfmt
  · rw [List.map_congr_left (g := fun p => p.attempt.after.get (p.attempt.args.o ++ "/" ++ p.attempt.args.t ++ ".db")) fun p hp =>
      (hfin p hp).2.2 _ (.inl (History.belongs_db _ _))]
    exact key.2 hfmt

/-- C98 (runs again, generated ephemerides). -/
theorem C98_again_generated {w : DesWorld G W V} {c : Config.Cfg} {whole : Run} {xs : List (Attempt (DesWorld G W V))} {d D : Disk} {parts : List (Part (DesWorld G W V))}
    (hg : Cli.Spec.GlobSound w.base.glob) (hf : DesFinished w c whole) (h : Session DesInvoked xs d D) (hc : DesCampaign w c xs d parts)
    (hdone : ∀ p ∈ parts, ∃ log, DesInvoked w p.attempt.argv p.attempt.before p.attempt.after log .finished)
    (hext : c.input.ephemeridesType ≠ "external") {ephem : List (Rec Str) → List (Pointing.Obs W)} {cull : Rec Str → Bool}
    (hephem : ∀ r ∈ whole :: parts.map Part.run, ∀ a, Accepted w.base r.before r.args a → w.base.ephem (sized c r.chunk) a = ephem ∧ w.base.cull (sized c r.chunk) a = cull)
    (halone : Spec.EachAlone ephem whole.orb) (hdiv : Spec.Divided whole (parts.map Part.run))
    {columns : List String} (hcols : ∀ r ∈ whole :: parts.map Part.run, ∀ a, Accepted w.base r.before r.args a → w.columns (sized c r.chunk) a = columns)
    {E : Env G W V}
    (henv : ∀ r ∈ whole :: parts.map Part.run, ∀ a E', Accepted w.base r.before r.args a → w.env (sized c r.chunk) a (checked w.base r.args r.before) = some E' → E' = E)
    (hdet : Deterministic c) (hs : ∀ l, (E.base.sortIndex l).Perm l) (ht : Des.Spec.SortSound E.sortTime)
    {shown : Cell → Str} (hshown : w.base.lines.output = Csv.line shown) (h2 : 2 ≤ columns.length) :
    (c.output.format = "csv" → Spec.LinesTogether Csv.read (whole.after.get (whole.args.o ++ "/" ++ whole.args.t ++ ".csv"))
      (parts.map fun p => D.get (p.attempt.args.o ++ "/" ++ p.attempt.args.t ++ ".csv"))) ∧
    (c.output.format = "sqlite3" → Spec.TableTogether (whole.after.get (whole.args.o ++ "/" ++ whole.args.t ++ ".db"))
      (parts.map fun p => D.get (p.attempt.args.o ++ "/" ++ p.attempt.args.t ++ ".db"))) := by
  choose! log hlog using hdone
  let fixed : Part (DesWorld G W V) → Run := fun p => { p.run with log := log p }
  have hmem : ∀ {P : Run → Prop}, P whole → (∀ p ∈ parts, P (fixed p)) → ∀ r ∈ whole :: parts.map fixed, P r := by
    intro P h0 h1 r hr
    rcases List.mem_cons.1 hr with rfl | hr
    · exact h0
    · obtain ⟨x, hx, rfl⟩ := List.mem_map.1 hr
      exact h1 x hx
  have hself : whole ∈ whole :: parts.map Part.run := List.mem_cons_self ..
  have hpart : ∀ p ∈ parts, p.run ∈ whole :: parts.map Part.run := fun r hr => List.mem_cons_of_mem _ (List.mem_map_of_mem hr)
  have hdiv' : Spec.Divided whole (parts.map fixed) := by
    refine ⟨fun p hp => ?_, ?_⟩
    · obtain ⟨x, hx, rfl⟩ := List.mem_map.1 hp
      exact hdiv.rows x.run (List.mem_map_of_mem hx)
    · have := hdiv.objects
      rw [List.flatMap_map] at this ⊢
      exact this
  have hfin : ∀ p ∈ parts, _ := fun p hp => desCampaign_finished hg h hc hp (hlog p hp)
  have key := C98_generated (whole := whole) (parts := parts.map fixed) hg (hmem hf fun p hp => (hfin p hp).1) hext
    (hmem (hephem _ hself) fun p hp => hephem p.run (hpart p hp)) halone
    hdiv' (hmem (hcols _ hself) fun p hp => hcols p.run (hpart p hp)) (hmem (henv _ hself) fun p hp => henv p.run (hpart p hp)) hdet hs ht hshown h2
  simp only [List.map_map] at key
  refine ⟨fun hfmt => ?_, fun hfmt => ?_⟩
  · rw [List.map_congr_left (g := fun p => p.attempt.after.get (p.attempt.args.o ++ "/" ++ p.attempt.args.t ++ ".csv")) fun p hp =>
      (hfin p hp).2.2 _ (.inl (History.belongs_csv _ _))]
    exact key.1 hfmt
  · rw [List.map_congr_left (g := fun p => p.attempt.after.get (p.attempt.args.o ++ "/" ++ p.attempt.args.t ++ ".db")) fun p hp =>
      (hfin p hp).2.2 _ (.inl (History.belongs_db _ _))]
    exact key.2 hfmt

/-- C98 (what check-logs says): when after all these runs `sorcha outputs check-logs`, on a directory above all the logs, does not name the last run of a part as failed, then
that run went through, whatever it says of the others. So C98 can be used for parts none of whose last runs is named. -/
theorem C98_told {w : DesWorld G W V} {c : Config.Cfg} {xs : List (Attempt (DesWorld G W V))} {d D : Disk} {parts : List (Part (DesWorld G W V))} (hg : Cli.Spec.GlobSound w.base.glob)
    (h : Session DesInvoked xs d D) (hc : DesCampaign w c xs d parts)
    (hdiffer : xs.Pairwise fun x y => ¬ (x.args.o ++ "/" ++ x.args.t = y.args.o ++ "/" ++ y.args.t ∧ x.stamp = y.stamp ∧ x.pid = y.pid))
    (hd : ∀ p, "sorcha.log".toList <:+ p.toList → d.get p = none) (hquiet : Spec.Quiet w.base.start w.base.messages)
    {dirs : String → Bool} (hdirs : {p | dirs p = true}.Finite) (bytes : History.Content → List Char) {root : String} (hroot : ∀ x ∈ xs, Setup.Spec.Below root x.path)
    {walk : Setup.Walk} (hw : Setup.Spec.WalkSound walk) {br : Char → Bool} (hbn : br '\n' = true) (hbr : ∀ c ∈ History.Spec.completed, br c = false)
    {csv : List Setup.LogRow → List Char} {dirname : String → String} {force : Bool} {t : Setup.Told}
    (ht : (Setup.cmdCheckLogs walk br csv dirname root none force (asFiles dirs bytes D)).result = .ok t) {p : Part (DesWorld G W V)} (hp : p ∈ parts)
    (hn : Spec.NotNamed t p.attempt.path) : ∃ log, DesInvoked w p.attempt.argv p.attempt.before p.attempt.after log .finished := by
  obtain ⟨ys, zs, hx, -⟩ := hc.last p hp
  have hm : p.attempt ∈ xs := by rw [hx]; simp
  have hr : t ≠ .refused := by
    rcases hn with rfl | ⟨f, rfl, -⟩ <;> (intro h; cases h)
  have tells := C96_told_des h (fun x hx => by rw [hc.world x hx]; exact hg) ⟨hc.orderly.stamps, hc.orderly.noClash, hdiffer⟩ hd (fun x hx => by rw [hc.world x hx]; exact hquiet) hdirs
    bytes hroot hw hbn hbr (out := none) (fun _ h => by cases h) ht hr
  have hw' := hc.world _ hm
  rcases hn with h1 | ⟨f, h1, h2⟩
  · have := tells.good h1 _ hm
    rwa [hw'] at this
  · have := ((tells.printed f h1).2.2 _ hm).2 h2
    rwa [hw'] at this

end Sorcha.Whole.Props
