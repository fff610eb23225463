import Verif.History.Props
import Verif.Setup.LogsProps
import Verif.Whole.Des
import Verif.Whole.SpecLogs

/-!
# Properties: the logs of whole runs, and `sorcha outputs check-logs` (C95)
-/

namespace Sorcha.Whole.Props

open Sorcha.Csv (Str)
open Sorcha.History (Disk Chunk Effect State Ends)

variable {G W V : Type}

/-! ## What is logged -/

theorem rounds_messages (w : World G W V) (E : Pipeline.Env G W V) (c : Config.Cfg) (a : Cli.CmdArgs) :
    ∀ (bs : List (List (Pointing.Obs W) × Option Output.Frame)) (s : Pipeline.State G), ∀ ch ∈ (rounds w E c a s bs).1, ∃ n, ch.messages = w.messages n := by
  intro bs
  induction bs with
  | nil => intro s ch h; cases h
  | cons b bs ih =>
    intro s ch h
    obtain ⟨obs, eph⟩ := b
    unfold rounds at h
    split at h
    · exact ⟨s.round, by rw [List.mem_singleton.1 h]⟩
    · split at h
      · rcases List.mem_cons.1 h with rfl | h
        · exact ⟨s.round, rfl⟩
        · exact ih _ _ h
      · split at h
        · exact ⟨s.round, by rw [List.mem_singleton.1 h]⟩
        · rcases List.mem_cons.1 h with rfl | h
          · exact ⟨s.round, rfl⟩
          · exact ih _ _ h

theorem plan_messages {w : World G W V} {a : Cli.CmdArgs} {d : Disk} {fmt : History.Format} {chunks : List Chunk} {f : Bool} (h : plan w a d = .writes fmt chunks f) :
    ∀ ch ∈ chunks, ∃ n, ch.messages = w.messages n := by
  unfold plan at h
  repeat' split at h
  all_goals first
    | (cases h; intro ch hch; cases hch; done)
    | (cases h; done)
    | (cases h; exact rounds_messages w _ _ _ _ _)

theorem desRounds_messages (w : DesWorld G W V) (E : DesRun.Env G W V) (c : Config.Cfg) (a : Cli.CmdArgs) :
    ∀ (bs : List (List (Pointing.Obs W) × Option Output.Frame)) (s : Pipeline.State G), ∀ ch ∈ (desRounds w E c a s bs).1, ∃ n, ch.messages = w.base.messages n := by
  intro bs
  induction bs with
  | nil => intro s ch h; cases h
  | cons b bs ih =>
    intro s ch h
    obtain ⟨obs, eph⟩ := b
    unfold desRounds at h
    split at h
    · exact ⟨s.round, by rw [List.mem_singleton.1 h]⟩
    · split at h
      · rcases List.mem_cons.1 h with rfl | h
        · exact ⟨s.round, rfl⟩
        · exact ih _ _ h
      · split at h
        · exact ⟨s.round, by rw [List.mem_singleton.1 h]⟩
        · rcases List.mem_cons.1 h with rfl | h
          · exact ⟨s.round, rfl⟩
          · exact ih _ _ h

theorem desPlan_messages {w : DesWorld G W V} {a : Cli.CmdArgs} {d : Disk} {fmt : History.Format} {chunks : List Chunk} {f : Bool} (h : desPlan w a d = .writes fmt chunks f) :
    ∀ ch ∈ chunks, ∃ n, ch.messages = w.base.messages n := by
  unfold desPlan at h
  repeat' split at h
  all_goals first
    | (cases h; intro ch hch; cases hch; done)
    | (cases h; done)
    | (cases h; exact desRounds_messages w _ _ _ _ _)
    | exact plan_messages h

theorem quiet_lines {lines : List (List Char)} (hl : ∀ l ∈ lines, ¬ Cli.Spec.Occurs History.Spec.completed l) :
    ¬ Cli.Spec.Occurs History.Spec.completed (lines.flatMap fun l => l ++ ['\n']) := by
  intro ho
  obtain ⟨l, hm, ho⟩ := History.occurs_lines History.Props.completed_plain.1 History.Props.completed_plain.2 ho
  exact hl l hm ho

/-- Effects whose messages are quiet leave a quiet log. -/
theorem quiet_effects {es : List Effect} {start : List (List Char)} {d : Disk} {s : State} {done : Bool} (he : Ends false es ⟨d, start.flatMap fun l => l ++ ['\n']⟩ s done)
    (hs : ∀ l ∈ start, ¬ Cli.Spec.Occurs History.Spec.completed l) (hm : ∀ l ∈ History.linesOf es, ¬ Cli.Spec.Occurs History.Spec.completed l) :
    ¬ Cli.Spec.Occurs History.Spec.completed s.log := by
  rintro ⟨a, b, ho⟩
  obtain ⟨rest, hrest⟩ := (History.ends_log he).2
  apply quiet_lines (lines := start ++ History.linesOf es) (fun l hl => (List.mem_append.1 hl).elim (hs l) (hm l))
  refine ⟨a, b ++ rest, ?_⟩
  rw [List.flatMap_append, ← hrest, ho]
  simp only [List.append_assoc]

theorem quiet_chunks {ls : History.Lines} {a : Cli.CmdArgs} {fmt : History.Format} {chunks : List Chunk} {messages : ℕ → List (List Char)}
    (hch : ∀ ch ∈ chunks, ∃ n, ch.messages = messages n) (hq : ∀ n, ∀ l ∈ messages n, ¬ Cli.Spec.Occurs History.Spec.completed l) :
    ∀ l ∈ History.linesOf (chunks.flatMap (History.chunkEffects ls a fmt) ++ History.makeIndex a fmt), ¬ Cli.Spec.Occurs History.Spec.completed l := by
  intro l hl
  obtain ⟨ch, h1, h2⟩ := History.Props.linesOf_mem hl
  obtain ⟨n, hn⟩ := hch ch h1
  exact hq n l (hn ▸ h2)

/-- A run whose log has the message has done all it had to, but for the end of the log. -/
theorem told_whole {ls : History.Lines} {a : Cli.CmdArgs} {fmt : History.Format} {chunks : List Chunk} {stamp : List Char} {start : List (List Char)} {d : Disk} {s : State}
    {done : Bool} (he : Ends false (History.runEffects ls a fmt chunks stamp) ⟨d, start.flatMap fun l => l ++ ['\n']⟩ s done)
    {messages : ℕ → List (List Char)} (hch : ∀ ch ∈ chunks, ∃ n, ch.messages = messages n) (hq : Spec.Quiet start messages)
    (ho : Cli.Spec.Occurs History.Spec.completed s.log) :
    ∃ log, Ends false (History.runEffects ls a fmt chunks stamp) ⟨d, start.flatMap fun l => l ++ ['\n']⟩ ⟨s.disk, log⟩ true := by
  rcases History.ends_append (show Ends false ((chunks.flatMap (History.chunkEffects ls a fmt) ++ History.makeIndex a fmt) ++
      [.log (stamp ++ History.Spec.completed)]) _ _ _ from he) with ⟨s1, h3, h4⟩ | ⟨-, h3⟩
  · have hdisk : s.disk = s1.disk := by
      cases h4 with
      | step hp ht =>
        cases ht
        simp only [History.perform, Except.ok.injEq] at hp
        subst hp
        rfl
      | stopped => rfl
      | during hi => cases hi; rfl
    rw [hdisk]
    exact ⟨s1.log ++ (stamp ++ History.Spec.completed) ++ ['\n'],
      History.ends_join h3 (.step (show History.perform (.log (stamp ++ History.Spec.completed)) s1 = _ from rfl) .finished)⟩
  · exact absurd ho (quiet_effects h3 hq.1 (quiet_chunks hch hq.2))

theorem finished_log {ls : History.Lines} {a : Cli.CmdArgs} {fmt : History.Format} {chunks : List Chunk} {stamp : List Char} {st s : State}
    (he : Ends false (History.runEffects ls a fmt chunks stamp) st s true) : ∃ x, s.log = x ++ History.Spec.completed ++ ['\n'] := by
  have h := (History.ends_log he).1 rfl
  rw [show History.runEffects ls a fmt chunks stamp = (chunks.flatMap (History.chunkEffects ls a fmt) ++ History.makeIndex a fmt) ++ [.log (stamp ++ History.Spec.completed)] from rfl,
    History.Props.linesOf_append, List.flatMap_append, show History.linesOf [.log (stamp ++ History.Spec.completed)] = [stamp ++ History.Spec.completed] from rfl,
    List.flatMap_singleton] at h
  exact ⟨_, by rw [h, ← List.append_assoc, ← List.append_assoc, ← List.append_assoc]⟩

theorem completed_ne : History.Spec.completed ≠ [] := by
  decide +kernel

/-- The log of a finished run ends with the message. -/
theorem invoked_finished {w : World G W V} {argv : List Str} {d d' : Disk} {log : List Char} (h : Invoked w argv d d' log .finished) :
    ∃ x, log = x ++ History.Spec.completed ++ ['\n'] := by
  generalize ho : History.Outcome.finished = out at h
  cases h with
  | usage _ => cases ho
  | refused _ _ => cases ho
  | @ran args v a fmt chunks s done h hc hp he =>
    cases done with
    | false => cases ho
    | true => exact finished_log he
  | failed _ _ _ _ => cases ho

/-- A log with the message is that of a run that has left all its outputs. -/
theorem invoked_whole {w : World G W V} {argv : List Str} {d d' : Disk} {log : List Char} {out : History.Outcome} (h : Invoked w argv d d' log out)
    (hq : Spec.Quiet w.start w.messages) (ho : Cli.Spec.Occurs History.Spec.completed log) : ∃ log', Invoked w argv d d' log' .finished := by
  cases h with
  | usage _ =>
    obtain ⟨a, b, h⟩ := ho
    exact absurd (List.append_eq_nil_iff.1 (List.append_eq_nil_iff.1 h.symm).1).2 completed_ne
  | refused _ _ => exact absurd ho (quiet_lines hq.1)
  | ran h hc hp he =>
    obtain ⟨log', h'⟩ := told_whole he (plan_messages hp) hq ho
    exact ⟨log', Invoked.ran h hc hp h'⟩
  | failed _ _ hp he =>
    exact absurd ho (quiet_effects he hq.1 fun l hl => quiet_chunks (plan_messages hp) hq.2 l (by
      rw [History.Props.linesOf_append]; exact List.mem_append_left _ hl))

theorem desInvoked_finished {w : DesWorld G W V} {argv : List Str} {d d' : Disk} {log : List Char} (h : DesInvoked w argv d d' log .finished) :
    ∃ x, log = x ++ History.Spec.completed ++ ['\n'] := by
  generalize ho : History.Outcome.finished = out at h
  cases h with
  | usage _ => cases ho
  | refused _ _ => cases ho
  | @ran args v a fmt chunks s done h hc hp he =>
    cases done with
    | false => cases ho
    | true => exact finished_log he
  | failed _ _ _ _ => cases ho

theorem desInvoked_whole {w : DesWorld G W V} {argv : List Str} {d d' : Disk} {log : List Char} {out : History.Outcome} (h : DesInvoked w argv d d' log out)
    (hq : Spec.Quiet w.base.start w.base.messages) (ho : Cli.Spec.Occurs History.Spec.completed log) : ∃ log', DesInvoked w argv d d' log' .finished := by
  cases h with
  | usage _ =>
    obtain ⟨a, b, h⟩ := ho
    exact absurd (List.append_eq_nil_iff.1 (List.append_eq_nil_iff.1 h.symm).1).2 completed_ne
  | refused _ _ => exact absurd ho (quiet_lines hq.1)
  | ran h hc hp he =>
    obtain ⟨log', h'⟩ := told_whole he (desPlan_messages hp) hq ho
    exact ⟨log', DesInvoked.ran h hc hp h'⟩
  | failed _ _ hp he =>
    exact absurd ho (quiet_effects he hq.1 fun l hl => quiet_chunks (desPlan_messages hp) hq.2 l (by
      rw [History.Props.linesOf_append]; exact List.mem_append_left _ hl))

/-! ## The rows of the report -/

theorem row_good {br : Char → Bool} {D : Setup.Disk} {r : Setup.LogRow} (h : Setup.Spec.RowFor br D r) {log : List Char} (hlog : D r.filename = some (.file log))
    (hs : r.successful = true) : Cli.Spec.Occurs History.Spec.completed log := by
  obtain ⟨text, l, h1, ⟨before, rest, h2, -⟩, h3⟩ := h
  rw [hlog] at h1
  cases h1
  rcases h3 with ⟨⟨a, ha⟩, -⟩ | ⟨-, h3, -⟩
  · refine ⟨before ++ a, rest, ?_⟩
    rw [h2, ← ha]
    simp only [List.append_assoc]
    rfl
  · rw [hs] at h3; cases h3

theorem row_bad {br : Char → Bool} (hn : br '\n' = true) (hbr : ∀ c ∈ History.Spec.completed, br c = false) {D : Setup.Disk} {r : Setup.LogRow}
    (h : Setup.Spec.RowFor br D r) {log x : List Char} (hlog : D r.filename = some (.file log)) (hx : log = x ++ History.Spec.completed ++ ['\n']) : r.successful = true := by
  obtain ⟨text, l, h1, ⟨before, rest, h2, h4, h5, h6⟩, h3⟩ := h
  rw [hlog] at h1
  cases h1
  rcases h3 with ⟨-, h3, -⟩ | ⟨h3, -⟩
  · exact h3
  exfalso
  apply h3
  have hrest : rest = ['\n'] ∧ before ++ l = x ++ History.Spec.completed := by
    rcases h6 with ⟨rfl, hl⟩ | ⟨c, -, rfl⟩
    · exfalso
      rw [List.append_nil] at h2
      obtain ⟨l', c, rfl⟩ : ∃ l' c, l = l' ++ [c] := ⟨_, _, (List.dropLast_append_getLast hl).symm⟩
      rw [hx, ← List.append_assoc] at h2
      have hc := (List.append_inj' h2 rfl).2
      simp only [List.cons.injEq, and_true] at hc
      have := h4 c (by simp)
      rw [← hc, hn] at this
      cases this
    · rw [hx] at h2
      obtain ⟨e1, e2⟩ := List.append_inj' h2 rfl
      exact ⟨e2.symm, e1.symm⟩
  rcases List.suffix_or_suffix_of_suffix (show History.Spec.completed <:+ x ++ History.Spec.completed from ⟨x, rfl⟩)
    (show l <:+ x ++ History.Spec.completed from ⟨before, hrest.2⟩) with h | ⟨y, hy⟩
  · exact h
  · rcases List.eq_nil_or_concat y with rfl | ⟨y', c, rfl⟩
    · exact ⟨[], by rw [List.nil_append] at hy ⊢; exact hy.symm⟩
    · exfalso
      have e := hrest.2
      rw [← hy, ← List.append_assoc] at e
      have e' := List.append_cancel_right e
      rcases h5 with rfl | ⟨b, c', rfl, hc'⟩
      · have := congrArg List.length e'
        simp at this
      · rw [List.concat_eq_append, ← List.append_assoc] at e'
        have hc := (List.append_inj' e' rfl).2
        simp only [List.cons.injEq, and_true] at hc
        have := hbr c (by rw [← hy]; simp)
        rw [← hc, hc'] at this
        cases this

/-- What the command says about runs, from what is known of their logs. -/
theorem tells {ι : Type} {xs : List ι} {path : ι → String} {log : ι → List Char} {whole finished : ι → Prop} {walk : Setup.Walk} (hw : Setup.Spec.WalkSound walk)
    {br : Char → Bool} (hn : br '\n' = true) (hbr : ∀ c ∈ History.Spec.completed, br c = false) {csv : List Setup.LogRow → List Char} {dirname : String → String} {root : String}
    {out : Option String} (hout : ∀ p, out = some p → ".csv".toList <:+ p.toList) {force : Bool} {D : Setup.Disk} (hD : Setup.Spec.Finite D)
    (hlogs : ∀ p, Setup.Spec.IsLog D root p ↔ ∃ i ∈ xs, path i = p) (htext : ∀ i ∈ xs, D (path i) = some (.file (log i)))
    (hfin : ∀ i ∈ xs, finished i → ∃ x, log i = x ++ History.Spec.completed ++ ['\n']) (hwhole : ∀ i ∈ xs, Cli.Spec.Occurs History.Spec.completed (log i) → whole i)
    {t : Setup.Told} (h : (Setup.cmdCheckLogs walk br csv dirname root out force D).result = .ok t) (ht : t ≠ .refused) :
    Spec.Tells xs path whole finished csv out t (Setup.cmdCheckLogs walk br csv dirname root out force D).disk := by
  obtain ⟨rows, hrep, -, hcase⟩ := Setup.Props.C68_report hw hD out hout t h ht
  have hback : ∀ r ∈ rows, ∃ i ∈ xs, path i = r.filename := fun r hr => (hlogs _).1 ((hrep.logs _).1 (List.mem_map_of_mem hr))
  have hrow : ∀ i ∈ xs, ∃ r ∈ rows, r.filename = path i ∧ (r.successful = true → whole i) ∧ (r.successful = false → ¬ finished i) := by
    intro i hi
    obtain ⟨r, hr, he⟩ := List.mem_map.1 ((hrep.logs (path i)).2 ((hlogs _).2 ⟨i, hi, rfl⟩))
    have hl : D r.filename = some (.file (log i)) := by rw [he]; exact htext i hi
    refine ⟨r, hr, he, fun hs => hwhole i hi (row_good (hrep.rows r hr) hl hs), fun hs hf => ?_⟩
    obtain ⟨x, hx⟩ := hfin i hi hf
    rw [row_bad hn hbr (hrep.rows r hr) hl hx] at hs
    cases hs
  have huniq : ∀ r ∈ rows, ∀ r' ∈ rows, r.filename = r'.filename → r = r' := by
    intro r hr r' hr' he
    exact List.inj_on_of_nodup_map (hrep.sorted.imp fun h => ne_of_lt h) hr hr' he
  have hnone : (∀ i ∈ xs, finished i) → ¬ ∃ r ∈ rows, r.successful = false := by
    rintro hall ⟨r, hr, hs⟩
    obtain ⟨i, hi, he⟩ := hback r hr
    obtain ⟨r', hr', he', -, h2⟩ := hrow i hi
    obtain rfl := huniq r' hr' r hr (he'.trans he)
    exact h2 hs (hall i hi)
  rcases hcase with ⟨rfl, hall, -⟩ | ⟨rfl, -, hex⟩ | ⟨rfl, hex, p, hp, hfile⟩
  · refine ⟨fun _ i hi => ?_, fun _ h => (nomatch h), fun h => (nomatch h), fun _ => rfl⟩
    obtain ⟨r, hr, -, h1, -⟩ := hrow i hi
    exact h1 (hall r hr)
  · refine ⟨fun h => (nomatch h), fun failed h => ?_, fun h => (nomatch h), fun hall => (hnone hall hex).elim⟩
    cases h
    refine ⟨?_, fun r hr => hback r (List.mem_of_mem_filter hr), fun i hi => ?_⟩
    · obtain ⟨r, hr, hs⟩ := hex
      exact List.ne_nil_of_mem (List.mem_filter.2 ⟨hr, by rw [hs]; rfl⟩)
    · obtain ⟨r, hr, he, h1, h2⟩ := hrow i hi
      constructor
      · intro hm
        obtain ⟨r', hr', he'⟩ := List.mem_map.1 hm
        obtain ⟨m1, m2⟩ := List.mem_filter.1 hr'
        obtain rfl := huniq r' m1 r hr (he'.trans he.symm)
        exact h2 (by simpa using m2)
      · intro hm
        apply h1
        by_contra hs
        exact hm (List.mem_map.2 ⟨r, List.mem_filter.2 ⟨hr, by simpa using hs⟩, he⟩)
  · exact ⟨fun h => (nomatch h), fun _ h => (nomatch h), fun _ => ⟨p, rows, hp, hfile, hback, hrow⟩, fun hall => (hnone hall hex).elim⟩

end Sorcha.Whole.Props
