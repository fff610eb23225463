import Verif.Setup.Logs

/-!
# C68: the report of `sorcha outputs check-logs`

The theorems are about names ending in `.csv`, and about the command without `-o`; what happens with other names is shown at the end.
-/

namespace Sorcha.Setup.Props

variable {walk : Walk} {br : Char → Bool} {csv : List LogRow → List Char} {dirname : String → String} {root p : String} {d : Disk} {force : Bool}

/-- The command, by cases. -/
theorem cmd_cases (hp : ".csv".toList <:+ p.toList) :
    (∃ e, cmdCheckLogs walk br csv dirname root (some p) force d = ⟨[d], .error e, d⟩ ∧
      ((d root ≠ some .dir ∨ d (dirname p) ≠ some .dir) ∨ d p = some .dir)) ∨
    (d p ≠ none ∧ force = false ∧ cmdCheckLogs walk br csv dirname root (some p) force d = ⟨[d], .ok .refused, d⟩) ∨
    ((∃ t, d p = some (.file t)) ∧ force = true ∧
      cmdCheckLogs walk br csv dirname root (some p) force d = (checkLogs walk br csv root (some p) (d.remove p)).after d) ∨
    (d p = none ∧ cmdCheckLogs walk br csv dirname root (some p) force d = checkLogs walk br csv root (some p) d) := by
  rw [cmdCheckLogs]
  by_cases h1 : d.isDir root = true
  · rw [if_neg (by simp [h1])]
    by_cases h2 : d.isDir (dirname p) = true
    · rw [if_neg (by simp [h2])]
      by_cases h3 : (d.has p && !force) = true
      · rw [if_pos h3]
        have : d.has p = true ∧ force = false := by simpa using h3
        exact .inr (.inl ⟨Option.isSome_iff_ne_none.1 this.1, this.2, rfl⟩)
      · rw [if_neg h3]
        by_cases h4 : d.isDir p = true
        · rw [if_pos h4]
          exact .inl ⟨_, rfl, .inr (isDir_of.1 h4)⟩
        · rw [if_neg h4]
          rw [withSuffix_csv hp]
          by_cases h5 : d.has p = true
          · rw [if_pos h5]
            have hf : force = true := by
              cases hf : force
              · exact absurd (by simp [h5, hf]) h3
              · rfl
            refine .inr (.inr (.inl ⟨?_, hf, rfl⟩))
            rcases hd : d p with _ | ⟨t⟩ | _
            · rw [Disk.has, hd] at h5; simp at h5
            · exact ⟨t, rfl⟩
            · exact absurd (isDir_of.2 hd) h4
          · rw [if_neg h5]
            refine .inr (.inr (.inr ⟨?_, rfl⟩))
            rcases hd : d p with _ | x
            · rfl
            · rw [Disk.has, hd] at h5; simp at h5
    · rw [if_pos (by simp [h2])]
      exact .inl ⟨_, rfl, .inl (.inr fun h => h2 (isDir_of.2 h))⟩
  · rw [if_pos (by simp [h1])]
    exact .inl ⟨_, rfl, .inl (.inl fun h => h1 (isDir_of.2 h))⟩

/-- **C68, protection.** Without `--force` an existing report is not changed, nor is anything else. -/
theorem C68_protects (hp : ".csv".toList <:+ p.toList) (he : d p ≠ none) (s : Disk)
    (hs : Spec.Seen (cmdCheckLogs walk br csv dirname root (some p) false d) s) : s = d := by
  rcases cmd_cases (walk := walk) (br := br) (csv := csv) (dirname := dirname) (root := root) (d := d) (force := false) hp with
    ⟨e, h, -⟩ | ⟨-, -, h⟩ | ⟨-, h, -⟩ | ⟨h, -⟩
  · rw [h] at hs
    exact seen_idle hs
  · rw [h] at hs
    simpa [Spec.Seen] using hs
  · cases h
  · exact absurd h he

/-- What is seen during the check with a name for the report. -/
theorem checkLogs_seen (hw : Spec.Lists (walk root d) root d) (s : Disk) (hs : Spec.Seen (checkLogs walk br csv root (some p) d) s) :
    (∀ q, q ≠ p → s q = d q) ∧ (s p = d p ∨ ∃ rows part, Spec.Report br d root rows ∧ part <+: csv rows ∧ s p = some (.file part)) := by
  rcases checkLogs_cases (br := br) (csv := csv) hw (some p) with ⟨e, h, -⟩ | ⟨rows, hrep, -, ⟨-, h⟩ | ⟨-, ⟨h, -⟩ | ⟨p', hp', -, h⟩⟩⟩
  · rw [h] at hs
    rw [seen_idle hs]
    exact ⟨fun _ _ => rfl, .inl rfl⟩
  · rw [h] at hs
    have : s = d := by simpa [Spec.Seen] using hs
    rw [this]
    exact ⟨fun _ _ => rfl, .inl rfl⟩
  · cases h
  · cases hp'
    rw [h] at hs
    have hcase : s = d ∨ ∃ part, part <+: csv rows ∧ s = d.put p part := by
      simp only [Spec.Seen, List.mem_cons, mem_writing] at hs
      rcases hs with (h | h) | h
      · exact .inl h
      · exact .inr h
      · exact .inr ⟨csv rows, List.prefix_rfl, h⟩
    rcases hcase with rfl | ⟨part, hpart, rfl⟩
    · exact ⟨fun _ _ => rfl, .inl rfl⟩
    · exact ⟨fun q hq => put_other _ _ hq, .inr ⟨rows, part, hrep, hpart, put_same _ _ _⟩⟩

theorem checkLogs_none (s : Disk) (hs : Spec.Seen (checkLogs walk br csv root none d) s) : s = d := by
  rw [checkLogs] at hs
  by_cases h0 : (findLogs walk root d).isEmpty = true
  · rw [if_pos h0] at hs
    exact seen_idle hs
  · rw [if_neg h0] at hs
    rcases ht : logTable br (findLogs walk root d) d with e | rows
    · rw [ht] at hs
      exact seen_idle hs
    · rw [ht] at hs
      simp only at hs
      split_ifs at hs <;> simpa [Spec.Seen] using hs

/-- **C68, nothing else.** At whatever moment the command is ended, no path but that of the report has changed; that one is as before, absent, or an
initial part of the new report. Without `-o` nothing changes at all. -/
theorem C68_only_report (hw : Spec.WalkSound walk) (hd : Spec.Finite d) :
    (∀ s, Spec.Seen (cmdCheckLogs walk br csv dirname root none force d) s → s = d) ∧
    (".csv".toList <:+ p.toList → ∀ s, Spec.Seen (cmdCheckLogs walk br csv dirname root (some p) force d) s →
      (∀ q, q ≠ p → s q = d q) ∧
      (s p = d p ∨ s p = none ∨ ∃ rows part, Spec.Report br d root rows ∧ part <+: csv rows ∧ s p = some (.file part))) := by
  constructor
  · intro s hs
    rw [cmdCheckLogs] at hs
    by_cases h1 : d.isDir root = true
    · rw [if_neg (by simp [h1])] at hs
      exact checkLogs_none s hs
    · rw [if_pos (by simp [h1])] at hs
      exact seen_idle hs
  · intro hp s hs
    rcases cmd_cases (walk := walk) (br := br) (csv := csv) (dirname := dirname) (root := root) (d := d) (force := force) hp with
      ⟨e, h, -⟩ | ⟨-, -, h⟩ | ⟨-, -, h⟩ | ⟨-, h⟩
    · rw [h] at hs
      rw [seen_idle hs]
      exact ⟨fun _ _ => rfl, .inl rfl⟩
    · rw [h] at hs
      have : s = d := by simpa [Spec.Seen] using hs
      rw [this]
      exact ⟨fun _ _ => rfl, .inl rfl⟩
    · rw [h] at hs
      have hcase : s = d ∨ Spec.Seen (checkLogs walk br csv root (some p) (d.remove p)) s := by
        simp only [Spec.Seen, Ran.after, List.mem_cons] at hs
        rcases hs with (h | h) | h
        · exact .inl h
        · exact .inr (.inl h)
        · exact .inr (.inr h)
      rcases hcase with rfl | hs
      · exact ⟨fun _ _ => rfl, .inl rfl⟩
      · obtain ⟨h1, h2⟩ := checkLogs_seen (hw root _ (finite_remove hd p)) s hs
        refine ⟨fun q hq => ?_, ?_⟩
        · rw [h1 q hq, Disk.remove, Function.update_of_ne hq]
        · rcases h2 with h2 | ⟨rows, part, h2, h3, h4⟩
          · refine .inr (.inl ?_)
            rw [h2, Disk.remove, Function.update_self]
          · exact .inr (.inr ⟨rows, part, report_remove hp h2, h3, h4⟩)
    · rw [h] at hs
      obtain ⟨h1, h2⟩ := checkLogs_seen (hw root _ hd) s hs
      refine ⟨h1, ?_⟩
      rcases h2 with h2 | h2
      · exact .inl h2
      · exact .inr (.inr h2)

/-- **C68, the report.** If the command ends normally and was not refused: it printed the failed runs, or saved the report, or all runs were successful;
in each case according to the report on exactly the logs below the directory. After it, the file of the report is the complete report, or is not
there because there is no failed run. -/
theorem C68_report (hw : Spec.WalkSound walk) (hd : Spec.Finite d) (out : Option String) (hp : ∀ p, out = some p → ".csv".toList <:+ p.toList) (t : Told)
    (h : (cmdCheckLogs walk br csv dirname root out force d).result = .ok t) (ht : t ≠ .refused) :
    ∃ rows, Spec.Report br d root rows ∧ rows ≠ [] ∧
      ((t = .allGood ∧ (∀ r ∈ rows, r.successful = true) ∧ ∀ p, out = some p → (cmdCheckLogs walk br csv dirname root out force d).disk p = none) ∨
        (t = .printed (rows.filter fun r => !r.successful) ∧ out = none ∧ ∃ r ∈ rows, r.successful = false) ∨
        (t = .saved ∧ (∃ r ∈ rows, r.successful = false) ∧
          ∃ p, out = some p ∧ (cmdCheckLogs walk br csv dirname root out force d).disk p = some (.file (csv rows)))) := by
  cases out with
  | none =>
    rw [cmdCheckLogs] at h ⊢
    by_cases h1 : d.isDir root = true
    · rw [if_neg (by simp [h1])] at h ⊢
      rcases checkLogs_cases (br := br) (csv := csv) (hw root d hd) none with ⟨e, hr, -⟩ | ⟨rows, hrep, hne, ⟨hg, hr⟩ | ⟨hb, ⟨-, hr⟩ | ⟨p', hp', -, hr⟩⟩⟩
      · simp only [hr] at h; cases h
      · simp only [hr] at h
        cases h
        exact ⟨rows, hrep, hne, .inl ⟨rfl, hg, by simp⟩⟩
      · simp only [hr] at h
        cases h
        exact ⟨rows, hrep, hne, .inr (.inl ⟨rfl, rfl, hb⟩)⟩
      · cases hp'
    · rw [if_pos (by simp [h1])] at h
      cases h
  | some p =>
    have hcsv := hp p rfl
    rcases cmd_cases (walk := walk) (br := br) (csv := csv) (dirname := dirname) (root := root) (d := d) (force := force) hcsv with
      ⟨e, hc, -⟩ | ⟨-, -, hc⟩ | ⟨-, -, hc⟩ | ⟨hnone, hc⟩
    · rw [hc] at h; cases h
    · rw [hc] at h
      cases h
      exact absurd rfl ht
    · rw [hc] at h ⊢
      simp only [Ran.after] at h ⊢
      rcases checkLogs_cases (br := br) (csv := csv) (hw root _ (finite_remove hd p)) (some p) with
        ⟨e, hr, -⟩ | ⟨rows, hrep, hne, ⟨hg, hr⟩ | ⟨hb, ⟨hx, -⟩ | ⟨p', hp', -, hr⟩⟩⟩
      · rw [hr] at h; cases h
      · rw [hr] at h ⊢
        cases h
        refine ⟨rows, report_remove hcsv hrep, hne, .inl ⟨rfl, hg, ?_⟩⟩
        intro q hq
        cases hq
        simp [Disk.remove]
      · cases hx
      · cases hp'
        rw [hr] at h ⊢
        cases h
        exact ⟨rows, report_remove hcsv hrep, hne, .inr (.inr ⟨rfl, hb, p, rfl, put_same _ _ _⟩)⟩
    · rw [hc] at h ⊢
      rcases checkLogs_cases (br := br) (csv := csv) (hw root _ hd) (some p) with
        ⟨e, hr, -⟩ | ⟨rows, hrep, hne, ⟨hg, hr⟩ | ⟨hb, ⟨hx, -⟩ | ⟨p', hp', -, hr⟩⟩⟩
      · rw [hr] at h; cases h
      · rw [hr] at h ⊢
        cases h
        refine ⟨rows, hrep, hne, .inl ⟨rfl, hg, ?_⟩⟩
        intro q hq
        cases hq
        exact hnone
      · cases hx
      · cases hp'
        rw [hr] at h ⊢
        cases h
        exact ⟨rows, hrep, hne, .inr (.inr ⟨rfl, hb, p, rfl, put_same _ _ _⟩)⟩

/-- **C68, it works.** The command ends normally if the directories exist, no directory is in the place of the report, and there is a log and no empty
log; it is refused only if the report exists and `--force` is not given. -/
theorem C68_works (hw : Spec.WalkSound walk) (hd : Spec.Finite d) (hp : ".csv".toList <:+ p.toList) (hr : d root = some .dir)
    (hdn : d (dirname p) = some .dir) (hpd : d p ≠ some .dir) (hl : ∃ q, Spec.IsLog d root q) (hne : ∀ q, Spec.IsLog d root q → d q ≠ some (.file [])) :
    ∃ t, (cmdCheckLogs walk br csv dirname root (some p) force d).result = .ok t ∧ (t = .refused ↔ d p ≠ none ∧ force = false) := by
  have hrem : ∀ q, Spec.IsLog (d.remove p) root q → (d.remove p) q ≠ some (.file []) := by
    intro q hq
    have := hne q ((islog_remove hp).1 hq)
    rw [Disk.remove]
    by_cases h : q = p
    · subst h; simp
    · rwa [Function.update_of_ne h]
  have key : ∀ e : Disk, Spec.Finite e → (∃ q, Spec.IsLog e root q) → (∀ q, Spec.IsLog e root q → e q ≠ some (.file [])) → e p ≠ some .dir →
      ∃ t, (checkLogs walk br csv root (some p) e).result = .ok t ∧ t ≠ .refused := by
    intro e he hle hnee hpe
    rcases checkLogs_cases (br := br) (csv := csv) (hw root e he) (some p) with
      ⟨e', h, h1 | ⟨q, h1, h2⟩ | ⟨q, h1, h2⟩⟩ | ⟨rows, -, -, ⟨-, h⟩ | ⟨-, ⟨hx, -⟩ | ⟨p', -, -, h⟩⟩⟩
    · obtain ⟨q, hq⟩ := hle
      exact absurd hq (h1 q)
    · exact absurd h2 (hnee q h1)
    · cases h1
      exact absurd h2 hpe
    · exact ⟨_, by rw [h], by simp⟩
    · cases hx
    · exact ⟨_, by rw [h], by simp⟩
  rcases cmd_cases (walk := walk) (br := br) (csv := csv) (dirname := dirname) (root := root) (d := d) (force := force) hp with
    ⟨e, h, h' | h'⟩ | ⟨h1, h2, h⟩ | ⟨h1, h2, h⟩ | ⟨h1, h⟩
  · rcases h' with h' | h'
    · exact absurd hr h'
    · exact absurd hdn h'
  · exact absurd h' hpd
  · exact ⟨_, by rw [h], by simp [h1, h2]⟩
  · obtain ⟨t, ht, htr⟩ := key (d.remove p) (finite_remove hd p) (by
      obtain ⟨q, hq⟩ := hl
      exact ⟨q, (islog_remove hp).2 hq⟩) hrem (by simp [Disk.remove])
    exact ⟨t, by rw [h]; exact ht, by simp [htr, h2]⟩
  · obtain ⟨t, ht, htr⟩ := key d hd hl hne hpd
    exact ⟨t, by rw [h]; exact ht, by simp [htr, h1]⟩

end Sorcha.Setup.Props
