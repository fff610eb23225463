import Verif.Setup.LogsProps

/-!
# C68: cases, and where the protection of reports ends
-/

namespace Sorcha.Setup.Props

/-- A path that lies below a directory has a last component. -/
theorem split_last (l : List Char) (h : '/' ∈ l) : ∃ a n, l = a ++ '/' :: n ∧ '/' ∉ n := by
  induction l with
  | nil => simp at h
  | cons c l ih =>
    by_cases hl : '/' ∈ l
    · obtain ⟨a, n, rfl, hn⟩ := ih hl
      exact ⟨c :: a, n, rfl, hn⟩
    · rcases List.mem_cons.1 h with rfl | h
      · exact ⟨[], l, rfl, hl⟩
      · exact absurd h hl

/-- There is a walk as `os.walk` is documented. -/
theorem exists_walk : ∃ walk : Walk, Spec.WalkSound walk := by
  have key : ∀ (root : String) (d : Disk), Spec.Finite d → ∃ l, Spec.Lists l root d := by
    intro root d hd
    have hsplit : ∀ p : String, Spec.Below root p → ∃ e : String × String, p = join e.1 e.2 ∧ '/' ∉ e.2.toList := by
      rintro p ⟨rest, rfl⟩
      obtain ⟨a, ha⟩ := join_toList root rest
      obtain ⟨a', n, hs, hn⟩ := split_last (join root rest).toList (by rw [ha]; simp)
      refine ⟨(String.ofList (a' ++ ['/']), String.ofList n), ?_, by simpa using hn⟩
      rw [← String.toList_inj, hs, join, if_pos (by simp), String.toList_append]
      simp
    classical
    let f : String → String × List String := fun p => if h : Spec.Below root p then ((hsplit p h).choose.1, [(hsplit p h).choose.2]) else ("", [])
    have hf : ∀ p, Spec.Below root p → ∃ name, (f p).2 = [name] ∧ p = join (f p).1 name ∧ '/' ∉ name.toList := by
      intro p h
      refine ⟨(hsplit p h).choose.2, ?_, ?_, (hsplit p h).choose_spec.2⟩
      · simp only [f, dif_pos h]
      · simp only [f, dif_pos h]
        exact (hsplit p h).choose_spec.1
    have hfin : {p | Spec.FileAt d p ∧ Spec.Below root p}.Finite := by
      refine Set.Finite.subset hd fun p hp => ?_
      obtain ⟨⟨t, ht⟩, -⟩ := hp
      show d p ≠ none
      rw [ht]; simp
    have hmem : ∀ p, p ∈ hfin.toFinset.toList ↔ Spec.FileAt d p ∧ Spec.Below root p := by
      intro p
      rw [Finset.mem_toList, Set.Finite.mem_toFinset]
      rfl
    refine ⟨hfin.toFinset.toList.map f, ?_, ?_, ?_⟩
    · intro e he name hname
      obtain ⟨p, hp, rfl⟩ := List.mem_map.1 he
      obtain ⟨n, h1, -, h3⟩ := hf p ((hmem p).1 hp).2
      rw [h1, List.mem_singleton] at hname
      subst hname
      exact h3
    · intro p
      constructor
      · rintro ⟨e, he, name, hname, rfl⟩
        obtain ⟨p, hp, rfl⟩ := List.mem_map.1 he
        obtain ⟨n, h1, h2, -⟩ := hf p ((hmem p).1 hp).2
        rw [h1, List.mem_singleton] at hname
        subst hname
        rw [← h2]
        exact (hmem p).1 hp
      · intro hp
        obtain ⟨n, h1, h2, -⟩ := hf p hp.2
        exact ⟨f p, List.mem_map_of_mem ((hmem p).2 hp), n, by rw [h1]; simp, h2⟩
    · have : (hfin.toFinset.toList.map f).flatMap (fun e => e.2.map (join e.1)) = hfin.toFinset.toList := by
        have hall : ∀ l : List String, (∀ p ∈ l, Spec.Below root p) → (l.map f).flatMap (fun e => e.2.map (join e.1)) = l := by
          intro l
          induction l with
          | nil => intro _; rfl
          | cons p l ih =>
            intro h
            obtain ⟨n, h1, h2, -⟩ := hf p (h p (by simp))
            rw [List.map_cons, List.flatMap_cons, ih fun q hq => h q (List.mem_cons_of_mem _ hq), h1]
            simp [← h2]
        exact hall _ fun p hp => ((hmem p).1 hp).2
      rw [this]
      exact Finset.nodup_toList _
  classical
  refine ⟨fun root d => if h : Spec.Finite d then (key root d h).choose else [], fun root d hd => ?_⟩
  simp only [dif_pos hd]
  exact (key root d hd).choose_spec

/-- A directory with the log of a run that was stopped, and possibly another file. -/
def results (other : Option String) : Disk := fun p =>
  if p = "/r" then some .dir
  else if p = "/r/a-sorcha.log" then some (.file "start".toList)
  else if some p = other then some (.file "old".toList)
  else none

theorem results_finite (other : Option String) : Spec.Finite (results other) := by
  refine Set.Finite.subset (Set.toFinite ({"/r", "/r/a-sorcha.log", other.getD "/r"} : Set String)) fun p hp => ?_
  have hp' : results other p ≠ none := hp
  simp only [results] at hp'
  show p = "/r" ∨ p = "/r/a-sorcha.log" ∨ p = other.getD "/r"
  split_ifs at hp' with h1 h2 h3
  · exact .inl h1
  · exact .inr (.inl h2)
  · refine .inr (.inr ?_)
    rw [← h3]; rfl
  · exact absurd rfl hp'

/-- Its only log. -/
theorem results_log {other : Option String} (ho : ∀ q, other = some q → ¬ "sorcha.log".toList <:+ q.toList) (p : String) :
    Spec.IsLog (results other) "/r" p ↔ p = "/r/a-sorcha.log" := by
  constructor
  · rintro ⟨⟨t, ht⟩, -, hs⟩
    simp only [results] at ht
    split_ifs at ht with h1 h2 h3
    · simp at ht
    · exact h2
    · exact absurd hs (ho p h3.symm)
  · rintro rfl
    refine ⟨⟨"start".toList, by simp [results]⟩, ⟨"a-sorcha.log", by decide +kernel⟩, ?_⟩
    exact ⟨"/r/a-".toList, by decide +kernel⟩

/-- A listing that fits the directory shown. -/
theorem lists_results {walk : Walk} (hw : Spec.WalkSound walk) (other : Option String) : Spec.Lists (walk "/r" (results other)) "/r" (results other) :=
  hw _ _ (results_finite other)

/-- The report on that directory has one row, a failed run. -/
theorem results_rows {br : Char → Bool} {other : Option String} (ho : ∀ q, other = some q → ¬ "sorcha.log".toList <:+ q.toList)
    {rows : List LogRow} (h : Spec.Report br (results other) "/r" rows) : ∃ r ∈ rows, r.successful = false := by
  have hmem := (h.logs "/r/a-sorcha.log").2 ((results_log ho _).2 rfl)
  obtain ⟨r, hr, hname⟩ := List.mem_map.1 hmem
  refine ⟨r, hr, ?_⟩
  obtain ⟨text, l, h1, ⟨before, rest, h2, -, -, h4⟩, h3⟩ := h.rows r hr
  rcases h3 with ⟨hs, -, -⟩ | ⟨-, h, -⟩
  · exfalso
    rw [hname] at h1
    have ht : text = "start".toList := by
      have : results other "/r/a-sorcha.log" = some (.file "start".toList) := by simp [results]
      rw [this] at h1
      injection h1 with h1
      injection h1 with h1
      exact h1.symm
    have hlen := hs.length_le
    have hl5 := congrArg List.length (ht.symm.trans h2)
    simp only [List.length_append] at hl5
    have e1 : "start".toList.length = 5 := by decide
    have e2 : "Sorcha process is completed. ".toList.length = 29 := by decide
    omega
  · exact h

/-- `os.path.dirname` for the names used here. -/
def dirnameR : String → String := fun _ => "/r"

/-- The hypotheses of the theorems above can be met, by a directory with a failed run and an old report. -/
example : ∃ walk : Walk, Spec.WalkSound walk ∧ Spec.Finite (results (some "/r/report.csv")) ∧ ".csv".toList <:+ "/r/report.csv".toList ∧
    results (some "/r/report.csv") "/r" = some .dir ∧ results (some "/r/report.csv") (dirnameR "/r/report.csv") = some .dir ∧
    results (some "/r/report.csv") "/r/report.csv" ≠ some .dir ∧ (∃ q, Spec.IsLog (results (some "/r/report.csv")) "/r" q) ∧
    (∀ q, Spec.IsLog (results (some "/r/report.csv")) "/r" q → results (some "/r/report.csv") q ≠ some (.file [])) := by
  have ho : ∀ q, some "/r/report.csv" = some q → ¬ "sorcha.log".toList <:+ q.toList := by
    rintro q ⟨rfl⟩ h
    exact absurd (List.isSuffixOf_iff_suffix.2 h) (by decide +kernel)
  obtain ⟨walk, hw⟩ := exists_walk
  refine ⟨walk, hw, results_finite _, ⟨"/r/report".toList, by decide +kernel⟩, by simp [results], by simp [results, dirnameR], by simp [results],
    ⟨_, (results_log ho _).2 rfl⟩, ?_⟩
  intro q hq
  rw [(results_log ho q).1 hq]
  simp [results]

/-- The report is saved for a directory with a failed run. -/
theorem results_saved {walk : Walk} (hw : Spec.WalkSound walk) {br : Char → Bool}
    (csv : List LogRow → List Char) {other : Option String} (ho : ∀ q, other = some q → ¬ "sorcha.log".toList <:+ q.toList)
    (p : String) (hp : results other p ≠ some .dir) :
    ∃ rows, checkLogs walk br csv "/r" (some p) (results other) =
      ⟨results other :: writing (results other) p (csv rows), .ok .saved, (results other).put p (csv rows)⟩ := by
  rcases checkLogs_cases (br := br) (csv := csv) (lists_results hw other) (some p) with
    ⟨e, -, h1 | ⟨q, h1, h2⟩ | ⟨q, h1, h2⟩⟩ | ⟨rows, hrep, -, ⟨hg, -⟩ | ⟨-, ⟨hx, -⟩ | ⟨p', hp', -, h⟩⟩⟩
  · exact absurd ((results_log ho _).2 rfl) (h1 _)
  · rw [(results_log ho q).1 h1] at h2
    simp [results] at h2
  · cases h1
    exact absurd h2 hp
  · obtain ⟨r, hr, hf⟩ := results_rows ho hrep
    rw [hg r hr] at hf
    cases hf
  · cases hx
  · cases hp'
    exact ⟨rows, h⟩

/-- **C68 fails for names without `.csv`, first part.** Without `--force` an existing `report.csv` is overwritten by `-o report`. -/
theorem C68_overwrite_fails (walk : Walk) (hw : Spec.WalkSound walk) (br : Char → Bool)
    (csv : List LogRow → List Char) : ∃ (d : Disk) (rows : List LogRow), d "/r/report.csv" = some (.file "old".toList) ∧
      (cmdCheckLogs walk br csv dirnameR "/r" (some "/r/report") false d).disk "/r/report.csv" = some (.file (csv rows)) := by
  have ho : ∀ q, some "/r/report.csv" = some q → ¬ "sorcha.log".toList <:+ q.toList := by
    rintro q ⟨rfl⟩ h
    exact absurd (List.isSuffixOf_iff_suffix.2 h) (by decide +kernel)
  obtain ⟨rows, h⟩ := results_saved (br := br) hw csv ho "/r/report.csv" (by simp [results])
  refine ⟨results (some "/r/report.csv"), rows, by simp [results], ?_⟩
  have e1 : (results (some "/r/report.csv")).isDir "/r" = true := by decide +kernel
  have e2 : (results (some "/r/report.csv")).has "/r/report" = false := by decide +kernel
  have e3 : (results (some "/r/report.csv")).isDir "/r/report" = false := by decide +kernel
  have e4 : withSuffix "/r/report" = "/r/report.csv" := by decide +kernel
  simp only [cmdCheckLogs, dirnameR, e1, e2, e3, e4, Bool.not_true, Bool.false_and, Bool.false_eq_true, if_false, h]
  exact put_same _ _ _

/-- **C68 fails for names without `.csv`, second part.** With `--force`, `-o report` deletes the file `report`, though the report goes to `report.csv`. -/
theorem C68_delete_fails (walk : Walk) (hw : Spec.WalkSound walk) (br : Char → Bool)
    (csv : List LogRow → List Char) : ∃ d : Disk, d "/r/report" = some (.file "old".toList) ∧
      (cmdCheckLogs walk br csv dirnameR "/r" (some "/r/report") true d).result = .ok .saved ∧
      (cmdCheckLogs walk br csv dirnameR "/r" (some "/r/report") true d).disk "/r/report" = none := by
  have ho : ∀ q, (none : Option String) = some q → ¬ "sorcha.log".toList <:+ q.toList := by simp
  have hrem : (results (some "/r/report")).remove "/r/report" = results none := by
    funext p
    simp only [Disk.remove, results, Function.update_apply]
    by_cases h : p = "/r/report"
    · subst h; simp
    · simp [h]
  obtain ⟨rows, h⟩ := results_saved (br := br) hw csv ho "/r/report.csv" (by simp [results])
  have e1 : (results (some "/r/report")).isDir "/r" = true := by decide +kernel
  have e2 : (results (some "/r/report")).has "/r/report" = true := by decide +kernel
  have e3 : (results (some "/r/report")).isDir "/r/report" = false := by decide +kernel
  have e4 : withSuffix "/r/report" = "/r/report.csv" := by decide +kernel
  refine ⟨results (some "/r/report"), by simp [results], ?_⟩
  simp only [cmdCheckLogs, dirnameR, e1, e2, e3, e4, Bool.not_true, Bool.and_false, Bool.false_eq_true, if_false, if_true, hrem, h, Ran.after,
    true_and]
  rw [put_other _ _ (by decide)]
  simp [results]

/-- **C68, the old report can be lost.** With `--force` the old report is deleted before the check, even if the check then fails. -/
theorem C68_lost_fails (walk : Walk) (hw : Spec.WalkSound walk) (br : Char → Bool) (csv : List LogRow → List Char) : ∃ d : Disk,
    d "/r/report.csv" = some (.file "old".toList) ∧
    (cmdCheckLogs walk br csv dirnameR "/r" (some "/r/report.csv") true d).result = .error .noLogs ∧
    (cmdCheckLogs walk br csv dirnameR "/r" (some "/r/report.csv") true d).disk "/r/report.csv" = none := by
  let d : Disk := fun p => if p = "/r" then some .dir else if p = "/r/report.csv" then some (.file "old".toList) else none
  have hd : Spec.Finite (d.remove "/r/report.csv") := by
    refine Set.Finite.subset (Set.finite_singleton "/r") fun p hp => ?_
    have hp' : (d.remove "/r/report.csv") p ≠ none := hp
    show p = "/r"
    by_contra h
    apply hp'
    simp only [Disk.remove, Function.update_apply, d]
    by_cases h2 : p = "/r/report.csv"
    · rw [if_pos h2]
    · rw [if_neg h2, if_neg h, if_neg h2]
  have hlogs : findLogs walk "/r" (d.remove "/r/report.csv") = [] := by
    rw [List.eq_nil_iff_forall_not_mem]
    intro p hp
    obtain ⟨⟨t, ht⟩, -, -⟩ := (mem_findLogs (hw _ _ hd) p).1 hp
    simp only [Disk.remove, Function.update_apply, d] at ht
    by_cases h2 : p = "/r/report.csv"
    · rw [if_pos h2] at ht; cases ht
    · rw [if_neg h2] at ht
      by_cases h : p = "/r"
      · rw [if_pos h] at ht; cases ht
      · rw [if_neg h, if_neg h2] at ht; cases ht
  have e1 : d.isDir "/r" = true := by decide +kernel
  have e2 : d.has "/r/report.csv" = true := by decide +kernel
  have e3 : d.isDir "/r/report.csv" = false := by decide +kernel
  refine ⟨d, by simp [d], ?_⟩
  have hc : checkLogs walk br csv "/r" (some (withSuffix "/r/report.csv")) (d.remove "/r/report.csv") =
      ⟨[d.remove "/r/report.csv"], .error .noLogs, d.remove "/r/report.csv"⟩ := by
    rw [checkLogs, if_pos (by rw [hlogs]; rfl)]
  simp only [cmdCheckLogs, dirnameR, e1, e2, e3, Bool.not_true, Bool.and_false, Bool.false_eq_true, if_false, if_true, hc, Ran.after, true_and]
  simp [Disk.remove]

end Sorcha.Setup.Props
