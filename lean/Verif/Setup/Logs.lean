import Verif.Setup.Templates
import Verif.Cli.Props
import Mathlib.Data.String.Basic

/-!
# C68: the report of `sorcha outputs check-logs`
-/

namespace Sorcha.Setup

theorem splitGo_lastLine (br : Char → Bool) (s acc l : List Char) (hacc : ∀ c ∈ acc, br c = false)
    (h : (Cli.splitGo br acc s).getLast? = some l) : Spec.LastLine br (acc.reverse ++ s) l := by
  induction s generalizing acc with
  | nil =>
    rw [Cli.splitGo] at h
    cases acc with
    | nil => simp at h
    | cons c acc =>
      simp only [List.isEmpty_cons, Bool.false_eq_true, if_false, List.getLast?_singleton, Option.some.injEq] at h
      subst h
      exact ⟨[], [], by simp, fun x hx => hacc x (List.mem_reverse.1 hx), .inl rfl, .inl ⟨rfl, by simp⟩⟩
  | cons c s ih =>
    rw [Cli.splitGo] at h
    by_cases hb : br c = true
    · rw [if_pos hb] at h
      cases s with
      | nil =>
        simp only [Cli.splitGo, List.isEmpty_nil, if_true, List.getLast?_singleton, Option.some.injEq] at h
        subst h
        exact ⟨[], [c], by simp, by simpa using hacc, .inl rfl, .inr ⟨c, hb, rfl⟩⟩
      | cons e s =>
        obtain ⟨m, hm⟩ := Cli.Props.splitlines_ne br (e :: s) (by simp)
        rw [Cli.splitlines] at hm
        have hl : (Cli.splitGo br [] (e :: s)).getLast? = some l := by
          rcases hx : Cli.splitGo br [] (e :: s) with _ | ⟨x, xs⟩
          · rw [hx] at hm; simp at hm
          · rw [hx, List.getLast?_cons_cons] at h
            exact h
        obtain ⟨before, rest, h1, h2, h3, h4⟩ := ih [] (by simp) hl
        refine ⟨acc.reverse ++ [c] ++ before, rest, ?_, h2, .inr ?_, h4⟩
        · simp only [List.reverse_nil, List.nil_append] at h1
          rw [h1]; simp
        · rcases h3 with rfl | ⟨b, c', rfl, hc'⟩
          · exact ⟨acc.reverse, c, by simp, hb⟩
          · exact ⟨acc.reverse ++ [c] ++ b, c', by simp, hc'⟩
    · rw [if_neg hb] at h
      have := ih (c :: acc) (by
        intro x hx
        rcases List.mem_cons.1 hx with rfl | hx
        · simpa using hb
        · exact hacc x hx) h
      simpa using this

/-- What is said about one log. -/
theorem checkLog_row (br : Char → Bool) (text : List Char) (r : Bool × List Char) (h : Cli.checkLog br text = .ok r) :
    ∃ l, Spec.LastLine br text l ∧ (("Sorcha process is completed. ".toList <:+ l ∧ r = (true, [' '])) ∨
      (¬ "Sorcha process is completed. ".toList <:+ l ∧ r = (false, l))) := by
  rw [Cli.checkLog] at h
  rcases hl : (Cli.splitlines br text).getLast? with _ | l
  · rw [hl] at h; simp at h
  · rw [hl] at h
    refine ⟨l, by simpa using splitGo_lastLine br text [] l (by simp) hl, ?_⟩
    simp only at h
    by_cases hc : l.drop (l.length - 29) = Cli.completion
    · rw [if_pos hc] at h
      exact .inl ⟨(Cli.Props.drop_iff l).1 hc, (Except.ok.inj h).symm⟩
    · rw [if_neg hc] at h
      exact .inr ⟨fun h' => hc ((Cli.Props.drop_iff l).2 h'), (Except.ok.inj h).symm⟩

theorem join_toList (dir name : String) : ∃ a, (join dir name).toList = a ++ '/' :: name.toList := by
  rw [join]
  by_cases h : dir.toList.getLast? = some '/'
  · rw [if_pos h]
    obtain ⟨a, ha⟩ := List.getLast?_eq_some_iff.1 h
    exact ⟨a, by rw [String.toList_append, ha]; simp⟩
  · rw [if_neg h]
    exact ⟨dir.toList, by rw [String.toList_append, String.toList_append]; simp⟩

/-- Whether a path ends with `sorcha.log` is decided by the name of the file. -/
theorem log_suffix (dir name : String) : isLogName name = true ↔ "sorcha.log".toList <:+ (join dir name).toList := by
  obtain ⟨a, ha⟩ := join_toList dir name
  rw [ha, isLogName, List.isSuffixOf_iff_suffix]
  constructor
  · intro h
    exact h.trans ⟨a ++ ['/'], by simp⟩
  · intro h
    rcases List.suffix_or_suffix_of_suffix h ⟨a, rfl⟩ with h' | h'
    · rcases List.suffix_cons_iff.1 h' with h'' | h''
      · exact absurd (congrArg List.head? h'') (by simp)
      · exact h''
    · have : '/' ∈ "sorcha.log".toList := h'.subset (by simp)
      exact absurd this (by decide)

variable {walk : Walk} {br : Char → Bool} {csv : List LogRow → List Char} {dirname : String → String} {root : String} {d : Disk}

theorem mem_findLogs (hw : Spec.Lists (walk root d) root d) (p : String) : p ∈ findLogs walk root d ↔ Spec.IsLog d root p := by
  simp only [findLogs, List.mem_insertionSort, List.mem_flatMap, List.mem_map, List.mem_filter]
  constructor
  · rintro ⟨e, he, name, ⟨hn, hl⟩, rfl⟩
    obtain ⟨h1, h2⟩ := (hw.files (join e.1 name)).1 ⟨e, he, name, hn, rfl⟩
    exact ⟨h1, h2, (log_suffix _ _).1 hl⟩
  · rintro ⟨h1, h2, h3⟩
    obtain ⟨e, he, name, hn, rfl⟩ := (hw.files p).2 ⟨h1, h2⟩
    exact ⟨e, he, name, ⟨hn, (log_suffix _ _).2 h3⟩, rfl⟩

theorem findLogs_sorted (hw : Spec.Lists (walk root d) root d) : (findLogs walk root d).Pairwise (· < ·) := by
  have h1 : (findLogs walk root d).Pairwise (· ≤ ·) := List.pairwise_insertionSort _ _
  have h2 : (findLogs walk root d).Nodup := by
    rw [findLogs, (List.perm_insertionSort _ _).nodup_iff]
    refine hw.once.sublist ?_
    generalize walk root d = l
    induction l with
    | nil => simp
    | cons e l ih =>
      simp only [List.flatMap_cons]
      exact List.Sublist.append (List.filter_sublist.map _) ih
  exact (h1.and h2).imp fun h => lt_of_le_of_ne h.1 h.2

theorem zip_names (logs : List String) (rs : List (Bool × List Char)) (h : logs.length = rs.length) :
    ((logs.zip rs).map fun e => (⟨e.1, e.2.1, e.2.2⟩ : LogRow)).map (·.filename) = logs := by
  induction logs generalizing rs with
  | nil => simp
  | cons l logs ih =>
    cases rs with
    | nil => simp at h
    | cons r rs =>
      have := ih rs (by simpa using h)
      simpa using this

theorem logTable_report (hw : Spec.Lists (walk root d) root d) {rows : List LogRow}
    (h : logTable br (findLogs walk root d) d = .ok rows) : Spec.Report br d root rows := by
  rw [logTable] at h
  rcases hc : Cli.checkAllLogs br ((findLogs walk root d).map d.text) with e | rs
  · rw [hc] at h; simp at h
  · rw [hc] at h
    simp only [Except.ok.injEq] at h
    have hall := Cli.Props.C43_all br _ _ hc
    have hlen : (findLogs walk root d).length = rs.length := by
      have := hall.length_eq
      simpa using this
    have hnames : rows.map (·.filename) = findLogs walk root d := by rw [← h]; exact zip_names _ _ hlen
    refine ⟨fun p => by rw [hnames]; exact mem_findLogs hw p, by rw [hnames]; exact findLogs_sorted hw, ?_⟩
    intro r hr
    rw [← h] at hr
    obtain ⟨e, he, rfl⟩ := List.mem_map.1 hr
    have hmem : e.1 ∈ findLogs walk root d := (List.of_mem_zip (a := e.1) (b := e.2) he).1
    obtain ⟨t, ht⟩ := ((mem_findLogs hw e.1).1 hmem).1
    have hck : Cli.checkLog br (d.text e.1) = .ok e.2 := by
      rw [List.forall₂_map_left_iff, List.forall₂_iff_zip] at hall
      exact hall.2 he
    have htext : d.text e.1 = t := by rw [Disk.text, ht]
    rw [htext] at hck
    obtain ⟨l, hl, hcase⟩ := checkLog_row br t e.2 hck
    refine ⟨t, l, ht, hl, ?_⟩
    rcases hcase with ⟨h1, h2⟩ | ⟨h1, h2⟩
    · exact .inl ⟨h1, by simp [h2], by simp [h2]⟩
    · exact .inr ⟨h1, by simp [h2], by simp [h2]⟩

/-- No table is made only if a log is empty. -/
theorem logTable_error (hw : Spec.Lists (walk root d) root d) {e : Err} (h : logTable br (findLogs walk root d) d = .error e) :
    ∃ p, Spec.IsLog d root p ∧ d p = some (.file []) := by
  rw [logTable] at h
  by_contra hn
  push Not at hn
  have hne : ∀ t ∈ (findLogs walk root d).map d.text, t ≠ [] := by
    intro t ht
    obtain ⟨p, hp, rfl⟩ := List.mem_map.1 ht
    have hlog := (mem_findLogs hw p).1 hp
    obtain ⟨t, ht⟩ := hlog.1
    rw [Disk.text, ht]
    rintro rfl
    exact hn p hlog ht
  have hok : ∀ l : List (List Char), (∀ t ∈ l, t ≠ []) → ∃ rs, Cli.checkAllLogs br l = .ok rs := by
    intro l
    induction l with
    | nil => intro _; exact ⟨[], rfl⟩
    | cons t l ih =>
      intro ht
      obtain ⟨rs, hrs⟩ := ih fun t' h' => ht t' (List.mem_cons_of_mem _ h')
      obtain ⟨m, hm⟩ := Cli.Props.splitlines_ne br t (ht t (by simp))
      have : ∃ r, Cli.checkLog br t = .ok r := by
        rw [Cli.checkLog, hm]
        simp only
        split_ifs <;> exact ⟨_, rfl⟩
      obtain ⟨r, hr⟩ := this
      refine ⟨r :: rs, ?_⟩
      rw [Cli.checkAllLogs] at hrs ⊢
      rw [List.mapM_cons, hr, hrs]
      rfl
  obtain ⟨rs, hrs⟩ := hok _ hne
  rw [hrs] at h
  simp at h

/-- Everything about the check itself. -/
theorem checkLogs_cases (hw : Spec.Lists (walk root d) root d) (output : Option String) :
    (∃ e, checkLogs walk br csv root output d = ⟨[d], .error e, d⟩ ∧
      ((∀ p, ¬ Spec.IsLog d root p) ∨ (∃ p, Spec.IsLog d root p ∧ d p = some (.file [])) ∨ ∃ p, output = some p ∧ d p = some .dir)) ∨
    (∃ rows, Spec.Report br d root rows ∧ rows ≠ [] ∧
      (((∀ r ∈ rows, r.successful = true) ∧ checkLogs walk br csv root output d = ⟨[d], .ok .allGood, d⟩) ∨
        ((∃ r ∈ rows, r.successful = false) ∧
          ((output = none ∧ checkLogs walk br csv root output d = ⟨[d], .ok (.printed (rows.filter fun r => !r.successful)), d⟩) ∨
            ∃ p, output = some p ∧ d p ≠ some .dir ∧
              checkLogs walk br csv root output d = ⟨d :: writing d p (csv rows), .ok .saved, d.put p (csv rows)⟩)))) := by
  rw [checkLogs]
  by_cases h0 : (findLogs walk root d).isEmpty = true
  · rw [if_pos h0]
    refine .inl ⟨_, rfl, .inl fun p hp => ?_⟩
    rw [List.isEmpty_iff] at h0
    have := (mem_findLogs hw p).2 hp
    rw [h0] at this
    simp at this
  · rw [if_neg h0]
    rcases ht : logTable br (findLogs walk root d) d with e | rows
    · exact .inl ⟨e, rfl, .inr (.inl (logTable_error hw ht))⟩
    · have hrep := logTable_report hw ht
      have hne : rows ≠ [] := by
        rintro rfl
        have hl : findLogs walk root d = [] := by
          rw [List.eq_nil_iff_forall_not_mem]
          intro p hp
          have := (hrep.logs p).2 ((mem_findLogs hw p).1 hp)
          simp at this
        rw [hl] at h0
        simp at h0
      simp only
      by_cases h1 : (rows.filter fun r => !r.successful).isEmpty = true
      · rw [if_pos h1]
        refine .inr ⟨rows, hrep, hne, .inl ⟨fun r hr => ?_, rfl⟩⟩
        rw [List.isEmpty_iff] at h1
        by_contra hr'
        have : r ∈ rows.filter fun r => !r.successful := by
          rw [List.mem_filter]
          exact ⟨hr, by simpa using hr'⟩
        rw [h1] at this
        simp at this
      · rw [if_neg h1]
        have hex : ∃ r ∈ rows, r.successful = false := by
          rw [List.isEmpty_iff, ← ne_eq, List.ne_nil_iff_exists_cons] at h1
          obtain ⟨r, t, hr⟩ := h1
          have : r ∈ rows.filter fun r => !r.successful := by rw [hr]; simp
          rw [List.mem_filter] at this
          exact ⟨r, this.1, by simpa using this.2⟩
        cases output with
        | none => exact .inr ⟨rows, hrep, hne, .inr ⟨hex, .inl ⟨rfl, rfl⟩⟩⟩
        | some p =>
          simp only
          by_cases h2 : d.isDir p = true
          · rw [if_pos h2]
            exact .inl ⟨_, rfl, .inr (.inr ⟨p, rfl, isDir_of.1 h2⟩)⟩
          · rw [if_neg h2]
            exact .inr ⟨rows, hrep, hne, .inr ⟨hex, .inr ⟨p, rfl, fun h => h2 (isDir_of.2 h), rfl⟩⟩⟩

/-- Removing a file that is not a log changes neither the logs nor the report. -/
theorem report_remove {p : String} (hp : ".csv".toList <:+ p.toList) {rows : List LogRow} (h : Spec.Report br (d.remove p) root rows) :
    Spec.Report br d root rows := by
  have hother : ∀ q, "sorcha.log".toList <:+ q.toList → (d.remove p) q = d q := by
    intro q hq
    rw [Disk.remove, Function.update_of_ne]
    rintro rfl
    have h1 := hp.reverse
    have h2 := hq.reverse
    obtain ⟨a, ha⟩ := h1
    obtain ⟨b, hb⟩ := h2
    have := congrArg List.head? (ha.trans hb.symm)
    simp at this
  have hlog : ∀ q, Spec.IsLog (d.remove p) root q ↔ Spec.IsLog d root q := by
    intro q
    simp only [Spec.IsLog, Spec.FileAt]
    constructor
    · rintro ⟨h1, h2, h3⟩
      rw [hother q h3] at h1
      exact ⟨h1, h2, h3⟩
    · rintro ⟨h1, h2, h3⟩
      rw [← hother q h3] at h1
      exact ⟨h1, h2, h3⟩
  refine ⟨fun q => by rw [h.logs, hlog], h.sorted, fun r hr => ?_⟩
  obtain ⟨t, l, h1, h2, h3⟩ := h.rows r hr
  refine ⟨t, l, ?_, h2, h3⟩
  have : Spec.IsLog (d.remove p) root r.filename := (h.logs _).1 (List.mem_map_of_mem hr)
  rw [hother _ this.2.2] at h1
  exact h1

theorem islog_remove {p q : String} (hp : ".csv".toList <:+ p.toList) : Spec.IsLog (d.remove p) root q ↔ Spec.IsLog d root q := by
  have hother : "sorcha.log".toList <:+ q.toList → (d.remove p) q = d q := by
    intro hq
    rw [Disk.remove, Function.update_of_ne]
    rintro rfl
    obtain ⟨a, ha⟩ := hp.reverse
    obtain ⟨b, hb⟩ := hq.reverse
    have := congrArg List.head? (ha.trans hb.symm)
    simp at this
  simp only [Spec.IsLog, Spec.FileAt]
  constructor
  · rintro ⟨h1, h2, h3⟩
    rw [hother h3] at h1
    exact ⟨h1, h2, h3⟩
  · rintro ⟨h1, h2, h3⟩
    rw [← hother h3] at h1
    exact ⟨h1, h2, h3⟩

theorem finite_remove (hd : Spec.Finite d) (p : String) : Spec.Finite (d.remove p) := by
  refine Set.Finite.subset hd fun q hq => ?_
  simp only [Set.mem_ofPred_eq, Disk.remove] at hq ⊢
  by_cases h : q = p
  · subst h; simp at hq
  · rwa [Function.update_of_ne h] at hq

theorem withSuffix_csv {p : String} (hp : ".csv".toList <:+ p.toList) : withSuffix p = p := by
  rw [withSuffix, if_pos (List.isSuffixOf_iff_suffix.2 hp)]

end Sorcha.Setup
