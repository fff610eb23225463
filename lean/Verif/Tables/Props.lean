import Verif.Tables.Lemmas

/-!
# C71: input tables are read by column name, whatever the format and the order of the columns
-/

namespace Sorcha.Tables.Props

open Sorcha.Tables
open Inputs.Spec (Spaced Blank)

variable {V : Type}

/-- A text file is opened exactly if one of its first 102 lines begins with "ObjID", and the first such line, cut at the separator, has at least two
pieces of which one is "ObjID". -/
theorem C71_header (sep : String) (hs : Known sep) (ls : List (List Char)) (h : ℕ) : openFile sep ls = .ok h ↔
    h ≤ 101 ∧ ∃ l ps, FirstAt ls h l ∧ Cut sep l ps ∧ 2 ≤ ps.length ∧ objId ∈ ps := by
  rw [openFile_ok hs]
  constructor
  · rintro ⟨h1, l, h2, h3, h4⟩
    exact ⟨h1, l, cut sep l, h2, (cut_iff hs l _).1 rfl, h3, h4⟩
  · rintro ⟨h1, l, ps, h2, h3, h4, h5⟩
    rw [← (cut_iff hs l ps).2 h3] at h4 h5
    exact ⟨h1, l, h2, h4, h5⟩

/-- Another format than the three is refused. -/
theorem C71_format (sep : String) (hs : ¬ Known sep) (ls : List (List Char)) : openFile sep ls = .error .separator := by
  have hm : sep ∉ ["whitespace", "csv", "comma"] := by
    simpa [Known] using hs
  simp only [openFile, hm, if_false]

/-- A file with a proper header is read: a parameter table has the names of the header without the white space around them; an orbit table has the
pieces of the header as they are. The rows are those of the file. -/
theorem C71_names (fix : List String → List String) (hf : KeepsNames fix) (sep : String) (ls ps : List (List Char)) (ns : List String)
    (h : HasHeader sep ls ps) (hn : Named ps ns) (rows : List (List V)) :
    readParams fix sep ls rows = .ok ⟨ns, rows⟩ ∧ readOrbits fix sep ls rows = .ok ⟨ps.map String.ofList, rows⟩ := read_of hf h hn rows

theorem spaced_pieces {l : List Char} {ps : List (List Char)} (h : Spaced l ps) : ∀ p ∈ ps, p ≠ [] ∧ ∀ c ∈ p, ¬ Blank c := by
  induction h with
  | blank => simp
  | last l w _ hw hb => simpa using ⟨hw, hb⟩
  | word l w b r ws _ hw hb _ _ ih =>
    intro p hp
    rcases List.mem_cons.1 hp with rfl | hp
    exacts [⟨hw, hb⟩, ih p hp]

theorem cut_commas {sep : String} {l : List Char} {ps : List (List Char)} (h : Cut sep l ps) (hs : sep = "csv" ∨ sep = "comma") : Commas l ps := by
  rcases h with ⟨_, h⟩ | ⟨rfl, _⟩
  · exact h
  · exact absurd hs (by decide)

theorem cut_spaced {l : List Char} {ps : List (List Char)} (h : Cut "whitespace" l ps) : Spaced l ps := by
  rcases h with ⟨h, _⟩ | ⟨_, h⟩
  · exact absurd h (by decide)
  · exact h

/-- A piece after the first begins later in the line. -/
theorem commas_later {l p : List Char} {ps : List (List Char)} (h : Commas l (p :: ps)) {q : List Char} (hq : q ∈ ps) : ∃ a b, l = a ++ q ++ b ∧ a ≠ [] := by
  obtain ⟨-, -, rfl⟩ := h
  induction ps generalizing p with
  | nil => simp at hq
  | cons r rs ih =>
    rw [List.intercalate_cons_cons]
    rcases List.mem_cons.1 hq with rfl | hq
    · cases rs with
      | nil => exact ⟨p ++ [','], [], by simp [List.intercalate], by simp⟩
      | cons s ss => exact ⟨p ++ [','], [','] ++ [','].intercalate (s :: ss), by rw [List.intercalate_cons_cons]; simp, by simp⟩
    · obtain ⟨a, b, hab, _⟩ := ih (p := r) hq
      exact ⟨p ++ [','] ++ a, b, by rw [hab]; simp, by simp⟩

theorem spaced_occurs {l : List Char} {ws : List (List Char)} (h : Spaced l ws) : ∀ q ∈ ws, ∃ a b, l = a ++ q ++ b ∧ (b = [] ∨ ∃ c r, b = c :: r ∧ Blank c) := by
  induction h with
  | blank => simp
  | last l w _ _ _ =>
    intro q hq
    obtain rfl : q = w := by simpa using hq
    exact ⟨l, [], by simp, Or.inl rfl⟩
  | word l w b r ws _ _ _ hs _ ih =>
    intro q hq
    rcases List.mem_cons.1 hq with rfl | hq
    · exact ⟨l, b :: r, rfl, Or.inr ⟨b, r, rfl, hs⟩⟩
    · obtain ⟨a, b', hab, hb⟩ := ih q hq
      exact ⟨l ++ w ++ b :: a, b', by rw [hab]; simp, hb⟩

/-- A file cannot be read in a wrong format: if "ObjID" is nowhere but at the beginning of lines, a file that is opened as white-space separated is
refused as comma separated, and the other way round. -/
theorem C71_wrong_format (ls : List (List Char)) (ho : ∀ l ∈ ls, ∀ a b, l = a ++ objId ++ b → a = []) (sep : String) (hs : sep = "csv" ∨ sep = "comma") :
    ¬ ((∃ h, openFile "whitespace" ls = .ok h) ∧ ∃ h, openFile sep ls = .ok h) := by
  rintro ⟨⟨h1, hw⟩, h2, hc⟩
  obtain ⟨-, l, ws, hfl, hcw, -, how⟩ := (C71_header "whitespace" (Or.inl rfl) ls h1).1 hw
  obtain ⟨-, l', ps, hfl', hcc, hlen, hoc⟩ := (C71_header sep (Or.inr hs) ls h2).1 hc
  have h12 : h1 = h2 := by
    rcases Nat.lt_trichotomy h1 h2 with hlt | he | hlt
    · exact absurd hfl.2.1 (hfl'.2.2 h1 hlt l hfl.1)
    · exact he
    · exact absurd hfl'.2.1 (hfl.2.2 h2 hlt l' hfl'.1)
  subst h12
  have hll : l' = l := Option.some.inj (hfl'.1.symm.trans hfl.1)
  subst hll
  have ho' := ho l' (List.mem_of_getElem? hfl.1)
  have hC := cut_commas hcc hs
  match ps, hlen, hoc, hC with
  | p :: q :: qs, _, hoc, hC =>
    have hp : p = objId := by
      rcases List.mem_cons.1 hoc with h | h
      · exact h.symm
      · obtain ⟨a, b, hab, ha⟩ := commas_later hC h
        exact absurd (ho' a b hab) ha
    subst hp
    obtain ⟨-, -, hl⟩ := hC
    rw [List.intercalate_cons_cons] at hl
    obtain ⟨a, b, hab, hb⟩ := spaced_occurs (cut_spaced hcw) objId how
    have ha := ho' a b hab
    subst ha
    rw [hl] at hab
    have : [','] ++ [','].intercalate (q :: qs) = b := by
      have h' : objId ++ ([','] ++ [','].intercalate (q :: qs)) = objId ++ b := by simpa using hab
      exact List.append_cancel_left h'
    rcases hb with rfl | ⟨c, r, rfl, hcb⟩
    · simp at this
    · have hcc : c = ',' := by
        have := List.head_eq_of_cons_eq this
        exact this.symm
      subst hcc
      exact absurd hcb (by unfold Blank; decide)

/-- The columns of an ephemeris file are acceptable. -/
def Acceptable (ns : List String) : Prop :=
  (∀ n ∈ documentedEphemeris, n ∈ ns) ∧ ∀ n ∈ ns, n ∈ documentedEphemeris ∨ n ∈ ignoredEphemeris

theorem ephemCols_eq : ephemCols = documentedEphemeris := rfl

theorem drop_ns (ns : List String) (n : String) : n ∈ ns.filter (· ∉ ["V", "V(H=0)"]) ↔ n ∈ ns ∧ n ≠ "V" ∧ n ≠ "V(H=0)" := by
  simp [List.mem_filter]

theorem documented_ne : ∀ n ∈ documentedEphemeris, n ≠ "V" ∧ n ≠ "V(H=0)" := by decide

theorem process_bad {ns : List String} (rows : List (List V)) (hs : ns.map Config.strip = ns)
    (hb : ∃ n ∈ ns, n ∉ documentedEphemeris ∧ n ∉ ignoredEphemeris) : processEphem (⟨ns, rows⟩ : Frame V) = .error .badEphemeris := by
  have hst : stripNames (⟨ns, rows⟩ : Frame V) = ⟨ns, rows⟩ := by simp only [stripNames, hs]
  simp only [processEphem, hst]
  obtain ⟨n, h1, h2, h3⟩ := hb
  rw [← ephemCols_eq] at h2
  have h3' : n ≠ "V" ∧ n ≠ "V(H=0)" ∧ n ≠ "fieldJD_TDB" := by simpa [ignoredEphemeris] using h3
  have hm : n ∈ (dropCols ["V", "V(H=0)"] (⟨ns, rows⟩ : Frame V)).names := (drop_ns ns n).2 ⟨h1, h3'.1, h3'.2.1⟩
  have hsame : ¬ sameNames (dropCols ["V", "V(H=0)"] (⟨ns, rows⟩ : Frame V)).names ephemCols = true := by
    intro hh
    simp only [sameNames, Bool.and_eq_true, List.all_eq_true, decide_eq_true_eq] at hh
    exact h2 (hh.1 n hm)
  rw [if_neg hsame, if_pos]
  rw [List.any_eq_true]
  exact ⟨n, hm, decide_eq_true ⟨h2, by simpa using h3'.2.2⟩⟩

theorem process_good {ns : List String} (rows : List (List V)) (hs : ns.map Config.strip = ns)
    (hb : ∀ n ∈ ns, n ∈ documentedEphemeris ∨ n ∈ ignoredEphemeris) :
    processEphem (⟨ns, rows⟩ : Frame V) = select documentedEphemeris (dropCols ["V", "V(H=0)"] ⟨ns, rows⟩) := by
  have hst : stripNames (⟨ns, rows⟩ : Frame V) = ⟨ns, rows⟩ := by simp only [stripNames, hs]
  simp only [processEphem, hst]
  split
  · rfl
  · rw [if_neg]
    · rfl
    · intro hh
      rw [List.any_eq_true] at hh
      obtain ⟨n, hm, hd⟩ := hh
      have hd' := of_decide_eq_true hd
      have hm' := (drop_ns ns n).1 hm
      rcases hb n hm'.1 with h | h
      · exact hd'.1 h
      · have h3 : n = "V" ∨ n = "V(H=0)" ∨ n = "fieldJD_TDB" := by simpa [ignoredEphemeris] using h
        rcases h3 with h3 | h3 | h3
        · exact hm'.2.1 h3
        · exact hm'.2.2 h3
        · exact hd'.2 (by simp [h3])

theorem dropped_at {ns : List String} {row : List V} (hl : row.length = ns.length) (n : String) (v : V) (h : n ≠ "V" ∧ n ≠ "V(H=0)") :
    At (ns.filter (· ∉ ["V", "V(H=0)"])) (((ns.zip row).filter fun p => p.1 ∉ ["V", "V(H=0)"]).map (·.2)) n v ↔ At ns row n v := by
  rw [at_iff, at_iff, zip_filter (fun x => decide (x ∉ ["V", "V(H=0)"])) ns row hl, List.mem_filter]
  simp [h]

theorem select_dropped {ns : List String} (hn : ns.Nodup) (rows : List (List V)) (hr : ∀ r ∈ rows, r.length = ns.length) (hd : ∀ n ∈ documentedEphemeris, n ∈ ns) :
    ∃ rows', select documentedEphemeris (dropCols ["V", "V(H=0)"] ⟨ns, rows⟩) = .ok ⟨documentedEphemeris, rows'⟩ ∧
      List.Forall₂ (Cells ns documentedEphemeris) rows rows' := by
  have hn' : (ns.filter (· ∉ ["V", "V(H=0)"])).Nodup := hn.filter _
  have hm : ∀ n ∈ documentedEphemeris, n ∈ ns.filter (· ∉ ["V", "V(H=0)"]) := fun n h => (drop_ns ns n).2 ⟨hd n h, documented_ne n h⟩
  have hall : (documentedEphemeris.all fun n => n ∈ (dropCols ["V", "V(H=0)"] (⟨ns, rows⟩ : Frame V)).names) = true := by
    rw [List.all_eq_true]
    intro n h
    exact decide_eq_true (hm n h)
  refine ⟨(rows.map fun r => ((ns.zip r).filter fun p => p.1 ∉ ["V", "V(H=0)"]).map (·.2)).map fun r =>
      documentedEphemeris.flatMap fun n => (((ns.filter (· ∉ ["V", "V(H=0)"])).zip r).filter fun p => p.1 = n).map (·.2), ?_, ?_⟩
  · simp only [select]
    rw [if_pos hall]
    simp only [dropCols]
    rw [select_names hn' hm]
  · rw [List.map_map]
    rw [List.forall₂_map_right_iff]
    refine List.forall₂_same.2 fun r hrr => ?_
    have hlen := hr r hrr
    have hl := zip_filter_length (fun x => decide (x ∉ ["V", "V(H=0)"])) ns r hlen
    have := select_row hn' hl hm
    rw [Function.comp_apply]
    unfold Cells at this ⊢
    rw [List.forall₂_iff_get] at this ⊢
    refine ⟨this.1, fun i h1 h2 => ?_⟩
    exact (dropped_at hlen _ _ (documented_ne _ (List.get_mem _ _))).1 (this.2 i h1 h2)

/-- An ephemeris in a text file is accepted exactly if all documented columns are there and no others than those that may be ignored; the result
has the documented columns in the documented order, and in every row under every name the value the file has under that name. -/
theorem C71_ephemeris (fix : List String → List String) (hf : KeepsNames fix) (sep : String) (ls ps : List (List Char)) (ns : List String)
    (h : HasHeader sep ls ps) (hn : Named ps ns) (rows : List (List V)) (hr : ∀ r ∈ rows, r.length = ns.length) (f : Frame V) :
    readEphem fix sep ls rows = .ok f ↔ Acceptable ns ∧ f.names = documentedEphemeris ∧
      List.Forall₂ (fun row row' => List.Forall₂ (fun n v => At ns row n v) documentedEphemeris row') rows f.rows := by
  have hp := (read_of hf h hn rows).1
  have he : readEphem fix sep ls rows = processEphem ⟨ns, rows⟩ := by simp only [readEphem, hp, Except.bind, bind]
  rw [he]
  by_cases hb : ∃ n ∈ ns, n ∉ documentedEphemeris ∧ n ∉ ignoredEphemeris
  · rw [process_bad rows (named_idem hn) hb]
    simp only [reduceCtorEq, false_iff]
    rintro ⟨⟨_, ha⟩, _⟩
    obtain ⟨n, h1, h2, h3⟩ := hb
    exact (ha n h1).elim h2 h3
  · have hg : ∀ n ∈ ns, n ∈ documentedEphemeris ∨ n ∈ ignoredEphemeris := by
      intro n h1
      by_contra hno
      push Not at hno
      exact hb ⟨n, h1, hno⟩
    rw [process_good rows (named_idem hn) hg]
    by_cases hd : ∀ n ∈ documentedEphemeris, n ∈ ns
    · obtain ⟨rows', hsel, hcells⟩ := select_dropped hn.2.1 rows hr hd
      rw [hsel]
      constructor
      · intro hh
        simp only [Except.ok.injEq] at hh
        subst hh
        exact ⟨⟨hd, hg⟩, rfl, hcells⟩
      · rintro ⟨_, h1, h2⟩
        have : rows' = f.rows := by
          have hu : ∀ (a : List (List V)) (b c : List (List V)), List.Forall₂ (Cells ns documentedEphemeris) a b →
              List.Forall₂ (fun row row' => List.Forall₂ (fun n v => At ns row n v) documentedEphemeris row') a c → b = c := by
            intro a b c hb hc
            induction hb generalizing c with
            | nil => cases hc; rfl
            | cons hx _ ih =>
              cases hc with
              | cons hy hc' => rw [cells_unique hn.2.1 hx hy, ih _ hc']
          exact hu _ _ _ hcells h2
        cases f
        simp only at h1 this
        rw [h1, this]
    · constructor
      · intro hh
        simp only [select] at hh
        split at hh
        · rename_i hall
          rw [List.all_eq_true] at hall
          refine absurd (fun n h1 => ?_) hd
          exact ((drop_ns ns n).1 (of_decide_eq_true (hall n h1))).1
        · simp at hh
      · rintro ⟨⟨ha, _⟩, _⟩
        exact absurd ha hd

/-- What happens to the other ephemeris files: a column that is neither documented nor to be ignored stops the run with a message; a missing column,
without a superfluous one, ends in a Python exception. -/
theorem C71_ephemeris_refused (fix : List String → List String) (hf : KeepsNames fix) (sep : String) (ls ps : List (List Char)) (ns : List String)
    (h : HasHeader sep ls ps) (hn : Named ps ns) (rows : List (List V)) :
    ((∃ n ∈ ns, n ∉ documentedEphemeris ∧ n ∉ ignoredEphemeris) → readEphem fix sep ls rows = .error .badEphemeris) ∧
    ((∀ n ∈ ns, n ∈ documentedEphemeris ∨ n ∈ ignoredEphemeris) → (∃ n ∈ documentedEphemeris, n ∉ ns) → readEphem fix sep ls rows = .error .key) := by
  have hp := (read_of hf h hn rows).1
  have he : readEphem fix sep ls rows = processEphem ⟨ns, rows⟩ := by simp only [readEphem, hp, Except.bind, bind]
  rw [he]
  constructor
  · exact process_bad rows (named_idem hn)
  · intro ha hd
    rw [process_good rows (named_idem hn) ha]
    have hall : ¬ (documentedEphemeris.all fun n => n ∈ (dropCols ["V", "V(H=0)"] (⟨ns, rows⟩ : Frame V)).names) = true := by
      rw [List.all_eq_true]
      intro hall
      obtain ⟨n, h1, h2⟩ := hd
      exact h2 ((drop_ns ns n).1 (of_decide_eq_true (hall n h1))).1
    simp only [select]
    rw [if_neg hall]

/-- Neither the order of the columns, nor the format, nor blanks around the names, nor text before the header, nor columns to be ignored change
what is read: two ephemeris files that have the same values under the documented names give the same table. -/
theorem C71_order (fix : List String → List String) (hf : KeepsNames fix) (sep sep' : String) (ls ls' ps ps' : List (List Char)) (ns ns' : List String)
    (h : HasHeader sep ls ps) (h' : HasHeader sep' ls' ps') (hn : Named ps ns) (hn' : Named ps' ns') (rows rows' : List (List V))
    (hr : ∀ r ∈ rows, r.length = ns.length) (hr' : ∀ r ∈ rows', r.length = ns'.length) (ha : Acceptable ns) (ha' : Acceptable ns')
    (hv : List.Forall₂ (fun r r' => ∀ n ∈ documentedEphemeris, ∀ v, At ns r n v ↔ At ns' r' n v) rows rows') :
    ∃ f, readEphem fix sep ls rows = .ok f ∧ readEphem fix sep' ls' rows' = .ok f := by
  obtain ⟨out, hsel, hc⟩ := select_dropped hn.2.1 rows hr ha.1
  refine ⟨⟨documentedEphemeris, out⟩, (C71_ephemeris fix hf sep ls ps ns h hn rows hr _).2 ⟨ha, rfl, hc⟩,
    (C71_ephemeris fix hf sep' ls' ps' ns' h' hn' rows' hr' _).2 ⟨ha', rfl, ?_⟩⟩
  show List.Forall₂ _ rows' out
  clear hr hr' hsel
  induction hv generalizing out with
  | nil => cases hc; exact .nil
  | cons hx _ ih =>
    cases hc with
    | cons hy hc' =>
      refine .cons ?_ (ih _ hc')
      unfold Cells at hy
      rw [List.forall₂_iff_get] at hy ⊢
      exact ⟨hy.1, fun i h1 h2 => (hx _ (List.get_mem _ _) _).1 (hy.2 i h1 h2)⟩

end Sorcha.Tables.Props
