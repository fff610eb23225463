import Verif.Ids.Lemmas

/-!
# Property C82: which object IDs are read unchanged

`F` stands for reading texts as floating-point numbers and printing these; what is assumed of it is `Spec.Floats`.
-/

namespace Sorcha.Ids.Props

open Spec Readers

theorem word_plain {F : String → Option String} (hF : Floats F) {s : String} (h : Word s) :
    (pandas F).missing s = false ∧ (pandas F).int? s = none ∧ (pandas F).float? s = none ∧ (pandas F).bool? s = none := by
  obtain ⟨⟨c, hc, hn⟩, h1, h2, h3⟩ := h
  refine ⟨?_, ?_, ?_, ?_⟩
  · rw [Bool.eq_false_iff]
    exact fun hm => h1 ((missing_iff s).1 hm)
  · cases hw : whole? s.toList with
    | none => simp only [pandas, hw, Option.map_none]
    | some n => exact absurd (whole_numeric hw c hc) hn
  · cases hf : F s with
    | none => exact hf
    | some t =>
      rcases hF.chars s t hf with h | h
      · exact absurd (h c hc) hn
      · exact absurd h h3
  · cases hb : truth? s with
    | none => exact hb
    | some t => exact absurd ((truth_iff s).1 (by rw [hb]; rfl)) h2

theorem number_kind {s : String} (h : PlainNumber s) (F : String → Option String) :
    (pandas F).missing s = false ∧ (pandas F).int? s = some s ∧ (pandas F).bool? s = none := by
  obtain ⟨n, hp, hn⟩ := h
  have hw := plain_whole hp hn
  have e := plain_str hp
  refine ⟨?_, ?_, ?_⟩
  · rw [Bool.eq_false_iff]
    intro hm
    have hchars : ∀ c ∈ s.toList, c = '-' ∨ (Seed.digit? c).isSome = true := by rw [e]; exact str_chars n
    have hne : s.toList ≠ [] := by
      rw [e]; unfold Seed.str; split
      · simp
      · exact Seed.decimal_ne _
    rcases (missing_iff s).1 hm with rfl | rfl | rfl | rfl | rfl | rfl | rfl | rfl | rfl | rfl | rfl | rfl | rfl | rfl | rfl | rfl | rfl | rfl | rfl
    · exact hne rfl
    all_goals exact absurd hchars (by decide +kernel)
  · simp only [pandas, hw, Option.map_some, ← e]
    exact congrArg some (String.ofList_toList)
  · cases hb : truth? s with
    | none => exact hb
    | some t =>
      obtain ⟨⟨c, hc, hnum⟩, -, -⟩ := truth_special ((truth_iff s).1 (by rw [hb]; rfl))
      exact absurd (whole_numeric hw c hc) hnum

/-- C82 (ordinary IDs): IDs that are ordinary words or plainly written whole numbers, in any mixture, are read unchanged: as one column, and in every part of it that is
read on its own (a block of rows, the rows of some objects, another file with the same IDs in another order). They meet the condition of the other properties. -/
theorem C82_ordinary {F : String → Option String} (hF : Floats F) {ids : List String} (h : ∀ s ∈ ids, Word s ∨ PlainNumber s) :
    Readers.Spec.Stable (pandas F) ids ∧ ∀ col : List String, (∀ s ∈ col, s ∈ ids) → inferIds (pandas F) col = col := by
  have hst : Readers.Spec.Stable (pandas F) ids := by
    refine ⟨fun s hs => ?_, fun s _ _ t ht => ?_⟩
    · rcases h s hs with hw | hp
      · obtain ⟨h1, h2, h3, h4⟩ := word_plain hF hw
        refine ⟨fun hm => ?_, fun _ => ⟨fun t ht => ?_, fun t _ ht => ?_, fun t ht => ?_⟩⟩
        · rw [h1] at hm; cases hm
        · rw [h2] at ht; cases ht
        · rw [h3] at ht; cases ht
        · rw [h4] at ht; cases ht
      · obtain ⟨h1, h2, h4⟩ := number_kind hp F
        refine ⟨fun hm => ?_, fun _ => ⟨fun t ht => ?_, fun t hi _ => ?_, fun t ht => ?_⟩⟩
        · rw [h1] at hm; cases hm
        · rw [h2] at ht; exact (Option.some.inj ht).symm
        · rw [h2] at hi; cases hi
        · rw [h4] at ht; cases ht
    · rcases h t ht with hw | hp
      · obtain ⟨h1, h2, h3, h4⟩ := word_plain hF hw
        exact ⟨h1, fun hf => by have := hf.2.2; rw [h3] at this; cases this⟩
      · obtain ⟨h1, h2, h4⟩ := number_kind hp F
        exact ⟨h1, fun hf => by have := hf.2.1; rw [h2] at this; cases this⟩
  exact ⟨hst, fun col hc => inferIds_stable _ _ (Stable.sub hst hc)⟩

/-- C82 (exactly these): the condition of the other properties is the same as: however the IDs are put together into columns, they are read unchanged. -/
theorem C82_exact {F : String → Option String} (hF : Floats F) (ids : List String) :
    Readers.Spec.Stable (pandas F) ids ↔ ∀ col : List String, (∀ s ∈ col, s ∈ ids) → inferIds (pandas F) col = col := by
  constructor
  · intro h col hc
    exact inferIds_stable _ _ (Stable.sub h hc)
  · intro h
    have h1 : ∀ s ∈ ids, inferIds (pandas F) [s] = [s] := fun s hs => h [s] (by simpa using hs)
    have hpr : ∀ s ∈ ids, Readers.Spec.Printed (pandas F) s := by
      intro s hs
      have e := h1 s hs
      refine ⟨fun hm => ?_, fun hm => ⟨fun t ht => ?_, fun t hi ht => ?_, fun t ht => ?_⟩⟩
      · simp only [inferIds, List.filter_cons, hm, List.any_cons, Bool.not_true, Bool.false_eq_true, if_false, List.filter_nil, List.all_nil, if_true, Bool.true_or,
          List.map_cons, List.map_nil, IdParse.cell] at e
        exact (List.cons.inj e).1.symm
      · simp only [inferIds, List.filter_cons, hm, List.any_cons, Bool.not_false, if_true, List.filter_nil, List.all_cons, List.all_nil, Bool.and_true, ht,
          Option.isSome_some, Bool.false_or, List.any_nil, Bool.false_eq_true, if_false, List.map_cons, List.map_nil, IdParse.cell, Option.getD_some] at e
        exact (List.cons.inj e).1
      · simp only [inferIds, List.filter_cons, hm, Bool.not_false, if_true, List.filter_nil, List.all_cons, List.all_nil, Bool.and_true, ht, hi,
          Option.isSome_some, Option.isSome_none, Bool.false_eq_true, if_false, List.map_cons, List.map_nil, IdParse.cell, Option.getD_some] at e
        exact (List.cons.inj e).1
      · obtain ⟨⟨c, hc, hnum⟩, hinf, -⟩ := truth_special ((truth_iff s).1 (show (truth? s).isSome = true by rw [show truth? s = some t from ht]; rfl))
        have hi : (pandas F).int? s = none := by
          cases hw : whole? s.toList with
          | none => simp only [pandas, hw, Option.map_none]
          | some n => exact absurd (whole_numeric hw c hc) hnum
        have hf : (pandas F).float? s = none := by
          cases hf : F s with
          | none => exact hf
          | some t =>
            rcases hF.chars s t hf with h | h
            · exact absurd (h c hc) hnum
            · exact absurd h hinf
        simp only [inferIds, List.filter_cons, hm, Bool.not_false, if_true, List.filter_nil, List.all_cons, List.all_nil, Bool.and_true, ht, hi, hf,
          Option.isSome_some, Option.isSome_none, Bool.false_eq_true, if_false, List.map_cons, List.map_nil, IdParse.cell, Option.getD_some] at e
        exact (List.cons.inj e).1
    refine ⟨hpr, ?_⟩
    intro s hs hw t ht
    -- in a column of fractions, the whole number would be printed otherwise
    have hne : (pandas F).cell (pandas F).float? s ≠ s := by
      obtain ⟨hm, hi⟩ := hw
      obtain ⟨k, hk⟩ := Option.isSome_iff_exists.1 hi
      have hks := ((hpr s hs).2 hm).1 k hk
      obtain ⟨n, hn, e⟩ := Option.map_eq_some_iff.1 hk
      have hstr : s.toList = Seed.str n := by rw [← hks, ← e, String.toList_ofList]
      obtain ⟨u, hu⟩ := Option.isSome_iff_exists.1 (hF.whole s n (by rw [hstr]; exact Seed.str_plain n) (whole_small hn))
      obtain ⟨c, hc, hdash, hdig⟩ := hF.shown s u hu
      unfold IdParse.cell
      rw [if_neg (by rw [hm]; simp), show (pandas F).float? s = some u from hu, Option.getD_some]
      rintro rfl
      rw [hstr] at hc
      rcases str_chars n c hc with h | h
      · exact hdash h
      · obtain ⟨d, hd⟩ := digit_some h
        exact hdig d hd
    have e := h [s, t] (by
      intro x hx
      rcases List.mem_cons.1 hx with rfl | hx
      · exact hs
      · rw [List.mem_singleton.1 hx]; exact ht)
    obtain ⟨hm, hi⟩ := hw
    by_cases htm : (pandas F).missing t = true
    · simp only [inferIds, List.filter_cons, hm, htm, Bool.not_false, Bool.not_true, if_true, Bool.false_eq_true, if_false, List.filter_nil, List.all_cons, List.all_nil,
        Bool.and_true, hi, List.any_cons, Bool.true_or, Bool.or_true, List.map_cons] at e
      exact absurd (List.cons.inj e).1 hne
    · rw [Bool.not_eq_true] at htm
      refine ⟨htm, fun hfr => ?_⟩
      obtain ⟨-, hti, htf⟩ := hfr
      have hsf : ((pandas F).float? s).isSome = true := by
        obtain ⟨k, hk⟩ := Option.isSome_iff_exists.1 hi
        have hks := ((hpr s hs).2 hm).1 k hk
        obtain ⟨n, hn, e⟩ := Option.map_eq_some_iff.1 hk
        have hstr : s.toList = Seed.str n := by rw [← hks, ← e, String.toList_ofList]
        exact hF.whole s n (by rw [hstr]; exact Seed.str_plain n) (whole_small hn)
      simp only [inferIds, List.filter_cons, hm, htm, hti, htf, hsf, Bool.not_false, if_true, List.filter_nil, List.all_cons, List.all_nil, Option.isSome_none,
        Bool.and_true, Bool.and_false, Bool.false_eq_true, if_false, hi, List.map_cons] at e
      exact absurd (List.cons.inj e).1 hne

/-- C82 (a word among them): a column with an ordinary word among its IDs is read unchanged, but for the words for missing values, which all become `nan`. -/
theorem C82_text {F : String → Option String} (hF : Floats F) (col : List String) {w : String} (hw : w ∈ col) (h : Word w) [DecidablePred Missing] :
    inferIds (pandas F) col = col.map fun s => if Missing s then "nan" else s := by
  obtain ⟨h1, h2, h3, h4⟩ := word_plain hF h
  have hmem : w ∈ col.filter fun s => !(pandas F).missing s := List.mem_filter.2 ⟨hw, by simp [h1]⟩
  have hnot : ∀ kind : String → Option String, kind w = none → ((col.filter fun s => !(pandas F).missing s).all fun s => (kind s).isSome) ≠ true := by
    intro kind hk hall
    have := List.all_eq_true.1 hall w hmem
    rw [hk] at this
    cases this
  unfold inferIds
  simp only
  rw [if_neg (hnot _ h2), if_neg (hnot _ h3), if_neg (hnot _ h4)]
  apply List.map_congr_left
  intro s _
  unfold IdParse.cell
  by_cases hs : Missing s
  · rw [if_pos hs, if_pos (show (pandas F).missing s = true from (missing_iff s).2 hs)]
  · rw [if_neg hs, if_neg (fun hc : (pandas F).missing s = true => hs ((missing_iff s).1 hc))]
    rfl

/-- C82 (whole numbers): a column of whole numbers, however written, is read as their plain writings: IDs that stand for the same number become the same ID. -/
theorem C82_numbers (F : String → Option String) {col : List String} (h : ∀ s ∈ col, ∃ n, StandsFor s n) :
    List.Forall₂ (fun s t => ∃ n, StandsFor s n ∧ Seed.Spec.Plain t.toList n) col (inferIds (pandas F) col) := by
  have hall : ∀ s ∈ col, (pandas F).missing s = false ∧ ∃ n, StandsFor s n ∧ (pandas F).int? s = some (String.ofList (Seed.str n)) := by
    intro s hs
    obtain ⟨n, hn⟩ := h s hs
    have hw := stands_whole hn
    refine ⟨?_, n, hn, by simp only [pandas, hw, Option.map_some]⟩
    rw [Bool.eq_false_iff]
    intro hm
    rcases missing_word ((missing_iff s).1 hm) with rfl | ⟨c, hc, hnum⟩
    · obtain ⟨a, b, d, e, m, e1, -, -, hd, -⟩ := hn
      have : ([] : List Char) = a ++ b ++ d ++ e := e1
      simp at this
      exact hd this.2.2.1
    · exact hnum (whole_numeric hw c hc)
  have e : inferIds (pandas F) col = col.map ((pandas F).cell (pandas F).int?) := by
    unfold inferIds
    simp only
    rw [if_pos, if_neg]
    · intro hany
      obtain ⟨s, hs, hm⟩ := List.any_eq_true.1 hany
      rw [(hall s hs).1] at hm; cases hm
    · rw [List.all_eq_true]
      intro s hs
      obtain ⟨-, n, -, hi⟩ := hall s (List.mem_filter.1 hs).1
      rw [hi]; rfl
  rw [e]
  clear e h
  induction col with
  | nil => exact .nil
  | cons s l ih =>
    refine .cons ?_ (ih fun x hx => hall x (List.mem_cons_of_mem _ hx))
    obtain ⟨hm, n, hn, hi⟩ := hall s (by simp)
    refine ⟨n, hn, ?_⟩
    unfold IdParse.cell
    rw [if_neg (by rw [hm]; simp), hi, Option.getD_some, String.toList_ofList]
    exact Seed.str_plain n

/-! ## IDs that are altered -/

/-- The words for missing values become one ID, and the spellings of a truth value become one ID if nothing else is read with them. -/
theorem C82_words_fails {F : String → Option String} (hF : Floats F) :
    inferIds (pandas F) ["NA", "null", "A1"] = ["nan", "nan", "A1"] ∧ inferIds (pandas F) ["TRUE", "true"] = ["True", "True"] := by
  have hno : ∀ s : String, (∃ c ∈ s.toList, ¬ Numeric c) → s.toList.map Char.toLower ∉ ["inf".toList, "+inf".toList, "-inf".toList, "infinity".toList,
      "+infinity".toList, "-infinity".toList] → F s = none := by
    intro s ⟨c, hc, hn⟩ hi
    cases hf : F s with
    | none => rfl
    | some t =>
      rcases hF.chars s t hf with h | h
      · exact absurd (h c hc) hn
      · exact absurd (infinite_cases h) hi
  have h1 : (pandas F).float? "A1" = none := hno "A1" (by decide +kernel) (by decide +kernel)
  have h2 : (pandas F).float? "TRUE" = none := hno "TRUE" (by decide +kernel) (by decide +kernel)
  have m1 : (pandas F).missing "NA" = true := show naTexts.contains "NA" = true by decide +kernel
  have m2 : (pandas F).missing "null" = true := show naTexts.contains "null" = true by decide +kernel
  have m3 : (pandas F).missing "A1" = false := show naTexts.contains "A1" = false by decide +kernel
  have m4 : (pandas F).missing "TRUE" = false := show naTexts.contains "TRUE" = false by decide +kernel
  have m5 : (pandas F).missing "true" = false := show naTexts.contains "true" = false by decide +kernel
  have i1 : (pandas F).int? "A1" = none := show (whole? "A1".toList).map (fun n : ℤ => String.ofList (Seed.str n)) = none by decide +kernel
  have i2 : (pandas F).int? "TRUE" = none := show (whole? "TRUE".toList).map (fun n : ℤ => String.ofList (Seed.str n)) = none by decide +kernel
  have b1 : (pandas F).bool? "A1" = none := show truth? "A1" = none by decide +kernel
  have b2 : (pandas F).bool? "TRUE" = some "True" := show truth? "TRUE" = some "True" by decide +kernel
  have b3 : (pandas F).bool? "true" = some "True" := show truth? "true" = some "True" by decide +kernel
  constructor
  · simp [inferIds, IdParse.cell, m1, m2, m3, i1, h1, b1]
  · simp [inferIds, IdParse.cell, m4, m5, i2, h2, b2, b3]

/-- C82 (truth values): a column of truth values, however written, is read as `True` and `False`. -/
theorem C82_truths {F : String → Option String} (hF : Floats F) {col : List String}
    (h : ∀ s ∈ col, s ∈ ["True", "TRUE", "true"] ∨ s ∈ ["False", "FALSE", "false"]) :
    inferIds (pandas F) col = col.map fun s => if s ∈ ["True", "TRUE", "true"] then "True" else "False" := by
  have hno : ∀ s : String, (∃ c ∈ s.toList, ¬ Numeric c) → s.toList.map Char.toLower ∉ ["inf".toList, "+inf".toList, "-inf".toList, "infinity".toList,
      "+infinity".toList, "-infinity".toList] → F s = none := by
    intro s ⟨c, hc, hn⟩ hi
    cases hf : F s with
    | none => rfl
    | some t =>
      rcases hF.chars s t hf with h | h
      · exact absurd (h c hc) hn
      · exact absurd (infinite_cases h) hi
  have hs : ∀ s ∈ col, (pandas F).missing s = false ∧ (pandas F).int? s = none ∧ (pandas F).float? s = none ∧
      (pandas F).bool? s = some (if s ∈ ["True", "TRUE", "true"] then "True" else "False") := by
    intro s hs
    have := h s hs
    simp only [List.mem_cons, List.not_mem_nil, or_false] at this
    refine ⟨?_, ?_, ?_, ?_⟩
    · show naTexts.contains s = false
      rcases this with (rfl | rfl | rfl) | (rfl | rfl | rfl) <;> decide +kernel
    · show (whole? s.toList).map (fun n : ℤ => String.ofList (Seed.str n)) = none
      rcases this with (rfl | rfl | rfl) | (rfl | rfl | rfl) <;> decide +kernel
    · show F s = none
      rcases this with (rfl | rfl | rfl) | (rfl | rfl | rfl) <;> exact hno _ (by decide +kernel) (by decide +kernel)
    · show truth? s = _
      rcases this with (rfl | rfl | rfl) | (rfl | rfl | rfl) <;> decide +kernel
  cases col with
  | nil => simp [inferIds]
  | cons a l =>
    have hv : ((a :: l).filter fun s => !(pandas F).missing s) = a :: l := by
      rw [List.filter_eq_self]
      intro s hs'
      rw [(hs s hs').1]
      rfl
    have ha := hs a (by simp)
    unfold inferIds
    simp only [hv]
    rw [if_neg (by simp [ha.2.1]), if_neg (by simp [ha.2.2.1]), if_pos]
    · apply List.map_congr_left
      intro s hs'
      simp only [IdParse.cell, (hs s hs').1, (hs s hs').2.2.2, Bool.false_eq_true, if_false, Option.getD_some]
    · rw [List.all_eq_true]
      intro s hs'
      rw [(hs s hs').2.2.2]
      rfl

example {F : String → Option String} (hF : Floats F) : inferIds (pandas F) ["true", "FALSE", "True"] = ["True", "False", "True"] := by
  rw [C82_truths hF (by decide)]
  decide +kernel

/-- Whole numbers with leading zeros lose them, and may become equal, if nothing but whole numbers is read with them. -/
theorem C82_zeros_fails (F : String → Option String) : inferIds (pandas F) ["007", "7"] = ["7", "7"] ∧ inferIds (pandas F) ["007"] = ["7"] := by
  have m1 : (pandas F).missing "007" = false := show naTexts.contains "007" = false by decide +kernel
  have m2 : (pandas F).missing "7" = false := show naTexts.contains "7" = false by decide +kernel
  have i1 : (pandas F).int? "007" = some "7" := show (whole? "007".toList).map (fun n : ℤ => String.ofList (Seed.str n)) = some "7" by decide +kernel
  have i2 : (pandas F).int? "7" = some "7" := show (whole? "7".toList).map (fun n : ℤ => String.ofList (Seed.str n)) = some "7" by decide +kernel
  constructor <;> simp [inferIds, IdParse.cell, m1, m2, i1, i2]

/-- A plain whole number is altered (`1` to `1.0`) if it is read together with a fraction or with a missing value, but not without. -/
theorem C82_fraction_fails {F : String → Option String} (hF : Floats F) (h : F "2.5" = some "2.5") :
    inferIds (pandas F) ["1"] = ["1"] ∧ inferIds (pandas F) ["2.5"] = ["2.5"] ∧
      ∃ t, t ≠ "1" ∧ inferIds (pandas F) ["1", "2.5"] = [t, "2.5"] ∧ inferIds (pandas F) ["1", "NA"] = [t, "nan"] := by
  have hp : Seed.Spec.Plain "1".toList 1 := ⟨[], ['1'], 1, rfl, Seed.Spec.Reads.snoc (d := 1) .nil rfl, by simp, by decide, Or.inr ⟨by omega, rfl, rfl⟩⟩
  obtain ⟨t, ht⟩ := Option.isSome_iff_exists.1 (hF.whole "1" 1 hp (by decide))
  have m1 : (pandas F).missing "1" = false := show naTexts.contains "1" = false by decide +kernel
  have m2 : (pandas F).missing "2.5" = false := show naTexts.contains "2.5" = false by decide +kernel
  have m3 : (pandas F).missing "NA" = true := show naTexts.contains "NA" = true by decide +kernel
  have i1 : (pandas F).int? "1" = some "1" := show (whole? "1".toList).map (fun n : ℤ => String.ofList (Seed.str n)) = some "1" by decide +kernel
  have i2 : (pandas F).int? "2.5" = none := show (whole? "2.5".toList).map (fun n : ℤ => String.ofList (Seed.str n)) = none by decide +kernel
  have f1 : (pandas F).float? "1" = some t := ht
  have f2 : (pandas F).float? "2.5" = some "2.5" := h
  refine ⟨by simp [inferIds, IdParse.cell, m1, i1], by simp [inferIds, IdParse.cell, m2, i2, f2], t, ?_, ?_, ?_⟩
  · rintro rfl
    obtain ⟨c, hc, -, hd⟩ := hF.shown _ _ ht
    have : c = '1' := by simpa using hc
    exact hd 1 (by rw [this]; rfl)
  · simp [inferIds, IdParse.cell, m1, m2, i1, i2, f1, f2]
  · simp [inferIds, IdParse.cell, m1, m3, i1, f1]

/-! ## Examples -/

/-- A small case of reading and printing floating-point numbers. -/
def demoF (s : String) : Option String :=
  match whole? s.toList with
  | some n => some (String.ofList (Seed.str n ++ ".0".toList))
  | none => if s = "2.5" then some "2.5" else if s = "inf" ∨ s = "Infinity" then some "inf" else none

theorem demo_floats : Floats demoF where
  chars s t h := by
    unfold demoF at h
    split at h
    · rename_i n hn; exact Or.inl (whole_numeric hn)
    · split at h
      · rename_i e; left; rw [e]; decide +kernel
      · split at h
        · rename_i e
          right
          rcases e with rfl | rfl
          · exact ⟨[], "inf".toList, by decide +kernel, Or.inl rfl, Or.inl rfl⟩
          · exact ⟨[], "infinity".toList, by decide +kernel, Or.inl rfl, Or.inr rfl⟩
        · cases h
  whole s n h hn := by
    unfold demoF
    rw [plain_whole h hn]
    rfl
  shown s t h := by
    have hpt : ∀ d, ¬ Seed.Spec.Digit '.' d := fun d hd => by
      have : '.' ∈ "0123456789".toList := List.mem_of_getElem? hd
      exact absurd this (by decide)
    have hpi : ∀ d, ¬ Seed.Spec.Digit 'i' d := fun d hd => by
      have : 'i' ∈ "0123456789".toList := List.mem_of_getElem? hd
      exact absurd this (by decide)
    unfold demoF at h
    split at h
    · refine ⟨'.', ?_, by decide, hpt⟩
      rw [← Option.some.inj h, String.toList_ofList, List.mem_append]
      right; decide
    · split at h
      · exact ⟨'.', by rw [← Option.some.inj h]; decide, by decide, hpt⟩
      · split at h
        · exact ⟨'i', by rw [← Option.some.inj h]; decide, by decide, hpi⟩
        · cases h

/-- IDs of the demo catalogues, a numbered asteroid, and words that look like numbers or special words. -/
def demoIds : List String := ["S1000000a", "2011 QF99", "433", "-5", "0", "Nan1", "TrUe", "1e5x", "information"]

theorem word_of {s : String} (h1 : ∃ c ∈ s.toList, ¬ Numeric c) (h2 : naTexts.contains s = false) (h3 : truth? s = none)
    (h4 : s.toList.map Char.toLower ∉ ["inf".toList, "+inf".toList, "-inf".toList, "infinity".toList, "+infinity".toList, "-infinity".toList]) : Word s :=
  ⟨h1, fun hc => Bool.false_ne_true (h2.symm.trans ((missing_iff s).2 hc)), fun hc => Bool.false_ne_true ((congrArg Option.isSome h3).symm.trans ((truth_iff s).2 hc)),
    fun hc => h4 (infinite_cases hc)⟩

example : ∀ s ∈ demoIds, Word s ∨ PlainNumber s := by
  intro s hs
  simp only [demoIds, List.mem_cons, List.not_mem_nil, or_false] at hs
  rcases hs with rfl | rfl | rfl | rfl | rfl | rfl | rfl | rfl | rfl
  · exact Or.inl (word_of (by decide +kernel) (by decide +kernel) (by decide +kernel) (by decide +kernel))
  · exact Or.inl (word_of (by decide +kernel) (by decide +kernel) (by decide +kernel) (by decide +kernel))
  · exact Or.inr ⟨433, by rw [show "433".toList = Seed.str 433 by decide +kernel]; exact Seed.str_plain 433, by decide⟩
  · exact Or.inr ⟨-5, by rw [show "-5".toList = Seed.str (-5) by decide +kernel]; exact Seed.str_plain (-5), by decide⟩
  · exact Or.inr ⟨0, by rw [show "0".toList = Seed.str 0 by decide +kernel]; exact Seed.str_plain 0, by decide⟩
  all_goals exact Or.inl (word_of (by decide +kernel) (by decide +kernel) (by decide +kernel) (by decide +kernel))

/-- `C82_exact` and `C82_fraction_fails` apply: these IDs are not stable. -/
example : ¬ Readers.Spec.Stable (pandas demoF) ["1", "2.5"] := by
  rw [C82_exact demo_floats]
  intro h
  obtain ⟨-, -, t, hne, e, -⟩ := C82_fraction_fails demo_floats (by decide +kernel)
  rw [h _ fun _ => id] at e
  exact hne (List.cons.inj e).1.symm

example : ∀ s ∈ [" +007 ", "-0", "433"], ∃ n, StandsFor s n := by
  intro s hs
  simp only [List.mem_cons, List.not_mem_nil, or_false] at hs
  rcases hs with rfl | rfl | rfl
  · exact ⟨7, [' '], ['+'], "007".toList, [' '], 7, rfl, by simp [Seed.Spec.Blank], by simp [Seed.Spec.Blank], by decide,
      (Seed.reads_iff _ _).2 (by decide +kernel), by decide, Or.inr ⟨Or.inl rfl, rfl⟩⟩
  · exact ⟨0, [], ['-'], ['0'], [], 0, rfl, by simp, by simp, by decide, (Seed.reads_iff _ _).2 (by decide +kernel), by decide, Or.inl ⟨rfl, rfl⟩⟩
  · exact ⟨433, [], [], "433".toList, [], 433, rfl, by simp, by simp, by decide, (Seed.reads_iff _ _).2 (by decide +kernel), by decide, Or.inr ⟨Or.inr rfl, rfl⟩⟩

end Sorcha.Ids.Props
