import Verif.Argv.Lemmas
import Mathlib.Data.List.Forall2

/-!
# Lemmas: the names and values of `Spec.lean` are those of the parser
-/

namespace Sorcha.Argv
open Spec

variable {D : Type} {T : Table D}

/-! ## Negative numbers and values -/

theorem isDigit_iff (c : Char) : isDigit c = true ↔ '0' ≤ c ∧ c ≤ '9' := by simp [isDigit]

/-- A negative number without line break. -/
theorem negative_core (r : Str) : (match r.dropWhile isDigit with
      | [] => !r.isEmpty
      | '.' :: ds => !ds.isEmpty && ds.all isDigit
      | _ => false) = true ↔
    ∃ whole frac : Str, (∀ c ∈ whole ++ frac, '0' ≤ c ∧ c ≤ '9') ∧ frac ≠ [] ∧ (r = frac ∨ r = whole ++ '.' :: frac) := by
  constructor
  · intro h
    have hw : ∀ c ∈ r.takeWhile isDigit, '0' ≤ c ∧ c ≤ '9' := fun c hc => (isDigit_iff c).1 (List.mem_takeWhile_imp hc)
    have hs := List.takeWhile_append_dropWhile (p := isDigit) (l := r)
    cases hd : r.dropWhile isDigit with
    | nil =>
      rw [hd] at h hs
      simp at h hs
      refine ⟨[], r, ?_, h, .inl rfl⟩
      simp only [List.nil_append]
      intro c hc
      exact (isDigit_iff c).1 (hs c hc)
    | cons c ds =>
      rw [hd] at h hs
      split at h
      · rename_i heq; cases heq
      · rename_i ds' heq
        injection heq with h1 h2
        subst h1; subst h2
        simp at h
        refine ⟨r.takeWhile isDigit, ds, ?_, h.1, .inr hs.symm⟩
        intro c hc
        rcases List.mem_append.1 hc with hc | hc
        · exact hw c hc
        · exact (isDigit_iff c).1 (h.2 c hc)
      · cases h
  · rintro ⟨whole, frac, hd, hf, rfl | rfl⟩
    · have : r.dropWhile isDigit = [] := by
        rw [List.dropWhile_eq_nil_iff]
        intro c hc
        exact (isDigit_iff c).2 (hd c (by simp [hc]))
      rw [this]
      simp [hf]
    · have : (whole ++ '.' :: frac).dropWhile isDigit = '.' :: frac := by
        rw [List.dropWhile_append_of_pos]
        · rw [List.dropWhile_cons, if_neg]
          decide
        · intro c hc
          exact (isDigit_iff c).2 (hd c (by simp [hc]))
      rw [this]
      simp only [hf, Bool.and_eq_true, Bool.not_eq_true', List.isEmpty_eq_false_iff, ne_eq, not_false_eq_true, List.all_eq_true, true_and]
      intro c hc
      exact (isDigit_iff c).2 (hd c (by simp [hc]))

theorem negative_iff (v : Str) : negative v = true ↔ Negative v := by
  have key : ∀ t : Str, (match t with
      | '-' :: r => (match r.dropWhile isDigit with
        | [] => !r.isEmpty
        | '.' :: ds => !ds.isEmpty && ds.all isDigit
        | _ => false)
      | _ => false) = true ↔ ∃ whole frac : Str, (∀ c ∈ whole ++ frac, '0' ≤ c ∧ c ≤ '9') ∧ frac ≠ [] ∧ (t = '-' :: frac ∨ t = '-' :: whole ++ '.' :: frac) := by
    intro t
    split
    · rename_i r
      rw [negative_core]
      simp
    · rename_i h
      constructor
      · intro h; cases h
      · rintro ⟨w, f, _, _, rfl | rfl⟩
        · exact absurd rfl (h f)
        · exact absurd rfl (h (w ++ '.' :: f))
  have hlast : ∀ (w f : Str) , (∀ c ∈ w ++ f, '0' ≤ c ∧ c ≤ '9') → f ≠ [] → ('-' :: f).getLast? ≠ some '\n' ∧ ('-' :: w ++ '.' :: f).getLast? ≠ some '\n' := by
    intro w f hd hf
    have h1 : f.getLast? ≠ some '\n' := by
      intro h
      have := hd _ (List.mem_append_right w (List.mem_of_getLast? h))
      exact absurd this (by decide)
    constructor
    · rw [List.getLast?_cons]
      cases f with
      | nil => exact absurd rfl hf
      | cons c f => rw [List.getLast?_cons] at h1 ⊢; simpa using h1
    · rw [List.getLast?_append, List.getLast?_cons]
      cases f with
      | nil => exact absurd rfl hf
      | cons c f => rw [List.getLast?_cons] at h1 ⊢; simpa using h1
  unfold negative
  refine (key _).trans ?_
  constructor
  · rintro ⟨w, f, hd, hf, h⟩
    by_cases hv : v.getLast? = some '\n'
    · rw [if_pos hv] at h
      have hv' : v.dropLast ++ ['\n'] = v := by
        have hne : v ≠ [] := by rintro rfl; cases hv
        have := List.dropLast_append_getLast hne
        rw [List.getLast?_eq_some_getLast hne] at hv
        injection hv with hv
        rw [hv] at this
        exact this
      refine ⟨w, f, ['\n'], hd, hf, .inr rfl, ?_⟩
      rcases h with h | h
      · left; rw [← hv', h]
      · right; rw [← hv', h]
    · rw [if_neg hv] at h
      exact ⟨w, f, [], hd, hf, .inl rfl, by simpa using h⟩
  · rintro ⟨w, f, b, hd, hf, rfl | rfl, h⟩
    · refine ⟨w, f, hd, hf, ?_⟩
      have := hlast w f hd hf
      simp only [List.append_nil] at h
      rcases h with rfl | rfl
      · rw [if_neg this.1]; exact .inl rfl
      · rw [if_neg]
        · right; simp
        · simpa using this.2
    · refine ⟨w, f, hd, hf, ?_⟩
      rcases h with rfl | rfl
      · left
        rw [if_pos (by simp [List.getLast?_append, List.getLast?_cons])]
        have : '-' :: f ++ ['\n'] = ('-' :: f) ++ ['\n'] := rfl
        rw [this, List.dropLast_concat]
      · right
        rw [if_pos (by simp [List.getLast?_append, List.getLast?_cons])]
        have : '-' :: w ++ '.' :: f ++ ['\n'] = ('-' :: w ++ '.' :: f) ++ ['\n'] := rfl
        rw [this, List.dropLast_concat]

theorem prefix_eq {n v : Str} (hn : '=' ∉ n) (h : v = n ∨ n ++ ['='] <+: v) : beforeEq v = n := by
  rcases h with rfl | ⟨t, rfl⟩
  · exact beforeEq_no hn
  · rw [List.append_assoc]; exact beforeEq_append hn

/-- The values of `Spec.lean` are the plain arguments. -/
theorem value_iff (hT : Good T) {all : List String} (hall : T.map Prod.fst = all.map String.toList) {v : Str} :
    Value all v ↔ classify T v = .ok .arg := by
  have hmem : ∀ n : Str, (∃ e ∈ T, e.1 = n) ↔ ∃ m ∈ all, m.toList = n := by
    intro n
    have : n ∈ T.map Prod.fst ↔ n ∈ all.map String.toList := by rw [hall]
    simpa [List.mem_map] using this
  rw [classify_arg hT]
  unfold Value
  by_cases h0 : v.head? = some '-'
  swap
  · simp [h0]
  by_cases h1 : v = ['-']
  · simp [h1]
  have h2 : ∃ c r, v = '-' :: c :: r := by
    match v, h0, h1 with
    | [c], h0, h1 => simp at h0; simp [h0] at h1
    | c :: d :: r, h0, _ => simp at h0; exact ⟨d, r, by rw [h0]⟩
  simp only [h0, ne_eq, not_true_eq_false, h1, false_or, negative_iff, h2, true_and]
  apply and_congr_right
  intro _
  unfold NoOption
  apply and_congr
  · constructor
    · intro h c rest hv hc e he heq
      obtain ⟨m, hm, hm'⟩ := (hmem ['-', c]).1 ⟨e, he, heq⟩
      apply h c rest hv hc
      rw [← hm', String.ofList_toList]
      exact hm
    · intro h c rest hv hc hm
      obtain ⟨e, he, heq⟩ := (hmem ['-', c]).2 ⟨_, hm, by simp⟩
      exact h c rest hv hc e he heq
  · constructor
    · intro h rest hv e he hp
      obtain ⟨m, hm, hm'⟩ := (hmem e.1).1 ⟨e, he, rfl⟩
      rw [← hm'] at hp
      have h3 : beforeEq v = '-' :: '-' :: beforeEq rest := by rw [hv, beforeEq_cons (by decide), beforeEq_cons (by decide)]
      refine h (beforeEq v) (by rw [h3]; simp) (beforeEq_mem v) ⟨beforeEq rest, by rw [h3]; rfl⟩ ?_ m hm hp
      by_cases hin : '=' ∈ v
      · right
        exact ⟨afterEq v, by rw [List.append_assoc]; exact (split_eq hin).symm⟩
      · left; exact (beforeEq_no hin).symm
    · intro h n hn hne hl hv m hm hp
      have hb := prefix_eq hne hv
      obtain ⟨t, rfl⟩ := hl
      obtain ⟨e, he, heq⟩ := (hmem m.toList).2 ⟨m, hm, rfl⟩
      obtain ⟨rest, hr⟩ : ∃ rest, v = '-' :: '-' :: rest := by
        rcases hv with rfl | ⟨u, rfl⟩
        · exact ⟨t, rfl⟩
        · exact ⟨t ++ ['='] ++ u, rfl⟩
      exact h rest hr e he (by rw [hb, heq]; exact hp)

end Sorcha.Argv
