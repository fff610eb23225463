import Verif.Ids.Model
import Verif.Ids.Spec
import Verif.Seed.Lemmas
import Verif.Readers.Lemmas
import Mathlib.Data.List.Induction

/-!
# Lemmas: whole numbers and special words
-/

namespace Sorcha.Ids

open Spec

theorem missing_iff (s : String) : naTexts.contains s = true ↔ Missing s := by
  simp only [naTexts, List.contains_iff_mem, List.mem_cons, List.not_mem_nil, or_false, Missing]
  tauto

theorem truth_iff (s : String) : (truth? s).isSome = true ↔ Truth s := by
  unfold truth? Truth
  split
  · rename_i h; simp; tauto
  · split
    · rename_i h; simp; tauto
    · simp; tauto

theorem foldl_push (l : List Char) (a : ℕ × ℕ) :
    l.foldl (fun (n : ℕ) (c : Char) => 10 * n + (Seed.digit? c).getD 0) a.1 = (l.foldl Seed.push a).1 := by
  induction l generalizing a with
  | nil => rfl
  | cons c l ih => rw [List.foldl_cons, List.foldl_cons, ← ih]; rfl

theorem digits_iff (cs : List Char) (m : ℕ) : digits? cs = some m ↔ cs ≠ [] ∧ Seed.Spec.Reads cs m := by
  unfold digits?
  rw [Seed.reads_iff, foldl_push cs (0, 0)]
  constructor
  · intro h
    split at h
    · rename_i h1
      exact ⟨h1.1, fun c hc => List.all_eq_true.1 h1.2 c hc, (Option.some.inj h).symm⟩
    · cases h
  · rintro ⟨h1, h2, rfl⟩
    rw [if_pos ⟨h1, List.all_eq_true.2 h2⟩]

theorem reads_digit {l : List Char} {m : ℕ} (h : Seed.Spec.Reads l m) : ∀ c ∈ l, (Seed.digit? c).isSome = true := ((Seed.reads_iff l m).1 h).1

theorem digit_some {c : Char} (h : (Seed.digit? c).isSome = true) : ∃ d, Seed.Spec.Digit c d := by
  obtain ⟨d, hd⟩ := Option.isSome_iff_exists.1 h
  exact ⟨d, Seed.digit_iff.1 hd⟩

theorem digit_numeric {c : Char} (h : (Seed.digit? c).isSome = true) : Numeric c := by
  obtain ⟨d, hd⟩ := digit_some h
  left
  have h1 : c ∈ "0123456789".toList := List.mem_of_getElem? hd
  have h2 : "0123456789+-.eE".toList = "0123456789".toList ++ "+-.eE".toList := by decide
  rw [h2]
  exact List.mem_append_left _ h1

/-- The plain way to write a number is unique. -/
theorem reads_decimal {l : List Char} {m : ℕ} (h : Seed.Spec.Reads l m) : l ≠ [] → (l.head? = some '0' → l = ['0']) → l = Seed.decimal m := by
  induction h with
  | nil => intro h; exact absurd rfl h
  | snoc h1 h2 ih =>
    rename_i cs n c d
    intro _ h0
    have hd : d < 10 := by
      by_contra hc
      unfold Seed.Spec.Digit at h2
      rw [List.getElem?_eq_none (by simp; omega)] at h2
      simp at h2
    have hc : c = Char.ofNat (48 + d) := by
      have := Seed.digit_ofNat hd
      unfold Seed.Spec.Digit at this h2
      rw [this] at h2
      exact (Option.some.inj h2).symm
    by_cases hcs : cs = []
    · subst hcs
      have hn : n = 0 := by
        have := Seed.reads_lt h1
        simp at this
        exact this
      subst hn
      rw [Seed.decimal, if_pos (by omega), hc]
      simp
    · have hz : cs.head? ≠ some '0' := by
        intro hz
        have := h0 (by cases cs with
          | nil => exact absurd rfl hcs
          | cons x l => simpa using hz)
        cases cs with
        | nil => exact hcs rfl
        | cons x l =>
          have := congrArg List.length this
          simp at this
      have e := ih hcs fun hh => absurd hh hz
      have hn : n ≠ 0 := by
        rintro rfl
        rw [e] at hz
        exact hz (by rw [Seed.decimal]; rfl)
      rw [Seed.decimal, if_neg (by omega), show (10 * n + d) / 10 = n by omega, show (10 * n + d) % 10 = d by omega, ← e, hc]

theorem plain_str {l : List Char} {n : ℤ} (h : Seed.Spec.Plain l n) : l = Seed.str n := by
  obtain ⟨sign, digits, m, rfl, h1, h2, h3, h4⟩ := h
  have e := reads_decimal h1 h2 h3
  unfold Seed.str
  rcases h4 with ⟨h5, rfl, h7⟩ | ⟨h5, rfl, h7⟩
  · rw [if_pos h5, e, show n.natAbs = m by omega]; rfl
  · rw [if_neg (by omega), e, show n.natAbs = m by omega]; rfl

theorem decimal_digit (m : ℕ) : ∀ c ∈ Seed.decimal m, (Seed.digit? c).isSome = true := reads_digit (Seed.decimal_reads m)

theorem str_chars (n : ℤ) : ∀ c ∈ Seed.str n, c = '-' ∨ (Seed.digit? c).isSome = true := by
  intro c hc
  unfold Seed.str at hc
  split at hc
  · rcases List.mem_cons.1 hc with h | h
    · exact Or.inl h
    · exact Or.inr (decimal_digit _ c h)
  · exact Or.inr (decimal_digit _ c hc)

theorem trim_str (n : ℤ) : Seed.trim (Seed.str n) = Seed.str n := by
  have hb : ∀ c ∈ Seed.str n, Seed.isBlank c = false := by
    intro c hc
    rcases str_chars n c hc with rfl | h
    · decide
    · obtain ⟨d, hd⟩ := Option.isSome_iff_exists.1 h
      exact (Seed.digit_ne hd).2.2.2
  have := Seed.trim_eq (before := []) (core := Seed.str n) (after := []) (by simp) (by simp) (fun c hc => hb c (List.mem_of_mem_head? hc))
    (fun c hc => hb c (List.mem_of_getLast? hc)) (by
      unfold Seed.str
      split
      · simp
      · exact Seed.decimal_ne _)
  simpa using this

theorem digits_decimal (m : ℕ) : digits? (Seed.decimal m) = some m := (digits_iff _ _).2 ⟨Seed.decimal_ne m, Seed.decimal_reads m⟩

theorem whole_str {n : ℤ} (h : n.natAbs < 10 ^ 18) : whole? (Seed.str n) = some n := by
  unfold whole?
  rw [trim_str]
  have hf : (some n).filter (fun n : ℤ => decide (n.natAbs < 10 ^ 18)) = some n := by
    rw [Option.filter_some, if_pos (by simpa using h)]
  by_cases hn : n < 0
  · have : Seed.str n = '-' :: Seed.decimal n.natAbs := by unfold Seed.str; rw [if_pos hn]
    rw [this]
    simp only [digits_decimal, Option.map_some]
    rw [show -((n.natAbs : ℕ) : ℤ) = n by omega]
    exact hf
  · have : Seed.str n = Seed.decimal n.natAbs := by unfold Seed.str; rw [if_neg hn]
    rw [this]
    have hne : ∀ c ∈ Seed.decimal n.natAbs, c ≠ '-' ∧ c ≠ '+' := by
      intro c hc
      obtain ⟨d, hd⟩ := Option.isSome_iff_exists.1 (decimal_digit _ c hc)
      exact ⟨(Seed.digit_ne hd).2.1, (Seed.digit_ne hd).2.2.1⟩
    have hd := digits_decimal n.natAbs
    generalize Seed.decimal n.natAbs = l at hne hd
    split
    · exact absurd rfl (hne '-' (by simp)).1
    · exact absurd rfl (hne '+' (by simp)).2
    · rw [hd]
      simp only [Option.map_some]
      rw [show ((n.natAbs : ℕ) : ℤ) = n by omega]
      exact hf

theorem plain_whole {l : List Char} {n : ℤ} (h : Seed.Spec.Plain l n) (hn : n.natAbs < 10 ^ 18) : whole? l = some n := by
  rw [plain_str h]; exact whole_str hn

theorem whole_small {l : List Char} {n : ℤ} (h : whole? l = some n) : n.natAbs < 10 ^ 18 := by
  unfold whole? at h
  simpa using (Option.filter_eq_some_iff.1 h).2

theorem whole_numeric {l : List Char} {n : ℤ} (h : whole? l = some n) : ∀ c ∈ l, Numeric c := by
  obtain ⟨before, after, e, hb, ha⟩ := Seed.trim_split l
  have ht : ∀ c ∈ Seed.trim l, Numeric c := by
    unfold whole? at h
    have h := (Option.filter_eq_some_iff.1 h).1
    generalize Seed.trim l = t at h
    have hd : ∀ (r : List Char) (m : ℕ), digits? r = some m → ∀ c ∈ r, Numeric c :=
      fun r m hr c hc => digit_numeric (reads_digit ((digits_iff r m).1 hr).2 c hc)
    split at h
    · obtain ⟨m, hm, -⟩ := Option.map_eq_some_iff.1 h
      intro c hc
      rcases List.mem_cons.1 hc with rfl | hc
      · left; decide
      · exact hd _ m hm c hc
    · obtain ⟨m, hm, -⟩ := Option.map_eq_some_iff.1 h
      intro c hc
      rcases List.mem_cons.1 hc with rfl | hc
      · left; decide
      · exact hd _ m hm c hc
    · obtain ⟨m, hm, -⟩ := Option.map_eq_some_iff.1 h
      exact hd _ m hm
  intro c hc
  rw [e, List.mem_append, List.mem_append] at hc
  rcases hc with (hc | hc) | hc
  · exact Or.inr (hb c hc)
  · exact ht c hc
  · exact Or.inr (ha c hc)

instance (c : Char) : Decidable (Numeric c) := by unfold Numeric Seed.Spec.Blank; infer_instance

theorem infinite_cases {s : String} (h : Infinite s) :
    s.toList.map Char.toLower ∈ ["inf".toList, "+inf".toList, "-inf".toList, "infinity".toList, "+infinity".toList, "-infinity".toList] := by
  obtain ⟨sign, word, e, h1, h2⟩ := h
  rw [e]
  rcases h1 with rfl | rfl | rfl <;> rcases h2 with rfl | rfl <;> decide

theorem truth_special {s : String} (h : Truth s) : (∃ c ∈ s.toList, ¬ Numeric c) ∧ ¬ Infinite s ∧ ¬ Missing s := by
  have hi : ∀ t : String, t.toList.map Char.toLower ∉ ["inf".toList, "+inf".toList, "-inf".toList, "infinity".toList, "+infinity".toList, "-infinity".toList] →
      ¬ Infinite t := fun t ht hc => ht (infinite_cases hc)
  have hm : ∀ t : String, naTexts.contains t = false → ¬ Missing t := fun t ht hc => by
    rw [(missing_iff t).2 hc] at ht; cases ht
  rcases h with rfl | rfl | rfl | rfl | rfl | rfl <;>
    exact ⟨by decide +kernel, hi _ (by decide +kernel), hm _ (by decide +kernel)⟩

theorem missing_word {s : String} (h : Missing s) : s = "" ∨ ∃ c ∈ s.toList, ¬ Numeric c := by
  rcases h with rfl | rfl | rfl | rfl | rfl | rfl | rfl | rfl | rfl | rfl | rfl | rfl | rfl | rfl | rfl | rfl | rfl | rfl | rfl
  · exact Or.inl rfl
  all_goals exact Or.inr (by decide +kernel)

theorem stands_whole {s : String} {n : ℤ} (h : StandsFor s n) : whole? s.toList = some n := by
  obtain ⟨before, sign, digits, after, m, e, hb, ha, hne, hr, hm, hs⟩ := h
  have hdig := reads_digit hr
  have hnb : ∀ c ∈ sign ++ digits, Seed.isBlank c = false := by
    intro c hc
    rcases List.mem_append.1 hc with hc | hc
    · rcases hs with ⟨rfl, -⟩ | ⟨rfl | rfl, -⟩
      · rw [List.mem_singleton.1 hc]; decide
      · rw [List.mem_singleton.1 hc]; decide
      · cases hc
    · obtain ⟨d, hd⟩ := Option.isSome_iff_exists.1 (hdig c hc)
      exact (Seed.digit_ne hd).2.2.2
  have ht : Seed.trim s.toList = sign ++ digits := by
    rw [e, List.append_assoc before sign digits]
    exact Seed.trim_eq hb ha (fun c hc => hnb c (List.mem_of_mem_head? hc)) (fun c hc => hnb c (List.mem_of_getLast? hc)) (by simp [hne])
  have hd := (digits_iff digits m).2 ⟨hne, hr⟩
  unfold whole?
  rw [ht]
  have hf : ∀ k : ℤ, k.natAbs = m → (some k).filter (fun n : ℤ => decide (n.natAbs < 10 ^ 18)) = some k := by
    intro k hk
    rw [Option.filter_some, if_pos (by rw [hk]; simpa using hm)]
  rcases hs with ⟨rfl, rfl⟩ | ⟨rfl | rfl, rfl⟩
  · simp only [List.cons_append, List.nil_append, hd, Option.map_some]
    exact hf _ (by omega)
  · simp only [List.cons_append, List.nil_append, hd, Option.map_some]
    exact hf _ (by omega)
  · rw [List.nil_append]
    have hne : ∀ c ∈ digits, c ≠ '-' ∧ c ≠ '+' := by
      intro c hc
      obtain ⟨d, hd⟩ := Option.isSome_iff_exists.1 (hdig c hc)
      exact ⟨(Seed.digit_ne hd).2.1, (Seed.digit_ne hd).2.2.1⟩
    generalize digits = l at hne hd
    split
    · exact absurd rfl (hne '-' (by simp)).1
    · exact absurd rfl (hne '+' (by simp)).2
    · simp only [hd, Option.map_some]
      exact hf _ (by omega)

end Sorcha.Ids
