import Verif.Seed.Model
import Verif.Seed.Spec
import Mathlib.Tactic.IntervalCases
import Mathlib.Tactic.Linarith
import Mathlib.Tactic.NormNum

/-!
# Lemmas: numbers as texts
-/

namespace Sorcha.Seed
open Spec

theorem digit_iff {c : Char} {d : ℕ} : digit? c = some d ↔ Digit c d := by
  unfold digit? Digit
  constructor
  · intro h
    split at h
    · rename_i hc
      obtain ⟨h1, h2⟩ := hc
      have h1' : 48 ≤ c.toNat := UInt32.le_iff_toNat_le.1 (Char.le_def.1 h1)
      have h2' : c.toNat ≤ 57 := UInt32.le_iff_toNat_le.1 (Char.le_def.1 h2)
      have hd : c.toNat = 48 + d := by
        have := Option.some.inj h
        omega
      have hc : c = Char.ofNat (48 + d) := by rw [← hd, Char.ofNat_toNat]
      have : d ≤ 9 := by omega
      subst hc
      interval_cases d <;> decide
    · simp at h
  · intro h
    have hd : d < 10 := by
      by_contra hc
      rw [List.getElem?_eq_none (by simp; omega)] at h
      simp at h
    interval_cases d <;> simp at h <;> subst h <;> decide

theorem digit_ne {c : Char} {d : ℕ} (h : digit? c = some d) : c ≠ '_' ∧ c ≠ '-' ∧ c ≠ '+' ∧ isBlank c = false := by
  rw [digit_iff] at h
  have hd : d < 10 := by
    by_contra hc
    unfold Digit at h
    rw [List.getElem?_eq_none (by simp; omega)] at h
    simp at h
  unfold Digit at h
  interval_cases d <;> simp at h <;> subst h <;> decide

theorem blank_iff {c : Char} : isBlank c = true ↔ Blank c := by
  unfold isBlank Blank
  simp only [Bool.or_eq_true, decide_eq_true_eq, List.mem_cons, List.not_mem_nil, or_false]
  have h11 : c.toNat = 11 ↔ c = Char.ofNat 11 := by
    constructor
    · intro h; rw [← h, Char.ofNat_toNat]
    · rintro rfl; rfl
  have h12 : c.toNat = 12 ↔ c = Char.ofNat 12 := by
    constructor
    · intro h; rw [← h, Char.ofNat_toNat]
    · rintro rfl; rfl
  rw [h11, h12]
  tauto

/-- One digit more. -/
def push (acc : ℕ × ℕ) (c : Char) : ℕ × ℕ := (10 * acc.1 + (digit? c).getD 0, acc.2 + 1)

theorem reads_iff (l : List Char) (m : ℕ) : Reads l m ↔ (∀ c ∈ l, (digit? c).isSome) ∧ m = (l.foldl push (0, 0)).1 := by
  induction l using List.reverseRecOn generalizing m with
  | nil =>
    constructor
    · intro h
      generalize hl : ([] : List Char) = l at h
      cases h with
      | nil => simp
      | snoc h1 h2 => simp at hl
    · rintro ⟨-, rfl⟩; exact .nil
  | append_singleton l c ih =>
    constructor
    · intro h
      generalize hl : l ++ [c] = l' at h
      cases h with
      | nil => simp at hl
      | snoc h1 h2 =>
        obtain ⟨rfl, hc⟩ := List.append_inj' hl rfl
        obtain rfl := List.singleton_inj.1 hc
        obtain ⟨i1, i2⟩ := (ih _).1 h1
        have h2' := digit_iff.2 h2
        refine ⟨?_, ?_⟩
        · intro x hx
          rcases List.mem_append.1 hx with hx | hx
          · exact i1 x hx
          · rw [List.mem_singleton.1 hx, h2']; rfl
        · rw [List.foldl_append, List.foldl_cons, List.foldl_nil, push, h2', i2]; rfl
    · rintro ⟨h1, rfl⟩
      rw [List.foldl_append, List.foldl_cons, List.foldl_nil, push]
      obtain ⟨d, hd⟩ := Option.isSome_iff_exists.1 (h1 c (by simp))
      rw [hd]
      exact .snoc ((ih _).2 ⟨fun x hx => h1 x (by simp [hx]), rfl⟩) (digit_iff.1 hd)

theorem foldl_push_snd (l : List Char) (acc : ℕ × ℕ) : (l.foldl push acc).2 = acc.2 + l.length := by
  induction l generalizing acc with
  | nil => rfl
  | cons c l ih => rw [List.foldl_cons, ih, push, List.length_cons]; simp only; omega

theorem intercalate_cons_cons (c : Char) (g : List Char) (gs : List (List Char)) :
    ['_'].intercalate ((c :: g) :: gs) = c :: ['_'].intercalate (g :: gs) := by
  cases gs <;> simp [List.intercalate]

theorem intercalate_nil_cons (g : List Char) (gs : List (List Char)) :
    ['_'].intercalate ([] :: g :: gs) = '_' :: ['_'].intercalate (g :: gs) := by
  simp [List.intercalate]

theorem digitsFrom_iff (cs : List Char) : ∀ (wait : Bool) (acc r : ℕ × ℕ), digitsFrom wait acc cs = some r ↔
    ∃ (g : List Char) (gs : List (List Char)), cs = ['_'].intercalate (g :: gs) ∧ (wait = true → g ≠ []) ∧ (∀ x ∈ gs, x ≠ []) ∧
      (∀ c ∈ (g :: gs).flatten, (digit? c).isSome) ∧ r = (g :: gs).flatten.foldl push acc := by
  induction cs with
  | nil =>
    intro wait acc r
    rw [digitsFrom]
    constructor
    · intro h
      cases wait with
      | true => simp at h
      | false =>
        simp only [Bool.false_eq_true, if_false, Option.some.injEq] at h
        exact ⟨[], [], by simp [List.intercalate], by simp, by simp, by simp, by simp [h]⟩
    · rintro ⟨g, gs, h1, h2, h3, h4, h5⟩
      cases g with
      | cons c g => rw [intercalate_cons_cons] at h1; simp at h1
      | nil =>
        cases gs with
        | cons g' gs => rw [intercalate_nil_cons] at h1; simp at h1
        | nil =>
          cases wait with
          | true => simp at h2
          | false => simp at h5; simp [h5]
  | cons c cs ih =>
    intro wait acc r
    rw [digitsFrom]
    by_cases hc : c = '_'
    · subst hc
      simp only [if_true]
      cases wait with
      | true =>
        simp only [if_true]
        constructor
        · intro h; simp at h
        · rintro ⟨g, gs, h1, h2, h3, h4, h5⟩
          cases g with
          | nil => simp at h2
          | cons x g =>
            rw [intercalate_cons_cons, List.cons.injEq] at h1
            obtain ⟨d, hd⟩ := Option.isSome_iff_exists.1 (h4 x (by simp))
            exact absurd h1.1.symm (digit_ne hd).1
      | false =>
        simp only [Bool.false_eq_true, if_false]
        rw [ih]
        constructor
        · rintro ⟨g, gs, h1, h2, h3, h4, h5⟩
          refine ⟨[], g :: gs, by rw [intercalate_nil_cons, h1], by simp, ?_, by simpa using h4, by simpa using h5⟩
          intro x hx
          rcases List.mem_cons.1 hx with rfl | hx
          · exact h2 rfl
          · exact h3 x hx
        · rintro ⟨g, gs, h1, h2, h3, h4, h5⟩
          cases g with
          | cons x g =>
            rw [intercalate_cons_cons, List.cons.injEq] at h1
            obtain ⟨d, hd⟩ := Option.isSome_iff_exists.1 (h4 x (by simp))
            exact absurd h1.1.symm (digit_ne hd).1
          | nil =>
            cases gs with
            | nil => simp [List.intercalate] at h1
            | cons g gs =>
              rw [intercalate_nil_cons, List.cons.injEq] at h1
              exact ⟨g, gs, h1.2, fun _ => h3 g (by simp), fun x hx => h3 x (by simp [hx]), by simpa using h4, by simpa using h5⟩
    · rw [if_neg hc]
      cases hd : digit? c with
      | none =>
        simp only
        constructor
        · intro h; simp at h
        · rintro ⟨g, gs, h1, h2, h3, h4, h5⟩
          cases g with
          | cons x g =>
            rw [intercalate_cons_cons, List.cons.injEq] at h1
            have := h4 x (by simp)
            rw [← h1.1, hd] at this
            simp at this
          | nil =>
            cases gs with
            | nil => simp [List.intercalate] at h1
            | cons g gs =>
              rw [intercalate_nil_cons, List.cons.injEq] at h1
              exact absurd h1.1 hc
      | some d =>
        simp only
        rw [ih]
        have hp : ∀ l : List Char, (c :: l).foldl push acc = l.foldl push (10 * acc.1 + d, acc.2 + 1) := by
          intro l; rw [List.foldl_cons, push, hd]; rfl
        constructor
        · rintro ⟨g, gs, h1, h2, h3, h4, h5⟩
          refine ⟨c :: g, gs, by rw [intercalate_cons_cons, h1], by simp, h3, ?_, ?_⟩
          · intro x hx
            simp only [List.flatten_cons, List.cons_append, List.mem_cons] at hx
            rcases hx with rfl | hx
            · simp [hd]
            · exact h4 x (by simpa using hx)
          · rw [List.flatten_cons, List.cons_append, hp, h5, List.flatten_cons]
        · rintro ⟨g, gs, h1, h2, h3, h4, h5⟩
          cases g with
          | nil =>
            cases gs with
            | nil => simp [List.intercalate] at h1
            | cons g gs =>
              rw [intercalate_nil_cons, List.cons.injEq] at h1
              exact absurd h1.1 hc
          | cons x g =>
            rw [intercalate_cons_cons, List.cons.injEq] at h1
            obtain ⟨rfl, h1⟩ := h1
            refine ⟨g, gs, h1, by simp, h3, fun y hy => h4 y (by simp only [List.flatten_cons, List.cons_append, List.mem_cons]; exact Or.inr (by simpa using hy)), ?_⟩
            rw [h5, List.flatten_cons, List.cons_append, hp, List.flatten_cons]

theorem unsigned_iff (cs : List Char) (m : ℕ) : unsigned cs = some m ↔
    ∃ groups : List (List Char), cs = ['_'].intercalate groups ∧ groups ≠ [] ∧ (∀ g ∈ groups, g ≠ []) ∧ Reads groups.flatten m ∧ groups.flatten.length ≤ 4300 := by
  unfold unsigned
  constructor
  · intro h
    cases hd : digitsFrom true (0, 0) cs with
    | none => rw [hd] at h; simp at h
    | some r =>
      obtain ⟨n, k⟩ := r
      rw [hd] at h
      simp only at h
      split at h
      · rename_i hk
        obtain ⟨g, gs, h1, h2, h3, h4, h5⟩ := (digitsFrom_iff cs true (0, 0) (n, k)).1 hd
        obtain rfl := Option.some.inj h
        refine ⟨g :: gs, h1, by simp, ?_, (reads_iff _ _).2 ⟨h4, by rw [← h5]⟩, ?_⟩
        · intro x hx
          rcases List.mem_cons.1 hx with rfl | hx
          · exact h2 rfl
          · exact h3 x hx
        · have := foldl_push_snd (g :: gs).flatten (0, 0)
          rw [← h5] at this
          simp only at this
          omega
      · simp at h
  · rintro ⟨groups, h1, h2, h3, h4, h5⟩
    cases groups with
    | nil => simp at h2
    | cons g gs =>
      obtain ⟨h6, h7⟩ := (reads_iff _ _).1 h4
      have := (digitsFrom_iff cs true (0, 0) ((g :: gs).flatten.foldl push (0, 0))).2
        ⟨g, gs, h1, fun _ => h3 g (by simp), fun x hx => h3 x (by simp [hx]), h6, rfl⟩
      rw [this]
      simp only
      rw [if_pos (by rw [foldl_push_snd]; simp only; omega), ← h7]

/-! ## Blanks -/

theorem trim_split (cs : List Char) : ∃ before after : List Char, cs = before ++ trim cs ++ after ∧ (∀ c ∈ before, Blank c) ∧ ∀ c ∈ after, Blank c := by
  refine ⟨cs.takeWhile isBlank, ((cs.dropWhile isBlank).reverse.takeWhile isBlank).reverse, ?_, ?_, ?_⟩
  · unfold trim
    rw [List.append_assoc, ← List.reverse_append, List.takeWhile_append_dropWhile, List.reverse_reverse, List.takeWhile_append_dropWhile]
  · intro c hc
    exact blank_iff.1 (List.mem_takeWhile_imp hc)
  · intro c hc
    exact blank_iff.1 (List.mem_takeWhile_imp (List.mem_reverse.1 hc))

theorem dropWhile_append_of_all {p : Char → Bool} {a b : List Char} (h : ∀ c ∈ a, p c = true) : (a ++ b).dropWhile p = b.dropWhile p := by
  induction a with
  | nil => rfl
  | cons x a ih => rw [List.cons_append, List.dropWhile_cons, if_pos (h x (by simp)), ih fun c hc => h c (by simp [hc])]

theorem dropWhile_head {p : Char → Bool} {l : List Char} (h : ∀ c, l.head? = some c → p c = false) : l.dropWhile p = l := by
  cases l with
  | nil => rfl
  | cons x l => rw [List.dropWhile_cons, if_neg (by rw [h x rfl]; simp)]

theorem trim_eq {before core after : List Char} (hb : ∀ c ∈ before, Blank c) (ha : ∀ c ∈ after, Blank c)
    (h1 : ∀ c, core.head? = some c → isBlank c = false) (h2 : ∀ c, core.getLast? = some c → isBlank c = false) (h3 : core ≠ []) :
    trim (before ++ core ++ after) = core := by
  unfold trim
  rw [List.append_assoc, dropWhile_append_of_all fun c hc => blank_iff.2 (hb c hc), dropWhile_head (l := core ++ after), List.reverse_append,
    dropWhile_append_of_all fun c hc => blank_iff.2 (ha c (List.mem_reverse.1 hc)), dropWhile_head (l := core.reverse), List.reverse_reverse]
  · intro c hc; rw [List.head?_reverse] at hc; exact h2 c hc
  · intro c hc
    cases core with
    | nil => simp at h3
    | cons x core => exact h1 c (by simpa using hc)

theorem mem_intercalate {gs : List (List Char)} {c : Char} (h : c ∈ ['_'].intercalate gs) : c = '_' ∨ c ∈ gs.flatten := by
  induction gs with
  | nil => simp [List.intercalate] at h
  | cons g gs ih =>
    induction g with
    | nil =>
      cases gs with
      | nil => simp [List.intercalate] at h
      | cons g gs =>
        rw [intercalate_nil_cons, List.mem_cons] at h
        rcases h with h | h
        · exact Or.inl h
        · rcases ih h with h | h
          · exact Or.inl h
          · exact Or.inr (by simpa using h)
    | cons x g ihg =>
      rw [intercalate_cons_cons, List.mem_cons] at h
      rcases h with rfl | h
      · exact Or.inr (by simp)
      · rcases ihg h with h | h
        · exact Or.inl h
        · refine Or.inr ?_
          simp only [List.flatten_cons, List.cons_append, List.mem_cons]
          exact Or.inr (by simpa using h)

theorem int_iff (text : List Char) (n : ℤ) : int? text = some n ↔ Number text n := by
  have split : ∀ (sign r : List Char), trim text = sign ++ r → ∀ m, unsigned r = some m →
      ((sign = ['-'] ∧ n = -(m : ℤ)) ∨ ((sign = ['+'] ∨ sign = []) ∧ n = m)) → Number text n := by
    intro sign r ht m hm hs
    obtain ⟨b, a, h1, h2, h3⟩ := trim_split text
    obtain ⟨gs, g1, g2, g3, g4, g5⟩ := (unsigned_iff r m).1 hm
    exact ⟨b, sign, gs, a, m, by rw [← g1, List.append_assoc b, ← ht, ← h1], h2, h3, g2, g3, g4, g5, hs⟩
  constructor
  · intro h
    unfold int? at h
    split at h
    · rename_i r ht
      obtain ⟨m, h1, h2⟩ := Option.map_eq_some_iff.1 h
      exact split ['-'] r (by simpa using ht) m h1 (Or.inl ⟨rfl, h2.symm⟩)
    · rename_i r ht
      obtain ⟨m, h1, h2⟩ := Option.map_eq_some_iff.1 h
      exact split ['+'] r (by simpa using ht) m h1 (Or.inr ⟨Or.inl rfl, h2.symm⟩)
    · obtain ⟨m, h1, h2⟩ := Option.map_eq_some_iff.1 h
      exact split [] (trim text) rfl m h1 (Or.inr ⟨Or.inr rfl, h2.symm⟩)
  · rintro ⟨before, sign, groups, after, m, h1, h2, h3, h4, h5, h6, h7, h8⟩
    have hu : unsigned (['_'].intercalate groups) = some m := (unsigned_iff _ m).2 ⟨groups, rfl, h4, h5, h6, h7⟩
    have hdig := ((reads_iff _ _).1 h6).1
    -- the characters of the number itself
    have hch : ∀ c ∈ ['_'].intercalate groups, c ≠ '-' ∧ c ≠ '+' ∧ isBlank c = false := by
      intro c hc
      rcases mem_intercalate hc with rfl | hc
      · decide
      · obtain ⟨d, hd⟩ := Option.isSome_iff_exists.1 (hdig c hc)
        exact ⟨(digit_ne hd).2.1, (digit_ne hd).2.2.1, (digit_ne hd).2.2.2⟩
    have hne : ['_'].intercalate groups ≠ [] := by
      cases groups with
      | nil => simp at h4
      | cons g gs =>
        cases g with
        | nil => exact absurd rfl (h5 [] (by simp))
        | cons x g => rw [intercalate_cons_cons]; simp
    have hsign : ∀ c ∈ sign, isBlank c = false := by
      rcases h8 with ⟨rfl, -⟩ | ⟨rfl | rfl, -⟩ <;> simp <;> decide
    have ht : trim text = sign ++ ['_'].intercalate groups := by
      rw [h1, List.append_assoc before]
      have hall : ∀ c ∈ sign ++ ['_'].intercalate groups, isBlank c = false := by
        intro c hc
        rcases List.mem_append.1 hc with hc | hc
        · exact hsign c hc
        · exact (hch c hc).2.2
      exact trim_eq h2 h3 (fun c hc => hall c (List.mem_of_mem_head? hc)) (fun c hc => hall c (List.mem_of_getLast? hc)) (by simp [hne])
    unfold int?
    rw [ht]
    rcases h8 with ⟨rfl, rfl⟩ | ⟨rfl | rfl, rfl⟩
    · simp [hu]
    · simp [hu]
    · cases hg : ['_'].intercalate groups with
      | nil => exact absurd hg hne
      | cons x l =>
        have hx := hch x (by rw [hg]; simp)
        rw [hg] at hu
        rw [List.nil_append]
        split
        · rename_i r hr; exact absurd (List.cons.inj hr).1 hx.1
        · rename_i r hr; exact absurd (List.cons.inj hr).1 hx.2.1
        · rw [hu]; rfl

/-! ## Writing a number -/

theorem digit_ofNat {d : ℕ} (h : d < 10) : Digit (Char.ofNat (48 + d)) d := by
  unfold Digit; interval_cases d <;> rfl

theorem decimal_reads (n : ℕ) : Reads (decimal n) n := by
  induction n using Nat.strong_induction_on with
  | _ n ih =>
    rw [decimal]
    split
    · rename_i h
      have := Reads.snoc .nil (digit_ofNat h)
      simpa using this
    · rename_i h
      have := Reads.snoc (ih (n / 10) (by omega)) (digit_ofNat (Nat.mod_lt n (by norm_num)))
      rw [show 10 * (n / 10) + n % 10 = n by omega] at this
      exact this

theorem decimal_ne (n : ℕ) : decimal n ≠ [] := by
  rw [decimal]; split <;> simp

theorem decimal_head (n : ℕ) : (decimal n).head? = some '0' → n = 0 := by
  induction n using Nat.strong_induction_on with
  | _ n ih =>
    intro h
    rw [decimal] at h
    split at h
    · rename_i hn
      by_contra hz
      have h1 : 1 ≤ n := by omega
      interval_cases n <;> simp at h
    · rename_i hn
      cases hd : decimal (n / 10) with
      | nil => exact absurd hd (decimal_ne _)
      | cons x l =>
        rw [hd] at h
        have := ih (n / 10) (by omega) (by rw [hd]; simpa using h)
        omega

theorem decimal_length (n k : ℕ) (hk : 1 ≤ k) (h : n < 10 ^ k) : (decimal n).length ≤ k := by
  induction k generalizing n with
  | zero => omega
  | succ k ih =>
    rw [decimal]
    split
    · simp
    · rename_i hn
      rw [List.length_append, List.length_singleton]
      by_cases hk0 : k = 0
      · subst hk0; omega
      · have := ih (n / 10) (by omega) (by rw [pow_succ] at h; omega)
        omega

theorem reads_lt {l : List Char} {m : ℕ} (h : Reads l m) : m < 10 ^ l.length := by
  induction h with
  | nil => simp
  | snoc h1 h2 ih =>
    rename_i cs n c d
    have hd : d < 10 := by
      by_contra hc
      unfold Digit at h2
      rw [List.getElem?_eq_none (by simp; omega)] at h2
      simp at h2
    rw [List.length_append, List.length_singleton, pow_succ]
    omega

theorem str_plain (n : ℤ) : Plain (str n) n := by
  unfold str
  have h0 : (decimal n.natAbs).head? = some '0' → decimal n.natAbs = ['0'] := by
    intro h
    rw [decimal_head _ h, decimal]
    rfl
  split
  · exact ⟨['-'], decimal n.natAbs, n.natAbs, rfl, decimal_reads _, decimal_ne _, h0, Or.inl ⟨by assumption, rfl, by omega⟩⟩
  · exact ⟨[], decimal n.natAbs, n.natAbs, rfl, decimal_reads _, decimal_ne _, h0, Or.inr ⟨by omega, rfl, by omega⟩⟩

/-- A number of at most 4300 digits, written out, is read back. -/
theorem number_str {n : ℤ} (h : n.natAbs < 10 ^ 4300) : Number (str n) n := by
  have hl := decimal_length n.natAbs 4300 (by norm_num) h
  have hr := decimal_reads n.natAbs
  unfold str
  split
  · exact ⟨[], ['-'], [decimal n.natAbs], [], n.natAbs, by simp [List.intercalate], by simp, by simp, by simp,
      by simpa using decimal_ne _, by simpa using hr, by simpa using hl, Or.inl ⟨rfl, by omega⟩⟩
  · exact ⟨[], [], [decimal n.natAbs], [], n.natAbs, by simp [List.intercalate], by simp, by simp, by simp,
      by simpa using decimal_ne _, by simpa using hr, by simpa using hl, Or.inr ⟨Or.inr rfl, by omega⟩⟩

theorem number_small {text : List Char} {n : ℤ} (h : Number text n) : n.natAbs < 10 ^ 4300 := by
  obtain ⟨b, s, gs, a, m, -, -, -, -, -, h6, h7, h8⟩ := h
  have h9 := reads_lt h6
  have h10 : (10 : ℕ) ^ gs.flatten.length ≤ 10 ^ 4300 := Nat.pow_le_pow_right (by norm_num) h7
  have : n.natAbs = m := by rcases h8 with ⟨-, rfl⟩ | ⟨-, rfl⟩ <;> simp
  omega

end Sorcha.Seed
