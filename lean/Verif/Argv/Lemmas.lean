import Verif.Argv.Model
import Verif.Argv.Spec
import Mathlib.Tactic.Basic
import Mathlib.Data.List.TakeWhile

/-!
# Lemmas: what `argparse` makes of one argument
-/

namespace Sorcha.Argv
open Spec

section text

theorem beforeEq_no {s : Str} (h : '=' ∉ s) : beforeEq s = s := by
  unfold beforeEq
  rw [List.takeWhile_eq_self_iff]
  intro c hc
  have : c ≠ '=' := fun e => h (e ▸ hc)
  simpa using this

theorem beforeEq_mem (s : Str) : '=' ∉ beforeEq s := by
  intro h
  have := List.mem_takeWhile_imp h
  simp at this

theorem split_eq {s : Str} (h : '=' ∈ s) : s = beforeEq s ++ '=' :: afterEq s := by
  induction s with
  | nil => cases h
  | cons c s ih =>
    by_cases hc : c = '='
    · subst hc; simp [beforeEq, afterEq]
    · have h' : '=' ∈ s := by
        rcases List.mem_cons.1 h with h | h
        · exact absurd h.symm hc
        · exact h
      have := ih h'
      simp only [beforeEq, afterEq, List.takeWhile_cons, List.dropWhile_cons, ne_eq, hc, not_false_eq_true, decide_true, if_true, List.cons_append] at this ⊢
      rw [← this]

theorem beforeEq_append {n v : Str} (h : '=' ∉ n) : beforeEq (n ++ '=' :: v) = n := by
  induction n with
  | nil => simp [beforeEq]
  | cons c n ih =>
    have hc : c ≠ '=' := fun e => h (by simp [e])
    have h' : '=' ∉ n := fun e => h (by simp [e])
    have := ih h'
    unfold beforeEq at this ⊢
    rw [List.cons_append, List.takeWhile_cons, if_pos (by simpa using hc), this]

theorem afterEq_append {n v : Str} (h : '=' ∉ n) : afterEq (n ++ '=' :: v) = v := by
  induction n with
  | nil => simp [afterEq]
  | cons c n ih =>
    have hc : c ≠ '=' := fun e => h (by simp [e])
    have h' : '=' ∉ n := fun e => h (by simp [e])
    have := ih h'
    unfold afterEq at this ⊢
    rw [List.cons_append, List.dropWhile_cons, if_pos (by simpa using hc), this]

end text

/-! ## Option strings -/

variable {D : Type} {T : Table D}

/-- The option strings are a dash and a letter or begin with two dashes, have no equality sign, and are different. -/
structure Good (T : Table D) : Prop where
  form : ∀ e ∈ T, (∃ c, c ≠ '-' ∧ e.1 = ['-', c]) ∨ (∃ r, r ≠ [] ∧ e.1 = '-' :: '-' :: r)
  noEq : ∀ e ∈ T, '=' ∉ e.1
  nodup : (T.map Prod.fst).Nodup

theorem lookup_mem {n : Str} {a : Act D} (h : T.lookup n = some a) : (n, a) ∈ T := by
  induction T with
  | nil => cases h
  | cons e T ih =>
    obtain ⟨m, b⟩ := e
    rw [List.lookup_cons] at h
    by_cases hm : n = m
    · subst hm; simp at h; subst h; exact List.mem_cons_self
    · have hb : (n == m) = false := by simpa using hm
      rw [hb] at h
      exact List.mem_cons_of_mem _ (ih h)

theorem mem_lookup (hT : (T.map Prod.fst).Nodup) {n : Str} {a : Act D} (h : (n, a) ∈ T) : T.lookup n = some a := by
  induction T with
  | nil => cases h
  | cons e T ih =>
    obtain ⟨m, b⟩ := e
    rw [List.lookup_cons]
    simp only [List.map_cons, List.nodup_cons] at hT
    by_cases hm : n = m
    · subst hm
      rcases List.mem_cons.1 h with h | h
      · cases h; simp
      · exact absurd (List.mem_map.2 ⟨_, h, rfl⟩) hT.1
    · have hb : (n == m) = false := by simpa using hm
      rw [hb]
      rcases List.mem_cons.1 h with h | h
      · cases h; exact absurd rfl hm
      · exact ih hT.2 h

theorem lookup_none {n : Str} (h : ∀ e ∈ T, e.1 ≠ n) : T.lookup n = none := by
  cases hl : T.lookup n with
  | none => rfl
  | some a => exact absurd rfl (h _ (lookup_mem hl))

/-- The text stands for the option: it is the option string, or the beginning of one only. -/
def Denotes (T : Table D) (n : Str) (a : Act D) : Prop :=
  T.lookup n = some a ∨ (T.lookup n = none ∧ ['-', '-'] <+: n ∧ '=' ∉ n ∧ ∃ m, (m, a) ∈ T ∧ n <+: m ∧ ∀ e ∈ T, n <+: e.1 → e.1 = m)

/-- The text could not be an option. -/
def NoOption (T : Table D) (s : Str) : Prop :=
  (∀ c rest, s = '-' :: c :: rest → c ≠ '-' → ∀ e ∈ T, e.1 ≠ ['-', c]) ∧ (∀ rest, s = '-' :: '-' :: rest → ∀ e ∈ T, ¬ beforeEq s <+: e.1)

theorem tuples_nil (hT : Good T) {s : Str} (h2 : ∃ c r, s = '-' :: c :: r) : tuples T s = [] ↔ NoOption T s := by
  obtain ⟨c, r, rfl⟩ := h2
  by_cases hc : c = '-'
  · subst hc
    simp only [tuples, List.map_eq_nil_iff, List.filter_eq_nil_iff, List.isPrefixOf_iff_prefix]
    constructor
    · intro h
      refine ⟨fun c rest e hc => ?_, fun rest _ => h⟩
      cases e; exact absurd rfl hc
    · intro h; exact h.2 r rfl
  · have ht : tuples T ('-' :: c :: r) = T.filterMap fun e =>
        if e.1 = ['-', c] then some (Kind.option e.2 (isShort e.1) (some (false, r)))
        else if ('-' :: c :: r).isPrefixOf e.1 then some (.option e.2 (isShort e.1) none) else none := by
      unfold tuples
      split
      · rename_i heq; injection heq with _ h; injection h with h _; exact absurd h hc
      · rename_i heq; injection heq with _ h; injection h with h1 h2; subst h1; subst h2; rfl
      · rename_i h; exact absurd rfl (h _ _ _)
    rw [ht, List.filterMap_eq_nil_iff]
    constructor
    · intro h
      refine ⟨fun c' rest e hc' x hx hxe => ?_, fun rest e => ?_⟩
      · cases e
        have := h x hx
        rw [if_pos hxe] at this
        cases this
      · cases e; exact absurd rfl hc
    · intro h e he
      have h1 := h.1 c r rfl hc e he
      rw [if_neg h1, if_neg]
      rw [List.isPrefixOf_iff_prefix]
      intro hp
      rcases hT.form e he with ⟨c', hc', h'⟩ | ⟨r', _, h'⟩
      · rw [h'] at hp h1
        have := hp.length_le
        simp at this
        subst this
        have := List.IsPrefix.eq_of_length hp (by simp)
        simp at this
        exact h1 (by rw [this])
      · rw [h'] at hp
        obtain ⟨t, ht⟩ := hp
        simp at ht
        exact hc ht.1

theorem noOption_lookup (hT : Good T) {s : Str} (h2 : ∃ c r, s = '-' :: c :: r) (h : NoOption T s) :
    T.lookup s = none ∧ (if '=' ∈ s then T.lookup (beforeEq s) else none) = none := by
  obtain ⟨c, r, rfl⟩ := h2
  have key : ∀ e ∈ T, e.1 ≠ beforeEq ('-' :: c :: r) := by
    intro e he heq
    by_cases hc : c = '-'
    · subst hc; exact h.2 r rfl e he (heq ▸ List.prefix_refl _)
    · have h1 := h.1 c r rfl hc e he
      rcases hT.form e he with ⟨c', hc', h'⟩ | ⟨r', _, h'⟩
      · rw [h'] at heq
        by_cases hce : c = '='
        · subst hce; simp [beforeEq] at heq
        · simp [beforeEq, hce] at heq
          exact h1 (by rw [h', heq.1])
      · rw [h'] at heq
        by_cases hce : c = '='
        · subst hce; simp [beforeEq] at heq
        · simp [beforeEq, hce] at heq
          exact hc heq.1.symm
  constructor
  · apply lookup_none
    intro e he heq
    have := hT.noEq e he
    rw [heq] at this
    exact key e he (by rw [heq, beforeEq_no this])
  · split
    · exact lookup_none key
    · rfl

/-- Which arguments are plain ones. -/
theorem classify_arg (hT : Good T) {s : Str} : classify T s = .ok .arg ↔
    s.head? ≠ some '-' ∨ s = ['-'] ∨ ((negative s = true ∨ ' ' ∈ s) ∧ (∃ c r, s = '-' :: c :: r) ∧ NoOption T s) := by
  match s with
  | [] => simp [classify]
  | [c] =>
    by_cases hc : c = '-'
    · subst hc
      have : T.lookup ['-'] = none := lookup_none fun e he h => by
        rcases hT.form e he with ⟨c', _, h'⟩ | ⟨r', _, h'⟩ <;> · rw [h'] at h; simp at h
      simp [classify, this]
    · simp [classify, hc]
  | c :: d :: r =>
    by_cases hc : c = '-'
    · subst hc
      have h2 : ∃ c' r', '-' :: d :: r = '-' :: c' :: r' := ⟨d, r, rfl⟩
      have hno := tuples_nil hT h2
      constructor
      · intro h
        right; right
        simp only [classify, ne_eq, not_true_eq_false, if_false] at h
        cases hl : T.lookup ('-' :: d :: r) with
        | some a => rw [hl] at h; simp at h
        | none =>
          rw [hl] at h
          rw [if_neg (by simp)] at h
          cases hl2 : (if '=' ∈ '-' :: d :: r then T.lookup (beforeEq ('-' :: d :: r)) else none) with
          | some a => rw [hl2] at h; simp at h
          | none =>
            rw [hl2] at h
            simp only at h
            cases ht : tuples T ('-' :: d :: r) with
            | nil =>
              rw [ht] at h
              refine ⟨?_, h2, hno.1 ht⟩
              simp only at h
              by_cases h3 : negative ('-' :: d :: r) = true
              · exact .inl h3
              · by_cases h4 : ' ' ∈ '-' :: d :: r
                · exact .inr h4
                · simp [h3, h4] at h
            | cons k ks =>
              rw [ht] at h
              cases ks with
              | cons => simp at h
              | nil =>
                simp only [Except.ok.injEq] at h
                subst h
                exfalso
                have hm : Kind.arg ∈ tuples T ('-' :: d :: r) := by rw [ht]; simp
                unfold tuples at hm
                split at hm
                · simp at hm
                · simp only [List.mem_filterMap] at hm
                  obtain ⟨e, _, h⟩ := hm
                  split at h
                  · simp at h
                  · split at h <;> simp at h
                · simp at hm
      · rintro (h | h | ⟨h, -, hn⟩)
        · simp at h
        · simp at h
        · obtain ⟨h1, h3⟩ := noOption_lookup hT h2 hn
          simp only [classify, ne_eq, not_true_eq_false, if_false, h1, h3, hno.2 hn]
          rw [if_neg (by simp)]
          rcases h with h | h
          · simp [h]
          · by_cases h5 : negative ('-' :: d :: r) = true <;> simp [h]
    · simp [classify, hc]

theorem filter_unique (hT : (T.map Prod.fst).Nodup) {P : Str × Act D → Bool} {m : Str} {a : Act D} (hm : (m, a) ∈ T) (hP : P (m, a) = true)
    (hu : ∀ e ∈ T, P e = true → e.1 = m) : T.filter P = [(m, a)] := by
  induction T with
  | nil => cases hm
  | cons e T ih =>
    simp only [List.map_cons, List.nodup_cons] at hT
    rcases List.mem_cons.1 hm with h | h
    · subst h
      rw [List.filter_cons, if_pos hP]
      congr 1
      rw [List.filter_eq_nil_iff]
      intro e he hp
      have := hu e (List.mem_cons_of_mem _ he) hp
      exact hT.1 (List.mem_map.2 ⟨e, he, this⟩)
    · rw [List.filter_cons, if_neg, ih hT.2 h fun e he => hu e (List.mem_cons_of_mem _ he)]
      intro hp
      have := hu e List.mem_cons_self hp
      exact hT.1 (List.mem_map.2 ⟨_, h, this.symm⟩)

theorem filterMap_unique {β : Type} (hT : (T.map Prod.fst).Nodup) {f : Str × Act D → Option β} {m : Str} {a : Act D} {b : β} (hm : (m, a) ∈ T) (hP : f (m, a) = some b)
    (hu : ∀ e ∈ T, (f e).isSome → e.1 = m) : T.filterMap f = [b] := by
  have h := filter_unique (P := fun e => (f e).isSome) hT hm (by simp [hP]) hu
  have h2 : T.filterMap f = (T.filter fun e => (f e).isSome).filterMap f := by
    rw [List.filterMap_filter]
    apply List.filterMap_congr
    intro e _
    cases f e <;> simp
  rw [h2, h]
  simp [hP]

theorem denotes_form (hT : Good T) {n : Str} {a : Act D} (h : Denotes T n a) : '=' ∉ n ∧ ∃ c r, n = '-' :: c :: r := by
  rcases h with h | ⟨_, h1, h2, _⟩
  · have := lookup_mem h
    refine ⟨hT.noEq _ this, ?_⟩
    rcases hT.form _ this with ⟨c, _, h'⟩ | ⟨r, _, h'⟩
    · exact ⟨c, [], h'⟩
    · exact ⟨'-', r, h'⟩
  · obtain ⟨t, rfl⟩ := h1
    exact ⟨h2, '-', t, rfl⟩

theorem beforeEq_cons {c : Char} (h : c ≠ '=') (s : Str) : beforeEq (c :: s) = c :: beforeEq s := by
  simp [beforeEq, h]

theorem tuples_long {r : Str} : tuples T ('-' :: '-' :: r) =
    (T.filter fun e => (beforeEq ('-' :: '-' :: r)).isPrefixOf e.1).map fun e => .option e.2 (isShort e.1) (explicitEq ('-' :: '-' :: r)) := rfl

theorem tuples_short {c : Char} (hc : c ≠ '-') (r : Str) : tuples T ('-' :: c :: r) = T.filterMap fun e =>
    if e.1 = ['-', c] then some (Kind.option e.2 (isShort e.1) (some (false, r)))
    else if ('-' :: c :: r).isPrefixOf e.1 then some (.option e.2 (isShort e.1) none) else none := by
  unfold tuples
  split
  · rename_i heq; injection heq with _ h; injection h with h _; exact absurd h hc
  · rename_i heq; injection heq with _ h; injection h with h1 h2; subst h1; subst h2; rfl
  · rename_i h; exact absurd rfl (h _ _ _)

/-- With one dash there is nothing to abbreviate. -/
theorem short_prefix (hT : Good T) {c : Char} (hc : c ≠ '-') {r : Str} {e : Str × Act D} (he : e ∈ T) (h : '-' :: c :: r <+: e.1) : r = [] ∧ e.1 = ['-', c] := by
  rcases hT.form e he with ⟨c', _, h'⟩ | ⟨r', _, h'⟩
  · rw [h'] at h
    have h1 := h.length_le
    simp at h1
    subst h1
    have := List.IsPrefix.eq_of_length h (by simp)
    exact ⟨rfl, by rw [h', ← this]⟩
  · rw [h'] at h
    obtain ⟨t, ht⟩ := h
    simp at ht
    exact absurd ht.1 hc

theorem isShort_long {n m : Str} (hn : ['-', '-'] <+: n) (h : n <+: m) : isShort m = false ∧ isShort n = false := by
  obtain ⟨t, rfl⟩ := hn
  obtain ⟨u, rfl⟩ := h
  constructor <;> simp [isShort]

theorem classify_eq {s : Str} {a : Act D} (h0 : s.head? = some '-') (h1 : T.lookup s = none) (h2 : s.length ≠ 1) (h3 : '=' ∈ s)
    (h4 : T.lookup (beforeEq s) = some a) : classify T s = .ok (.option a (isShort (beforeEq s)) (some (true, afterEq s))) := by
  obtain ⟨r, rfl⟩ : ∃ r, s = '-' :: r := by
    cases s with
    | nil => cases h0
    | cons c r => simp at h0; exact ⟨r, by rw [h0]⟩
  · simp only [classify, ne_eq, not_true_eq_false, if_false, h1]
    rw [if_neg h2, if_pos h3, h4]

theorem classify_tuple {s : Str} {k : Kind D} (h0 : s.head? = some '-') (h1 : T.lookup s = none) (h2 : s.length ≠ 1)
    (h3 : (if '=' ∈ s then T.lookup (beforeEq s) else none) = none) (h4 : tuples T s = [k]) : classify T s = .ok k := by
  obtain ⟨r, rfl⟩ : ∃ r, s = '-' :: r := by
    cases s with
    | nil => cases h0
    | cons c r => simp at h0; exact ⟨r, by rw [h0]⟩
  · simp only [classify, ne_eq, not_true_eq_false, if_false, h1]
    rw [if_neg h2, h3, h4]

/-- What an argument is when it is written as an option. -/
theorem classify_option_of (hT : Good T) {s : Str} {a : Act D} {n : Str} (h : Denotes T n a) :
    (s = n → classify T s = .ok (.option a (isShort n) none)) ∧ (∀ v, s = n ++ '=' :: v → classify T s = .ok (.option a (isShort n) (some (true, v)))) := by
  obtain ⟨hn, c, r, rfl⟩ := denotes_form hT h
  have hlen : ∀ v : Str, ('-' :: c :: r ++ '=' :: v).length ≠ 1 := by intro v; simp
  have hno : ∀ v : Str, T.lookup ('-' :: c :: r ++ '=' :: v) = none := by
    intro v
    apply lookup_none
    intro e he heq
    have := hT.noEq e he
    rw [heq] at this
    simp at this
  rcases h with h | ⟨h0, h1, h2, m, hm, hp, hu⟩
  · constructor
    · rintro rfl
      simp [classify, h]
    · rintro v rfl
      have hin : '=' ∈ '-' :: c :: r ++ '=' :: v := by simp
      rw [classify_eq (a := a) (by rfl) (hno v) (hlen v) hin (by rw [beforeEq_append hn, h]), beforeEq_append hn, afterEq_append hn]
  · obtain ⟨t, ht⟩ := h1
    simp at ht
    obtain ⟨rfl, rfl⟩ := ht
    have hs := isShort_long (n := '-' :: '-' :: t) ⟨t, rfl⟩ hp
    have hf : ∀ s : Str, beforeEq s = '-' :: '-' :: t → (T.filter fun e => (beforeEq s).isPrefixOf e.1) = [(m, a)] := by
      intro s hs
      apply filter_unique hT.nodup hm
      · rw [hs]; simpa [List.isPrefixOf_iff_prefix] using hp
      · intro e he hpe
        rw [hs] at hpe
        exact hu e he (by simpa [List.isPrefixOf_iff_prefix] using hpe)
    constructor
    · rintro rfl
      have h3 : tuples T ('-' :: '-' :: t) = [.option a false none] := by
        rw [tuples_long, hf _ (beforeEq_no h2)]
        simp only [List.map_cons, List.map_nil, hs.1, explicitEq]
        rw [if_neg h2]
      simp only [classify, ne_eq, not_true_eq_false, if_false, h0]
      rw [if_neg (by simp), if_neg h2, h3, hs.2]
    · rintro v rfl
      have hin : '=' ∈ '-' :: '-' :: t ++ '=' :: v := by simp
      have h3 : tuples T ('-' :: '-' :: t ++ '=' :: v) = [.option a false (some (true, v))] := by
        rw [List.cons_append, List.cons_append, tuples_long, ← List.cons_append, ← List.cons_append, hf _ (beforeEq_append hn)]
        simp only [List.map_cons, List.map_nil, hs.1, explicitEq]
        rw [if_pos hin, afterEq_append hn]
      rw [classify_tuple (by rfl) (hno v) (hlen v) (by rw [if_pos hin, beforeEq_append hn, h0]) h3, hs.2]

/-- What an argument is when a letter and more are written behind one dash. -/
theorem classify_letter_of (hT : Good T) {c : Char} {rest : Str} {a : Act D} (hr : rest ≠ []) (he : rest.head? ≠ some '=') (h : T.lookup ['-', c] = some a) :
    classify T ('-' :: c :: rest) = .ok (.option a true (some (false, rest))) := by
  have hm := lookup_mem h
  have hce : c ≠ '=' := by
    intro hc
    have := hT.noEq _ hm
    simp [hc] at this
  have hc : c ≠ '-' := by
    rcases hT.form _ hm with ⟨c', hc', h'⟩ | ⟨r', _, h'⟩
    · simp at h'; rw [h']; exact hc'
    · simp at h'
      obtain ⟨-, rfl⟩ := h'
      contradiction
  have hlong : ∀ e ∈ T, ∀ x r', e.1 ≠ '-' :: c :: x :: r' := by
    intro e he' x r' heq
    have := (short_prefix hT hc he' (r := x :: r') (heq ▸ List.prefix_refl _)).1
    cases this
  match rest, hr with
  | x :: rest, _ =>
    have hx : x ≠ '=' := by simpa using he
    apply classify_tuple (by rfl) (lookup_none fun e he' => hlong e he' x rest) (by simp)
    · split
      · apply lookup_none
        intro e he'
        rw [beforeEq_cons (by decide), beforeEq_cons hce, beforeEq_cons hx]
        exact hlong e he' _ _
      · rfl
    · rw [tuples_short hc]
      apply filterMap_unique hT.nodup hm
      · simp [isShort, hc]
      · intro e he' hs
        by_cases h1 : e.1 = ['-', c]
        · exact h1
        · rw [if_neg h1, if_neg] at hs
          · cases hs
          · rw [List.isPrefixOf_iff_prefix]
            intro hp
            exact absurd (short_prefix hT hc he' hp).1 (by simp)

/-- The ways in which an argument is an option. -/
theorem classify_option (hT : Good T) {s : Str} {a : Act D} {short : Bool} {e : Option (Bool × Str)} (h : classify T s = .ok (.option a short e)) :
    (∃ n, Denotes T n a ∧ short = isShort n ∧ ((s = n ∧ e = none) ∨ ∃ v, s = n ++ '=' :: v ∧ e = some (true, v))) ∨
    (∃ c rest, s = '-' :: c :: rest ∧ c ≠ '-' ∧ rest ≠ [] ∧ rest.head? ≠ some '=' ∧ T.lookup ['-', c] = some a ∧ short = true ∧ e = some (false, rest)) := by
  match s with
  | [] => simp [classify] at h
  | [c] =>
    by_cases hc : c = '-'
    · subst hc
      have : T.lookup ['-'] = none := lookup_none fun e he h => by
        rcases hT.form e he with ⟨c', _, h'⟩ | ⟨r', _, h'⟩ <;> · rw [h'] at h; simp at h
      simp [classify, this] at h
    · simp [classify, hc] at h
  | c :: d :: r =>
    by_cases hc : c = '-'
    swap
    · simp [classify, hc] at h
    subst hc
    simp only [classify, ne_eq, not_true_eq_false, if_false] at h
    cases hl : T.lookup ('-' :: d :: r) with
    | some b =>
      rw [hl] at h
      simp only [Except.ok.injEq, Kind.option.injEq] at h
      obtain ⟨rfl, rfl, rfl⟩ := h
      exact .inl ⟨_, .inl hl, rfl, .inl ⟨rfl, rfl⟩⟩
    | none =>
      rw [hl] at h
      simp only at h
      rw [if_neg (by simp)] at h
      cases hl2 : (if '=' ∈ '-' :: d :: r then T.lookup (beforeEq ('-' :: d :: r)) else none) with
      | some b =>
        rw [hl2] at h
        simp only [Except.ok.injEq, Kind.option.injEq] at h
        obtain ⟨rfl, rfl, rfl⟩ := h
        by_cases hin : '=' ∈ '-' :: d :: r
        · rw [if_pos hin] at hl2
          exact .inl ⟨_, .inl hl2, rfl, .inr ⟨_, split_eq hin, rfl⟩⟩
        · rw [if_neg hin] at hl2; cases hl2
      | none =>
        rw [hl2] at h
        simp only at h
        have hk : tuples T ('-' :: d :: r) = [.option a short e] := by
          cases ht : tuples T ('-' :: d :: r) with
          | nil =>
            rw [ht] at h
            simp only at h
            split at h
            · cases h
            · split at h <;> cases h
          | cons k ks =>
            rw [ht] at h
            cases ks with
            | cons => simp at h
            | nil => simp only [Except.ok.injEq] at h; rw [h]
        by_cases hd : d = '-'
        · subst hd
          rw [tuples_long] at hk
          obtain ⟨⟨m, b⟩, hf, hko⟩ : ∃ e', (T.filter fun e => (beforeEq ('-' :: '-' :: r)).isPrefixOf e.1) = [e'] ∧
              Kind.option e'.2 (isShort e'.1) (explicitEq ('-' :: '-' :: r)) = .option a short e := by
            match hq : (T.filter fun e => (beforeEq ('-' :: '-' :: r)).isPrefixOf e.1) with
            | [] => rw [hq] at hk; cases hk
            | [e'] => rw [hq] at hk; exact ⟨e', hq, by simpa using hk⟩
            | _ :: _ :: _ => rw [hq] at hk; simp at hk
          simp only [Kind.option.injEq] at hko
          obtain ⟨rfl, rfl, rfl⟩ := hko
          have hmem : ∀ e', e' ∈ T ∧ beforeEq ('-' :: '-' :: r) <+: e'.1 ↔ e' = (m, b) := by
            intro e'
            have : e' ∈ (T.filter fun e => (beforeEq ('-' :: '-' :: r)).isPrefixOf e.1) ↔ e' ∈ [(m, b)] := by rw [hf]
            simpa [List.mem_filter, List.isPrefixOf_iff_prefix] using this
          have h2 : ['-', '-'] <+: beforeEq ('-' :: '-' :: r) := ⟨beforeEq r, by rw [beforeEq_cons (by decide), beforeEq_cons (by decide)]; rfl⟩
          obtain ⟨hm1, hm2⟩ := (hmem (m, b)).2 rfl
          have hden : Denotes T (beforeEq ('-' :: '-' :: r)) b := by
            right
            refine ⟨?_, h2, beforeEq_mem _, m, hm1, hm2, fun e' he' hp => by rw [(hmem e').1 ⟨he', hp⟩]⟩
            by_cases hin : '=' ∈ '-' :: '-' :: r
            · rw [if_pos hin] at hl2; exact hl2
            · rw [beforeEq_no hin]; exact hl
          left
          refine ⟨_, hden, by rw [(isShort_long h2 hm2).1, (isShort_long h2 hm2).2], ?_⟩
          by_cases hin : '=' ∈ '-' :: '-' :: r
          · right
            exact ⟨_, split_eq hin, by simp [explicitEq, hin]⟩
          · left
            exact ⟨(beforeEq_no hin).symm, by simp [explicitEq, hin]⟩
        · right
          rw [tuples_short hd] at hk
          have hmem : Kind.option a short e ∈ (T.filterMap fun e =>
              if e.1 = ['-', d] then some (Kind.option e.2 (isShort e.1) (some (false, r)))
              else if ('-' :: d :: r).isPrefixOf e.1 then some (.option e.2 (isShort e.1) none) else none) := by rw [hk]; simp
          simp only [List.mem_filterMap] at hmem
          obtain ⟨⟨m, b⟩, hm, hs⟩ := hmem
          by_cases h1 : m = ['-', d]
          · subst h1
            simp only [if_true, Option.some.injEq, Kind.option.injEq] at hs
            obtain ⟨rfl, rfl, rfl⟩ := hs
            have hlk := mem_lookup hT.nodup hm
            refine ⟨d, r, rfl, hd, ?_, ?_, hlk, by simp [isShort, hd], rfl⟩
            · rintro rfl; rw [hlk] at hl; cases hl
            · intro hr
              obtain ⟨r', rfl⟩ : ∃ r', r = '=' :: r' := by
                cases r with
                | nil => cases hr
                | cons c r => simp at hr; exact ⟨r, by rw [hr]⟩
              · have hde : d ≠ '=' := by
                  intro hc
                  have := hT.noEq _ hm
                  simp [hc] at this
                rw [if_pos (by simp), beforeEq_cons (by decide), beforeEq_cons hde] at hl2
                have : beforeEq ('=' :: r') = [] := by simp [beforeEq]
                rw [this, hlk] at hl2
                cases hl2
          · rw [if_neg h1] at hs
            split at hs
            · rename_i hp
              rw [List.isPrefixOf_iff_prefix] at hp
              obtain ⟨rfl, h2⟩ := short_prefix hT hd hm hp
              exact absurd h2 h1
            · cases hs

end Sorcha.Argv
