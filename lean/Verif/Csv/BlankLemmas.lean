import Verif.Csv.TextLemmas
import Verif.Inputs.Props

/-!
# Lemmas: reading blocks and objects from the text of a file with blanks between the fields
-/

namespace Sorcha.Csv

open Spec

variable {skip : ℕ → Option Bool}

theorem bRun_append (s : BRd) (p q : Str) : bRun skip s (p ++ q) = (bRun skip s p).bind fun s' => bRun skip s' q := by
  induction p generalizing s with
  | nil => rfl
  | cons c p ih =>
    simp only [List.cons_append, bRun]
    split
    · rfl
    · exact ih _

theorem delim_blank {c : Char} : delim "whitespace" c ↔ Blank c := by
  unfold delim Blank
  rw [if_pos rfl]

theorem blank_ne {c : Char} (h : Blank c) : c ≠ '\n' ∧ c ≠ '\r' ∧ c ≠ '"' := by
  rcases h with rfl | rfl <;> decide

theorem b_cons {s s' : BRd} {c : Char} (h : bStep skip s c = some s') (t : Str) : bRun skip s (c :: t) = bRun skip s' t := by
  rw [bRun, h]

/-- Inside a field. -/
theorem b_inField (q : Str) (h : ∀ c ∈ q, ¬ Blank c ∧ c ≠ '\n' ∧ c ≠ '\r') (r : List (List Str)) (cur : List Str) (b : Str) (n : ℕ) :
    bRun skip ⟨r, cur, b, .inField, n, none⟩ q = some ⟨r, cur, b ++ q, .inField, n, none⟩ := by
  induction q generalizing b with
  | nil => simp [bRun]
  | cons c q ih =>
    obtain ⟨h1, h2, h3⟩ := h c (by simp)
    rw [b_cons (s' := ⟨r, cur, b ++ [c], .inField, n, none⟩) (by simp [bStep, bInField, delim_blank, h1, h2, h3, BRd.push]), ih fun x hx => h x (by simp [hx])]
    simp

theorem b_quoted (f : Str) (r : List (List Str)) (cur : List Str) (b : Str) (n : ℕ) :
    bRun skip ⟨r, cur, b, .quoted, n, none⟩ (doubled f ++ ['"']) = some ⟨r, cur, b ++ f, .quote, n, none⟩ := by
  induction f generalizing b with
  | nil => simp [doubled, bRun, bStep, BRd.to]
  | cons c f ih =>
    by_cases hc : c = '"'
    · subst hc
      have : doubled ('"' :: f) = '"' :: '"' :: doubled f := by simp [doubled]
      rw [this, List.cons_append, List.cons_append, b_cons (s' := ⟨r, cur, b, .quote, n, none⟩) (by simp [bStep, BRd.to]),
        b_cons (s' := ⟨r, cur, b ++ ['"'], .quoted, n, none⟩) (by simp [bStep, BRd.push]), ih]
      simp
    · have : doubled (c :: f) = c :: doubled f := by simp [doubled, hc]
      rw [this, List.cons_append, b_cons (s' := ⟨r, cur, b ++ [c], .quoted, n, none⟩) (by simp [bStep, BRd.push, hc]), ih]
      simp

/-- At the end of a field. -/
def BOpen (m : BMode) : Prop := m = .inField ∨ m = .quote

theorem spaced_ne {f s : Str} (h : Spaced f s) : ∃ c t, s = c :: t ∧ ¬ Blank c ∧ c ≠ '\n' ∧ c ≠ '\r' := by
  rcases h with ⟨rfl, hne, hq, h⟩ | rfl
  · cases s with
    | nil => exact absurd rfl hne
    | cons c t => exact ⟨c, t, rfl, h c (by simp)⟩
  · exact ⟨'"', _, rfl, by unfold Blank; decide, by decide, by decide⟩

/-- A field from its first character on. -/
theorem b_spaced {f s : Str} (h : Spaced f s) (r : List (List Str)) (cur : List Str) (n : ℕ) (m0 : BMode)
    (hstart : ∀ c, ¬ Blank c → c ≠ '\n' → c ≠ '\r' → bStep skip ⟨r, cur, [], m0, n, none⟩ c = some (bFieldStart ⟨r, cur, [], m0, n, none⟩ c)) :
    ∃ m, BOpen m ∧ bRun skip ⟨r, cur, [], m0, n, none⟩ s = some ⟨r, cur, f, m, n, none⟩ := by
  rcases h with ⟨rfl, hne, hq, h⟩ | rfl
  · cases s with
    | nil => exact absurd rfl hne
    | cons c t =>
      have hc := h c (by simp)
      refine ⟨.inField, Or.inl rfl, ?_⟩
      have hc' : c ≠ '"' := by simpa using hq
      rw [b_cons (hstart c hc.1 hc.2.1 hc.2.2), bFieldStart, if_neg hc', BRd.push, b_inField t fun x hx => h x (by simp [hx])]
      simp
  · refine ⟨.quote, Or.inr rfl, ?_⟩
    rw [List.cons_append, b_cons (hstart '"' (by unfold Blank; decide) (by decide) (by decide)), bFieldStart, if_pos rfl, BRd.to, b_quoted]
    rfl

theorem b_gap (g : Str) (hg : ∀ c ∈ g, Blank c) (r : List (List Str)) (cur : List Str) (b : Str) (n : ℕ) :
    bRun skip ⟨r, cur, b, .eatBlanks, n, none⟩ g = some ⟨r, cur, b, .eatBlanks, n, none⟩ := by
  induction g with
  | nil => rfl
  | cons c g ih =>
    have hc := hg c (by simp)
    have := blank_ne hc
    rw [b_cons (s' := ⟨r, cur, b, .eatBlanks, n, none⟩) (by simp [bStep, delim_blank, hc, this.1, this.2.1])]
    exact ih fun x hx => hg x (by simp [hx])

/-- A blank behind a field. -/
theorem b_blank {c : Char} (hc : Blank c) {m : BMode} (hm : BOpen m) (r : List (List Str)) (cur : List Str) (f : Str) (n : ℕ) (t : Str) :
    bRun skip ⟨r, cur, f, m, n, none⟩ (c :: t) = bRun skip ⟨r, cur ++ [f], [], .eatBlanks, n, none⟩ t := by
  have := blank_ne hc
  rcases hm with rfl | rfl <;> exact b_cons (by simp [bStep, bInField, delim_blank, hc, this.1, this.2.1, this.2.2, BRd.endField]) t

/-- Where a line has been read to its end: the fields before the last one, and the last one unless blanks followed it. -/
def Whole (cur : List Str) (buf : Str) (m : BMode) (fs : List Str) : Prop :=
  (BOpen m ∧ cur ++ [buf] = fs) ∨ (m = .eatBlanks ∧ buf = [] ∧ cur = fs)

theorem b_line {fs : List Str} {s : Str} (h : SpacedLine fs s) (r : List (List Str)) (cur : List Str) (n : ℕ) (m0 : BMode)
    (hstart : ∀ c, ¬ Blank c → c ≠ '\n' → c ≠ '\r' → bStep skip ⟨r, cur, [], m0, n, none⟩ c = some (bFieldStart ⟨r, cur, [], m0, n, none⟩ c)) :
    ∃ cur' b m, Whole cur' b m (cur ++ fs) ∧ bRun skip ⟨r, cur, [], m0, n, none⟩ s = some ⟨r, cur', b, m, n, none⟩ := by
  induction h generalizing cur m0 with
  | @one f s g h hg =>
    obtain ⟨m, hm, e⟩ := b_spaced h r cur n m0 hstart
    cases g with
    | nil => exact ⟨cur, f, m, Or.inl ⟨hm, rfl⟩, by rw [List.append_nil, e]⟩
    | cons c g =>
      refine ⟨cur ++ [f], [], .eatBlanks, Or.inr ⟨rfl, rfl, rfl⟩, ?_⟩
      rw [bRun_append, e]
      show bRun skip _ (c :: g) = _
      rw [b_blank (hg c (by simp)) hm, b_gap g fun x hx => hg x (by simp [hx])]
  | @more f s b g fs t h hb hg _ ih =>
    obtain ⟨m, hm, e⟩ := b_spaced h r cur n m0 hstart
    obtain ⟨cur', b', m', h1, h2⟩ := ih (cur ++ [f]) .eatBlanks (fun c h1 h2 h3 => by simp [bStep, delim_blank, h1, h2, h3])
    refine ⟨cur', b', m', by rw [List.append_assoc] at h1; exact h1, ?_⟩
    rw [bRun_append, e]
    show bRun skip _ (b :: (g ++ t)) = _
    rw [b_blank hb hm, bRun_append, b_gap g hg]
    exact h2

theorem b_lead (g : Str) (hg : ∀ c ∈ g, Blank c) (r : List (List Str)) (n : ℕ) :
    bRun skip ⟨r, [], [], .blankLine, n, none⟩ g = some ⟨r, [], [], .blankLine, n, none⟩ := by
  induction g with
  | nil => rfl
  | cons c g ih =>
    have hc := hg c (by simp)
    have := blank_ne hc
    rw [b_cons (s' := ⟨r, [], [], .blankLine, n, none⟩) (by simp [bStep, delim_blank, hc, this.1, this.2.1])]
    exact ih fun x hx => hg x (by simp [hx])

/-- A line that is not skipped. -/
theorem b_indented {fs : List Str} {s : Str} (h : Indented fs s) (r : List (List Str)) {n : ℕ} (hs : skip n = some false) :
    ∃ cur b m, Whole cur b m fs ∧ bRun skip ⟨r, [], [], .startLine, n, none⟩ s = some ⟨r, cur, b, m, n, none⟩ := by
  obtain ⟨g, t, rfl, hg, ht, -⟩ := h
  cases g with
  | nil =>
    exact b_line ht r [] n .startLine fun c h1 h2 h3 => by simp [bStep, bFirst, hs, delim_blank, h1, h2, h3]
  | cons c g =>
    have hc := hg c (by simp)
    have hne := blank_ne hc
    obtain ⟨cur, b, m, h1, h2⟩ := b_line (skip := skip) ht r [] n .blankLine fun c h1 h2 h3 => by simp [bStep, delim_blank, h1, h2, h3]
    refine ⟨cur, b, m, h1, ?_⟩
    rw [List.cons_append, b_cons (s' := ⟨r, [], [], .blankLine, n, none⟩) (by simp [bStep, bFirst, hs, delim_blank, hc, hne.1, hne.2.1, BRd.to]), bRun_append,
      b_lead g fun x hx => hg x (by simp [hx])]
    exact h2

theorem b_end {e : Str} (he : LineEnd e) {cur : List Str} {b : Str} {m : BMode} {fs : List Str} (h : Whole cur b m fs) (r : List (List Str)) (n : ℕ) (t : Str) :
    bRun skip ⟨r, cur, b, m, n, none⟩ (e ++ t) = bRun skip ⟨r ++ [fs], [], [], .startLine, n + 1, none⟩ t := by
  rcases h with ⟨hm, rfl⟩ | ⟨rfl, rfl, rfl⟩
  · rcases he with rfl | rfl <;> rcases hm with rfl | rfl <;> simp [bRun, bStep, bInField, BRd.endField, BRd.endLine]
  · rcases he with rfl | rfl <;> simp [bRun, bStep, BRd.endLine, BRd.to]

theorem b_finish {cur : List Str} {b : Str} {m : BMode} {fs : List Str} (h : Whole cur b m fs) (r : List (List Str)) (n : ℕ) :
    bFinish ⟨r, cur, b, m, n, none⟩ = some (r ++ [fs]) := by
  rcases h with ⟨hm, rfl⟩ | ⟨rfl, rfl, rfl⟩
  · rcases hm with rfl | rfl <;> simp [bFinish]
  · simp [bFinish]

/-! ## Lines that are skipped -/

theorem bskip_on {r : List (List Str)} {n : ℕ} {k k' : Skip} {c : Char} (h : skipStep "whitespace" k c = .on k') (t : Str) :
    bRun skip ⟨r, [], [], .startLine, n, some k⟩ (c :: t) = bRun skip ⟨r, [], [], .startLine, n, some k'⟩ t := by
  refine b_cons ?_ t
  simp only [bStep, h]

theorem bskip_field (p : Str) (hp : ∀ c ∈ p, ¬ Blank c ∧ c ≠ '\n' ∧ c ≠ '\r') (r : List (List Str)) (n : ℕ) :
    bRun skip ⟨r, [], [], .startLine, n, some .field⟩ p = some ⟨r, [], [], .startLine, n, some .field⟩ := by
  induction p with
  | nil => rfl
  | cons c p ih =>
    obtain ⟨h1, h2, h3⟩ := hp c (by simp)
    rw [bskip_on (skipStep_other (Or.inr (Or.inl rfl)) h2 h3 (Or.inl rfl) (by rwa [delim_blank]))]
    exact ih fun x hx => hp x (by simp [hx])

theorem bskip_quoted (f : Str) (r : List (List Str)) (n : ℕ) :
    bRun skip ⟨r, [], [], .startLine, n, some .quoted⟩ (doubled f ++ ['"']) = some ⟨r, [], [], .startLine, n, some .quote⟩ := by
  induction f with
  | nil => simp [doubled, bRun, bStep, skipStep]
  | cons c f ih =>
    by_cases hc : c = '"'
    · subst hc
      have : doubled ('"' :: f) = '"' :: '"' :: doubled f := by simp [doubled]
      rw [this, List.cons_append, List.cons_append, bskip_on (k' := .quote) (by simp [skipStep]), bskip_on (k' := .quoted) (by simp [skipStep, skipEnd])]
      exact ih
    · have : doubled (c :: f) = c :: doubled f := by simp [doubled, hc]
      rw [this, List.cons_append, bskip_on (k' := .quoted) (by simp [skipStep, hc])]
      exact ih

theorem bskip_gap (g : Str) (hg : ∀ c ∈ g, Blank c) (r : List (List Str)) (n : ℕ) (k : Skip) (hk : Outside k) :
    ∃ k', Outside k' ∧ (g = [] ∧ k' = k ∨ g ≠ [] ∧ k' = .start) ∧ bRun skip ⟨r, [], [], .startLine, n, some k⟩ g = some ⟨r, [], [], .startLine, n, some k'⟩ := by
  induction g generalizing k with
  | nil => exact ⟨k, hk, Or.inl ⟨rfl, rfl⟩, rfl⟩
  | cons c g ih =>
    have hc := hg c (by simp)
    have hne := blank_ne hc
    rw [bskip_on (skipStep_delim hk hne.2.2 hne.1 hne.2.1 (by rwa [delim_blank]))]
    obtain ⟨k', h1, h2, h3⟩ := ih (fun x hx => hg x (by simp [hx])) .start (Or.inl rfl)
    refine ⟨k', h1, Or.inr ⟨by simp, ?_⟩, h3⟩
    rcases h2 with ⟨-, h⟩ | ⟨-, h⟩ <;> exact h

theorem bskip_spaced {f s : Str} (h : Spaced f s) (r : List (List Str)) (n : ℕ) (k : Skip) (hk : k = .start ∨ (k = .field ∧ s.head? ≠ some '"')) :
    ∃ k', Outside k' ∧ bRun skip ⟨r, [], [], .startLine, n, some k⟩ s = some ⟨r, [], [], .startLine, n, some k'⟩ := by
  rcases h with ⟨rfl, hne, hq, h⟩ | rfl
  · cases s with
    | nil => exact absurd rfl hne
    | cons c t =>
      have hc := h c (by simp)
      refine ⟨.field, Or.inr (Or.inl rfl), ?_⟩
      rw [bskip_on (skipStep_other (by rcases hk with rfl | ⟨rfl, -⟩ <;> simp [Outside]) hc.2.1 hc.2.2 (Or.inr (by simpa using hq)) (by rw [delim_blank]; exact hc.1))]
      exact bskip_field t (fun x hx => h x (by simp [hx])) r n
  · rcases hk with rfl | ⟨-, hk⟩
    · refine ⟨.quote, Or.inr (Or.inr rfl), ?_⟩
      rw [List.cons_append, bskip_on (k' := .quoted) (by simp [skipStep, skipEnd]), bskip_quoted]
    · simp at hk

theorem head_append {s u : Str} (hs : s ≠ []) : (s ++ u).head? = s.head? := by
  cases s with
  | nil => exact absurd rfl hs
  | cons c s => rfl

theorem bskip_line {fs : List Str} {s : Str} (h : SpacedLine fs s) (r : List (List Str)) (n : ℕ) (k : Skip) (hk : k = .start ∨ (k = .field ∧ s.head? ≠ some '"')) :
    ∃ k', Outside k' ∧ bRun skip ⟨r, [], [], .startLine, n, some k⟩ s = some ⟨r, [], [], .startLine, n, some k'⟩ := by
  induction h generalizing k with
  | @one f s g h hg =>
    obtain ⟨c, u, rfl, -⟩ := spaced_ne h
    obtain ⟨k1, h1, e1⟩ := bskip_spaced (skip := skip) h r n k hk
    obtain ⟨k2, h2, -, e2⟩ := bskip_gap (skip := skip) g hg r n k1 h1
    exact ⟨k2, h2, by rw [bRun_append, e1]; exact e2⟩
  | @more f s b g fs t h hb hg _ ih =>
    obtain ⟨c, u, rfl, -⟩ := spaced_ne h
    obtain ⟨k1, h1, e1⟩ := bskip_spaced (skip := skip) h r n k hk
    obtain ⟨k2, -, h2, e2⟩ := bskip_gap (skip := skip) (b :: g) (by simpa using ⟨hb, hg⟩) r n k1 h1
    obtain ⟨k3, h3, e3⟩ := ih .start (Or.inl rfl)
    refine ⟨k3, h3, ?_⟩
    have hk2 : k2 = .start := by
      rcases h2 with ⟨h, -⟩ | ⟨-, h⟩
      · simp at h
      · exact h
    rw [hk2] at e2
    rw [bRun_append, e1, ← List.cons_append]
    show bRun skip _ (b :: g ++ t) = _
    rw [bRun_append, e2]
    exact e3

theorem bskip_indented {fs : List Str} {s : Str} (h : Indented fs s) (r : List (List Str)) {n : ℕ} (hs : skip n = some true) :
    ∃ k', Outside k' ∧ bRun skip ⟨r, [], [], .startLine, n, none⟩ s = some ⟨r, [], [], .startLine, n, some k'⟩ := by
  obtain ⟨g, t, rfl, hg, ht, hq⟩ := h
  have first : ∀ (c : Char) (u : Str), c ≠ '"' → c ≠ '\n' → bRun skip ⟨r, [], [], .startLine, n, none⟩ (c :: u) = bRun skip ⟨r, [], [], .startLine, n, some .field⟩ u := by
    intro c u h1 h2
    exact b_cons (by simp [bStep, bFirst, hs, h1, h2]) u
  cases g with
  | cons c g =>
    have hc := hg c (by simp)
    have hne := blank_ne hc
    rw [List.cons_append, first c _ hne.2.2 hne.1]
    obtain ⟨k1, h1, h2, e1⟩ := bskip_gap (skip := skip) g (fun x hx => hg x (by simp [hx])) r n .field (Or.inr (Or.inl rfl))
    obtain ⟨k2, h3, e2⟩ := bskip_line (skip := skip) ht r n k1 (by
      rcases h2 with ⟨-, rfl⟩ | ⟨-, rfl⟩
      · exact Or.inr ⟨rfl, hq.resolve_left (by simp)⟩
      · exact Or.inl rfl)
    exact ⟨k2, h3, by rw [bRun_append, e1]; exact e2⟩
  | nil =>
    rw [List.nil_append]
    obtain ⟨k2, h3, e2⟩ := bskip_line (skip := skip) ht r n .start (Or.inl rfl)
    refine ⟨k2, h3, ?_⟩
    rw [← e2]
    obtain ⟨c, u, rfl, h1, h2, h4⟩ : ∃ c u, t = c :: u ∧ ¬ Blank c ∧ c ≠ '\n' ∧ c ≠ '\r' := by
      cases ht with
      | one h _ =>
        obtain ⟨c, u, rfl, h'⟩ := spaced_ne h
        exact ⟨c, _, rfl, h'⟩
      | more h _ _ _ =>
        obtain ⟨c, u, rfl, h'⟩ := spaced_ne h
        exact ⟨c, _, rfl, h'⟩
    by_cases hc : c = '"'
    · subst hc
      rw [bskip_on (k' := .quoted) (by simp [skipStep, skipEnd])]
      exact b_cons (by simp [bStep, bFirst, hs]) u
    · rw [first c u hc h2, bskip_on (skipStep_other (Or.inl rfl) h2 h4 (Or.inr hc) (by rwa [delim_blank]))]

theorem bskip_end {e : Str} (he : LineEnd e) {k : Skip} (hk : Outside k) (r : List (List Str)) (n : ℕ) (t : Str) :
    bRun skip ⟨r, [], [], .startLine, n, some k⟩ (e ++ t) = bRun skip ⟨r, [], [], .startLine, n + 1, none⟩ t := by
  rcases he with rfl | rfl <;> rcases hk with rfl | rfl | rfl <;> simp [bRun, bStep, skipStep, skipEnd, BRd.noLine, BRd.to]

/-! ## All lines -/

theorem b_text {ls : List Str} {t : Str} (hg : Glued ls t) {fss : List (List Str)} (hl : List.Forall₂ Indented fss ls) {k : ℕ → Bool}
    (n : ℕ) (hk : ∀ i, i < ls.length → skip (n + i) = some (k (n + i))) (r : List (List Str)) :
    ∃ s, bRun skip ⟨r, [], [], .startLine, n, none⟩ t = some s ∧ bFinish s = some (r ++ keep k n fss) := by
  induction hg generalizing fss n r with
  | nil =>
    cases hl
    exact ⟨_, rfl, by simp [bFinish, keep]⟩
  | @last l hne =>
    cases hl with
    | @cons fs _ fss' _ h hn =>
    cases hn
    have h0 := hk 0 (by simp)
    rw [Nat.add_zero] at h0
    cases hb : k n with
    | false =>
      rw [hb] at h0
      obtain ⟨cur, b, m, h1, h2⟩ := b_indented (skip := skip) h r h0
      refine ⟨_, h2, ?_⟩
      rw [b_finish h1]
      simp [keep, hb]
    | true =>
      rw [hb] at h0
      obtain ⟨k', hk', e⟩ := bskip_indented (skip := skip) h r h0
      exact ⟨_, e, by simp [bFinish, keep, hb]⟩
  | @cons l e ls t he _ ih =>
    cases hl with
    | @cons fs _ fss' _ h hn =>
    have h0 := hk 0 (by simp)
    rw [Nat.add_zero] at h0
    have hk' : ∀ i, i < ls.length → skip (n + 1 + i) = some (k (n + 1 + i)) := by
      intro i hi
      have := hk (i + 1) (by simpa using hi)
      rwa [show n + (i + 1) = n + 1 + i by omega] at this
    cases hb : k n with
    | false =>
      rw [hb] at h0
      obtain ⟨cur, b, m, h1, h2⟩ := b_indented (skip := skip) h r h0
      obtain ⟨s, e1, e2⟩ := ih hn (n + 1) hk' (r ++ [fs])
      refine ⟨s, ?_, ?_⟩
      · rw [bRun_append, h2]
        show bRun skip _ (e ++ t) = _
        rw [b_end he h1, e1]
      · rw [e2]; simp [keep, hb]
    | true =>
      rw [hb] at h0
      obtain ⟨k', hk'', e0⟩ := bskip_indented (skip := skip) h r h0
      obtain ⟨s, e1, e2⟩ := ih hn (n + 1) hk' r
      refine ⟨s, ?_, ?_⟩
      · rw [bRun_append, e0]
        show bRun skip _ (e ++ t) = _
        rw [bskip_end he hk'', e1]
      · rw [e2]; simp [keep, hb]

theorem blankTokens_text {ls : List Str} {t : Str} (hg : Glued ls t) {fss : List (List Str)} (hl : List.Forall₂ Indented fss ls) {k : ℕ → Bool}
    (hk : ∀ i, i < ls.length → skip i = some (k i)) : blankTokens skip t = some (keep k 0 fss) := by
  obtain ⟨s, h1, h2⟩ := b_text (skip := skip) hg hl 0 (by simpa using hk) []
  unfold blankTokens
  rw [h1]
  simpa using h2

/-! ## The lines above the header -/

theorem quiet_suffix {separator : Char → Prop} {a b : Str} {c : Char} (h : Quiet separator (a ++ c :: b)) (hc : separator c) : Quiet separator b := by
  refine ⟨fun e => ?_, fun p x q e => h.2 (a ++ c :: p) x q (by rw [e]; simp)⟩
  cases b with
  | nil => simp at e
  | cons d b =>
    rw [List.head?_cons, Option.some.injEq] at e
    subst e
    exact h.2 a c b rfl hc

theorem blank_line (l : Str) (h : ∀ c ∈ l, c ≠ '\n' ∧ c ≠ '\r') (hq : Quiet Blank l) :
    (∀ c ∈ l, Blank c) ∨ ∃ g fs t, l = g ++ t ∧ (∀ c ∈ g, Blank c) ∧ SpacedLine fs t ∧ t.head? ≠ some '"' := by
  classical
  induction hn : l.length using Nat.strong_induction_on generalizing l with
  | _ n ih =>
    cases l with
    | nil => exact Or.inl (by simp)
    | cons c l =>
      by_cases hc : Blank c
      · rcases ih l.length (by rw [← hn]; simp) l (fun x hx => h x (by simp [hx])) ((quiet_tail hq).2 hc) rfl with h1 | ⟨g, fs, t, rfl, h1, h2, h3⟩
        · exact Or.inl (by simpa using ⟨hc, h1⟩)
        · exact Or.inr ⟨c :: g, fs, t, rfl, by simpa using ⟨hc, h1⟩, h2, h3⟩
      · right
        have hq' : c ≠ '"' := by simpa using hq.1
        by_cases hall : ∃ b ∈ l, Blank b
        · obtain ⟨a, b, rest, rfl, hb, ha⟩ : ∃ a b rest, l = a ++ b :: rest ∧ Blank b ∧ ∀ x ∈ a, ¬ Blank x := by
            clear ih hq hn h
            induction l with
            | nil => simp at hall
            | cons x l ih =>
              by_cases hx : Blank x
              · exact ⟨[], x, l, rfl, hx, by simp⟩
              · obtain ⟨y, hy, hy'⟩ := hall
                rcases List.mem_cons.1 hy with rfl | hy
                · exact absurd hy' hx
                · obtain ⟨a, b, rest, rfl, h1, h2⟩ := ih ⟨y, hy, hy'⟩
                  exact ⟨x :: a, b, rest, rfl, h1, by simpa using ⟨hx, h2⟩⟩
          have hw : Spaced (c :: a) (c :: a) := by
            refine Or.inl ⟨rfl, by simp, by simpa using hq', fun x hx => ⟨?_, h x (by simp at hx ⊢; tauto)⟩⟩
            rcases List.mem_cons.1 hx with rfl | hx
            exacts [hc, ha x hx]
          have hq2 : Quiet Blank rest := quiet_suffix (a := c :: a) (by simpa using hq) hb
          rcases ih rest.length (by rw [← hn]; simp; omega) rest (fun x hx => h x (by simp [hx])) hq2 rfl with h1 | ⟨g, fs, t, rfl, h1, h2, h3⟩
          · exact ⟨[], [c :: a], _, by simp, by simp, .one (g := b :: rest) hw (by simpa using ⟨hb, h1⟩), by simpa using hq'⟩
          · exact ⟨[], (c :: a) :: fs, _, by simp, by simp, .more hw hb h1 h2, by simpa using hq'⟩
        · push Not at hall
          refine ⟨[], [c :: l], c :: l, by simp, by simp, ?_, by simpa using hq'⟩
          have := SpacedLine.one (f := c :: l) (s := c :: l) (g := []) (Or.inl ⟨rfl, by simp, by simpa using hq', fun x hx => ⟨?_, h x hx⟩⟩) (by simp)
          · simpa using this
          · rcases List.mem_cons.1 hx with rfl | hx
            exacts [hc, hall x hx]

theorem notes_indented (notes : List Str) (h : ∀ l ∈ notes, Note Blank l) : ∃ fss, List.Forall₂ Indented fss notes := by
  induction notes with
  | nil => exact ⟨[], .nil⟩
  | cons l ls ih =>
    obtain ⟨h1, ⟨c, hc, hc'⟩, -, h2⟩ := h l (by simp)
    obtain ⟨fss, h3⟩ := ih fun x hx => h x (by simp [hx])
    rcases blank_line l h1 h2 with h4 | ⟨g, fs, t, h4, h5, h6, h7⟩
    · rcases h4 c hc with h | h
      exacts [absurd h hc'.1, absurd h hc'.2]
    · exact ⟨fs :: fss, .cons ⟨g, t, h4, h5, h6, Or.inr h7⟩ h3⟩

theorem space_of_blank {b : Char} (hb : Blank b) : Config.isSpace b = true := by rcases hb with rfl | rfl <;> decide

theorem words_some (l : Str) (h : ∃ c ∈ l, Config.isSpace c = false) : ∀ cur, Inputs.words cur l ≠ [] := by
  induction l with
  | nil => simp at h
  | cons x l ih =>
    intro cur
    rw [Inputs.words]
    by_cases hx : Config.isSpace x = true
    · have hl : ∃ c ∈ l, Config.isSpace c = false := by
        obtain ⟨c, hc, hc'⟩ := h
        rcases List.mem_cons.1 hc with rfl | hc
        · rw [hx] at hc'; cases hc'
        · exact ⟨c, hc, hc'⟩
      rw [if_pos hx]
      split
      · exact ih hl []
      · simp
    · rw [if_neg hx]
      have hcur : ∀ (l : Str) (cur : Str), cur ≠ [] → Inputs.words cur l ≠ [] := by
        intro l
        induction l with
        | nil => intro cur hc; simp [Inputs.words, hc]
        | cons y l ih =>
          intro cur hc
          rw [Inputs.words]
          split
          · rw [if_neg (by simpa using hc)]; simp
          · exact ih _ (by simp)
      exact hcur l _ (by simp)

theorem alnum_not_space {c : Char} (h : c.isAlphanum = true) : Config.isSpace c = false := by
  have hn : (48 ≤ c.toNat ∧ c.toNat ≤ 57) ∨ (65 ≤ c.toNat ∧ c.toNat ≤ 90) ∨ (97 ≤ c.toNat ∧ c.toNat ≤ 122) := by
    simp only [Char.isAlphanum, Char.isAlpha, Char.isUpper, Char.isLower, Char.isDigit, Bool.or_eq_true, Bool.and_eq_true, decide_eq_true_eq, UInt32.le_iff_toNat_le] at h
    simp only [Char.toNat]
    rcases h with (⟨h1, h2⟩ | ⟨h1, h2⟩) | ⟨h1, h2⟩
    · exact Or.inr (Or.inl ⟨h1, h2⟩)
    · exact Or.inr (Or.inr ⟨h1, h2⟩)
    · exact Or.inl ⟨h1, h2⟩
  unfold Config.isSpace
  generalize c.toNat = n at hn
  simp only [Bool.or_eq_false_iff, Bool.and_eq_false_iff, decide_eq_false_iff_not]
  omega

theorem search_blank {header rest : Str} {b : Char} (hh : header = "ObjID".toList ++ b :: rest) (hb : Blank b) (hr : ∃ c ∈ rest, c.isAlphanum = true)
    (hnl : ∀ c ∈ rest, c ≠ '\n' ∧ c ≠ '\r') (lines : List Str) (t : Str)
    (hg : Glued (header :: lines) t) (i : ℕ) : Tables.search "whitespace" i (pyLines t [] false) = .ok i := by
  subst hh
  obtain ⟨u, hu⟩ : ∃ u, t = ("ObjID".toList ++ b :: rest) ++ u := by
    generalize hls : ("ObjID".toList ++ b :: rest) :: lines = ls at hg
    cases hg with
    | nil => cases hls
    | last _ => rw [List.cons.injEq] at hls; exact ⟨[], by rw [hls.1, List.append_nil]⟩
    | cons _ _ => rw [List.cons.injEq] at hls; rw [← hls.1]; exact ⟨_, rfl⟩
  subst hu
  have hnb := blank_ne hb
  rw [pyLines_plain _ (by
    intro c hc
    rcases List.mem_append.1 hc with hc | hc
    · exact (show ∀ c ∈ "ObjID".toList, c ≠ '\n' ∧ c ≠ '\r' by decide) c hc
    · rcases List.mem_cons.1 hc with rfl | hc
      exacts [⟨hnb.1, hnb.2.1⟩, hnl c hc]), List.nil_append]
  obtain ⟨x, xs, e⟩ := pyLines_head u ("ObjID".toList ++ b :: rest) (by simp)
  rw [e, Tables.search]
  have h1 : Tables.starts ("ObjID".toList ++ b :: rest ++ x) = true := by
    unfold Tables.starts
    rw [List.isPrefixOf_iff_prefix]
    exact ⟨b :: rest ++ x, rfl⟩
  have h2 : ∃ ws, ws ≠ [] ∧ Tables.cut "whitespace" ("ObjID".toList ++ b :: rest ++ x) = "ObjID".toList :: ws := by
    refine ⟨Inputs.words [] (rest ++ x), words_some _ ?_ [], ?_⟩
    · obtain ⟨c, hc, hc'⟩ := hr
      exact ⟨c, by simp [hc], alnum_not_space hc'⟩
    · unfold Tables.cut
      rw [if_neg (by decide)]
      have : Inputs.words [] ("ObjID".toList ++ b :: rest ++ x) = Inputs.words "DIjbO".toList (b :: (rest ++ x)) := by
        simp [Inputs.words, Config.isSpace]
      rw [this, Inputs.words, if_pos (space_of_blank hb), if_neg (by decide)]
      rfl
  obtain ⟨ws, hws, h2⟩ := h2
  have h3 : Tables.checkHeader "whitespace" ("ObjID".toList ++ b :: rest ++ x) = .ok () := by
    unfold Tables.checkHeader
    rw [h2, if_neg, if_neg]
    · simp
    · cases ws with
      | nil => exact absurd rfl hws
      | cons a b => simp
  rw [h1, h3]
  simp [Except.map]

end Sorcha.Csv
