import Verif.Csv.Text
import Verif.Csv.Lemmas

/-!
# Lemmas: reading blocks and objects from the text of a file
-/

namespace Sorcha.Csv

open Spec

variable {skip : ℕ → Option Bool}

theorem rdRun_append (s : Rd) (p q : Str) : rdRun skip s (p ++ q) = (rdRun skip s p).bind fun s' => rdRun skip s' q := by
  induction p generalizing s with
  | nil => rfl
  | cons c p ih =>
    simp only [List.cons_append, rdRun]
    split
    · rfl
    · exact ih _

/-- A mode within a line. -/
def Calm (m : Mode) : Prop := m ≠ .startLine ∧ m ≠ .eatEnd ∧ m ≠ .eatEmpty

theorem open_calm {m : Mode} (h : Open m) : Calm m := by rcases h with rfl | rfl | rfl <;> simp [Calm]

theorem rdStep_calm {s : St} (h : Calm s.mode) (n : ℕ) (c : Char) :
    rdStep skip ⟨s, n, none⟩ c = some ⟨step s c, if (step s c).mode = .startLine ∨ (step s c).mode = .eatEmpty then n + 1 else n, none⟩ := by
  obtain ⟨h1, h2, h3⟩ := h
  unfold rdStep
  cases hm : s.mode <;> simp_all

theorem inFieldStep_calm {c : Char} (h1 : c ≠ '\n') (h2 : c ≠ '\r') (s : St) : Calm (inFieldStep s c).mode := by
  unfold inFieldStep
  rw [if_neg h1, if_neg h2]
  split_ifs <;> simp [St.endField, St.push, Calm]

theorem startFieldStep_calm {c : Char} (h1 : c ≠ '\n') (h2 : c ≠ '\r') (s : St) : Calm (startFieldStep s c).mode := by
  unfold startFieldStep
  split_ifs
  · simp [St.to, Calm]
  · exact inFieldStep_calm h1 h2 s

theorem startLineStep_calm {c : Char} (h1 : c ≠ '\n') (h2 : c ≠ '\r') (s : St) : Calm (startLineStep s c).mode := by
  unfold startLineStep
  rw [if_neg h1, if_neg h2]
  split_ifs
  · simp [St.push, Calm]
  · exact startFieldStep_calm h1 h2 s

theorem step_calm {s : St} {c : Char} (h : Calm s.mode) (h1 : c ≠ '\n') (h2 : c ≠ '\r') : Calm (step s c).mode := by
  obtain ⟨g1, g2, g3⟩ := h
  unfold step
  cases hm : s.mode with
  | startLine => exact absurd hm g1
  | eatEnd => exact absurd hm g2
  | eatEmpty => exact absurd hm g3
  | blanks =>
    simp only [if_neg h1, if_neg h2]
    split_ifs
    · simp [St.push, Calm]
    · exact inFieldStep_calm h1 h2 s
  | startField => exact startFieldStep_calm h1 h2 s
  | inField => exact inFieldStep_calm h1 h2 s
  | quoted => simp only; split_ifs <;> simp [St.push, St.to, Calm]
  | quote =>
    simp only
    split_ifs
    · simp [St.push, Calm]
    · exact inFieldStep_calm h1 h2 s

theorem calm_run (p : Str) (hp : ∀ c ∈ p, c ≠ '\n' ∧ c ≠ '\r') {s : St} (h : Calm s.mode) (n : ℕ) :
    rdRun skip ⟨s, n, none⟩ p = some ⟨p.foldl step s, n, none⟩ := by
  induction p generalizing s with
  | nil => rfl
  | cons c p ih =>
    have hc := hp c (by simp)
    have h' := step_calm h hc.1 hc.2
    rw [rdRun, rdStep_calm h, if_neg (by rintro (h'' | h''); exacts [h'.1 h'', h'.2.2 h''])]
    exact ih (fun x hx => hp x (by simp [hx])) h'

theorem quoted_run (f : Str) (r : List (List Str)) (cur : List Str) (b : Str) (n : ℕ) :
    rdRun skip ⟨⟨r, cur, b, .quoted⟩, n, none⟩ (doubled f ++ ['"']) = some ⟨⟨r, cur, b ++ f, .quote⟩, n, none⟩ := by
  induction f generalizing b with
  | nil => simp [doubled, rdRun, rdStep, step, St.to]
  | cons c f ih =>
    by_cases hc : c = '"'
    · subst hc
      have : doubled ('"' :: f) = '"' :: '"' :: doubled f := by simp [doubled]
      rw [this]
      simp only [List.cons_append, rdRun, rdStep, step, if_true, St.to, St.push, reduceCtorEq, or_self, if_false]
      rw [ih]; simp
    · have : doubled (c :: f) = c :: doubled f := by simp [doubled, hc]
      rw [this]
      simp only [List.cons_append, rdRun, rdStep, step, if_neg hc, St.push, reduceCtorEq, or_self, if_false]
      rw [ih]; simp

/-! ## Fields that are not in quotes -/

/-- Not special inside a field. -/
def Inner (c : Char) : Prop := c ≠ ',' ∧ c ≠ '\n' ∧ c ≠ '\r'

theorem inField_inner {c : Char} (h : Inner c) (r : List (List Str)) (cur : List Str) (b : Str) (m : Mode) :
    inFieldStep ⟨r, cur, b, m⟩ c = ⟨r, cur, b ++ [c], .inField⟩ := by
  simp [inFieldStep, h.1, h.2.1, h.2.2, St.push]

theorem fold_inField (q : Str) (h : ∀ c ∈ q, Inner c) (r : List (List Str)) (cur : List Str) (b : Str) :
    q.foldl step ⟨r, cur, b, .inField⟩ = ⟨r, cur, b ++ q, .inField⟩ := by
  induction q generalizing b with
  | nil => simp
  | cons c q ih =>
    rw [List.foldl_cons]
    have : step ⟨r, cur, b, .inField⟩ c = ⟨r, cur, b ++ [c], .inField⟩ := inField_inner (h c (by simp)) r cur b _
    rw [this, ih fun x hx => h x (by simp [hx])]
    simp

theorem fold_startField (q : Str) (h : ∀ c ∈ q, Inner c) (hq : q.head? ≠ some '"') (r : List (List Str)) (cur : List Str) :
    ∃ m, Open m ∧ q.foldl step ⟨r, cur, [], .startField⟩ = ⟨r, cur, q, m⟩ := by
  cases q with
  | nil => exact ⟨.startField, Or.inr (Or.inr rfl), rfl⟩
  | cons c q =>
    refine ⟨.inField, Or.inl rfl, ?_⟩
    rw [List.foldl_cons]
    have hc := h c (by simp)
    have : step ⟨r, cur, [], .startField⟩ c = ⟨r, cur, [c], .inField⟩ := by
      simp only [step, startFieldStep, if_neg (show c ≠ '"' by simpa using hq)]
      exact inField_inner hc r cur [] _
    rw [this, fold_inField q (fun x hx => h x (by simp [hx]))]
    rfl

theorem fold_blanks (q : Str) (h : ∀ c ∈ q, Inner c) (r : List (List Str)) (cur : List Str) (b : Str) :
    (Blanks q ∧ q.foldl step ⟨r, cur, b, .blanks⟩ = ⟨r, cur, b ++ q, .blanks⟩) ∨
      (¬ Blanks q ∧ q.foldl step ⟨r, cur, b, .blanks⟩ = ⟨r, cur, b ++ q, .inField⟩) := by
  induction q generalizing b with
  | nil => left; exact ⟨fun c hc => (List.not_mem_nil hc).elim, by simp⟩
  | cons c q ih =>
    have hc := h c (by simp)
    rw [List.foldl_cons]
    by_cases hb : c = ' ' ∨ c = '\t'
    · have : step ⟨r, cur, b, .blanks⟩ c = ⟨r, cur, b ++ [c], .blanks⟩ := by
        simp only [step, if_neg hc.2.1, if_neg hc.2.2, if_pos hb, St.push]
      rw [this]
      rcases ih (fun x hx => h x (by simp [hx])) (b ++ [c]) with ⟨h1, h2⟩ | ⟨h1, h2⟩
      · left
        exact ⟨fun x hx => by rcases List.mem_cons.1 hx with rfl | hx; exacts [hb, h1 x hx], by rw [h2]; simp⟩
      · right
        exact ⟨fun hx => h1 fun x hx' => hx x (by simp [hx']), by rw [h2]; simp⟩
    · right
      have : step ⟨r, cur, b, .blanks⟩ c = ⟨r, cur, b ++ [c], .inField⟩ := by
        simp only [step, if_neg hc.2.1, if_neg hc.2.2, if_neg hb]
        exact inField_inner hc r cur b _
      rw [this, fold_inField q (fun x hx => h x (by simp [hx]))]
      exact ⟨fun hx => hb (hx c (by simp)), by simp⟩

theorem fold_startLine (c : Char) (q : Str) (h : ∀ x ∈ c :: q, Inner x) (hq : c ≠ '"') (r : List (List Str)) :
    (Blanks (c :: q) ∧ q.foldl step (startLineStep ⟨r, [], [], .startLine⟩ c) = ⟨r, [], c :: q, .blanks⟩) ∨
      (¬ Blanks (c :: q) ∧ q.foldl step (startLineStep ⟨r, [], [], .startLine⟩ c) = ⟨r, [], c :: q, .inField⟩) := by
  have hc := h c (by simp)
  by_cases hb : c = ' ' ∨ c = '\t'
  · have : startLineStep ⟨r, [], [], .startLine⟩ c = ⟨r, [], [c], .blanks⟩ := by
      simp only [startLineStep, if_neg hc.2.1, if_neg hc.2.2, if_pos hb, St.push]
      rfl
    rw [this]
    rcases fold_blanks q (fun x hx => h x (by simp [hx])) r [] [c] with ⟨h1, h2⟩ | ⟨h1, h2⟩
    · left
      exact ⟨fun x hx => by rcases List.mem_cons.1 hx with rfl | hx; exacts [hb, h1 x hx], by rw [h2]; rfl⟩
    · right
      exact ⟨fun hx => h1 fun x hx' => hx x (by simp [hx']), by rw [h2]; rfl⟩
  · right
    have : startLineStep ⟨r, [], [], .startLine⟩ c = ⟨r, [], [c], .inField⟩ := by
      simp only [startLineStep, if_neg hc.2.1, if_neg hc.2.2, if_neg hb, startFieldStep, if_neg hq]
      exact inField_inner hc r [] [] _
    rw [this, fold_inField q (fun x hx => h x (by simp [hx]))]
    exact ⟨fun hx => hb (hx c (by simp)), rfl⟩

/-- A field in the middle of a line. -/
theorem written_run {f s : Str} (h : Written f s) (r : List (List Str)) (cur : List Str) (n : ℕ) :
    ∃ m, Open m ∧ rdRun skip ⟨⟨r, cur, [], .startField⟩, n, none⟩ s = some ⟨⟨r, cur, f, m⟩, n, none⟩ := by
  rcases h with ⟨rfl, hq, h⟩ | rfl
  · obtain ⟨m, hm, e⟩ := fold_startField s h hq r cur
    refine ⟨m, hm, ?_⟩
    rw [calm_run s (fun c hc => (h c hc).2) (by simp [Calm]), e]
  · refine ⟨.quote, Or.inr (Or.inl rfl), ?_⟩
    rw [List.cons_append, rdRun, rdStep_calm (by simp [Calm])]
    have : step ⟨r, cur, [], .startField⟩ '"' = ⟨r, cur, [], .quoted⟩ := by simp [step, startFieldStep, St.to]
    rw [this]
    simp only [reduceCtorEq, or_self, if_false]
    rw [quoted_run]
    rfl

/-- The first field of a line that is not skipped. -/
theorem first_run {f s : Str} (h : Written f s) (r : List (List Str)) {n : ℕ} (hs : skip n = some false) :
    ∃ m, (Open m ∨ (m = .startLine ∧ s = [] ∧ f = []) ∨ (m = .blanks ∧ Blanks s)) ∧
      rdRun skip ⟨⟨r, [], [], .startLine⟩, n, none⟩ s = some ⟨⟨r, [], f, m⟩, n, none⟩ := by
  have hfirst : ∀ (c : Char) (rest : Str), c ≠ '\n' → c ≠ '\r' → rdRun skip ⟨⟨r, [], [], .startLine⟩, n, none⟩ (c :: rest) =
      rdRun skip ⟨startLineStep ⟨r, [], [], .startLine⟩ c, n, none⟩ rest := by
    intro c rest h1 h2
    simp only [rdRun, rdStep, firstChar, hs, if_neg h1, if_neg h2]
  rcases h with ⟨rfl, hq, h⟩ | rfl
  · cases s with
    | nil => exact ⟨.startLine, Or.inr (Or.inl ⟨rfl, rfl, rfl⟩), rfl⟩
    | cons c s =>
      have hc := (h c (by simp)).2
      rw [hfirst c s hc.1 hc.2, calm_run s (fun x hx => (h x (by simp [hx])).2) (startLineStep_calm hc.1 hc.2 _)]
      rcases fold_startLine c s h (by simpa using hq) r with ⟨h2, h3⟩ | ⟨-, h2⟩
      · exact ⟨.blanks, Or.inr (Or.inr ⟨rfl, h2⟩), by rw [h3]⟩
      · exact ⟨.inField, Or.inl (Or.inl rfl), by rw [h2]⟩
  · refine ⟨.quote, Or.inl (Or.inr (Or.inl rfl)), ?_⟩
    rw [List.cons_append, hfirst _ _ (by decide) (by decide)]
    have : startLineStep ⟨r, [], [], .startLine⟩ '"' = ⟨r, [], [], .quoted⟩ := by simp [startLineStep, startFieldStep, St.to]
    rw [this, quoted_run]
    rfl

theorem comma_run {m : Mode} (h : Open m) (r : List (List Str)) (cur : List Str) (f : Str) (n : ℕ) (t : Str) :
    rdRun skip ⟨⟨r, cur, f, m⟩, n, none⟩ (',' :: t) = rdRun skip ⟨⟨r, cur ++ [f], [], .startField⟩, n, none⟩ t := by
  rw [rdRun, rdStep_calm (open_calm h), comma_open h]
  simp

/-- The rest of a line. -/
theorem rest_run {fs : List Str} {s : Str} (h : LineText fs s) (r : List (List Str)) (cur : List Str) (n : ℕ) :
    ∃ cur' f m, cur' ++ [f] = cur ++ fs ∧ Open m ∧ rdRun skip ⟨⟨r, cur, [], .startField⟩, n, none⟩ s = some ⟨⟨r, cur', f, m⟩, n, none⟩ := by
  induction h generalizing cur with
  | @one f s h =>
    obtain ⟨m, hm, e⟩ := written_run (skip := skip) h r cur n
    exact ⟨cur, f, m, rfl, hm, e⟩
  | @more f s fs t h _ ih =>
    obtain ⟨m, hm, e⟩ := written_run (skip := skip) h r cur n
    obtain ⟨cur', f', m', h1, h2, h3⟩ := ih (cur ++ [f])
    refine ⟨cur', f', m', by rw [h1]; simp, h2, ?_⟩
    rw [rdRun_append, e]
    show rdRun skip _ (',' :: t) = _
    rw [comma_run hm, h3]

/-- A line that is not blank. -/
def Shown (s : Str) : Prop := ∃ c ∈ s, c ≠ ' ' ∧ c ≠ '\t'

/-- A line that is not skipped. -/
theorem line_run {fs : List Str} {s : Str} (h : LineText fs s) (hv : Shown s) (r : List (List Str)) {n : ℕ} (hs : skip n = some false) :
    ∃ cur f m, cur ++ [f] = fs ∧ Open m ∧ rdRun skip ⟨⟨r, [], [], .startLine⟩, n, none⟩ s = some ⟨⟨r, cur, f, m⟩, n, none⟩ := by
  have hb : ¬ Blanks s := by
    obtain ⟨c, hc, h1, h2⟩ := hv
    intro hb
    rcases hb c hc with h | h
    exacts [h1 h, h2 h]
  cases h with
  | @one f s h =>
    obtain ⟨m, hm, e⟩ := first_run (skip := skip) h r hs
    rcases hm with hm | ⟨-, h1, -⟩ | ⟨-, h1⟩
    · exact ⟨[], f, m, rfl, hm, e⟩
    · exact absurd (by subst h1; simp [Blanks]) hb
    · exact absurd h1 hb
  | @more f s fs t h ht =>
    obtain ⟨m, hm, e⟩ := first_run (skip := skip) h r hs
    obtain ⟨cur', f', m', h1, h2, h3⟩ := rest_run (skip := skip) ht r [f] n
    refine ⟨cur', f', m', by rw [h1]; rfl, h2, ?_⟩
    rw [rdRun_append, e]
    show rdRun skip _ (',' :: t) = _
    rw [← h3]
    rcases hm with hm | ⟨rfl, -, rfl⟩ | ⟨rfl, -⟩
    · exact comma_run hm r [] f n t
    · simp [rdRun, rdStep, firstChar, hs, startLineStep, startFieldStep, inFieldStep, St.endField]
    · simp [rdRun, rdStep, step, inFieldStep, St.endField]

theorem end_run {e : Str} (he : LineEnd e) {m : Mode} (h : Open m) (r : List (List Str)) (cur : List Str) (f : Str) (n : ℕ) (t : Str) :
    rdRun skip ⟨⟨r, cur, f, m⟩, n, none⟩ (e ++ t) = rdRun skip ⟨⟨r ++ [cur ++ [f]], [], [], .startLine⟩, n + 1, none⟩ t := by
  rcases he with rfl | rfl <;> rcases h with rfl | rfl | rfl <;> simp [rdRun, rdStep, step, startFieldStep, inFieldStep, St.endField, St.endLine]

/-! ## Lines that are skipped -/

/-- Outside quotes. -/
def Outside (k : Skip) : Prop := k = .start ∨ k = .field ∨ k = .quote

theorem skipStep_other {sep : String} {k : Skip} (hk : Outside k) {c : Char} (h2 : c ≠ '\n') (h3 : c ≠ '\r') (hq : k = .field ∨ c ≠ '"') (hd : ¬ delim sep c) :
    skipStep sep k c = .on .field := by
  rcases hk with rfl | rfl | rfl
  · have : c ≠ '"' := hq.resolve_left (by decide)
    simp [skipStep, skipEnd, h2, h3, hd, this]
  · simp [skipStep, skipEnd, h2, h3, hd]
  · have : c ≠ '"' := hq.resolve_left (by decide)
    simp [skipStep, skipEnd, h2, h3, hd, this]

theorem skipStep_delim {sep : String} {k : Skip} (hk : Outside k) {c : Char} (h1 : c ≠ '"') (h2 : c ≠ '\n') (h3 : c ≠ '\r') (hd : delim sep c) :
    skipStep sep k c = .on .start := by
  rcases hk with rfl | rfl | rfl <;> simp [skipStep, skipEnd, h1, h2, h3, hd]

theorem delim_comma {c : Char} : delim "csv" c ↔ c = ',' := by
  unfold delim
  rw [if_neg (by decide)]

theorem skip_on {s : St} {n : ℕ} {k k' : Skip} {c : Char} (h : skipStep "csv" k c = .on k') (t : Str) :
    rdRun skip ⟨s, n, some k⟩ (c :: t) = rdRun skip ⟨s, n, some k'⟩ t := by
  rw [rdRun, rdStep]
  simp only [h]

theorem skip_field (p : Str) (hp : ∀ c ∈ p, Inner c) (s : St) (n : ℕ) : rdRun skip ⟨s, n, some .field⟩ p = some ⟨s, n, some .field⟩ := by
  induction p with
  | nil => rfl
  | cons c p ih =>
    obtain ⟨h1, h2, h3⟩ := hp c (by simp)
    rw [skip_on (skipStep_other (Or.inr (Or.inl rfl)) h2 h3 (Or.inl rfl) (by rwa [delim_comma]))]
    exact ih fun x hx => hp x (by simp [hx])

theorem skip_quoted (f : Str) (s : St) (n : ℕ) : rdRun skip ⟨s, n, some .quoted⟩ (doubled f ++ ['"']) = some ⟨s, n, some .quote⟩ := by
  induction f with
  | nil => simp [doubled, rdRun, rdStep, skipStep]
  | cons c f ih =>
    by_cases hc : c = '"'
    · subst hc
      have : doubled ('"' :: f) = '"' :: '"' :: doubled f := by simp [doubled]
      rw [this, List.cons_append, List.cons_append, skip_on (k' := .quote) (by simp [skipStep]), skip_on (k' := .quoted) (by simp [skipStep, skipEnd])]
      exact ih
    · have : doubled (c :: f) = c :: doubled f := by simp [doubled, hc]
      rw [this, List.cons_append, skip_on (k' := .quoted) (by simp [skipStep, hc])]
      exact ih

theorem skip_written {f s : Str} (h : Written f s) (st : St) (n : ℕ) :
    ∃ k', Outside k' ∧ rdRun skip ⟨st, n, some .start⟩ s = some ⟨st, n, some k'⟩ := by
  rcases h with ⟨rfl, hq, h⟩ | rfl
  · cases s with
    | nil => exact ⟨.start, Or.inl rfl, rfl⟩
    | cons c s =>
      have hc := h c (by simp)
      refine ⟨.field, Or.inr (Or.inl rfl), ?_⟩
      rw [skip_on (skipStep_other (Or.inl rfl) hc.2.1 hc.2.2 (Or.inr (by simpa using hq)) (by rw [delim_comma]; exact hc.1))]
      exact skip_field s (fun x hx => h x (by simp [hx])) st n
  · refine ⟨.quote, Or.inr (Or.inr rfl), ?_⟩
    rw [List.cons_append, skip_on (k' := .quoted) (by simp [skipStep, skipEnd]), skip_quoted]

theorem skip_comma (st : St) (n : ℕ) {k : Skip} (hk : Outside k) (t : Str) :
    rdRun skip ⟨st, n, some k⟩ (',' :: t) = rdRun skip ⟨st, n, some .start⟩ t :=
  skip_on (skipStep_delim hk (by decide) (by decide) (by decide) (by rw [delim_comma])) t

theorem skip_rest {fs : List Str} {s : Str} (h : LineText fs s) (st : St) (n : ℕ) :
    ∃ k', Outside k' ∧ rdRun skip ⟨st, n, some .start⟩ s = some ⟨st, n, some k'⟩ := by
  induction h with
  | one h => exact skip_written h st n
  | @more f s fs t h _ ih =>
    obtain ⟨k, hk, e⟩ := skip_written (skip := skip) h st n
    obtain ⟨k', hk', e'⟩ := ih
    refine ⟨k', hk', ?_⟩
    rw [rdRun_append, e]
    show rdRun skip _ (',' :: t) = _
    rw [skip_comma st n hk, e']

/-- The first character of a line that is skipped is as any other, unless it is a comma. -/
theorem skip_first {c : Char} (h0 : c ≠ ',') (hc : c ≠ '\n') (hc' : c ≠ '\r') (r : List (List Str)) {n : ℕ} (hs : skip n = some true) (t : Str) :
    rdRun skip ⟨⟨r, [], [], .startLine⟩, n, none⟩ (c :: t) = rdRun skip ⟨⟨r, [], [], .startLine⟩, n, some .start⟩ (c :: t) := by
  by_cases h : c = '"'
  · subst h; rw [skip_on (k' := .quoted) (by simp [skipStep, skipEnd])]; simp [rdRun, rdStep, firstChar, hs]
  · rw [skip_on (skipStep_other (Or.inl rfl) hc hc' (Or.inr h) (by rwa [delim_comma]))]
    simp [rdRun, rdStep, firstChar, hs, h, hc]

theorem line_head {fs : List Str} {s : Str} (h : LineText fs s) : ∀ c t, s = c :: t → c ≠ '\n' ∧ c ≠ '\r' := by
  have hw : ∀ {f s : Str}, Written f s → ∀ c t, s = c :: t → c ≠ '\n' ∧ c ≠ '\r' := by
    intro f s h c t e
    rcases h with ⟨rfl, -, h⟩ | rfl
    · exact (h c (by simp [e])).2
    · simp at e
      rw [← e.1]
      decide
  cases h with
  | one h => exact hw h
  | @more f s fs t h _ =>
    intro c u e
    cases s with
    | nil => simp at e; rw [← e.1]; decide
    | cons x s => simp at e; exact hw h c s (by rw [e.1])

/-- No quotation mark at the start of a field; `b`: the line begins with a field. -/
def Quiet (separator : Char → Prop) (l : Str) : Prop := l.head? ≠ some '"' ∧ ∀ p c q, l = p ++ c :: '"' :: q → ¬ separator c

theorem quiet_tail {separator : Char → Prop} {c : Char} {l : Str} (h : Quiet separator (c :: l)) :
    (∀ p x q, l = p ++ x :: '"' :: q → ¬ separator x) ∧ (separator c → Quiet separator l) := by
  have h1 : ∀ p x q, l = p ++ x :: '"' :: q → ¬ separator x := fun p x q e => h.2 (c :: p) x q (by rw [e]; rfl)
  refine ⟨h1, fun hc => ⟨?_, h1⟩⟩
  cases l with
  | nil => simp
  | cons d l =>
    intro e
    rw [List.head?_cons, Option.some.injEq] at e
    subst e
    exact h.2 [] c l rfl hc

/-- A line that has no quotes to open, from any place. -/
theorem skip_quiet (s : Str) (h1 : ∀ c ∈ s, c ≠ '\n' ∧ c ≠ '\r') (h2 : ∀ p x q, s = p ++ x :: '"' :: q → x ≠ ',') (st : St) (n : ℕ) (k : Skip)
    (hk : k = .field ∨ (k = .start ∧ s.head? ≠ some '"')) : ∃ k', Outside k' ∧ rdRun skip ⟨st, n, some k⟩ s = some ⟨st, n, some k'⟩ := by
  induction s generalizing k with
  | nil => exact ⟨k, by rcases hk with rfl | ⟨rfl, -⟩ <;> simp [Outside], rfl⟩
  | cons c s ih =>
    have hc := h1 c (by simp)
    have hrest : ∀ p x q, s = p ++ x :: '"' :: q → x ≠ ',' := fun p x q e => h2 (c :: p) x q (by rw [e]; rfl)
    have ho : Outside k := by rcases hk with rfl | ⟨rfl, -⟩ <;> simp [Outside]
    by_cases hd : c = ','
    · subst hd
      rw [skip_comma st n ho]
      refine ih (fun x hx => h1 x (by simp [hx])) hrest .start (Or.inr ⟨rfl, fun e => ?_⟩)
      cases s with
      | nil => simp at e
      | cons d s =>
        rw [List.head?_cons, Option.some.injEq] at e
        subst e
        exact h2 [] ',' s rfl rfl
    · have hq : k = .field ∨ c ≠ '"' := by
        rcases hk with hk | ⟨-, hk⟩
        · exact Or.inl hk
        · exact Or.inr (by simpa using hk)
      rw [skip_on (skipStep_other ho hc.1 hc.2 hq (by rwa [delim_comma]))]
      exact ih (fun x hx => h1 x (by simp [hx])) hrest .field (Or.inl rfl)

/-- The lines of a file: one that begins with a comma has no quotes in it. -/
def Fit (s : Str) : Prop := s.head? = some ',' → (∀ c ∈ s, c ≠ '\n' ∧ c ≠ '\r') ∧ Quiet (· = ',') s

theorem skip_line {fs : List Str} {s : Str} (h : LineText fs s) (hf : Fit s) (hne : s ≠ []) (r : List (List Str)) {n : ℕ} (hs : skip n = some true) :
    ∃ k', Outside k' ∧ rdRun skip ⟨⟨r, [], [], .startLine⟩, n, none⟩ s = some ⟨⟨r, [], [], .startLine⟩, n, some k'⟩ := by
  cases s with
  | nil => exact absurd rfl hne
  | cons c t =>
    by_cases h0 : c = ','
    · subst h0
      obtain ⟨h1, h2⟩ := hf rfl
      have e : rdRun skip ⟨⟨r, [], [], .startLine⟩, n, none⟩ (',' :: t) = rdRun skip ⟨⟨r, [], [], .startLine⟩, n, some .field⟩ t := by
        simp [rdRun, rdStep, firstChar, hs]
      rw [e]
      exact skip_quiet t (fun x hx => h1 x (by simp [hx])) (fun p x q e => (quiet_tail h2).1 p x q e) _ n .field (Or.inl rfl)
    · obtain ⟨k', hk', e⟩ := skip_rest (skip := skip) h ⟨r, [], [], .startLine⟩ n
      refine ⟨k', hk', ?_⟩
      rw [← e]
      have := line_head h c t rfl
      exact skip_first h0 this.1 this.2 r hs t

theorem skip_end {e : Str} (he : LineEnd e) {k : Skip} (hk : Outside k) (r : List (List Str)) (n : ℕ) (t : Str) :
    rdRun skip ⟨⟨r, [], [], .startLine⟩, n, some k⟩ (e ++ t) = rdRun skip ⟨⟨r, [], [], .startLine⟩, n + 1, none⟩ t := by
  rcases he with rfl | rfl <;> rcases hk with rfl | rfl | rfl <;> simp [rdRun, rdStep, skipStep, skipEnd, St.to]

/-! ## All lines -/

/-- The lines that are kept; `k` says which ones are skipped, `n` is the number of the first one. -/
def keep {α : Type} (k : ℕ → Bool) (n : ℕ) : List α → List α
  | [] => []
  | x :: xs => if k n then keep k (n + 1) xs else x :: keep k (n + 1) xs

theorem shown_ne {s : Str} (h : Shown s) : s ≠ [] := by
  rintro rfl
  obtain ⟨c, hc, -⟩ := h
  simp at hc

theorem text_run {ls : List Str} {t : Str} (hg : Glued ls t) {fss : List (List Str)} (hl : List.Forall₂ LineText fss ls) (hv : ∀ l ∈ ls, Shown l ∧ Fit l) {k : ℕ → Bool}
    (n : ℕ) (hk : ∀ i, i < ls.length → skip (n + i) = some (k (n + i))) (r : List (List Str)) :
    ∃ s, rdRun skip ⟨⟨r, [], [], .startLine⟩, n, none⟩ t = some s ∧ rdFinish s = some (r ++ keep k n fss) := by
  induction hg generalizing fss n r with
  | nil =>
    cases hl
    exact ⟨_, rfl, by simp [rdFinish, finish, keep]⟩
  | @last l hne =>
    cases hl with
    | @cons fs _ fss' _ h hn =>
    cases hn
    have h0 := hk 0 (by simp)
    rw [Nat.add_zero] at h0
    cases hb : k n with
    | false =>
      rw [hb] at h0
      obtain ⟨cur, f, m, h1, h2, h3⟩ := line_run (skip := skip) h (hv l (by simp)).1 r h0
      refine ⟨_, h3, ?_⟩
      have : keep k n [fs] = [fs] := by simp [keep, hb]
      rw [this, ← h1]
      rcases h2 with rfl | rfl | rfl <;> simp [rdFinish, finish]
    | true =>
      rw [hb] at h0
      obtain ⟨k', hk', e⟩ := skip_line (skip := skip) h (hv l (by simp)).2 hne r h0
      refine ⟨_, e, ?_⟩
      simp [rdFinish, keep, hb]
  | @cons l e ls t he _ ih =>
    cases hl with
    | @cons fs _ fss' _ h hn =>
    have h0 := hk 0 (by simp)
    rw [Nat.add_zero] at h0
    have hk' : ∀ i, i < ls.length → skip (n + 1 + i) = some (k (n + 1 + i)) := by
      intro i hi
      have := hk (i + 1) (by simpa using hi)
      rwa [show n + (i + 1) = n + 1 + i by omega] at this
    cases hb : k n with
    | false =>
      rw [hb] at h0
      obtain ⟨cur, f, m, h1, h2, h3⟩ := line_run (skip := skip) h (hv l (by simp)).1 r h0
      obtain ⟨s, e1, e2⟩ := ih hn (fun x hx => hv x (by simp [hx])) (n + 1) hk' (r ++ [fs])
      refine ⟨s, ?_, ?_⟩
      · rw [rdRun_append, h3]
        show rdRun skip _ (e ++ t) = _
        rw [end_run he h2, h1, e1]
      · rw [e2]; simp [keep, hb]
    | true =>
      rw [hb] at h0
      obtain ⟨k', hk'', e0⟩ := skip_line (skip := skip) h (hv l (by simp)).2 (shown_ne (hv l (by simp)).1) r h0
      obtain ⟨s, e1, e2⟩ := ih hn (fun x hx => hv x (by simp [hx])) (n + 1) hk' r
      refine ⟨s, ?_, ?_⟩
      · rw [rdRun_append, e0]
        show rdRun skip _ (e ++ t) = _
        rw [skip_end he hk'', e1]
      · rw [e2]; simp [keep, hb]

theorem tokens_text {ls : List Str} {t : Str} (hg : Glued ls t) {fss : List (List Str)} (hl : List.Forall₂ LineText fss ls) (hv : ∀ l ∈ ls, Shown l ∧ Fit l) {k : ℕ → Bool}
    (hk : ∀ i, i < ls.length → skip i = some (k i)) : commaTokens skip t = some (keep k 0 fss) := by
  obtain ⟨s, h1, h2⟩ := text_run (skip := skip) hg hl hv 0 (by simpa using hk) []
  unfold commaTokens
  rw [h1]
  simpa using h2

/-! ## The lines above the header -/

theorem note_line (l : Str) (h : ∀ c ∈ l, c ≠ '\n' ∧ c ≠ '\r') (hq : Quiet (· = ',') l) : ∃ fs, LineText fs l := by
  induction hn : l.length using Nat.strong_induction_on generalizing l with
  | _ n ih =>
    by_cases hc : ',' ∈ l
    · obtain ⟨a, b, rfl, ha⟩ := List.eq_append_cons_of_mem hc
      have hqb : Quiet (· = ',') b := by
        refine ⟨fun e => ?_, fun p x q e => hq.2 (a ++ ',' :: p) x q (by rw [e]; simp)⟩
        cases b with
        | nil => simp at e
        | cons d b =>
          rw [List.head?_cons, Option.some.injEq] at e
          subst e
          exact hq.2 a ',' b rfl rfl
      obtain ⟨fs, hfs⟩ := ih b.length (by rw [← hn]; simp; omega) b (fun c hc => h c (by simp [hc])) hqb rfl
      refine ⟨a :: fs, .more (Or.inl ⟨rfl, fun e => hq.1 ?_, fun c hc' => ⟨fun e => ha (e ▸ hc'), h c (by simp [hc'])⟩⟩) hfs⟩
      cases a with
      | nil => simp at e
      | cons d a => simpa using e
    · exact ⟨[l], .one (Or.inl ⟨rfl, hq.1, fun c hc' => ⟨fun e => hc (e ▸ hc'), h c hc'⟩⟩)⟩

theorem notes_lines (notes : List Str) (h : ∀ l ∈ notes, Note (· = ',') l) : ∃ fss, List.Forall₂ LineText fss notes := by
  induction notes with
  | nil => exact ⟨[], .nil⟩
  | cons l ls ih =>
    obtain ⟨fs, h1⟩ := note_line l (h l (by simp)).1 (h l (by simp)).2.2.2
    obtain ⟨fss, h2⟩ := ih fun x hx => h x (by simp [hx])
    exact ⟨fs :: fss, .cons h1 h2⟩

theorem pyLines_plain (l : Str) (h : ∀ c ∈ l, c ≠ '\n' ∧ c ≠ '\r') (t acc : Str) : pyLines (l ++ t) acc false = pyLines t (acc ++ l) false := by
  induction l generalizing acc with
  | nil => simp
  | cons c l ih =>
    have hc := h c (by simp)
    rw [List.cons_append, pyLines, if_neg hc.1, if_neg hc.2, ih fun x hx => h x (by simp [hx])]
    simp

theorem pyLines_end {e : Str} (he : LineEnd e) (t acc : Str) : pyLines (e ++ t) acc false = (acc ++ ['\n']) :: pyLines t [] false := by
  rcases he with rfl | rfl <;> simp [pyLines]

theorem pyLines_head (t acc : Str) (h : acc ≠ []) : ∃ x xs, pyLines t acc false = (acc ++ x) :: xs := by
  induction t generalizing acc with
  | nil => exact ⟨[], [], by simp [pyLines, h]⟩
  | cons c t ih =>
    simp only [pyLines, Bool.false_eq_true, if_false]
    split_ifs
    · exact ⟨_, _, rfl⟩
    · exact ⟨_, _, rfl⟩
    · obtain ⟨x, xs, e⟩ := ih (acc ++ [c]) (by simp)
      exact ⟨c :: x, xs, by rw [e]; simp⟩

theorem starts_note {l : Str} (h : ¬ "ObjID".toList <+: l) : Tables.starts (l ++ ['\n']) = false := by
  unfold Tables.starts
  rw [Bool.eq_false_iff]
  intro hp
  rw [List.isPrefixOf_iff_prefix] at hp
  rcases prefix_append hp with hp | ⟨q, hq, hq'⟩
  · exact h hp
  · cases q with
    | nil =>
      rw [List.append_nil] at hq
      exact h (by rw [← hq]; exact List.prefix_refl _)
    | cons x q =>
      rw [List.cons_prefix_cons, List.prefix_nil] at hq'
      obtain ⟨rfl, rfl⟩ := hq'
      have : '\n' ∈ ['O', 'b', 'j', 'I', 'D'] := by rw [hq]; simp
      revert this
      decide

/-- The header is found behind the notes. -/
theorem search_notes {sep : String} {separator : Char → Prop} {header : Str} (notes lines : List Str) (t : Str) (hg : Glued (notes ++ header :: lines) t)
    (hn : ∀ l ∈ notes, Note separator l) (i : ℕ) (hi : i + notes.length ≤ 101)
    (hh : ∀ t' i', Glued (header :: lines) t' → Tables.search sep i' (pyLines t' [] false) = .ok i') : Tables.search sep i (pyLines t [] false) = .ok (i + notes.length) := by
  induction notes generalizing t i with
  | nil => exact hh t i hg
  | cons l notes ih =>
    have hl := hn l (by simp)
    have : ∃ e t', LineEnd e ∧ t = l ++ (e ++ t') ∧ Glued (notes ++ header :: lines) t' := by
      generalize hls : l :: notes ++ header :: lines = ls at hg
      cases hg with
      | nil => simp at hls
      | last _ => simp at hls
      | @cons _ e _ t' he hr =>
        simp at hls
        obtain ⟨rfl, rfl⟩ := hls
        exact ⟨e, t', he, rfl, hr⟩
    obtain ⟨e, t', he, rfl, hr⟩ := this
    rw [pyLines_plain l hl.1, pyLines_end he, List.nil_append, Tables.search, starts_note hl.2.2.1]
    simp only [List.length_cons] at hi ⊢
    rw [if_neg (by simp), if_neg (by omega), ih t' hr (fun x hx => hn x (by simp [hx])) (i + 1) (by omega)]
    congr 1
    omega

theorem search_comma {sep : String} (hs : sep = "csv" ∨ sep = "comma") {header : Str} (hh : "ObjID,".toList <+: header) (lines : List Str) (t : Str)
    (hg : Glued (header :: lines) t) (i : ℕ) : Tables.search sep i (pyLines t [] false) = .ok i := by
  obtain ⟨u, hu⟩ : ∃ u, t = "ObjID,".toList ++ u := by
    obtain ⟨v, rfl⟩ := hh
    generalize hls : ("ObjID,".toList ++ v) :: lines = ls at hg
    cases hg with
    | nil => simp at hls
    | last _ => simp at hls; exact ⟨v, hls.1.symm⟩
    | cons _ _ => simp at hls; rw [← hls.1]; exact ⟨_, rfl⟩
  subst hu
  rw [pyLines_plain _ (by decide), List.nil_append]
  obtain ⟨x, xs, e⟩ := pyLines_head u "ObjID,".toList (by decide)
  rw [e, Tables.search]
  have h1 : Tables.starts ("ObjID,".toList ++ x) = true := by
    unfold Tables.starts
    rw [List.isPrefixOf_iff_prefix]
    exact ⟨',' :: x, rfl⟩
  have h2 : Tables.cut sep ("ObjID,".toList ++ x) = "ObjID".toList :: x.splitOn ',' := by
    unfold Tables.cut
    rw [if_pos hs]
    simp [List.splitOn, List.splitOnP_cons_eq_if_modifyHead]
  have h3 : Tables.checkHeader sep ("ObjID,".toList ++ x) = .ok () := by
    unfold Tables.checkHeader
    rw [h2, if_neg, if_neg]
    · simp
    · have : x.splitOn ',' ≠ [] := List.splitOn_ne_nil _ _
      cases hx : x.splitOn ',' with
      | nil => exact absurd hx this
      | cons a b => simp
  rw [h1, h3]
  simp [Except.map]

/-! ## What is kept -/

theorem keep_append {α : Type} (k : ℕ → Bool) (n : ℕ) (a b : List α) : keep k n (a ++ b) = keep k n a ++ keep k (n + a.length) b := by
  induction a generalizing n with
  | nil => simp [keep]
  | cons x a ih =>
    simp only [List.cons_append, keep]
    rw [ih, List.length_cons, show n + 1 + a.length = n + (a.length + 1) by omega]
    split_ifs <;> rfl

theorem keep_all {α : Type} (k : ℕ → Bool) (n : ℕ) (a : List α) (h : ∀ i < a.length, k (n + i) = false) : keep k n a = a := by
  induction a generalizing n with
  | nil => rfl
  | cons x a ih =>
    have h0 := h 0 (by simp)
    rw [Nat.add_zero] at h0
    simp only [keep, h0, Bool.false_eq_true, if_false]
    rw [ih]
    intro i hi
    have := h (i + 1) (by simpa using hi)
    rwa [show n + (i + 1) = n + 1 + i by omega] at this

theorem keep_none {α : Type} (k : ℕ → Bool) (n : ℕ) (a : List α) (h : ∀ i < a.length, k (n + i) = true) : keep k n a = [] := by
  induction a generalizing n with
  | nil => rfl
  | cons x a ih =>
    have h0 := h 0 (by simp)
    rw [Nat.add_zero] at h0
    simp only [keep, h0, if_true]
    refine ih (n + 1) ?_
    intro i hi
    have := h (i + 1) (by simpa using hi)
    rwa [show n + (i + 1) = n + 1 + i by omega] at this

theorem keep_drop {α : Type} (k : ℕ → Bool) (n start : ℕ) (a : List α) (h1 : ∀ i < start, k (n + i) = true) (h2 : ∀ i, start ≤ i → k (n + i) = false) :
    keep k n a = a.drop start := by
  rcases Nat.le_total start a.length with hl | hl
  · conv_lhs => rw [← List.take_append_drop start a]
    rw [keep_append, keep_none k n _ (fun i hi => h1 i (by rw [List.length_take] at hi; omega)), List.length_take, min_eq_left hl, List.nil_append]
    refine keep_all k _ _ fun i _ => ?_
    have := h2 (start + i) (by omega)
    rwa [← Nat.add_assoc] at this
  · rw [List.drop_eq_nil_of_le hl, keep_none k n a fun i hi => h1 i (by omega)]

theorem keep_select {α β : Type} (k : ℕ → Bool) (n : ℕ) (a : List α) (b : List β) (p : β → Bool) (hl : b.length = a.length)
    (h : ∀ i (hi : i < b.length), k (n + i) = !p b[i]) : keep k n a = ((a.zip b).filter fun x => p x.2).map Prod.fst := by
  induction a generalizing n b with
  | nil => simp [keep]
  | cons x a ih =>
    cases b with
    | nil => simp at hl
    | cons y b =>
      have h0 := h 0 (by simp)
      simp only [Nat.add_zero, List.getElem_cons_zero] at h0
      have ih' := ih (n + 1) b (by simpa using hl) (by
        intro i hi
        have := h (i + 1) (by simpa using hi)
        rw [show n + (i + 1) = n + 1 + i by omega] at this
        simpa using this)
      simp only [keep, h0, List.zip_cons_cons, List.filter_cons]
      cases hp : p y <;> simp [ih']

end Sorcha.Csv
