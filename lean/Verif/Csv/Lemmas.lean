import Verif.Csv.Model
import Verif.Csv.Spec
import Mathlib.Tactic.Common

/-!
# Lemmas: reading what was written
-/

namespace Sorcha.Csv

open Spec

/-- A character that needs no quotes. -/
def Plain (c : Char) : Prop := c ≠ ',' ∧ c ≠ '"' ∧ c ≠ '\n' ∧ c ≠ '\r'

theorem special_false {f : Str} (h : special f = false) : ∀ c ∈ f, Plain c := by
  intro c hc
  unfold special at h
  rw [List.any_eq_false] at h
  have := h c hc
  simp only [Bool.or_eq_true, decide_eq_true_eq, not_or] at this
  exact ⟨this.1.1.1, this.1.1.2, this.1.2, this.2⟩

theorem inField_plain {c : Char} (h : Plain c) (r : List (List Str)) (cur : List Str) (b : Str) (m : Mode) :
    inFieldStep ⟨r, cur, b, m⟩ c = ⟨r, cur, b ++ [c], .inField⟩ := by
  obtain ⟨h1, h2, h3, h4⟩ := h
  simp [inFieldStep, h1, h3, h4, St.push]

theorem run_inField (q : Str) (h : ∀ c ∈ q, Plain c) (r : List (List Str)) (cur : List Str) (b : Str) :
    q.foldl step ⟨r, cur, b, .inField⟩ = ⟨r, cur, b ++ q, .inField⟩ := by
  induction q generalizing b with
  | nil => simp
  | cons c q ih =>
    rw [List.foldl_cons]
    have : step ⟨r, cur, b, .inField⟩ c = ⟨r, cur, b ++ [c], .inField⟩ := inField_plain (h c (by simp)) r cur b _
    rw [this, ih fun x hx => h x (by simp [hx])]
    simp

/-- The modes in which a field that is complete so far may be. -/
def Open (m : Mode) : Prop := m = .inField ∨ m = .quote ∨ m = .startField

theorem run_startField (q : Str) (h : ∀ c ∈ q, Plain c) (r : List (List Str)) (cur : List Str) :
    ∃ m, Open m ∧ q.foldl step ⟨r, cur, [], .startField⟩ = ⟨r, cur, q, m⟩ := by
  cases q with
  | nil => exact ⟨.startField, Or.inr (Or.inr rfl), rfl⟩
  | cons c q =>
    refine ⟨.inField, Or.inl rfl, ?_⟩
    rw [List.foldl_cons]
    have hc := h c (by simp)
    have : step ⟨r, cur, [], .startField⟩ c = ⟨r, cur, [c], .inField⟩ := by
      simp only [step, startFieldStep, if_neg hc.2.1]
      exact inField_plain hc r cur [] _
    rw [this, run_inField q (fun x hx => h x (by simp [hx]))]
    rfl

/-- Blanks only. -/
def Blanks (q : Str) : Prop := ∀ c ∈ q, c = ' ' ∨ c = '\t'

theorem run_blanks (q : Str) (h : ∀ c ∈ q, Plain c) (r : List (List Str)) (cur : List Str) (b : Str) :
    (Blanks q ∧ q.foldl step ⟨r, cur, b, .blanks⟩ = ⟨r, cur, b ++ q, .blanks⟩) ∨
      (¬ Blanks q ∧ q.foldl step ⟨r, cur, b, .blanks⟩ = ⟨r, cur, b ++ q, .inField⟩) := by
  induction q generalizing b with
  | nil => left; exact ⟨fun c hc => (List.not_mem_nil hc).elim, by simp⟩
  | cons c q ih =>
    have hc := h c (by simp)
    rw [List.foldl_cons]
    by_cases hb : c = ' ' ∨ c = '\t'
    · have : step ⟨r, cur, b, .blanks⟩ c = ⟨r, cur, b ++ [c], .blanks⟩ := by
        simp only [step, if_neg hc.2.2.1, if_neg hc.2.2.2, if_pos hb, St.push]
      rw [this]
      rcases ih (fun x hx => h x (by simp [hx])) (b ++ [c]) with ⟨h1, h2⟩ | ⟨h1, h2⟩
      · left
        exact ⟨fun x hx => by rcases List.mem_cons.1 hx with rfl | hx; exacts [hb, h1 x hx], by rw [h2]; simp⟩
      · right
        exact ⟨fun hx => h1 fun x hx' => hx x (by simp [hx']), by rw [h2]; simp⟩
    · right
      have : step ⟨r, cur, b, .blanks⟩ c = ⟨r, cur, b ++ [c], .inField⟩ := by
        simp only [step, if_neg hc.2.2.1, if_neg hc.2.2.2, if_neg hb]
        exact inField_plain hc r cur b _
      rw [this, run_inField q (fun x hx => h x (by simp [hx]))]
      exact ⟨fun hx => hb (hx c (by simp)), by simp⟩

theorem run_startLine (q : Str) (h : ∀ c ∈ q, Plain c) (r : List (List Str)) :
    (q = [] ∧ q.foldl step ⟨r, [], [], .startLine⟩ = ⟨r, [], [], .startLine⟩) ∨
      (q ≠ [] ∧ Blanks q ∧ q.foldl step ⟨r, [], [], .startLine⟩ = ⟨r, [], q, .blanks⟩) ∨
      (¬ Blanks q ∧ q.foldl step ⟨r, [], [], .startLine⟩ = ⟨r, [], q, .inField⟩) := by
  cases q with
  | nil => left; exact ⟨rfl, rfl⟩
  | cons c q =>
    right
    have hc := h c (by simp)
    rw [List.foldl_cons]
    by_cases hb : c = ' ' ∨ c = '\t'
    · have : step ⟨r, [], [], .startLine⟩ c = ⟨r, [], [c], .blanks⟩ := by
        simp only [step, startLineStep, if_neg hc.2.2.1, if_neg hc.2.2.2, if_pos hb, St.push]
        rfl
      rw [this]
      rcases run_blanks q (fun x hx => h x (by simp [hx])) r [] [c] with ⟨h1, h2⟩ | ⟨h1, h2⟩
      · left
        exact ⟨by simp, fun x hx => by rcases List.mem_cons.1 hx with rfl | hx; exacts [hb, h1 x hx], by rw [h2]; rfl⟩
      · right
        exact ⟨fun hx => h1 fun x hx' => hx x (by simp [hx']), by rw [h2]; rfl⟩
    · right
      have : step ⟨r, [], [], .startLine⟩ c = ⟨r, [], [c], .inField⟩ := by
        simp only [step, startLineStep, if_neg hc.2.2.1, if_neg hc.2.2.2, if_neg hb, startFieldStep, if_neg hc.2.1]
        exact inField_plain hc r [] [] _
      rw [this, run_inField q (fun x hx => h x (by simp [hx]))]
      exact ⟨fun hx => hb (hx c (by simp)), rfl⟩

/-! ## Quotes -/

/-- A field inside the quotes. -/
def escaped (f : Str) : Str := f.flatMap fun c : Char => if c = '"' then ['"', '"'] else [c]

theorem inQuotes_eq (f : Str) : inQuotes f = '"' :: (escaped f ++ ['"']) := rfl

theorem run_quoted (f : Str) (r : List (List Str)) (cur : List Str) (b : Str) :
    (escaped f ++ ['"']).foldl step ⟨r, cur, b, .quoted⟩ = ⟨r, cur, b ++ f, .quote⟩ := by
  induction f generalizing b with
  | nil => simp [escaped, step, St.to]
  | cons c f ih =>
    by_cases hc : c = '"'
    · subst hc
      have : escaped ('"' :: f) = '"' :: '"' :: escaped f := by simp [escaped]
      rw [this, List.cons_append, List.cons_append, List.foldl_cons, List.foldl_cons]
      have : step (step ⟨r, cur, b, .quoted⟩ '"') '"' = ⟨r, cur, b ++ ['"'], .quoted⟩ := by simp [step, St.to, St.push]
      rw [this, ih]
      simp
    · have : escaped (c :: f) = c :: escaped f := by simp [escaped, hc]
      rw [this, List.cons_append, List.foldl_cons]
      have : step ⟨r, cur, b, .quoted⟩ c = ⟨r, cur, b ++ [c], .quoted⟩ := by simp [step, hc, St.push]
      rw [this, ih]
      simp

theorem run_quoted_part (f p : Str) (hp : p <+: escaped f ++ ['"']) (r : List (List Str)) (cur : List Str) (b : Str) :
    ∃ g m, g <+: f ∧ (m = .quoted ∨ m = .quote) ∧ p.foldl step ⟨r, cur, b, .quoted⟩ = ⟨r, cur, b ++ g, m⟩ := by
  induction f generalizing b p with
  | nil =>
    cases p with
    | nil => exact ⟨[], .quoted, List.prefix_refl _, Or.inl rfl, by simp⟩
    | cons x p =>
      have hx : x = '"' ∧ p = [] := by
        simp only [escaped, List.flatMap_nil, List.nil_append, List.cons_prefix_cons, List.prefix_nil] at hp
        exact hp
      obtain ⟨rfl, rfl⟩ := hx
      exact ⟨[], .quote, List.prefix_refl _, Or.inr rfl, by simp [step, St.to]⟩
  | cons c f ih =>
    cases p with
    | nil => exact ⟨[], .quoted, List.nil_prefix, Or.inl rfl, by simp⟩
    | cons x p =>
      by_cases hc : c = '"'
      · subst hc
        have e : escaped ('"' :: f) = '"' :: '"' :: escaped f := by simp [escaped]
        rw [e, List.cons_append, List.cons_append, List.cons_prefix_cons] at hp
        obtain ⟨rfl, hp⟩ := hp
        cases p with
        | nil => exact ⟨[], .quote, List.nil_prefix, Or.inr rfl, by simp [step, St.to]⟩
        | cons y p =>
          rw [List.cons_prefix_cons] at hp
          obtain ⟨rfl, hp⟩ := hp
          rw [List.foldl_cons, List.foldl_cons]
          have : step (step ⟨r, cur, b, .quoted⟩ '"') '"' = ⟨r, cur, b ++ ['"'], .quoted⟩ := by simp [step, St.to, St.push]
          rw [this]
          obtain ⟨g, m, h1, h2, h3⟩ := ih p hp (b ++ ['"'])
          exact ⟨'"' :: g, m, List.cons_prefix_cons.2 ⟨rfl, h1⟩, h2, by rw [h3]; simp⟩
      · have e : escaped (c :: f) = c :: escaped f := by simp [escaped, hc]
        rw [e, List.cons_append, List.cons_prefix_cons] at hp
        obtain ⟨rfl, hp⟩ := hp
        rw [List.foldl_cons]
        have : step ⟨r, cur, b, .quoted⟩ x = ⟨r, cur, b ++ [x], .quoted⟩ := by simp [step, hc, St.push]
        rw [this]
        obtain ⟨g, m, h1, h2, h3⟩ := ih p hp (b ++ [x])
        exact ⟨x :: g, m, List.cons_prefix_cons.2 ⟨rfl, h1⟩, h2, by rw [h3]; simp⟩

/-! ## A field -/

/-- Only a quotation mark leads into quotes. -/
theorem mode_quoted (p : Str) (hp : '"' ∉ p) (s : St) (hs : s.mode ≠ .quoted) : (p.foldl step s).mode ≠ .quoted := by
  induction p generalizing s with
  | nil => exact hs
  | cons c p ih =>
    rw [List.foldl_cons]
    refine ih (fun h => hp (by simp [h])) _ ?_
    have hc : c ≠ '"' := fun h => hp (by simp [h])
    have h1 : ∀ s : St, (inFieldStep s c).mode ≠ .quoted := by
      intro s; unfold inFieldStep; split_ifs <;> simp [St.endField, St.endLine, St.push]
    have h2 : ∀ s : St, (startFieldStep s c).mode ≠ .quoted := by
      intro s; unfold startFieldStep; rw [if_neg hc]; exact h1 s
    have h3 : ∀ s : St, s.mode ≠ .quoted → (startLineStep s c).mode ≠ .quoted := by
      intro s hs; unfold startLineStep; split_ifs <;> first | exact hs | exact h2 s | simp [St.to, St.push]
    unfold step
    split
    · exact h3 s hs
    · split_ifs <;> first | exact h1 s | simp [St.push]
    · exact h2 s
    · exact h1 s
    · rename_i h; exact absurd h hs
    · rw [if_neg hc]; exact h1 s
    · split_ifs
      · simp [St.endLine]
      · exact h3 _ (by simp [St.endLine])
    · split_ifs
      · simp [St.to]
      · exact h3 _ (by simp [St.to])

/-- The reader has read a field, or an initial part of it. -/
def Within (f g : Str) (m : Mode) : Prop := g <+: f ∧ m ≠ .eatEnd ∧ m ≠ .eatEmpty

/-- A field in the middle of a line. -/
theorem run_field (f : Str) (r : List (List Str)) (cur : List Str) : ∃ m, Open m ∧ (field f).foldl step ⟨r, cur, [], .startField⟩ = ⟨r, cur, f, m⟩ := by
  unfold field
  split
  · refine ⟨.quote, Or.inr (Or.inl rfl), ?_⟩
    rw [inQuotes_eq, List.foldl_cons]
    have : step ⟨r, cur, [], .startField⟩ '"' = ⟨r, cur, [], .quoted⟩ := by simp [step, startFieldStep, St.to]
    rw [this, run_quoted]
    rfl
  · rename_i h
    exact run_startField f (special_false (by simpa using h)) r cur

theorem run_field_part (f p : Str) (hp : p <+: field f) (r : List (List Str)) (cur : List Str) :
    ∃ g m, Within f g m ∧ p.foldl step ⟨r, cur, [], .startField⟩ = ⟨r, cur, g, m⟩ ∧ (m = .startLine ∨ m = .blanks → False) := by
  unfold field at hp
  split at hp
  · cases p with
    | nil => exact ⟨[], .startField, ⟨List.nil_prefix, by simp, by simp⟩, rfl, by simp⟩
    | cons x p =>
      rw [inQuotes_eq, List.cons_prefix_cons] at hp
      obtain ⟨rfl, hp⟩ := hp
      rw [List.foldl_cons]
      have : step ⟨r, cur, [], .startField⟩ '"' = ⟨r, cur, [], .quoted⟩ := by simp [step, startFieldStep, St.to]
      rw [this]
      obtain ⟨g, m, h1, h2, h3⟩ := run_quoted_part f p hp r cur []
      refine ⟨g, m, ⟨h1, ?_, ?_⟩, by rw [h3]; rfl, ?_⟩ <;> rcases h2 with rfl | rfl <;> simp
  · rename_i h
    obtain ⟨m, h1, h2⟩ := run_startField p (fun c hc => special_false (by simpa using h) c (hp.subset hc)) r cur
    refine ⟨p, m, ⟨hp, ?_, ?_⟩, h2, ?_⟩ <;> rcases h1 with rfl | rfl | rfl <;> simp

/-- The first field of a line. -/
theorem run_first (f : Str) (r : List (List Str)) :
    (f = [] ∧ (field f).foldl step ⟨r, [], [], .startLine⟩ = ⟨r, [], f, .startLine⟩) ∨
      (f ≠ [] ∧ Blanks f ∧ (field f).foldl step ⟨r, [], [], .startLine⟩ = ⟨r, [], f, .blanks⟩) ∨
      ∃ m, Open m ∧ (field f).foldl step ⟨r, [], [], .startLine⟩ = ⟨r, [], f, m⟩ := by
  unfold field
  split
  · right; right
    refine ⟨.quote, Or.inr (Or.inl rfl), ?_⟩
    rw [inQuotes_eq, List.foldl_cons]
    have : step ⟨r, [], [], .startLine⟩ '"' = ⟨r, [], [], .quoted⟩ := by simp [step, startLineStep, startFieldStep, St.to]
    rw [this, run_quoted]
    rfl
  · rename_i h
    rcases run_startLine f (special_false (by simpa using h)) r with ⟨h1, h2⟩ | ⟨h1, h2, h3⟩ | ⟨h1, h2⟩
    · left; subst h1; exact ⟨rfl, h2⟩
    · right; left; exact ⟨h1, h2, h3⟩
    · right; right; exact ⟨.inField, Or.inl rfl, h2⟩

theorem run_first_part (f p : Str) (hp : p <+: field f) (r : List (List Str)) :
    ∃ g m, Within f g m ∧ p.foldl step ⟨r, [], [], .startLine⟩ = ⟨r, [], g, m⟩ ∧ (m = .startLine ∨ m = .blanks → Blanks p) := by
  unfold field at hp
  split at hp
  · cases p with
    | nil => exact ⟨[], .startLine, ⟨List.nil_prefix, by simp, by simp⟩, rfl, by simp [Blanks]⟩
    | cons x p =>
      rw [inQuotes_eq, List.cons_prefix_cons] at hp
      obtain ⟨rfl, hp⟩ := hp
      rw [List.foldl_cons]
      have : step ⟨r, [], [], .startLine⟩ '"' = ⟨r, [], [], .quoted⟩ := by simp [step, startLineStep, startFieldStep, St.to]
      rw [this]
      obtain ⟨g, m, h1, h2, h3⟩ := run_quoted_part f p hp r [] []
      refine ⟨g, m, ⟨h1, ?_, ?_⟩, by rw [h3]; rfl, ?_⟩ <;> rcases h2 with rfl | rfl <;> simp
  · rename_i h
    rcases run_startLine p (fun c hc => special_false (by simpa using h) c (hp.subset hc)) r with ⟨h1, h2⟩ | ⟨h1, h2, h3⟩ | ⟨h1, h2⟩
    · exact ⟨[], .startLine, ⟨List.nil_prefix, by simp, by simp⟩, h2, fun _ => by subst h1; simp [Blanks]⟩
    · exact ⟨p, .blanks, ⟨hp, by simp, by simp⟩, h3, fun _ => h2⟩
    · exact ⟨p, .inField, ⟨hp, by simp, by simp⟩, h2, by simp⟩

theorem comma_open {m : Mode} (h : Open m) (r : List (List Str)) (cur : List Str) (f : Str) :
    step ⟨r, cur, f, m⟩ ',' = ⟨r, cur ++ [f], [], .startField⟩ := by
  rcases h with rfl | rfl | rfl <;> simp [step, startFieldStep, inFieldStep, St.endField]

/-- The two ends of lines. -/
def LineEnd (e : Str) : Prop := e = ['\n'] ∨ e = ['\r', '\n']

theorem end_open {e : Str} (he : LineEnd e) {m : Mode} (h : Open m) (r : List (List Str)) (cur : List Str) (f : Str) :
    e.foldl step ⟨r, cur, f, m⟩ = ⟨r ++ [cur ++ [f]], [], [], .startLine⟩ := by
  rcases he with rfl | rfl <;> rcases h with rfl | rfl | rfl <;> simp [step, startFieldStep, inFieldStep, St.endField, St.endLine]

/-! ## The rest of a line -/

theorem run_rest {e : Str} (he : LineEnd e) (fs : List Str) (hne : fs ≠ []) (r : List (List Str)) (cur : List Str) :
    (fields fs ++ e).foldl step ⟨r, cur, [], .startField⟩ = ⟨r ++ [cur ++ fs], [], [], .startLine⟩ := by
  induction fs generalizing cur with
  | nil => exact absurd rfl hne
  | cons f fs ih =>
    obtain ⟨m, hm, e'⟩ := run_field f r cur
    cases fs with
    | nil => rw [fields, List.foldl_append, e', end_open he hm]
    | cons g fs =>
      rw [fields, List.append_assoc, List.foldl_append, e', List.cons_append, List.foldl_cons, comma_open hm, ih (by simp)]
      simp

theorem prefix_append {α : Type} {p a b : List α} (h : p <+: a ++ b) : p <+: a ∨ ∃ q, p = a ++ q ∧ q <+: b := by
  rcases Nat.le_total p.length a.length with hl | hl
  · left
    exact List.prefix_of_prefix_length_le h (List.prefix_append a b) hl
  · right
    obtain ⟨q, rfl⟩ := List.prefix_of_prefix_length_le (List.prefix_append a b) h hl
    exact ⟨q, rfl, (List.prefix_append_right_inj a).1 h⟩

theorem run_rest_part (fs : List Str) (hne : fs ≠ []) (p : Str) (hp : p <+: fields fs) (r : List (List Str)) (cur : List Str) :
    ∃ before f after g m, fs = before ++ f :: after ∧ Within f g m ∧ p.foldl step ⟨r, cur, [], .startField⟩ = ⟨r, cur ++ before, g, m⟩ ∧
      ¬ (m = .startLine ∨ m = .blanks) := by
  induction fs generalizing cur p with
  | nil => exact absurd rfl hne
  | cons f fs ih =>
    cases fs with
    | nil =>
      rw [fields] at hp
      obtain ⟨g, m, h1, h2, h3⟩ := run_field_part f p hp r cur
      exact ⟨[], f, [], g, m, rfl, h1, by rw [h2]; simp, h3⟩
    | cons g fs =>
      rw [fields] at hp
      rcases prefix_append hp with hp | ⟨q, rfl, hq⟩
      · obtain ⟨g', m, h1, h2, h3⟩ := run_field_part f p hp r cur
        exact ⟨[], f, g :: fs, g', m, rfl, h1, by rw [h2]; simp, h3⟩
      · obtain ⟨m, hm, e⟩ := run_field f r cur
        rw [List.foldl_append, e]
        cases q with
        | nil =>
          refine ⟨[], f, g :: fs, f, m, rfl, ⟨List.prefix_refl _, ?_, ?_⟩, by simp, ?_⟩ <;> rcases hm with rfl | rfl | rfl <;> simp
        | cons x q =>
          rw [List.cons_prefix_cons] at hq
          obtain ⟨rfl, hq⟩ := hq
          rw [List.foldl_cons, comma_open hm]
          obtain ⟨before, f', after, g', m', h1, h2, h3, h4⟩ := ih (by simp) q hq (cur ++ [f])
          exact ⟨f :: before, f', after, g', m', by rw [h1]; rfl, h2, by rw [h3]; simp, h4⟩

/-! ## A line -/

theorem fields_single (f : Str) : fields [f] = field f := rfl

theorem run_line {e : Str} (he : LineEnd e) (row : List Str) (hv : Visible row) (r : List (List Str)) :
    (body row ++ e).foldl step ⟨r, [], [], .startLine⟩ = ⟨r ++ [row], [], [], .startLine⟩ := by
  unfold body
  by_cases h0 : row = [[]]
  · subst h0
    rcases he with rfl | rfl <;> simp [step, startLineStep, startFieldStep, inFieldStep, St.to, St.endField, St.endLine]
  rw [if_neg h0]
  cases row with
  | nil => rcases hv with h | ⟨f, h, -⟩ <;> simp at h
  | cons f fs =>
    cases fs with
    | nil =>
      have hf : f ≠ [] := fun e => h0 (by rw [e])
      have hb : ¬ Blanks f := by
        rcases hv with h | ⟨g, h, h' | ⟨c, hc, hn⟩⟩
        · simp at h
        · simp at h; exact absurd (h.trans h') hf
        · simp at h
          subst h
          intro hb
          rcases hb c hc with h | h
          · exact hn.1 h
          · exact hn.2 h
      rw [fields_single, List.foldl_append]
      rcases run_first f r with ⟨h1, -⟩ | ⟨-, h1, -⟩ | ⟨m, hm, e'⟩
      · exact absurd h1 hf
      · exact absurd h1 hb
      · rw [e', end_open he hm]; rfl
    | cons g fs =>
      rw [fields, List.append_assoc, List.foldl_append, List.cons_append, List.foldl_cons]
      have hc : step ((field f).foldl step ⟨r, [], [], .startLine⟩) ',' = ⟨r, [f], [], .startField⟩ := by
        rcases run_first f r with ⟨h1, h2⟩ | ⟨h1, -, h2⟩ | ⟨m, hm, e'⟩
        · rw [h2, h1]; simp [step, startLineStep, startFieldStep, inFieldStep, St.endField]
        · rw [h2]; simp [step, inFieldStep, St.endField]
        · rw [e', comma_open hm]; rfl
      rw [hc, run_rest he (g :: fs) (by simp)]
      simp

/-- Reading an initial part of a line: the error at the end of the text within quotes, nothing at all, or a line that is cut short. -/
theorem read_part (row : List Str) (hv : Visible row) (p : Str) (hp : p <+: record row) (hne : p ≠ record row) (r : List (List Str)) :
    ('"' ∈ p ∧ finish (p.foldl step ⟨r, [], [], .startLine⟩) = none) ∨ (Blanks p ∧ finish (p.foldl step ⟨r, [], [], .startLine⟩) = some r) ∨
      ∃ part, CutShort part row ∧ finish (p.foldl step ⟨r, [], [], .startLine⟩) = some (r ++ [part]) := by
  have hfin : ∀ (cur : List Str) (g : Str) (m : Mode), m ≠ .eatEnd → m ≠ .eatEmpty → (m = .quoted ∧ finish ⟨r, cur, g, m⟩ = none) ∨
      ((m = .startLine ∨ m = .blanks) ∧ finish ⟨r, cur, g, m⟩ = some r) ∨ finish ⟨r, cur, g, m⟩ = some (r ++ [cur ++ [g]]) := by
    intro cur g m h1 h2
    cases m <;> simp_all [finish]
  have hp' : p <+: (if row = [[]] then ['"', '"'] else fields row) := by
    show p <+: body row
    unfold record at hp hne
    rcases prefix_append hp with h | ⟨q, rfl, hq⟩
    · exact h
    · cases q with
      | nil => simp
      | cons x q =>
        rw [List.cons_prefix_cons, List.prefix_nil] at hq
        obtain ⟨rfl, rfl⟩ := hq
        exact absurd rfl hne
  have main : ∃ before f after g m, row = before ++ f :: after ∧ Within f g m ∧ p.foldl step ⟨r, [], [], .startLine⟩ = ⟨r, before, g, m⟩ ∧
      (m = .startLine ∨ m = .blanks → Blanks p) := by
    by_cases h0 : row = [[]]
    · subst h0
      rw [if_pos rfl] at hp'
      have : p = [] ∨ p = ['"'] ∨ p = ['"', '"'] := by
        cases p with
        | nil => simp
        | cons x p =>
          rw [List.cons_prefix_cons] at hp'
          obtain ⟨rfl, hp'⟩ := hp'
          cases p with
          | nil => simp
          | cons y p =>
            rw [List.cons_prefix_cons, List.prefix_nil] at hp'
            obtain ⟨rfl, rfl⟩ := hp'
            simp
      rcases this with rfl | rfl | rfl
      · exact ⟨[], [], [], [], .startLine, rfl, ⟨List.prefix_refl _, by simp, by simp⟩, rfl, by simp [Blanks]⟩
      · exact ⟨[], [], [], [], .quoted, rfl, ⟨List.prefix_refl _, by simp, by simp⟩, by simp [step, startLineStep, startFieldStep, St.to], by simp⟩
      · exact ⟨[], [], [], [], .quote, rfl, ⟨List.prefix_refl _, by simp, by simp⟩, by simp [step, startLineStep, startFieldStep, St.to], by simp⟩
    rw [if_neg h0] at hp'
    cases row with
    | nil => rcases hv with h | ⟨f, h, -⟩ <;> simp at h
    | cons f fs =>
      cases fs with
      | nil =>
        rw [fields] at hp'
        obtain ⟨g, m, h1, h2, h3⟩ := run_first_part f p hp' r
        exact ⟨[], f, [], g, m, rfl, h1, h2, h3⟩
      | cons g fs =>
        rw [fields] at hp'
        rcases prefix_append hp' with hp | ⟨q, rfl, hq⟩
        · obtain ⟨g', m, h1, h2, h3⟩ := run_first_part f p hp r
          exact ⟨[], f, g :: fs, g', m, rfl, h1, h2, h3⟩
        · cases q with
          | nil =>
            rw [List.append_nil]
            obtain ⟨g', m, h1, h2, h3⟩ := run_first_part f (field f) (List.prefix_refl _) r
            exact ⟨[], f, g :: fs, g', m, rfl, h1, h2, h3⟩
          | cons x q =>
            rw [List.cons_prefix_cons] at hq
            obtain ⟨rfl, hq⟩ := hq
            have hc : step ((field f).foldl step ⟨r, [], [], .startLine⟩) ',' = ⟨r, [f], [], .startField⟩ := by
              rcases run_first f r with ⟨h1, h2⟩ | ⟨h1, -, h2⟩ | ⟨m, hm, e⟩
              · rw [h2, h1]; simp [step, startLineStep, startFieldStep, inFieldStep, St.endField]
              · rw [h2]; simp [step, inFieldStep, St.endField]
              · rw [e, comma_open hm]; rfl
            rw [List.foldl_append, List.foldl_cons, hc]
            obtain ⟨before, f', after, g', m', h1, h2, h3, h4⟩ := run_rest_part (g :: fs) (by simp) q hq r [f]
            exact ⟨f :: before, f', after, g', m', by rw [h1]; rfl, h2, by rw [h3]; rfl, fun h => absurd h h4⟩
  obtain ⟨before, f, after, g, m, h1, ⟨h2, h3, h4⟩, h5, h6⟩ := main
  have hq : m = .quoted → '"' ∈ p := by
    intro hm
    by_contra hn
    have := mode_quoted p hn ⟨r, [], [], .startLine⟩ (by simp)
    rw [h5] at this
    exact this hm
  rw [h5]
  rcases hfin before g m h3 h4 with ⟨h, h'⟩ | ⟨h, h'⟩ | h
  · exact Or.inl ⟨hq h, h'⟩
  · exact Or.inr (Or.inl ⟨h6 h, h'⟩)
  · exact Or.inr (Or.inr ⟨before ++ [g], ⟨before, f, after, g, h1, rfl, h2⟩, h⟩)

/-! ## Several lines -/

theorem run_lines {e : Str} (he : LineEnd e) (rows : List (List Str)) (hv : ∀ row ∈ rows, Visible row) (r : List (List Str)) :
    (rows.flatMap fun row => body row ++ e).foldl step ⟨r, [], [], .startLine⟩ = ⟨r ++ rows, [], [], .startLine⟩ := by
  induction rows generalizing r with
  | nil => simp
  | cons row rows ih =>
    rw [List.flatMap_cons, List.foldl_append, run_line he row (hv row (by simp)), ih fun x hx => hv x (by simp [hx])]
    simp

theorem read_lines_part (rows : List (List Str)) (hv : ∀ row ∈ rows, Visible row) (p : Str) (hp : p <+: rows.flatMap record) (r : List (List Str)) :
    ∃ done rest tail, rows = done ++ rest ∧ p = done.flatMap record ++ tail ∧
      ((tail = [] ∧ finish (p.foldl step ⟨r, [], [], .startLine⟩) = some (r ++ done)) ∨
        ∃ row rest', rest = row :: rest' ∧ tail <+: record row ∧ tail ≠ record row ∧
          (('"' ∈ tail ∧ finish (p.foldl step ⟨r, [], [], .startLine⟩) = none) ∨
            (Blanks tail ∧ finish (p.foldl step ⟨r, [], [], .startLine⟩) = some (r ++ done)) ∨
            ∃ part, CutShort part row ∧ finish (p.foldl step ⟨r, [], [], .startLine⟩) = some (r ++ done ++ [part]))) := by
  induction rows generalizing p r with
  | nil =>
    simp only [List.flatMap_nil, List.prefix_nil] at hp
    subst hp
    exact ⟨[], [], [], rfl, rfl, Or.inl ⟨rfl, by simp [finish]⟩⟩
  | cons row rows ih =>
    rw [List.flatMap_cons] at hp
    by_cases hl : p <+: record row ∧ p ≠ record row
    · refine ⟨[], row :: rows, p, rfl, rfl, Or.inr ⟨row, rows, rfl, hl.1, hl.2, ?_⟩⟩
      simpa using read_part row (hv row (by simp)) p hl.1 hl.2 r
    · have : ∃ q, p = record row ++ q ∧ q <+: rows.flatMap record := by
        rcases prefix_append hp with h | h
        · have : p = record row := by by_contra hn; exact hl ⟨h, hn⟩
          exact ⟨[], by simp [this], List.nil_prefix⟩
        · exact h
      obtain ⟨q, rfl, hq⟩ := this
      rw [List.foldl_append, show (record row).foldl step ⟨r, [], [], .startLine⟩ = ⟨r ++ [row], [], [], .startLine⟩ from
        run_line (Or.inl rfl) row (hv row (by simp)) r]
      obtain ⟨done, rest, tail, h1, h2, h3⟩ := ih (fun x hx => hv x (by simp [hx])) q hq (r ++ [row])
      refine ⟨row :: done, rest, tail, by rw [h1]; rfl, by rw [h2]; simp, ?_⟩
      simpa using h3

end Sorcha.Csv
