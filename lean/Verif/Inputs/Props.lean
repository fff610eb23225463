import Verif.Inputs.Spec
import Mathlib.Data.List.Perm.Subperm
import Mathlib.Tactic.NormNum
import Mathlib.Tactic.Push

/-!
# The checks of the input files
-/

namespace Sorcha.Inputs.Props

open Sorcha.Inputs Sorcha.Inputs.Spec

/-! ## Lemmas: orbits -/

theorem dedup_one (x : String) (l : List String) : ((x :: l).dedup.length = 1) ↔ ∀ y ∈ l, y = x := by
  constructor
  · intro h y hy
    obtain ⟨z, hz⟩ := List.length_eq_one_iff.mp h
    have hx : x ∈ (x :: l).dedup := by simp
    have hy' : y ∈ (x :: l).dedup := by simp [hy]
    rw [hz] at hx hy'
    simp only [List.mem_singleton] at hx hy'
    rw [hx, hy']
  · intro h
    rw [List.length_eq_one_iff]
    refine ⟨x, ?_⟩
    have hr : x :: l = List.replicate (l.length + 1) x := by
      rw [List.eq_replicate_iff]
      refine ⟨by simp, ?_⟩
      intro b hb
      rcases List.mem_cons.mp hb with rfl | hb
      · rfl
      · exact h b hb
    rw [hr, List.replicate_dedup (by simp)]

theorem badKep_iff (r : OrbRow) : badKep r = false ↔ EllipticOrNan (r.val "e") ∧ (r.val "e" ≠ .nan → NonNegOrNan (r.val "a")) := by
  unfold badKep EllipticOrNan NonNegOrNan
  generalize r.val "e" = e
  generalize r.val "a" = a
  cases e <;> cases a <;> simp [Fl.lt, Fl.le, Fl.eq, not_or, le_iff_lt_or_eq] <;> grind

theorem badCom_iff (r : OrbRow) : badCom r = false ↔ NonNegOrNan (r.val "q") ∧ NonNegOrNan (r.val "e") := by
  unfold badCom NonNegOrNan
  generalize r.val "e" = e
  generalize r.val "q" = a
  cases e <;> cases a <;> simp [Fl.lt]

/-! ## C39: orbit files -/

/-- C39: a block of the orbit file is accepted iff it has no rows, or it is valid: a FORMAT column, exactly nine columns with all elements of
the format, one known format for all rows, and physical elements in each row (NaN passes). -/
theorem C39_block (b : Block) : checkOrbits b = .ok b ↔ b.rows = [] ∨ ValidBlock b := by
  obtain ⟨cols, rows⟩ := b
  cases rows with
  | nil => simp [checkOrbits]
  | cons r rs =>
    have hd : ((r :: rs).map (·.format)).dedup.length = 1 ↔ ∀ y ∈ rs, y.format = r.format := by
      rw [List.map_cons, dedup_one]; simp
    simp only [reduceCtorEq, false_or]
    constructor
    · intro h
      simp only [checkOrbits] at h
      split at h
      · simp at h
      rename_i h1
      split at h
      · simp at h
      rename_i h2
      split at h
      · simp at h
      rename_i h3
      have hf : ∀ y ∈ r :: rs, y.format = r.format := by
        intro y hy
        rcases List.mem_cons.mp hy with rfl | hy
        · rfl
        · exact hd.mp (not_not.mp h3) y hy
      have hF : "FORMAT" ∈ cols := by simpa using h1
      have h9 : cols.length = 9 := not_not.mp h2
      split at h
      · rename_i h4
        split at h
        · simp at h
        rename_i h5
        split at h
        · simp at h
        rename_i h6
        refine ⟨_, _, _, Known.kep r.format (by simpa using h4), hf, hF, h9, by simpa using h5, ?_⟩
        intro y hy
        apply (badKep_iff y).mp
        simp only [List.any_eq_true, not_exists, not_and, Bool.not_eq_true] at h6
        exact h6 y hy
      rename_i h4
      split at h
      · rename_i h5
        split at h
        · simp at h
        rename_i h6
        split at h
        · simp at h
        rename_i h7
        refine ⟨_, _, _, Known.com r.format (by simpa using h5), hf, hF, h9, by simpa using h6, ?_⟩
        intro y hy
        apply (badCom_iff y).mp
        simp only [List.any_eq_true, not_exists, not_and, Bool.not_eq_true] at h7
        exact h7 y hy
      rename_i h5
      split at h
      · rename_i h6
        split at h
        · simp at h
        rename_i h7
        exact ⟨_, _, _, Known.cart r.format (by simpa using h6), hf, hF, h9, by simpa using h7, fun _ _ => trivial⟩
      · simp at h
    · rintro ⟨f, el, cond, hk, hf, hF, h9, he, hc⟩
      have hr : r.format = f := hf r (by simp)
      have hu : ((r :: rs).map (·.format)).dedup.length = 1 := hd.mpr (fun y hy => by rw [hf y (by simp [hy]), hr])
      have e1 : (!cols.contains "FORMAT") = false := by simpa using hF
      subst hr
      simp only [checkOrbits, e1, h9, hu]
      cases hk with
      | kep hf' =>
        have e2 : ["KEP", "BKEP"].contains r.format = true := by simpa using hf'
        have e3 : (["ObjID", "a", "e", "inc", "node", "argPeri", "ma", "epochMJD_TDB"].all (cols.contains ·)) = true := by simpa using he
        have e4 : (r :: rs).any badKep = false := by
          rw [List.any_eq_false]
          intro y hy
          rw [(badKep_iff y).mpr (hc y hy)]; simp
        simp only [Bool.false_eq_true, if_false, ne_eq, not_true_eq_false, if_true, Bool.not_true, e2, e3, e4]
      | com hf' =>
        have e0 : ["KEP", "BKEP"].contains r.format = false := by rcases hf' with h | h <;> rw [h] <;> decide
        have e2 : ["COM", "BCOM"].contains r.format = true := by simpa using hf'
        have e3 : (["ObjID", "q", "e", "inc", "node", "argPeri", "t_p_MJD_TDB", "epochMJD_TDB"].all (cols.contains ·)) = true := by simpa using he
        have e4 : (r :: rs).any badCom = false := by
          rw [List.any_eq_false]
          intro y hy
          rw [(badCom_iff y).mpr (hc y hy)]; simp
        simp only [Bool.false_eq_true, if_false, ne_eq, not_true_eq_false, if_true, Bool.not_true, e0, e2, e3, e4]
      | cart hf' =>
        have e0 : ["KEP", "BKEP"].contains r.format = false := by rcases hf' with h | h <;> rw [h] <;> decide
        have e1' : ["COM", "BCOM"].contains r.format = false := by rcases hf' with h | h <;> rw [h] <;> decide
        have e2 : ["CART", "BCART"].contains r.format = true := by simpa using hf'
        have e3 : (["ObjID", "x", "y", "z", "xdot", "ydot", "zdot", "epochMJD_TDB"].all (cols.contains ·)) = true := by simpa using he
        simp only [Bool.false_eq_true, if_false, ne_eq, not_true_eq_false, if_true, Bool.not_true, e0, e1', e2, e3]


/-- C39: the columns of a valid block are FORMAT and the eight elements in some order, nothing else. -/
theorem C39_columns (b : Block) (hv : ValidBlock b) :
    ∃ f elements cond, Known f elements cond ∧ (∀ r ∈ b.rows, r.format = f) ∧ b.columns.Perm ("FORMAT" :: elements) := by
  obtain ⟨f, el, cond, hk, hf, hF, h9, he, -⟩ := hv
  refine ⟨f, el, cond, hk, hf, ?_⟩
  have hnd : ("FORMAT" :: el).Nodup ∧ el.length = 8 := by cases hk <;> decide
  have hsub : ("FORMAT" :: el) ⊆ b.columns := by
    intro c hc
    rcases List.mem_cons.mp hc with rfl | hc
    · exact hF
    · exact he c hc
  have hsp := List.Nodup.subperm hnd.1 hsub
  exact (hsp.perm_of_length_le (by simp [hnd.2, h9])).symm

/-- C39: every row of an accepted orbit file satisfies the conditions of its own format, and rows of one block have the same format.
The file is accepted iff every block is. -/
theorem C39_file (columns : List String) (blocks : List (List OrbRow)) :
    checkBlocks columns blocks = .ok () ↔ ∀ b ∈ blocks, b = [] ∨ ValidBlock ⟨columns, b⟩ := by
  induction blocks with
  | nil => simp [checkBlocks]
  | cons b bs ih =>
    have h := C39_block ⟨columns, b⟩
    have hok : ∀ x, checkOrbits ⟨columns, b⟩ = .ok x → x = ⟨columns, b⟩ := by
      intro x hx
      unfold checkOrbits at hx
      repeat' split at hx
      all_goals first | (cases hx; done) | (cases hx; rfl)
    simp only [checkBlocks, List.mem_cons, forall_eq_or_imp]
    rw [← h, ← ih]
    cases hc : checkOrbits ⟨columns, b⟩ with
    | error e => simp [bind, Except.bind]
    | ok x => simp [bind, Except.bind, hok x hc]

/-- C39: no row with a negative eccentricity, an unbound Keplerian orbit, a negative semi-major axis or perihelion distance or an unknown format
is in an accepted file. -/
theorem C39_rows (columns : List String) (blocks : List (List OrbRow)) (h : checkBlocks columns blocks = .ok ()) (b) (hb : b ∈ blocks) (r)
    (hr : r ∈ b) :
    r.format ∈ ["KEP", "BKEP", "COM", "BCOM", "CART", "BCART"] ∧
    (r.format ∈ ["KEP", "BKEP"] → ∀ e : ℚ, r.val "e" = .fin e → 0 ≤ e ∧ e < 1 ∧ ∀ a : ℚ, r.val "a" = .fin a → 0 ≤ a) ∧
    (r.format ∈ ["COM", "BCOM"] → (∀ e : ℚ, r.val "e" = .fin e → 0 ≤ e) ∧ ∀ q : ℚ, r.val "q" = .fin q → 0 ≤ q) := by
  rcases (C39_file columns blocks).mp h b hb with rfl | ⟨f, el, cond, hk, hf, -, -, -, hc⟩
  · simp at hr
  have hrf := hf r hr
  have hcr := hc r hr
  cases hk with
  | kep hf' =>
    rw [hrf]
    refine ⟨by rcases hf' with rfl | rfl <;> decide, ?_, fun hx => by rcases hf' with rfl | rfl <;> exact absurd hx (by decide)⟩
    intro _ e he
    obtain ⟨h1, h2⟩ := hcr
    rw [he] at h1 h2
    rcases h1 with h1 | ⟨q, h1, h3, h4⟩
    · cases h1
    cases h1
    refine ⟨h3, h4, ?_⟩
    intro a ha
    rcases h2 (by simp) with h | h | ⟨q, h, h'⟩
    · rw [ha] at h; cases h
    · rw [ha] at h; cases h
    · rw [ha] at h; cases h; exact h'
  | com hf' =>
    rw [hrf]
    refine ⟨by rcases hf' with rfl | rfl <;> decide, fun hx => by rcases hf' with rfl | rfl <;> exact absurd hx (by decide), ?_⟩
    intro _
    obtain ⟨h1, h2⟩ := hcr
    constructor
    · intro e he
      rcases h2 with h | h | ⟨q, h, h'⟩ <;> rw [he] at h <;> cases h
      exact h'
    · intro e he
      rcases h1 with h | h | ⟨q, h, h'⟩ <;> rw [he] at h <;> cases h
      exact h'
  | cart hf' =>
    rw [hrf]
    rcases hf' with rfl | rfl <;>
      exact ⟨by decide, fun hx => absurd hx (by decide), fun hx => absurd hx (by decide)⟩

/-- The columns of a Keplerian file. -/
def exCols : List String := ["ObjID", "FORMAT", "a", "e", "inc", "node", "argPeri", "ma", "epochMJD_TDB"]

/-- A row with this format, semi-major axis and eccentricity. -/
def exRow (f : String) (a e : Fl) : OrbRow := ⟨f, fun c => if c = "a" then a else if c = "e" then e else .fin 10⟩

/-- Example: a file of two blocks is accepted and a hyperbolic row is not. -/
example : checkBlocks exCols [[exRow "KEP" (.fin 2) (.fin (1/10)), exRow "KEP" (.fin 3) (.fin 0)], [exRow "KEP" (.fin 40) (.fin (9/10))]] = .ok () := by
  decide +kernel

example : checkBlocks exCols [[exRow "KEP" (.fin 2) (.fin (1/10)), exRow "KEP" (.fin 3) (.fin 1)]] = .error .badElements := by
  decide +kernel

/-- C39 fails for consistency over the whole file: rows with different formats are rejected in one block but accepted when the chunk size
separates them. -/
theorem C39_consistent_fails :
    checkBlocks exCols [[exRow "KEP" (.fin 2) (.fin 0), exRow "BKEP" (.fin 3) (.fin 0)]] = .error .mixedFormat ∧
    checkBlocks exCols [[exRow "KEP" (.fin 2) (.fin 0)], [exRow "BKEP" (.fin 3) (.fin 0)]] = .ok () := by
  decide +kernel

/-- C39 fails for degenerate orbits: a semi-major axis of zero, a missing eccentricity with any axis, and an infinite axis are accepted. -/
theorem C39_degenerate_fails :
    checkBlocks exCols [[exRow "KEP" (.fin 0) (.fin 0), exRow "KEP" (.fin (-3)) .nan, exRow "KEP" .pinf (.fin 0)]] = .ok () := by
  decide +kernel

/-! ## Lemmas: main filter -/

theorem afterH_cons (c d : Char) (rest : List Char) :
    afterH (c :: d :: rest) = if c = 'H' ∧ d = '_' then some rest else afterH (d :: rest) := by
  rw [afterH]

theorem afterH_none {l : List Char} : afterH l = none ↔ ¬ HasH l := by
  induction l with
  | nil => simp [afterH, HasH]
  | cons c cs ih =>
    cases cs with
    | nil =>
      simp only [afterH, true_iff]
      rintro ⟨a, b, h⟩
      have := congrArg List.length h
      simp at this
      omega
    | cons d rest =>
      rw [afterH_cons]
      split
      · rename_i h
        obtain ⟨rfl, rfl⟩ := h
        simp only [reduceCtorEq, false_iff, not_not]
        exact ⟨[], rest, rfl⟩
      · rename_i h
        rw [ih]
        constructor
        · rintro hn ⟨a, b, hab⟩
          cases a with
          | nil => simp only [List.nil_append, List.cons.injEq] at hab; exact h ⟨hab.1, hab.2.1⟩
          | cons x xs => exact hn ⟨xs, b, by simpa using (List.cons.inj hab).2⟩
        · rintro hn ⟨a, b, hab⟩
          exact hn ⟨c :: a, b, by rw [hab]; rfl⟩

theorem afterH_some {l r : List Char} : afterH l = some r ↔ ∃ pre, l = pre ++ 'H' :: '_' :: r ∧ ¬ HasH (pre ++ ['H']) := by
  induction l with
  | nil => simp [afterH]
  | cons c cs ih =>
    cases cs with
    | nil =>
      simp only [afterH, reduceCtorEq, false_iff]
      rintro ⟨pre, h, -⟩
      have := congrArg List.length h
      simp at this
      omega
    | cons d rest =>
      rw [afterH_cons]
      split
      · rename_i h
        obtain ⟨rfl, rfl⟩ := h
        constructor
        · intro h
          cases h
          refine ⟨[], rfl, ?_⟩
          rintro ⟨a, b, hab⟩
          have := congrArg List.length hab
          simp at this
          omega
        · rintro ⟨pre, h, hn⟩
          cases pre with
          | nil => simp at h; simp [h]
          | cons x xs =>
            exfalso
            simp only [List.cons_append, List.cons.injEq] at h
            obtain ⟨rfl, h⟩ := h
            cases xs with
            | nil => simp at h
            | cons y ys =>
              simp only [List.cons_append, List.cons.injEq] at h
              obtain ⟨rfl, h⟩ := h
              exact hn ⟨[], ys ++ ['H'], by simp⟩
      · rename_i h
        rw [ih]
        constructor
        · rintro ⟨pre, he, hn⟩
          refine ⟨c :: pre, by rw [he]; rfl, ?_⟩
          rintro ⟨a, b, hab⟩
          cases a with
          | nil =>
            simp only [List.cons_append, List.nil_append, List.cons.injEq] at hab
            obtain ⟨rfl, hab⟩ := hab
            cases pre with
            | nil => simp at hab
            | cons y ys =>
              simp only [List.cons_append, List.cons.injEq] at he hab
              exact h ⟨rfl, by rw [he.1, hab.1]⟩
          | cons x xs => exact hn ⟨xs, b, by simpa using (List.cons.inj hab).2⟩
        · rintro ⟨pre, he, hn⟩
          cases pre with
          | nil => simp only [List.nil_append, List.cons.injEq] at he; exact absurd ⟨he.1, he.2.1⟩ h
          | cons x xs =>
            refine ⟨xs, by simpa using (List.cons.inj he).2, ?_⟩
            rintro ⟨a, b, hab⟩
            exact hn ⟨x :: a, b, by simpa using hab⟩

theorem isSpace_iff (c : Char) : Config.isSpace c = true ↔ Blank c := by
  unfold Config.isSpace Blank
  simp only [Bool.or_eq_true, Bool.and_eq_true, decide_eq_true_eq, List.mem_cons, List.not_mem_nil, or_false]
  omega

theorem words_blank (l r : List Char) (h : ∀ c ∈ l, Blank c) : words [] (l ++ r) = words [] r := by
  induction l with
  | nil => rfl
  | cons c cs ih =>
    have hc := (isSpace_iff c).mpr (h c (by simp))
    simp only [List.cons_append, words, hc, if_true, List.isEmpty_nil]
    exact ih (fun x hx => h x (by simp [hx]))

theorem words_word (w cur r : List Char) (h : ∀ c ∈ w, ¬ Blank c) : words cur (w ++ r) = words (w.reverse ++ cur) r := by
  induction w generalizing cur with
  | nil => rfl
  | cons c cs ih =>
    have hc : Config.isSpace c = false := by
      rw [← Bool.not_eq_true, isSpace_iff]; exact h c (by simp)
    simp only [List.cons_append, words, hc, Bool.false_eq_true, if_false]
    rw [ih _ (fun x hx => h x (by simp [hx]))]
    simp

theorem words_spaced {l : List Char} {ws : List (List Char)} (h : Spaced l ws) : words [] l = ws := by
  induction h with
  | blank l h =>
    have := words_blank l [] h
    simpa [words] using this
  | last l w h hw hb =>
    rw [words_blank l w h]
    have := words_word w [] [] hb
    simp only [List.append_nil] at this
    rw [this]
    simp [words, hw]
  | word l w b r ws h hw hb hs hr ih =>
    rw [List.append_assoc, words_blank l _ h, words_word w [] _ hb]
    have he : (w.reverse ++ []).isEmpty = false := by simp [hw]
    simp only [words, (isSpace_iff b).mpr hs, if_true, he, Bool.false_eq_true, if_false, ih]
    simp

theorem headerColumns_of {line : List Char} {sep : String} {cols : List (List Char)} (h : Header line sep cols) :
    headerColumns line sep = .ok (cols.map String.ofList) := by
  cases h with
  | comma sep hs cols h hc =>
    have hne : sep ≠ "whitespace" := by rcases hs with rfl | rfl <;> decide
    simp only [headerColumns, hne, if_false, hs, if_true, List.dropLast_concat]
    rw [List.splitOn_intercalate ',' hc h]
  | blank l cols h =>
    simp only [headerColumns, if_true, List.dropLast_concat]
    rw [words_spaced h]

theorem afterH_skip (b : Char) (r : List Char) (hb : b ≠ 'H') : afterH (b :: r) = afterH r := by
  cases r with
  | nil => simp [afterH]
  | cons c cs => rw [afterH_cons]; simp [hb]

theorem afterH_sep (w r : List Char) (s : Char) (hs : s ≠ 'H') (hs' : s ≠ '_') (hw : ¬ HasH w) : afterH (w ++ s :: r) = afterH r := by
  induction w with
  | nil => exact afterH_skip s r hs
  | cons c cs ih =>
    have hcs : ¬ HasH cs := fun ⟨a, b, h⟩ => hw ⟨c :: a, b, by rw [h]; rfl⟩
    cases cs with
    | nil =>
      simp only [List.cons_append, List.nil_append]
      rw [afterH_cons, if_neg (fun h => hs' h.2), afterH_skip s r hs]
    | cons d ds =>
      simp only [List.cons_append] at ih ⊢
      rw [afterH_cons, if_neg, ih hcs]
      rintro ⟨rfl, rfl⟩
      exact hw ⟨[], ds, rfl⟩

theorem intercalate_cons₂ (w v : List Char) (vs : List (List Char)) :
    [','].intercalate (w :: v :: vs) = w ++ ',' :: [','].intercalate (v :: vs) := by
  simp [List.intercalate, List.intersperse]

theorem blank_ne {c : Char} (h : Blank c) : c ≠ 'H' ∧ c ≠ '_' := by
  constructor <;> rintro rfl <;> revert h <;> unfold Blank <;> decide

theorem afterH_blanks (l r : List Char) (h : ∀ c ∈ l, Blank c) : afterH (l ++ r) = afterH r := by
  induction l with
  | nil => rfl
  | cons c cs ih =>
    rw [List.cons_append, afterH_skip _ _ (blank_ne (h c (by simp))).1, ih (fun x hx => h x (by simp [hx]))]

theorem afterH_start (x : Char) (r : List Char) : afterH ('H' :: '_' :: x :: r) = some (x :: r) := by
  rw [afterH_cons]; simp

/-! ## C41: the main filter and the colours -/

/-- C41: with a readable header, the check succeeds iff "H_" occurs in the header line followed by the letter of an observed filter, the header
has at least two columns and a colour column "f-main" for every observed filter after the first in the configuration; it then returns
that letter and those colours. -/
theorem C41_accept {line : List Char} {sep : String} {cols : List (List Char)} (hh : Header line sep cols) (observing : List String)
    (m : String) (colours : Option (List String)) :
    mainFilter line observing sep = .ok (m, colours) ↔
      ∃ x, FirstAfterH line x ∧ m = String.ofList [x] ∧ m ∈ observing ∧ 2 ≤ cols.length ∧
        (∀ f ∈ observing.tail, f ++ "-" ++ m ∈ cols.map String.ofList) ∧
        colours = if observing.tail = [] then none else some (observing.tail.map (fun f => f ++ "-" ++ m)) := by
  have hx : ∀ x, FirstAfterH line x ↔ ∃ r, afterH line = some (x :: r) := by
    intro x
    simp only [afterH_some, FirstAfterH]
    exact ⟨fun ⟨p, r, h⟩ => ⟨r, p, h⟩, fun ⟨r, p, h⟩ => ⟨p, r, h⟩⟩
  simp only [hx, mainFilter, headerColumns_of hh]
  rcases ha : afterH line with _ | r
  · simp
  cases r with
  | nil => simp
  | cons c r =>
    simp only [Option.some.injEq, List.cons.injEq]
    by_cases hm : String.ofList [c] ∈ observing
    · have e1 : (!observing.contains (String.ofList [c])) = false := by simpa using hm
      have e2 : observing.isEmpty = false := by cases observing <;> simp_all
      simp only [e1, e2, Bool.false_eq_true, if_false]
      have hlen : ¬ cols.length ≤ 1 ↔ 2 ≤ cols.length := by omega
      cases observing with
      | nil => simp at hm
      | cons o os =>
        cases os with
        | nil =>
          simp only [Option.getD_none, List.all_nil, Bool.not_true, Bool.false_eq_true, if_false, List.length_map, List.tail_cons]
          split
          · rename_i h; simp; omega
          · rename_i h
            simp only [Except.ok.injEq, Prod.mk.injEq]
            constructor
            · rintro ⟨rfl, rfl⟩
              exact ⟨c, ⟨r, rfl, rfl⟩, rfl, hm, by omega, by simp, by simp⟩
            · rintro ⟨x, ⟨r', rfl, -⟩, rfl, -, -, -, h⟩
              exact ⟨rfl, by simpa using h.symm⟩
        | cons y ys =>
          simp only [Option.getD_some, List.length_map, List.tail_cons]
          split
          · rename_i h; simp; omega
          · rename_i h
            split
            · rename_i h'
              simp only [reduceCtorEq, false_iff]
              rintro ⟨x, ⟨r', rfl, -⟩, rfl, -, -, h, -⟩
              apply absurd h'
              simp only [Bool.not_eq_true', Bool.not_eq_false, List.all_eq_true, List.mem_map, forall_exists_index, and_imp,
                forall_apply_eq_imp_iff₂, List.contains_iff_mem]
              intro f hf
              simpa using h f hf
            · rename_i h'
              simp only [Except.ok.injEq, Prod.mk.injEq]
              simp only [Bool.not_eq_true', Bool.not_eq_false, List.all_eq_true, List.mem_map, forall_exists_index, and_imp,
                forall_apply_eq_imp_iff₂, List.contains_iff_mem] at h'
              constructor
              · rintro ⟨rfl, rfl⟩
                exact ⟨c, ⟨r, rfl, rfl⟩, rfl, hm, by omega, by simpa using h', by simp⟩
              · rintro ⟨x, ⟨r', rfl, -⟩, rfl, -, -, -, h⟩
                exact ⟨rfl, by simpa using h.symm⟩
    · have e1 : (!observing.contains (String.ofList [c])) = true := by simpa using hm
      simp only [e1, if_true, reduceCtorEq, false_iff]
      rintro ⟨x, ⟨r', rfl, -⟩, rfl, h, -⟩
      exact hm h

/-- C41: if a column is named "H_x…" and "H_" occurs in no column before it, then `x` is the letter that is found. -/
theorem C41_column {line : List Char} {sep : String} {cols : List (List Char)} (hh : Header line sep cols) (pre post : List (List Char))
    (x : Char) (suf : List Char) (hc : cols = pre ++ ('H' :: '_' :: x :: suf) :: post) (hpre : ∀ w ∈ pre, ¬ HasH w) : FirstAfterH line x := by
  suffices h : ∃ r, afterH line = some (x :: r) by
    obtain ⟨r, h⟩ := h
    obtain ⟨p, h⟩ := afterH_some.mp h
    exact ⟨p, r, h⟩
  cases hh with
  | comma sep hs cols h hcomma =>
    clear hs h
    subst hc
    induction pre with
    | nil =>
      cases post with
      | nil => exact ⟨suf ++ ['\n'], by simp [List.intercalate, afterH_start]⟩
      | cons v vs =>
        rw [List.nil_append, intercalate_cons₂]
        exact ⟨_, afterH_start x _⟩
    | cons w ws ih =>
      obtain ⟨r, hr⟩ := ih (fun v hv => hpre v (by simp [hv])) (fun v hv => hcomma v (by simp only [List.cons_append, List.mem_cons]; right; exact hv))
      refine ⟨r, ?_⟩
      rw [← hr]
      cases hw : ws ++ ('H' :: '_' :: x :: suf) :: post with
      | nil => simp at hw
      | cons v vs =>
        rw [List.cons_append, hw, intercalate_cons₂, List.append_assoc, List.cons_append]
        exact afterH_sep w _ ',' (by decide) (by decide) (hpre w (by simp))
  | blank l cols h =>
    induction h generalizing pre with
    | blank l h => simp at hc
    | last l w h hw hb =>
      cases pre with
      | nil =>
        simp only [List.nil_append, List.cons.injEq] at hc
        obtain ⟨rfl, -⟩ := hc
        refine ⟨suf ++ ['\n'], ?_⟩
        rw [List.append_assoc, afterH_blanks _ _ h]
        exact afterH_start x _
      | cons v vs => simp at hc
    | word l w b r ws h hw hb hs hr ih =>
      cases pre with
      | nil =>
        simp only [List.nil_append, List.cons.injEq] at hc
        obtain ⟨rfl, -⟩ := hc
        refine ⟨suf ++ b :: r ++ ['\n'], ?_⟩
        rw [List.append_assoc, List.append_assoc, afterH_blanks _ _ h]
        simpa using afterH_start x _
      | cons v vs =>
        simp only [List.cons_append, List.cons.injEq] at hc
        obtain ⟨rfl, hc⟩ := hc
        obtain ⟨r', hr'⟩ := ih vs hc (fun u hu => hpre u (by simp [hu]))
        refine ⟨r', ?_⟩
        rw [List.append_assoc, List.append_assoc, afterH_blanks _ _ h, List.cons_append,
          afterH_sep _ _ b (blank_ne hs).1 (blank_ne hs).2 (hpre _ (by simp)), hr']

/-- C41: if the main filter is the first observed filter of the configuration, an accepted file has a colour column for every other observed
filter. -/
theorem C41_complete {line : List Char} {sep : String} {cols : List (List Char)} (hh : Header line sep cols) (main : String)
    (others : List String) (m : String) (colours : Option (List String)) (h : mainFilter line (main :: others) sep = .ok (m, colours)) :
    ∀ f ∈ others, f ++ "-" ++ m ∈ cols.map String.ofList := by
  obtain ⟨x, -, -, -, -, h, -⟩ := (C41_accept hh _ _ _).mp h
  exact h

/-- C41: a file whose header names the absolute magnitude in an observed filter, no earlier column containing "H_", and has the colours of the
filters after the first, is accepted, with that main filter. -/
theorem C41_good {line : List Char} {sep : String} {cols : List (List Char)} (hh : Header line sep cols) (pre post : List (List Char))
    (x : Char) (suf : List Char) (hc : cols = pre ++ ('H' :: '_' :: x :: suf) :: post) (hpre : ∀ w ∈ pre, ¬ HasH w)
    (observing : List String) (hx : String.ofList [x] ∈ observing) (h2 : 2 ≤ cols.length)
    (hcol : ∀ f ∈ observing.tail, f ++ "-" ++ String.ofList [x] ∈ cols.map String.ofList) :
    ∃ colours, mainFilter line observing sep = .ok (String.ofList [x], colours) :=
  ⟨_, (C41_accept hh observing _ _).mpr ⟨x, C41_column hh pre post x suf hc hpre, rfl, hx, h2, hcol, rfl⟩⟩

/-- A usual header. -/
def exHeader : List Char := "ObjID,H_r,u-r,g-r,GS\n".toList

example : mainFilter exHeader ["r", "u", "g"] "csv" = .ok ("r", some ["u-r", "g-r"]) := by decide +kernel
example : mainFilter "ObjID H_r  u-r\tg-r GS\n".toList ["r", "u", "g"] "whitespace" = .ok ("r", some ["u-r", "g-r"]) := by decide +kernel

/-- The usual header meets the hypotheses of `C41_accept`, `C41_column` and `C41_good`. -/
example : Header exHeader "csv" ["ObjID".toList, "H_r".toList, "u-r".toList, "g-r".toList, "GS".toList] := by
  have h := Header.comma "csv" (Or.inr rfl) ["ObjID".toList, "H_r".toList, "u-r".toList, "g-r".toList, "GS".toList] (by simp) (by decide)
  exact h

/-- C41 fails if the main filter is not the first in the configuration: a complete file is rejected, because a column "r-r" is asked for; and a
file without the colour of the first filter is accepted. -/
theorem C41_order_fails :
    mainFilter "ObjID,H_r,g-r,GS\n".toList ["g", "r"] "csv" = .error .noColour ∧
    mainFilter "ObjID,H_r,r-r,GS\n".toList ["g", "r"] "csv" = .ok ("r", some ["r-r"]) := by
  decide +kernel

/-- C41 fails if an earlier column contains "H_" in its name: its next letter is taken as the main filter. -/
theorem C41_substring_fails :
    mainFilter "ObjID,errH_g,H_r,r-g,g-r,GS\n".toList ["r", "g"] "csv" = .error .noColour ∧
    mainFilter "ObjID,errH_g,H_r,r-g,g-r,GS\n".toList ["g", "r"] "csv" = .ok ("g", some ["r-g"]) := by
  decide +kernel

/-- C41 fails for a header without end of line: the last character of its last column is lost. -/
theorem C41_last_fails :
    mainFilter "ObjID,H_r,g-r".toList ["r", "g"] "csv" = .error .noColour ∧
    mainFilter "ObjID,H_r,g-r\n".toList ["r", "g"] "csv" = .ok ("r", some ["g-r"]) := by
  decide +kernel

/-! ## Lemmas: auxiliary files -/

theorem setOr_iff (s : Config.Sect) (key default value : String) :
    (Config.get s key).getD default = value ↔ setOr s key default value := by
  unfold Config.get setOr
  induction s with
  | nil => simp; exact eq_comm
  | cons kv s ih =>
    obtain ⟨k, v⟩ := kv
    by_cases hk : k = key
    · subst hk
      simp only [List.find?_cons, decide_true, Option.map_some, Option.getD_some]
      constructor
      · rintro rfl
        exact Or.inl ⟨[], s, rfl, by simp⟩
      · rintro (⟨pre, post, h, hn⟩ | ⟨h, -⟩)
        · cases pre with
          | nil =>
            simp only [List.nil_append, List.cons.injEq, Prod.mk.injEq, true_and] at h
            exact h.1
          | cons p ps =>
            simp only [List.cons_append, List.cons.injEq] at h
            exact absurd (by rw [← h.1]) (hn p (by simp))
        · exact absurd rfl (h (k, v) (by simp))
    · rw [List.find?_cons]
      simp only [hk, decide_false]
      rw [ih]
      constructor
      · rintro (⟨pre, post, h, hn⟩ | ⟨h, hv⟩)
        · left
          refine ⟨(k, v) :: pre, post, by rw [h]; rfl, ?_⟩
          intro kv hkv
          rcases List.mem_cons.mp hkv with rfl | hkv
          · exact hk
          · exact hn kv hkv
        · right
          refine ⟨?_, hv⟩
          intro kv hkv
          rcases List.mem_cons.mp hkv with rfl | hkv
          · exact hk
          · exact h kv hkv
      · rintro (⟨pre, post, h, hn⟩ | ⟨h, hv⟩)
        · left
          cases pre with
          | nil =>
            simp only [List.nil_append, List.cons.injEq, Prod.mk.injEq] at h
            exact absurd h.1.1 hk
          | cons p ps =>
            exact ⟨ps, post, by simpa using (List.cons.inj h).2, fun kv hkv => hn kv (by simp [hkv])⟩
        · exact Or.inr ⟨fun kv hkv => h kv (by simp [hkv]), hv⟩

theorem documented_eq : documented = auxFiles.map (fun f => (f.key, f.name, f.url)) := by decide

theorem auxFiles_mem {key name url : String} (h : (key, name, url) ∈ documented) : (⟨key, name, url⟩ : AuxFile) ∈ auxFiles := by
  rw [documented_eq, List.mem_map] at h
  obtain ⟨f, hf, he⟩ := h
  cases he
  exact hf

theorem mapM_ok {α β : Type} (f : α → Except Err β) (l : List α) (r : List β) (h : l.mapM f = .ok r) :
    List.Forall₂ (fun a b => f a = .ok b) l r := by
  induction l generalizing r with
  | nil => simp [pure, Except.pure] at h; subst h; exact List.Forall₂.nil
  | cons a l ih =>
    rw [List.mapM_cons] at h
    cases ha : f a with
    | error e => simp [ha, bind, Except.bind] at h
    | ok b =>
      cases hl : l.mapM f with
      | error e => simp [ha, hl, bind, Except.bind] at h
      | ok bs =>
        simp [ha, hl, bind, Except.bind, pure, Except.pure] at h
        subst h
        exact List.Forall₂.cons ha (ih bs hl)

theorem mapM_error {α β : Type} (f : α → Except Err β) (l : List α) (e : Err) (h : l.mapM f = .error e) : ∃ a ∈ l, f a = .error e := by
  induction l with
  | nil => simp [pure, Except.pure] at h
  | cons a l ih =>
    rw [List.mapM_cons] at h
    cases ha : f a with
    | error e' =>
      simp [ha, bind, Except.bind] at h
      exact ⟨a, by simp, by rw [ha, h]⟩
    | ok b =>
      cases hl : l.mapM f with
      | error e' =>
        simp [ha, hl, bind, Except.bind] at h
        obtain ⟨x, hx, hxe⟩ := ih (by rw [hl, h])
        exact ⟨x, by simp [hx], hxe⟩
      | ok bs => simp [ha, hl, bind, Except.bind, pure, Except.pure] at h

theorem forall_mem {α β : Type} {P : α → β → Prop} {l : List α} {r : List β} (h : List.Forall₂ P l r) {a : α} (ha : a ∈ l) :
    ∃ b, P a b := by
  induction h with
  | nil => simp at ha
  | cons h _ ih =>
    rcases List.mem_cons.mp ha with rfl | ha
    · exact ⟨_, h⟩
    · exact ih ha

theorem lookup_nodup (urls : List (String × String)) (n u : String) (hn : (urls.map (·.1)).Nodup) (h : (n, u) ∈ urls) :
    lookupUrl urls n = some u := by
  unfold lookupUrl
  cases hf : urls.reverse.find? (·.1 = n) with
  | none =>
    rw [List.find?_eq_none] at hf
    have := hf (n, u) (by simpa using h)
    simp at this
  | some x =>
    have h1 := List.mem_of_find?_eq_some hf
    have h2 := List.find?_some hf
    simp only [decide_eq_true_eq] at h2
    have : x = (n, u) := List.inj_on_of_nodup_map hn (by simpa using h1) h h2
    rw [this]; rfl

/-! ## C59: where the auxiliary files come from -/

/-- C59: in an accepted configuration, if no two auxiliary files have the same name, each file is downloaded from the address in the
configuration file, or else from the documented one; and an address is given only together with a name other than the documented one. -/
theorem C59_address (s : Config.Sect) (a : Aux) (h : auxiliary s = .ok a) (hn : (a.urls.map (·.1)).Nodup) (key name url : String)
    (hd : (key, name, url) ∈ documented) (n u : String) (hname : setOr s key name n) (hurl : setOr s (key ++ "_url") url u) :
    lookupUrl a.urls n = some u ∧ (n = name → u = url) := by
  have hf := auxFiles_mem hd
  unfold auxiliary at h
  cases hm : auxFiles.mapM (checkAux s) with
  | error e => simp [hm, bind, Except.bind] at h
  | ok attr =>
    simp [hm, bind, Except.bind, pure, Except.pure] at h
    subst h
    have e1 : nameOf s ⟨key, name, url⟩ = n := (setOr_iff s key name n).mpr hname
    have e2 : urlOf s ⟨key, name, url⟩ = u := (setOr_iff s (key ++ "_url") url u).mpr hurl
    constructor
    · apply lookup_nodup _ _ _ hn
      rw [List.mem_map]
      exact ⟨_, hf, by rw [e1, e2]⟩
    · intro hnn
      have hall := mapM_ok _ _ _ hm
      obtain ⟨b, hb⟩ := forall_mem hall hf
      unfold checkAux at hb
      rw [e1, e2] at hb
      by_contra hne
      simp [hnn, hne] at hb

/-- C59: the configuration is rejected iff some auxiliary file has an address other than the documented one together with the documented name. -/
theorem C59_reject (s : Config.Sect) :
    (∃ e, auxiliary s = .error e) ↔
      ∃ key name url u, (key, name, url) ∈ documented ∧ setOr s key name name ∧ setOr s (key ++ "_url") url u ∧ u ≠ url := by
  constructor
  · rintro ⟨e, h⟩
    unfold auxiliary at h
    have hm : ∃ e', auxFiles.mapM (checkAux s) = .error e' := by
      cases hm : auxFiles.mapM (checkAux s) with
      | error e' => exact ⟨e', rfl⟩
      | ok r => simp [hm, bind, Except.bind, pure, Except.pure] at h
    obtain ⟨e', hm⟩ := hm
    obtain ⟨f, hf, hfe⟩ := mapM_error _ _ _ hm
    unfold checkAux at hfe
    split at hfe
    · rename_i hc
      refine ⟨f.key, f.name, f.url, urlOf s f, ?_, ?_, ?_, hc.2⟩
      · rw [documented_eq, List.mem_map]; exact ⟨f, hf, rfl⟩
      · exact (setOr_iff s f.key f.name f.name).mp hc.1.symm
      · exact (setOr_iff s (f.key ++ "_url") f.url _).mp rfl
    · split at hfe <;> cases hfe
  · rintro ⟨key, name, url, u, hd, hn, hu, hne⟩
    cases h : auxiliary s with
    | error e => exact ⟨e, rfl⟩
    | ok a =>
      exfalso
      have hf := auxFiles_mem hd
      unfold auxiliary at h
      cases hm : auxFiles.mapM (checkAux s) with
      | error e => simp [hm, bind, Except.bind] at h
      | ok attr =>
        obtain ⟨b, hb⟩ := forall_mem (mapM_ok _ _ _ hm) hf
        have e1 : nameOf s ⟨key, name, url⟩ = name := (setOr_iff s key name name).mpr hn
        have e2 : urlOf s ⟨key, name, url⟩ = u := (setOr_iff s (key ++ "_url") url u).mpr hu
        unfold checkAux at hb
        rw [e1, e2] at hb
        simp [hne] at hb

/-- A section that names its own leap seconds file, with its address. -/
def exAux : Config.Sect := [("leap_seconds", "mine.tls"), ("leap_seconds_url", "https://my.org/mine.tls")]

/-- Example: the hypotheses of `C59_address` hold, and both the changed and the unchanged files get their address. -/
example : ∃ a, auxiliary exAux = .ok a ∧ (a.urls.map (·.1)).Nodup ∧ lookupUrl a.urls "mine.tls" = some "https://my.org/mine.tls" ∧
    lookupUrl a.urls "ObsCodes.json.gz" = some "https://minorplanetcenter.net/Extended_Files/obscodes_extended.json.gz" := by
  refine ⟨_, rfl, ?_, ?_, ?_⟩ <;> decide +kernel

/-- C59 fails for a name given without address: the address of that file is cleared, but the dictionary used to download still has the documented
address, of another file. -/
theorem C59_name_only_fails : ∃ a, auxiliary [("leap_seconds", "mine.tls")] = .ok a ∧ ("leap_seconds", none) ∈ a.attr ∧
    lookupUrl a.urls "mine.tls" = some "https://naif.jpl.nasa.gov/pub/naif/generic_kernels/lsk/naif0012.tls" := by
  refine ⟨_, rfl, ?_, ?_⟩ <;> decide +kernel

/-- C59 fails if two files have the same name: both are downloaded from the address of the second. -/
theorem C59_same_name_fails : ∃ a, auxiliary [("earth_predict", "earth.bpc"), ("earth_predict_url", "https://my.org/predict.bpc"),
      ("earth_historical", "earth.bpc"), ("earth_historical_url", "https://my.org/historical.bpc")] = .ok a ∧
    lookupUrl a.urls "earth.bpc" = some "https://my.org/historical.bpc" := by
  refine ⟨_, rfl, ?_⟩; decide +kernel

end Sorcha.Inputs.Props
