import Verif.Config.Spec
import Mathlib.Data.List.Forall2
import Mathlib.Tactic.Push

/-!
# Lemmas about the configuration helpers
-/

namespace Sorcha.Config

open Spec

/-! ## `Except` chains -/

theorem bind_ok {α β : Type} (x : Except Err α) (f : α → Except Err β) (b : β) : (x >>= f) = .ok b ↔ ∃ a, x = .ok a ∧ f a = .ok b := by
  cases x <;> simp [bind, Except.bind]

theorem map_ok {α β : Type} (x : Except Err α) (f : α → β) (b : β) : x.map f = .ok b ↔ ∃ a, x = .ok a ∧ f a = b := by
  cases x <;> simp [Except.map]

theorem pure_ok {α : Type} (a b : α) : (pure a : Except Err α) = .ok b ↔ a = b := by simp [pure, Except.pure]

theorem seq_ok {β : Type} (x : Except Err Unit) (f : Unit → Except Err β) (b : β) : (x >>= f) = .ok b ↔ x = .ok () ∧ f () = .ok b := by
  cases x <;> simp [bind, Except.bind]

theorem need_ok (v : Option String) (k x : String) : need v k = .ok x ↔ v = some x := by
  cases v <;> simp [need]

theorem forbid_ok (v : Option String) (k : String) (u : Unit) : forbid v k = .ok u ↔ v = none := by
  cases v <;> simp [forbid]

theorem oneOf_ok (v : String) (l : List String) (k : String) (u : Unit) : oneOf v l k = .ok u ↔ v ∈ l := by
  unfold oneOf
  by_cases h : v ∈ l <;> simp [h]

theorem stopIf_ok (c : Bool) (e : Err) (u : Unit) : stopIf c e = .ok u ↔ c = false := by
  cases c <;> simp [stopIf]

theorem castInt_ok (py : Py) (v k : String) (i : Int) : castInt py v k = .ok i ↔ py.toInt v = some i := by
  unfold castInt
  cases py.toInt v <;> simp

theorem castFloat_ok (py : Py) (v k : String) (x : Fl) : castFloat py v k = .ok x ↔ py.toFloat v = some x := by
  unfold castFloat
  cases py.toFloat v <;> simp

/-! ## Keys -/

theorem get_some {s : Sect} (h : (s.map Prod.fst).Nodup) (k v : String) : get s k = some v ↔ (k, v) ∈ s := by
  induction s with
  | nil => simp [get]
  | cons a s ih =>
    obtain ⟨k', v'⟩ := a
    have hn : k' ∉ s.map Prod.fst := (List.nodup_cons.1 h).1
    have hs : (s.map Prod.fst).Nodup := (List.nodup_cons.1 h).2
    unfold get at ih ⊢
    by_cases hk : k' = k
    · subst hk
      have hno : ∀ v, (k', v) ∉ s := fun v hv => hn (List.mem_map.2 ⟨_, hv, rfl⟩)
      simp only [List.find?_cons, decide_true, Option.map_some, Option.some.injEq, List.mem_cons, Prod.mk.injEq, true_and, hno, or_false]
      exact eq_comm
    · simp only [List.find?_cons, hk, decide_false, List.mem_cons, Prod.mk.injEq]
      rw [ih hs]
      simp [Ne.symm hk]

theorem get_none {s : Sect} (h : (s.map Prod.fst).Nodup) (k : String) : get s k = none ↔ Absent s k := by
  constructor
  · intro hn v hv
    rw [(get_some h k v).2 hv] at hn
    exact absurd hn (by simp)
  · intro ha
    cases hg : get s k with
    | none => rfl
    | some v => exact absurd ((get_some h k v).1 hg) (ha v)

theorem castFloat?_ok {s : Sect} (h : (s.map Prod.fst).Nodup) (py : Py) (k k' : String) (x : Option Fl) :
    castFloat? py (get s k) k' = .ok x ↔ NumOpt py s k x := by
  cases hg : get s k with
  | none =>
    have ha := (get_none h k).1 hg
    cases x with
    | none => simp [castFloat?, NumOpt, ha]
    | some x =>
      simp only [castFloat?, NumOpt, Num, Except.ok.injEq, reduceCtorEq, false_iff]
      rintro ⟨v, hv, -⟩
      exact ha v hv
  | some v =>
    have hv := (get_some h k v).1 hg
    simp only [castFloat?, map_ok, castFloat_ok]
    cases x with
    | none =>
      simp only [NumOpt, reduceCtorEq, and_false, exists_false, false_iff]
      exact fun ha => ha v hv
    | some x =>
      simp only [NumOpt, Num, Option.some.injEq, exists_eq_right]
      constructor
      · exact fun hx => ⟨v, hv, hx⟩
      · rintro ⟨w, hw, hx⟩
        rw [(get_some h k w).2 hw] at hg
        cases hg
        exact hx

theorem castInt?_ok {s : Sect} (h : (s.map Prod.fst).Nodup) (py : Py) (k k' : String) (x : Option Int) :
    castInt? py (get s k) k' = .ok x ↔ WholeOpt py s k x := by
  cases hg : get s k with
  | none =>
    have ha := (get_none h k).1 hg
    cases x with
    | none => simp [castInt?, WholeOpt, ha]
    | some x =>
      simp only [castInt?, WholeOpt, Whole, Except.ok.injEq, reduceCtorEq, false_iff]
      rintro ⟨v, hv, -⟩
      exact ha v hv
  | some v =>
    have hv := (get_some h k v).1 hg
    simp only [castInt?, map_ok, castInt_ok]
    cases x with
    | none =>
      simp only [WholeOpt, reduceCtorEq, and_false, exists_false, false_iff]
      exact fun ha => ha v hv
    | some x =>
      simp only [WholeOpt, Whole, Option.some.injEq, exists_eq_right]
      constructor
      · exact fun hx => ⟨v, hv, hx⟩
      · rintro ⟨w, hw, hx⟩
        rw [(get_some h k w).2 hw] at hg
        cases hg
        exact hx

/-! ## Stripping and splitting -/

theorem isSpace_iff (c : Char) : isSpace c = true ↔ Space c := by
  unfold isSpace Space
  simp only [Bool.or_eq_true, Bool.and_eq_true, decide_eq_true_eq, List.mem_cons, List.not_mem_nil, or_false]
  omega

theorem dropWhile_append_left (p : Char → Bool) (a b : List Char) (ha : ∀ c ∈ a, p c = true) : (a ++ b).dropWhile p = b.dropWhile p := by
  induction a with
  | nil => rfl
  | cons x a ih =>
    simp only [List.cons_append, List.dropWhile_cons, ha x (by simp), if_true]
    exact ih fun c hc => ha c (by simp [hc])

theorem dropWhile_of_head (p : Char → Bool) (b : List Char) (hb : ∀ c, b.head? = some c → p c = false) : b.dropWhile p = b := by
  cases b with
  | nil => rfl
  | cons x b => simp [List.dropWhile_cons, hb x rfl]

theorem stripChars_mid (p : Char → Bool) (pre core post : List Char) (hpre : ∀ c ∈ pre, p c = true) (hpost : ∀ c ∈ post, p c = true)
    (hh : ∀ c, core.head? = some c → p c = false) (hl : ∀ c, core.getLast? = some c → p c = false) :
    stripChars p (pre ++ core ++ post) = core := by
  unfold stripChars
  rw [List.append_assoc, dropWhile_append_left p _ _ hpre]
  cases core with
  | nil =>
    have : List.dropWhile p ([] ++ post) = [] := List.dropWhile_eq_nil_iff.2 (by simpa using hpost)
    rw [this]; rfl
  | cons x core =>
    have h1 : List.dropWhile p (x :: core ++ post) = x :: core ++ post := by
      simp [List.dropWhile_cons, hh x rfl]
    rw [h1, List.reverse_append, dropWhile_append_left p _ _ (by simpa using hpost), dropWhile_of_head, List.reverse_reverse]
    intro c hc
    exact hl c (by rw [← hc, List.head?_reverse])

theorem head_dropWhile (p : Char → Bool) (l : List Char) (c : Char) (h : (l.dropWhile p).head? = some c) : p c = false := by
  have := List.head?_dropWhile_not p l
  rw [h] at this
  exact this

theorem stripChars_spec (p : Char → Bool) (l : List Char) : ∃ pre post, l = pre ++ stripChars p l ++ post ∧ (∀ c ∈ pre, p c = true) ∧
    (∀ c ∈ post, p c = true) ∧ (∀ c, (stripChars p l).head? = some c → p c = false) ∧
    (∀ c, (stripChars p l).getLast? = some c → p c = false) := by
  set r := (l.dropWhile p).reverse with hr
  have h1 : l = l.takeWhile p ++ l.dropWhile p := List.takeWhile_append_dropWhile.symm
  have h2 : r = r.takeWhile p ++ r.dropWhile p := List.takeWhile_append_dropWhile.symm
  have h3 : l.dropWhile p = stripChars p l ++ (r.takeWhile p).reverse := by
    have := congrArg List.reverse h2
    rw [hr, List.reverse_reverse, List.reverse_append] at this
    exact this
  refine ⟨l.takeWhile p, (r.takeWhile p).reverse, ?_, ?_, ?_, ?_, ?_⟩
  · rw [List.append_assoc, ← h3]; exact h1
  · exact fun c hc => List.mem_takeWhile_imp hc
  · exact fun c hc => List.mem_takeWhile_imp (List.mem_reverse.1 hc)
  · intro c hc
    refine head_dropWhile p l c ?_
    rw [h3]
    cases hs : stripChars p l with
    | nil => rw [hs] at hc; simp at hc
    | cons x y => rw [hs] at hc; simpa using hc
  · intro c hc
    unfold stripChars at hc
    rw [List.getLast?_reverse] at hc
    exact head_dropWhile p _ c hc

theorem strip_general (p : Char → Bool) (P : Char → Prop) (hp : ∀ c, p c = true ↔ P c) (s t : String) :
    String.ofList (stripChars p s.toList) = t ↔ Stripped P s t := by
  have hf : ∀ c, p c = false ↔ ¬P c := fun c => by rw [← hp c]; simp
  constructor
  · rintro rfl
    obtain ⟨pre, post, h1, h2, h3, h4, h5⟩ := stripChars_spec p s.toList
    refine ⟨pre, post, ?_, fun c hc => (hp c).1 (h2 c hc), fun c hc => (hp c).1 (h3 c hc), ?_, ?_⟩
    · rw [String.toList_ofList]; exact h1
    · intro c hc
      rw [String.toList_ofList] at hc
      exact (hf c).1 (h4 c hc)
    · intro c hc
      rw [String.toList_ofList] at hc
      exact (hf c).1 (h5 c hc)
  · rintro ⟨pre, post, h1, h2, h3, h4, h5⟩
    rw [h1, stripChars_mid p pre t.toList post (fun c hc => (hp c).2 (h2 c hc)) (fun c hc => (hp c).2 (h3 c hc))
      (fun c hc => (hf c).2 (h4 c hc)) (fun c hc => (hf c).2 (h5 c hc)), String.ofList_toList]

theorem strip_iff (s t : String) : strip s = t ↔ Stripped Space s t := strip_general isSpace Space isSpace_iff s t

theorem stripBlank_iff (s t : String) : stripBlank s = t ↔ Stripped (· = ' ') s t :=
  strip_general _ _ (fun c => by simp) s t

theorem not_mem_splitOn (x : Char) (l : List Char) : ∀ p ∈ l.splitOn x, x ∉ p := by
  induction l with
  | nil => simp [List.splitOn_nil]
  | cons a l ih =>
    intro p hp
    rw [List.splitOn_cons_eq_if_modifyHead] at hp
    by_cases ha : a = x
    · simp only [ha, beq_self_eq_true, if_true, List.mem_cons] at hp
      rcases hp with rfl | hp
      · simp
      · exact ih p hp
    · have : (a == x) = false := by simpa using ha
      simp only [this] at hp
      cases hs : l.splitOn x with
      | nil => exact absurd hs (List.splitOn_ne_nil x l)
      | cons y ys =>
        rw [hs] at hp ih
        simp only [Bool.false_eq_true, if_false, List.modifyHead_cons, List.mem_cons] at hp
        rcases hp with rfl | hp
        · have := ih y (by simp)
          simp [this, Ne.symm ha]
        · exact ih p (by simp [hp])

theorem splitComma_iff (s : String) (l : List String) : splitComma s = l ↔ Pieces s l := by
  unfold splitComma Pieces
  constructor
  · rintro rfl
    refine ⟨by simp [List.splitOn_ne_nil], ?_, ?_⟩
    · intro p hp
      obtain ⟨q, hq, rfl⟩ := List.mem_map.1 hp
      rw [String.toList_ofList]
      exact not_mem_splitOn ',' _ q hq
    · rw [List.map_map]
      have : (String.toList ∘ String.ofList) = id := by funext x; simp
      rw [this, List.map_id, List.intercalate_splitOn]
  · rintro ⟨h1, h2, h3⟩
    rw [h3, List.splitOn_intercalate ',' (by simpa using h2) (by simpa using h1), List.map_map]
    have : (String.ofList ∘ String.toList) = id := by funext x; simp
    rw [this, List.map_id]

theorem items_iff (s : String) (l : List String) : (splitComma s).map strip = l ↔ Items s l := by
  constructor
  · rintro rfl
    refine ⟨splitComma s, (splitComma_iff s _).1 rfl, ?_⟩
    rw [List.forall₂_map_right_iff]
    exact List.forall₂_same.2 fun x _ => (strip_iff x _).1 rfl
  · rintro ⟨ps, hp, hf⟩
    rw [(splitComma_iff s ps).2 hp]
    have := hf.imp fun a b h => (strip_iff a b).2 h
    clear hp hf
    induction this with
    | nil => rfl
    | cons h _ ih => simp [h, ih]

theorem allFloats_iff (py : Py) (es : List String) (xs : List Fl) :
    allFloats py es = some xs ↔ List.Forall₂ (fun e x => py.toFloat e = some x) es xs := by
  induction es generalizing xs with
  | nil => cases xs <;> simp [allFloats]
  | cons e es ih =>
    unfold allFloats
    cases he : py.toFloat e with
    | none =>
      cases xs <;> simp [he]
    | some x =>
      cases ha : allFloats py es with
      | none =>
        cases xs with
        | nil => simp
        | cons y ys =>
          simp only [List.forall₂_cons, reduceCtorEq, false_iff, not_and]
          intro _ hf
          rw [(ih ys).2 hf] at ha
          exact absurd ha (by simp)
      | some zs =>
        cases xs with
        | nil => simp
        | cons y ys =>
          simp only [Option.some.injEq, List.cons.injEq, List.forall₂_cons, he, ← ih ys, ha]

theorem allFloats_none (py : Py) (es : List String) : allFloats py es = none ↔ ¬∃ xs, List.Forall₂ (fun e x => py.toFloat e = some x) es xs := by
  constructor
  · rintro h ⟨xs, hx⟩
    rw [(allFloats_iff py es xs).2 hx] at h
    exact absurd h (by simp)
  · intro h
    cases ha : allFloats py es with
    | none => rfl
    | some xs => exact absurd ⟨xs, (allFloats_iff py es xs).1 ha⟩ h

/-! ## Truth values -/

theorem trueWord_iff (t : String) : TrueWord t ↔ ["true", "1", "yes", "y", "True"].contains t = true := by
  simp only [List.contains_eq_mem, List.mem_cons, List.not_mem_nil, or_false, decide_eq_true_eq]
  constructor
  · intro h; cases h <;> simp
  · rintro (rfl | rfl | rfl | rfl | rfl) <;> constructor

theorem falseWord_iff (t : String) : FalseWord t ↔ ["false", "0", "no", "n", "False"].contains t = true := by
  simp only [List.contains_eq_mem, List.mem_cons, List.not_mem_nil, or_false, decide_eq_true_eq]
  constructor
  · intro h; cases h <;> simp
  · rintro (rfl | rfl | rfl | rfl | rfl) <;> constructor

theorem castBool_ok (v k : String) (b : Bool) : castBool v k = .ok b ↔ Reads v b := by
  have ht : (∃ t, Stripped Space v t ∧ TrueWord t) ↔ ["true", "1", "yes", "y", "True"].contains (strip v) = true := by
    constructor
    · rintro ⟨t, h, w⟩
      rw [(strip_iff v t).2 h]; exact (trueWord_iff t).1 w
    · exact fun h => ⟨_, (strip_iff v _).1 rfl, (trueWord_iff _).2 h⟩
  have hf : (∃ t, Stripped Space v t ∧ FalseWord t) ↔ ["false", "0", "no", "n", "False"].contains (strip v) = true := by
    constructor
    · rintro ⟨t, h, w⟩
      rw [(strip_iff v t).2 h]; exact (falseWord_iff t).1 w
    · exact fun h => ⟨_, (strip_iff v _).1 rfl, (falseWord_iff _).2 h⟩
  unfold castBool
  by_cases h1 : ["true", "1", "yes", "y", "True"].contains (strip v) = true
  · rw [if_pos h1]
    cases b with
    | true => simp only [Reads, true_iff, ht, h1]
    | false =>
      simp only [Reads, Except.ok.injEq, Bool.true_eq_false, false_iff, hf]
      simp only [List.contains_eq_mem, List.mem_cons, List.not_mem_nil, or_false, decide_eq_true_eq] at h1 ⊢
      rcases h1 with h | h | h | h | h <;> rw [h] <;> decide
  · rw [if_neg h1]
    by_cases h2 : ["false", "0", "no", "n", "False"].contains (strip v) = true
    · rw [if_pos h2]
      cases b with
      | true => simp only [Reads, ht, h1]; simp
      | false => simp only [Reads, hf, h2]
    · rw [if_neg h2]
      cases b with
      | true => simp only [Reads, ht, h1]; simp
      | false => simp only [Reads, hf, h2]; simp

theorem castBoolOr_ok {s : Sect} (h : (s.map Prod.fst).Nodup) (k k' : String) (d b : Bool) :
    castBoolOr (get s k) k' d = .ok b ↔ Switch s k d b := by
  unfold Switch
  cases hg : get s k with
  | none =>
    have ha := (get_none h k).1 hg
    have : ¬∃ v, (k, v) ∈ s ∧ Reads v b := by rintro ⟨v, hv, -⟩; exact ha v hv
    simp only [castBoolOr, Except.ok.injEq, ha, true_and, this, or_false]
    exact eq_comm
  | some v =>
    have hv := (get_some h k v).1 hg
    have ha : ¬Absent s k := fun ha => ha v hv
    simp only [castBoolOr, castBool_ok, ha, false_and, false_or]
    constructor
    · exact fun hr => ⟨v, hv, hr⟩
    · rintro ⟨w, hw, hr⟩
      rw [(get_some h k w).2 hw] at hg
      cases hg
      exact hr

/-! ## Bounds -/

theorem lt_zero_false (x : Fl) : x.lt (.fin 0) = false ↔ NonNegOrNan x := by
  unfold NonNegOrNan
  cases x <;> simp [Fl.lt]

theorem any_lt_zero (x : Option Fl) : (x.any fun x => x.lt (.fin 0)) = false ↔ ∀ y, x = some y → NonNegOrNan y := by
  cases x <;> simp [lt_zero_false]

theorem range_false (a b : ℚ) (x : Fl) : (x.lt (.fin a) || Fl.lt (.fin b) x) = false ↔ NumberOrNan (fun q => a ≤ q ∧ q ≤ b) x := by
  unfold NumberOrNan
  cases x <;> simp [Fl.lt]

theorem range_false' (a b : ℚ) (x : Fl) : (Fl.lt (.fin b) x || x.lt (.fin a)) = false ↔ NumberOrNan (fun q => a ≤ q ∧ q ≤ b) x := by
  rw [Bool.or_comm, range_false]

theorem range_false_le (a b : ℚ) (x : Fl) : (x.le (.fin a) || Fl.lt (.fin b) x) = false ↔ NumberOrNan (fun q => a < q ∧ q ≤ b) x := by
  unfold NumberOrNan
  cases x with
  | nan => simp
  | ninf => simp [Fl.le, Fl.lt]
  | pinf => simp [Fl.lt]
  | fin q => simp

end Sorcha.Config
