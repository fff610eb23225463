import Verif.Compare.Model
import Verif.Compare.Spec

/-!
# C104: the comparison of results with a reference
-/

namespace Sorcha.Compare.Props

open Sorcha.Compare.Spec

/-- What a number of a data frame stands for. -/
def ofFl : Fl → Cell
  | .nan => .missing
  | .fin x => .number x
  | .pinf => .infinite true
  | .ninf => .infinite false

/-- The fields of a column. -/
def fields : Col → List Cell
  | .num xs => xs.map ofFl
  | .obj ss => ss.map fun s => match s with
    | some t => Cell.text t
    | none => .missing

/-- A data frame as `read_csv` makes it: the columns have different names and all as many entries as there are rows; without rows no column is
numeric. -/
structure WellFormed (f : Frame) : Prop where
  names : (f.cols.map Prod.fst).Nodup
  length : ∀ n c, (n, c) ∈ f.cols → (fields c).length = f.rows
  empty : f.rows = 0 → ∀ n c, (n, c) ∈ f.cols → ∃ ss, c = .obj ss

theorem isClose_iff (x y : Fl) : isClose x y = true ↔ Agree (ofFl x) (ofFl y) := by
  constructor
  · intro h
    cases x <;> cases y <;> simp only [isClose, decide_eq_true_eq, Bool.false_eq_true] at h
    · exact .infinite false
    · exact .number (by norm_num at h ⊢; exact h)
    · exact .infinite true
  · intro h
    cases x <;> cases y <;> cases h <;> simp only [isClose, decide_eq_true_eq]
    rename_i h
    norm_num at h ⊢
    exact h

theorem sameObj_iff (a b : Option String) : sameObj a b = true ↔
    Agree (match a with | some t => Cell.text t | none => .missing) (match b with | some t => Cell.text t | none => .missing) := by
  constructor
  · intro h
    cases a <;> cases b <;> simp only [sameObj, Bool.false_eq_true, decide_eq_true_eq] at h
    subst h
    exact .text _
  · intro h
    cases a <;> cases b <;> cases h
    simp [sameObj]

theorem zip_all {α β : Type} (p : α → α → Bool) (R : β → β → Prop) (g : α → β) (h : ∀ a b, p a b = true ↔ R (g a) (g b)) :
    ∀ xs ys : List α, xs.length = ys.length → ((xs.zip ys).all (fun q => p q.1 q.2) = true ↔ List.Forall₂ R (xs.map g) (ys.map g)) := by
  intro xs
  induction xs with
  | nil => intro ys hl; cases ys with
    | nil => simp
    | cons => simp at hl
  | cons x xs ih => intro ys hl; cases ys with
    | nil => simp at hl
    | cons y ys =>
      simp only [List.zip_cons_cons, List.all_cons, Bool.and_eq_true, List.map_cons, List.forall₂_cons, h]
      rw [ih ys (by simpa using hl)]

theorem colSame_iff (c d : Col) (hl : (fields c).length = (fields d).length) (h0 : (fields c).length = 0 → ∃ ss, c = .obj ss) :
    colSame c d = .ok true ↔ List.Forall₂ Agree (fields c) (fields d) := by
  cases c with
  | num xs =>
    cases d with
    | num ys =>
      simp only [fields, List.length_map] at hl
      simp only [colSame, Except.ok.injEq, fields]
      exact zip_all isClose Agree ofFl isClose_iff xs ys hl
    | obj ts =>
      simp only [colSame, reduceCtorEq, false_iff, fields]
      intro h
      cases xs with
      | nil => obtain ⟨ss, h⟩ := h0 rfl; cases h
      | cons x xs =>
        cases ts with
        | nil => cases h
        | cons t ts =>
          simp only [List.map_cons, List.forall₂_cons] at h
          have := h.1
          cases x <;> cases t <;> cases this
  | obj ss =>
    cases d with
    | num ys =>
      simp only [colSame, Except.ok.injEq, fields, List.isEmpty_iff]
      constructor
      · rintro rfl
        simp only [fields, List.map_nil, List.length_nil, List.length_map] at hl
        rw [List.length_eq_zero_iff.1 hl.symm]
        exact .nil
      · intro h
        cases ss with
        | nil => rfl
        | cons s ss =>
          cases ys with
          | nil => cases h
          | cons y ys =>
            simp only [List.map_cons, List.forall₂_cons] at h
            have := h.1
            cases y <;> cases s <;> cases this
    | obj ts =>
      simp only [fields, List.length_map] at hl
      simp only [colSame, Except.ok.injEq, fields]
      exact zip_all sameObj Agree _ sameObj_iff ss ts hl

theorem col_mem {f : Frame} {n : String} {c : Col} (h : f.col n = some c) : (n, c) ∈ f.cols := by
  unfold Frame.col at h
  cases hf : f.cols.find? (·.1 = n) with
  | none => rw [hf] at h; cases h
  | some p =>
    rw [hf] at h
    cases h
    have h1 := List.find?_some hf
    have h2 := List.mem_of_find?_eq_some hf
    simp only [decide_eq_true_eq] at h1
    subst h1
    exact h2

theorem col_of_mem : ∀ (cols : List (String × Col)), (cols.map Prod.fst).Nodup → ∀ n c, (n, c) ∈ cols →
    (cols.find? (·.1 = n)).map (·.2) = some c := by
  intro cols
  induction cols with
  | nil => intro _ n c h; cases h
  | cons a as ih =>
    intro hn n c h
    rw [List.map_cons, List.nodup_cons] at hn
    rcases List.mem_cons.1 h with e | h
    · subst e; simp
    · have : a.1 ≠ n := fun e => hn.1 (List.mem_map.2 ⟨_, h, e.symm⟩)
      rw [List.find?_cons_of_neg (by simpa using this)]
      exact ih hn.2 n c h

theorem loop_iff (golden : Frame) (hg : WellFormed golden) : ∀ cs : List (String × Col),
    (∀ n c, (n, c) ∈ cs → (fields c).length = golden.rows ∧ (golden.rows = 0 → ∃ ss, c = .obj ss)) →
    (loop golden cs = .ok true ↔ ∀ n c, (n, c) ∈ cs → ∃ d, (n, d) ∈ golden.cols ∧ List.Forall₂ Agree (fields c) (fields d)) := by
  intro cs
  induction cs with
  | nil => intro _; simp [loop]
  | cons a as ih =>
    intro hw
    obtain ⟨n, c⟩ := a
    have ih := ih fun n c h => hw n c (List.mem_cons_of_mem _ h)
    obtain ⟨hl, h0⟩ := hw n c (by simp)
    rw [loop]
    cases hc : golden.col n with
    | none =>
      simp only [reduceCtorEq, false_iff]
      intro h
      obtain ⟨d, hd, _⟩ := h n c (by simp)
      have := col_of_mem _ hg.names n d hd
      unfold Frame.col at hc
      rw [this] at hc
      cases hc
    | some d =>
      have hd := col_mem hc
      have hcs := colSame_iff c d (by rw [hl, hg.length n d hd]) (fun h => h0 (hl ▸ h))
      have huniq : ∀ d', (n, d') ∈ golden.cols → d' = d := by
        intro d' hd'
        have := col_of_mem _ hg.names n d' hd'
        unfold Frame.col at hc
        rw [this] at hc
        exact Option.some.inj hc
      dsimp only
      cases hs : colSame c d with
      | error e =>
        simp only [reduceCtorEq, false_iff]
        intro h
        obtain ⟨d', hd', hf⟩ := h n c (by simp)
        rw [huniq d' hd'] at hf
        rw [hcs.2 hf] at hs
        cases hs
      | ok b =>
        cases b with
        | false =>
          simp only [Except.ok.injEq, Bool.false_eq_true, false_iff]
          intro h
          obtain ⟨d', hd', hf⟩ := h n c (by simp)
          rw [huniq d' hd'] at hf
          rw [hcs.2 hf] at hs
          cases hs
        | true =>
          dsimp only
          rw [ih]
          constructor
          · intro h m e hm
            rcases List.mem_cons.1 hm with hm | hm
            · cases hm
              exact ⟨d, hd, hcs.1 hs⟩
            · exact h m e hm
          · intro h m e hm
            exact h m e (List.mem_cons_of_mem _ hm)

/-- C104 (exactly): the results count as the same as the reference iff there are as many rows and columns, and every column of the results is also in the
reference and agrees with it in every row. -/
theorem C104_iff (test golden : Frame) (ht : WellFormed test) (hg : WellFormed golden) :
    compare test golden = .ok true ↔ test.rows = golden.rows ∧ test.cols.length = golden.cols.length ∧
      ∀ n c, (n, c) ∈ test.cols → ∃ d, (n, d) ∈ golden.cols ∧ List.Forall₂ Agree (fields c) (fields d) := by
  unfold compare
  split
  · rename_i h
    simp only [Except.ok.injEq, Bool.false_eq_true, false_iff]
    rintro ⟨h1, h2, _⟩
    rcases h with h | h
    · exact h h1
    · exact h h2
  · rename_i h
    push Not at h
    rw [loop_iff golden hg test.cols fun n c hm => ⟨(ht.length n c hm).trans h.1, fun h0 => ht.empty (h.1.trans h0) n c hm⟩]
    exact ⟨fun k => ⟨h.1, h.2, k⟩, fun k => k.2.2⟩

/-- C104 (columns): the order of the columns in the two files makes no difference. -/
theorem C104_columns (test test' golden golden' : Frame) (ht : WellFormed test) (hg : WellFormed golden) (h1 : test.rows = test'.rows)
    (h2 : golden.rows = golden'.rows) (p1 : test.cols.Perm test'.cols) (p2 : golden.cols.Perm golden'.cols) :
    compare test golden = .ok true ↔ compare test' golden' = .ok true := by
  have w : ∀ f f' : Frame, WellFormed f → f.rows = f'.rows → f.cols.Perm f'.cols → WellFormed f' := by
    intro f f' hf hr p
    refine ⟨((p.map Prod.fst).nodup_iff).1 hf.names, ?_, ?_⟩
    · intro n c hm
      rw [← hr]
      exact hf.length n c (p.mem_iff.2 hm)
    · intro h0 n c hm
      exact hf.empty (hr.trans h0) n c (p.mem_iff.2 hm)
  rw [C104_iff test golden ht hg, C104_iff test' golden' (w _ _ ht h1 p1) (w _ _ hg h2 p2), h1, h2, p1.length_eq, p2.length_eq]
  refine and_congr_right fun _ => and_congr_right fun _ => ?_
  constructor
  · intro h n c hm
    obtain ⟨d, hd, hf⟩ := h n c (p1.mem_iff.2 hm)
    exact ⟨d, p2.mem_iff.1 hd, hf⟩
  · intro h n c hm
    obtain ⟨d, hd, hf⟩ := h n c (p1.mem_iff.1 hm)
    exact ⟨d, p2.mem_iff.2 hd, hf⟩

theorem agree_self (x : Cell) : Agree x x ↔ x ≠ .missing := by
  cases x with
  | missing => simp; intro h; cases h
  | number q => simp; refine .number ?_; simp; positivity
  | infinite b => simp; exact .infinite b
  | text s => simp; exact .text s

theorem forall₂_self (xs : List Cell) : List.Forall₂ Agree xs xs ↔ ∀ x ∈ xs, x ≠ .missing := by
  induction xs with
  | nil => simp
  | cons x xs ih => simp [ih, agree_self]

/-- C104 (itself): a results file is found to be the same as itself iff no field of it is missing. -/
theorem C104_self (f : Frame) (hf : WellFormed f) : compare f f = .ok true ↔ ∀ n c, (n, c) ∈ f.cols → ∀ x ∈ fields c, x ≠ .missing := by
  rw [C104_iff f f hf hf]
  constructor
  · rintro ⟨_, _, h⟩ n c hm
    obtain ⟨d, hd, hfa⟩ := h n c hm
    have e1 := col_of_mem _ hf.names n c hm
    have e2 := col_of_mem _ hf.names n d hd
    rw [e1] at e2
    cases e2
    exact (forall₂_self _).1 hfa
  · intro h
    exact ⟨rfl, rfl, fun n c hm => ⟨c, hm, (forall₂_self _).2 (h n c hm)⟩⟩

/-- **C104 fails** for a missing field: a file with one differs from itself. -/
theorem C104_missing_fails : ∃ f : Frame, WellFormed f ∧ compare f f = .ok false :=
  ⟨⟨1, [("ObjID", .obj [some "a"]), ("H", .num [.nan])]⟩,
    ⟨by decide, by intro n c h; simp at h; rcases h with ⟨-, rfl⟩ | ⟨-, rfl⟩ <;> rfl, by intro h; cases h⟩, by decide +kernel⟩

/-- **C104 fails** to be the same in both directions: the tolerance is that of the reference. -/
theorem C104_swap_fails : ∃ f g : Frame, WellFormed f ∧ WellFormed g ∧ compare f g = .ok true ∧ compare g f = .ok false :=
  ⟨⟨1, [("x", .num [.fin 1])]⟩, ⟨1, [("x", .num [.fin (1 + 1001005 / 100000000000)])]⟩,
    ⟨by decide, by intro n c h; simp at h; obtain ⟨-, rfl⟩ := h; rfl, by intro h; cases h⟩,
    ⟨by decide, by intro n c h; simp at h; obtain ⟨-, rfl⟩ := h; rfl, by intro h; cases h⟩, by decide +kernel, by decide +kernel⟩

/-- **C104 fails** to see what matters for times and positions: since the tolerance is relative, an observation moved by half a day and by 10
arcseconds (0.0028°) in right ascension counts as the same. -/
theorem C104_tolerance_fails : ∃ f g : Frame, WellFormed f ∧ WellFormed g ∧ compare f g = .ok true ∧
    f.col "fieldMJD_TAI" = some (.num [.fin 60000.5]) ∧ g.col "fieldMJD_TAI" = some (.num [.fin 60000]) ∧
    f.col "RA_deg" = some (.num [.fin 300.0028]) ∧ g.col "RA_deg" = some (.num [.fin 300]) :=
  ⟨⟨1, [("fieldMJD_TAI", .num [.fin 60000.5]), ("RA_deg", .num [.fin 300.0028])]⟩,
    ⟨1, [("fieldMJD_TAI", .num [.fin 60000]), ("RA_deg", .num [.fin 300])]⟩,
    ⟨by decide, by intro n c h; simp at h; rcases h with ⟨-, rfl⟩ | ⟨-, rfl⟩ <;> rfl, by intro h; cases h⟩,
    ⟨by decide, by intro n c h; simp at h; rcases h with ⟨-, rfl⟩ | ⟨-, rfl⟩ <;> rfl, by intro h; cases h⟩,
    by decide +kernel, by decide +kernel, by decide +kernel, by decide +kernel, by decide +kernel⟩

/-- **C104 fails** for as many columns with another name: there is no answer, but an exception (if the columns before it agree). -/
theorem C104_name_fails (test golden : Frame) (n : String) (c : Col) (cs : List (String × Col)) (ht : test.cols = (n, c) :: cs)
    (hr : test.rows = golden.rows) (hl : test.cols.length = golden.cols.length) (hn : n ∉ golden.cols.map Prod.fst) :
    compare test golden = .error .keyError := by
  unfold compare
  rw [if_neg (by simp [hr, hl]), ht, loop]
  cases hc : golden.col n with
  | none => rfl
  | some d => exact absurd (List.mem_map.2 ⟨_, col_mem hc, rfl⟩) hn

/-- Two files that agree: two objects, a number that differs a little, columns in another order. -/
example : WellFormed ⟨2, [("ObjID", .obj [some "a", some "b"]), ("H", .num [.fin 15, .fin 20.00001])]⟩ ∧
    WellFormed ⟨2, [("H", .num [.fin 15, .fin 20]), ("ObjID", .obj [some "a", some "b"])]⟩ ∧
    compare ⟨2, [("ObjID", .obj [some "a", some "b"]), ("H", .num [.fin 15, .fin 20.00001])]⟩
      ⟨2, [("H", .num [.fin 15, .fin 20]), ("ObjID", .obj [some "a", some "b"])]⟩ = .ok true := by
  refine ⟨⟨by decide, ?_, by intro h; cases h⟩, ⟨by decide, ?_, by intro h; cases h⟩, by decide +kernel⟩ <;>
  · intro n c h
    simp at h
    rcases h with ⟨-, rfl⟩ | ⟨-, rfl⟩ <;> rfl

end Sorcha.Compare.Props
