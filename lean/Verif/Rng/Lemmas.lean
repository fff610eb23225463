import Verif.Rng.Spec
import Verif.Base.Keep
import Mathlib.Data.List.Range

namespace Sorcha.Rng
open Spec

variable {G : Type} {ρ : Type}

theorem random_length (N : Gen G) (n : ℕ) (g : G) : (N.random n g).1.length = n := by
  induction n generalizing g with
  | zero => rfl
  | succ n ih => simp [Gen.random, ih]

theorem after_succ' (N : Gen G) (g : G) (k : ℕ) : after N (N.next g).2 k = after N g (k + 1) := by
  induction k with
  | zero => rfl
  | succ k ih => simp only [after] at ih ⊢; rw [ih]

theorem after_add (N : Gen G) (g : G) (j k : ℕ) : after N (after N g j) k = after N g (j + k) := by
  induction k with
  | zero => rfl
  | succ k ih => simp only [after, ih]; rfl

theorem random_eq (N : Gen G) (n : ℕ) (g : G) :
    N.random n g = ((List.range n).map (fun i => (N.next (after N g i)).1), after N g n) := by
  induction n generalizing g with
  | zero => rfl
  | succ n ih =>
    simp only [Gen.random, ih, List.range_succ_eq_map, List.map_cons, List.map_map, after_succ']
    rfl

/-- The generator a module holds, or would be given. -/
def held (N : Gen G) (md5 : String → ℕ) (s : Rngs G) (m : String) : G :=
  (s.rngs.lookup m).getD (N.seed (moduleSeed md5 s.base m))

theorem getModuleRNG_fst (N : Gen G) (md5 : String → ℕ) (s : Rngs G) (m : String) :
    (getModuleRNG N md5 s m).1 = held N md5 s m := by
  unfold getModuleRNG held
  cases s.rngs.lookup m <;> rfl

theorem getModuleRNG_base (N : Gen G) (md5 : String → ℕ) (s : Rngs G) (m : String) :
    (getModuleRNG N md5 s m).2.base = s.base := by
  unfold getModuleRNG
  cases s.rngs.lookup m <;> rfl

theorem held_getModuleRNG (N : Gen G) (md5 : String → ℕ) (s : Rngs G) (m m' : String) :
    held N md5 (getModuleRNG N md5 s m').2 m = held N md5 s m := by
  unfold getModuleRNG
  cases h : s.rngs.lookup m' with
  | some g => rfl
  | none =>
    simp only [held, List.lookup_cons]
    by_cases hm : m = m'
    · subst hm; simp [h]
    · have : (m == m') = false := by simpa using hm
      simp [this]

theorem lookup_setRNG (s : Rngs G) (m m' : String) (g : G) :
    (setRNG s m' g).rngs.lookup m = if m = m' then (s.rngs.lookup m).map (fun _ => g) else s.rngs.lookup m := by
  obtain ⟨b, l⟩ := s
  simp only [setRNG]
  induction l with
  | nil => simp
  | cons e l ih =>
    obtain ⟨k, g₀⟩ := e
    simp only [List.map_cons]
    by_cases hm : m = m'
    · subst hm
      simp only [if_true] at ih ⊢
      by_cases hk : k = m
      · subst hk; simp
      · have : (m == k) = false := by simpa using fun h => hk h.symm
        simp [hk, List.lookup_cons, this, ih]
    · simp only [hm, if_false] at ih ⊢
      by_cases hk : k = m'
      · subst hk
        have : (m == k) = false := by simpa using hm
        simp [List.lookup_cons, this, ih]
      · simp only [hk, if_false, List.lookup_cons, ih]

theorem lookup_getModuleRNG_isSome (N : Gen G) (md5 : String → ℕ) (s : Rngs G) (m : String) :
    ((getModuleRNG N md5 s m).2.rngs.lookup m).isSome = true := by
  unfold getModuleRNG
  cases h : s.rngs.lookup m with
  | some g => simp [h]
  | none => simp

theorem drawFrom_base (N : Gen G) (md5 : String → ℕ) (s : Rngs G) (m : String) (n : ℕ) :
    (drawFrom N md5 s m n).2.base = s.base := by
  simp only [drawFrom, setRNG, getModuleRNG_base]

theorem drawFrom_fst (N : Gen G) (md5 : String → ℕ) (s : Rngs G) (m : String) (n : ℕ) :
    (drawFrom N md5 s m n).1 = (List.range n).map (fun i => (N.next (after N (held N md5 s m) i)).1) := by
  simp only [drawFrom, random_eq, getModuleRNG_fst]

theorem held_drawFrom_same (N : Gen G) (md5 : String → ℕ) (s : Rngs G) (m : String) (n : ℕ) :
    held N md5 (drawFrom N md5 s m n).2 m = after N (held N md5 s m) n := by
  have hs := lookup_getModuleRNG_isSome N md5 s m
  simp only [drawFrom, random_eq, getModuleRNG_fst]
  unfold held
  rw [lookup_setRNG, if_pos rfl]
  obtain ⟨g, hg⟩ := Option.isSome_iff_exists.1 hs
  rw [hg]; rfl

theorem held_drawFrom_other (N : Gen G) (md5 : String → ℕ) (s : Rngs G) (m m' : String) (n : ℕ) (h : m' ≠ m) :
    held N md5 (drawFrom N md5 s m' n).2 m = held N md5 s m := by
  rw [← held_getModuleRNG N md5 s m m']
  simp only [drawFrom, random_eq]
  unfold held
  rw [lookup_setRNG, if_neg (fun e => h e.symm)]
  rfl

theorem held_step_foreign (N : Gen G) (md5 : String → ℕ) (s : Rngs G) (m : String) (op : Op) (h : Foreign m op) :
    held N md5 (step N md5 s op).2 m = held N md5 s m := by
  cases op with
  | request m' => exact held_getModuleRNG ..
  | draw m' n => exact held_drawFrom_other N md5 s m m' n h

theorem step_base (N : Gen G) (md5 : String → ℕ) (s : Rngs G) (op : Op) : (step N md5 s op).2.base = s.base := by
  cases op with
  | request m' => exact getModuleRNG_base ..
  | draw m' n => exact drawFrom_base ..

theorem run_base (N : Gen G) (md5 : String → ℕ) (s : Rngs G) (ops : List Op) : (run N md5 s ops).base = s.base := by
  induction ops generalizing s with
  | nil => rfl
  | cons op ops ih => simp [run, ih, step_base]

theorem held_run (N : Gen G) (md5 : String → ℕ) (s : Rngs G) (ops : List Op) (m : String) :
    held N md5 (run N md5 s ops) m = after N (held N md5 s m) (drawn m ops) := by
  induction ops generalizing s with
  | nil => rfl
  | cons op ops ih =>
    simp only [run, ih]
    cases op with
    | request m' => simp only [step, held_getModuleRNG, drawn]
    | draw m' n =>
      by_cases h : m' = m
      · subst h
        simp only [step, held_drawFrom_same, drawn, if_pos, after_add]
      · simp only [step, held_drawFrom_other _ _ _ _ _ _ h, drawn, if_neg h, Nat.zero_add]

theorem held_init (N : Gen G) (md5 : String → ℕ) (base : ℤ) (m : String) :
    held N md5 (init base) m = N.seed (moduleSeed md5 base m) := rfl

theorem keepBy_append (test : ρ → ℚ → Bool) (t₁ t₂ : Table ρ) (u₁ u₂ : List ℚ) (h : t₁.length = u₁.length) :
    keepBy test (t₁ ++ t₂) (u₁ ++ u₂) = keepBy test t₁ u₁ ++ keepBy test t₂ u₂ := by
  simp only [keepBy, List.zip_append h, List.filter_append, List.map_append]

theorem rows_append (t₁ t₂ : Table ρ) : Table.rows (t₁ ++ t₂) = t₁.rows ++ t₂.rows := by
  simp [Table.rows]

theorem rows_keepBy (test : ρ → ℚ → Bool) (t : Table ρ) (us : List ℚ) :
    (keepBy test t us).rows = ((t.rows.zip us).filter fun x => test x.1 x.2).map (·.1) := by
  induction t generalizing us with
  | nil => rfl
  | cons a t ih =>
    cases us with
    | nil => rfl
    | cons u us =>
      have := ih us
      simp only [keepBy, Table.rows, List.zip_cons_cons, List.map_cons, List.filter_cons] at this ⊢
      by_cases h : test a.2 u = true
      · simp only [h, if_true, List.map_cons, this]
      · simp only [h, Bool.false_eq_true, if_false, this]

theorem drawFrom_add (N : Gen G) (md5 : String → ℕ) (s : Rngs G) (m : String) (a b : ℕ) :
    (drawFrom N md5 s m (a + b)).1 =
      (drawFrom N md5 s m a).1 ++ (drawFrom N md5 (drawFrom N md5 s m a).2 m b).1 := by
  simp only [drawFrom_fst, held_drawFrom_same, List.range_add, List.map_append, List.map_map, after_add]
  rfl

end Sorcha.Rng
