import Verif.Rng.Lemmas
import Verif.Filters.Spec
import Mathlib.Data.Int.ModEq

/-!
# C17, C18, C33: random generators, random filters, circular field of view
-/

namespace Sorcha.Rng
open Spec

variable {G : Type} {ρ : Type}

/-- C18: each module has one seed, fixed by base seed and name and below 2^31, such that after any history of requests and
draws (over any modules) the next `n` numbers given to the module are the next `n` numbers of the stream of that seed,
continuing where the module itself stopped. -/
theorem C18_stream (N : Gen G) (md5 : String → ℕ) (base : ℤ) (m : String) :
    ∃ sd : ℕ, sd < 2 ^ 31 ∧ (sd : ℤ) ≡ base + md5 m [ZMOD 2 ^ 31] ∧
      ∀ (history : List Op) (n : ℕ),
        (step N md5 (run N md5 (init base) history) (.draw m n)).1 =
          (List.range n).map (fun i => stream N sd (drawn m history + i)) := by
  refine ⟨moduleSeed md5 base m, ?_, ?_, ?_⟩
  · unfold moduleSeed
    have := Int.emod_lt_of_pos (base + md5 m) (show (0 : ℤ) < 2 ^ 31 by norm_num)
    have := Int.emod_nonneg (base + md5 m) (show (2 ^ 31 : ℤ) ≠ 0 by norm_num)
    omega
  · unfold moduleSeed Int.ModEq
    rw [Int.toNat_of_nonneg (Int.emod_nonneg _ (by norm_num)), Int.emod_emod_of_dvd _ (dvd_refl _)]
  · intro h n
    simp only [step, drawFrom_fst, held_run, held_init, stream, after_add]

/-- C18: what other modules do, in any interleaving, does not affect the numbers a module gets. -/
theorem C18_isolation (N : Gen G) (md5 : String → ℕ) (base : ℤ) (m : String) (h₁ h₂ : List Op) (n : ℕ)
    (own : drawn m h₁ = drawn m h₂) :
    (step N md5 (run N md5 (init base) h₁) (.draw m n)).1 = (step N md5 (run N md5 (init base) h₂) (.draw m n)).1 := by
  obtain ⟨sd, -, -, h⟩ := C18_stream N md5 base m
  rw [h, h, own]

/-- A toy generator: the state counts up, the draw is `state / 7 mod 1`. -/
def exGen : Gen ℕ := { seed := fun s => s, next := fun g => (((g % 7 : ℕ) : ℚ) / 7, g + 1) }

def exMd5 (s : String) : ℕ := if s = "ab" then 2 ^ 31 + 2 else 1

example : drawn "a" [.draw "a" 2, .draw "b" 5, .request "a"] = drawn "a" [.request "b", .draw "a" 2] := by decide
example : (step exGen exMd5 (run exGen exMd5 (init (-3)) [.draw "ab" 2, .draw "c" 5]) (.draw "ab" 2)).1
    = [3 / 7, 4 / 7] := by decide +kernel

/-! ## C17 -/

/-- C17: after any history of the random generators, the fading filter keeps exactly the rows whose detection probability
is at least the row's own number, the numbers being the next `t.length` of the stream of the drop module, in row order. -/
theorem C17_one_draw_per_row (N : Gen G) (md5 : String → ℕ) (base : ℤ) :
    ∃ sd : ℕ, ∀ (history : List Op) (prob : ρ → Fl) (t : Table ρ),
      (fadingFilter N md5 prob (run N md5 (init base) history) t).1.rows =
        ((t.rows.zipIdx (drawn dropName history)).filter
          (fun x => (Fl.fin (stream N sd x.2)).le (prob x.1))).map (·.1) := by
  obtain ⟨sd, -, -, h⟩ := C18_stream N md5 base dropName
  refine ⟨sd, fun hist prob t => ?_⟩
  have hd : (drawFrom N md5 (run N md5 (init base) hist) dropName t.length).1 = _ := h hist t.length
  simp only [fadingFilter, dropObservations, Table.rows_resetIndex, rows_keepBy, hd]
  have hlen : t.length = t.rows.length := by simp [Table.rows]
  rw [hlen]
  generalize t.rows = l
  generalize drawn dropName hist = k
  induction l generalizing k with
  | nil => rfl
  | cons a l ih =>
    simp only [List.length_cons, List.range_succ_eq_map, List.map_cons, List.map_map, List.zip_cons_cons,
      List.filter_cons, List.zipIdx_cons, Nat.add_zero]
    have h2 := ih (k + 1)
    have e : (fun i => stream N sd (k + i)) ∘ Nat.succ = fun i => stream N sd (k + 1 + i) := by
      funext i; simp only [Function.comp]; congr 1; omega
    rw [e]
    by_cases hp : (Fl.fin (stream N sd k)).le (prob a) = true
    · simp only [hp, if_true, List.map_cons, h2]
    · simp only [hp, Bool.false_eq_true, if_false, h2]

/-- What happens during a run, seen from the fading filter: a chunk is filtered, or another module uses its generator. -/
inductive Event (ρ : Type)
  | chunk (t : Table ρ)
  | other (op : Op)

/-- Rows output by the fading filter over the run, all chunks together. -/
def fadingRun (N : Gen G) (md5 : String → ℕ) (prob : ρ → Fl) (s : Rngs G) : List (Event ρ) → List ρ
  | [] => []
  | .chunk t :: es => (fadingFilter N md5 prob s t).1.rows ++ fadingRun N md5 prob (fadingFilter N md5 prob s t).2 es
  | .other op :: es => fadingRun N md5 prob (step N md5 s op).2 es

/-- All rows that were presented to the filter, in order. -/
def inputRows : List (Event ρ) → Table ρ
  | [] => []
  | .chunk t :: es => t ++ inputRows es
  | .other _ :: es => inputRows es

/-- The output of the filter depends on the collection only through the drop module's generator. -/
theorem fadingRun_held (N : Gen G) (md5 : String → ℕ) (prob : ρ → Fl) (es : List (Event ρ))
    (hf : ∀ op, Event.other op ∈ es → Foreign dropName op) :
    ∀ s : Rngs G, fadingRun N md5 prob s es =
      ((inputRows es).rows.zip ((List.range (inputRows es).length).map
        (fun i => (N.next (after N (held N md5 s dropName) i)).1)) |>.filter
          fun x => (Fl.fin x.2).le (prob x.1)).map (·.1) := by
  induction es with
  | nil => intro s; rfl
  | cons e es ih =>
    intro s
    have ih := ih (fun op h => hf op (List.mem_cons_of_mem _ h))
    cases e with
    | other op =>
      simp only [fadingRun, inputRows, ih, held_step_foreign N md5 s dropName op (hf op (by simp))]
    | chunk t =>
      have h2 : held N md5 (fadingFilter N md5 prob s t).2 dropName = after N (held N md5 s dropName) t.length := by
        simp only [fadingFilter, dropObservations, held_drawFrom_same]
      simp only [fadingRun, inputRows, ih, h2]
      simp only [fadingFilter, dropObservations, Table.rows_resetIndex, rows_keepBy, drawFrom_fst, rows_append,
        List.length_append, List.range_add, List.map_append, List.map_map]
      rw [List.zip_append (by simp [Table.rows]), List.filter_append, List.map_append]
      congr 4
      apply List.map_congr_left
      intro i _
      simp only [Function.comp, after_add]

/-- C17: over a whole run, however the rows are split into chunks and whatever other modules draw in between, the rows the
fading filter lets through are those it would let through if all rows came in one table. -/
theorem C17_chunks_irrelevant (N : Gen G) (md5 : String → ℕ) (base : ℤ) (prob : ρ → Fl) (es : List (Event ρ))
    (hf : ∀ op, Event.other op ∈ es → Foreign dropName op) :
    fadingRun N md5 prob (init base) es = (fadingFilter N md5 prob (init base) (inputRows es)).1.rows := by
  have h := fadingRun_held N md5 prob [Event.chunk (inputRows es)] (by simp) (init base)
  rw [fadingRun_held N md5 prob es hf]
  simp only [fadingRun, inputRows, List.append_nil] at h
  exact h.symm

/-- Probability one keeps everything and a NaN or negative probability keeps nothing, as draws lie in `[0, 1)`. -/
theorem C17_extremes (N : Gen G) (md5 : String → ℕ) (hN : ∀ g, 0 ≤ (N.next g).1 ∧ (N.next g).1 < 1)
    (s : Rngs G) (prob : ρ → Fl) (t : Table ρ) :
    ((∀ r ∈ t.rows, prob r = .fin 1) → (fadingFilter N md5 prob s t).1.rows = t.rows) ∧
      ((∀ r ∈ t.rows, prob r = .nan ∨ ∃ q < 0, prob r = .fin q) → (fadingFilter N md5 prob s t).1.rows = []) := by
  have hu : ∀ u ∈ (drawFrom N md5 s dropName t.length).1, 0 ≤ u ∧ u < 1 := by
    intro u hu
    rw [drawFrom_fst] at hu
    obtain ⟨i, -, rfl⟩ := List.mem_map.1 hu
    exact hN _
  have hl : (drawFrom N md5 s dropName t.length).1.length = t.rows.length := by
    rw [drawFrom_fst]; simp [Table.rows]
  simp only [fadingFilter, dropObservations, Table.rows_resetIndex, rows_keepBy]
  constructor
  · intro h
    rw [List.filter_eq_self.2]
    · rw [List.map_fst_zip (by omega)]
    · rintro ⟨r, u⟩ hm
      obtain ⟨h1, h2⟩ := List.of_mem_zip hm
      rw [h r h1, Fl.le_fin, decide_eq_true_iff]
      exact (hu u h2).2.le
  · intro h
    rw [List.map_eq_nil_iff, List.filter_eq_nil_iff]
    rintro ⟨r, u⟩ hm
    obtain ⟨h1, h2⟩ := List.of_mem_zip hm
    rcases h r h1 with h3 | ⟨q, hq, h3⟩
    · simp [h3]
    · have := (hu u h2).1
      simp only [h3, Fl.le_fin, decide_eq_true_eq, not_le]; linarith

/-- C17 (detection efficiency): a threshold outside [0,1] aborts; otherwise each row has one draw of the module's own
stream and is kept iff the draw is at most the threshold. -/
theorem C17_efficiency (N : Gen G) (md5 : String → ℕ) (base : ℤ) :
    ∃ sd : ℕ, ∀ (history : List Op) (q : ℚ) (t : Table ρ),
      (q < 0 ∨ 1 < q → detectionEfficiency N md5 (.fin q) (run N md5 (init base) history) t = none) ∧
      (0 ≤ q → q ≤ 1 → ∃ out s', detectionEfficiency N md5 (.fin q) (run N md5 (init base) history) t = some (out, s') ∧
        out.rows = ((t.rows.zip ((List.range t.length).map
          (fun i => stream N sd (drawn efficiencyName history + i)))).filter (fun x => decide (x.2 ≤ q))).map (·.1)) := by
  refine ⟨moduleSeed md5 base efficiencyName, fun hist q t => ⟨fun hq => ?_, fun h0 h1 => ?_⟩⟩
  · unfold detectionEfficiency
    rw [if_pos]
    rcases hq with hq | hq <;> simp [hq]
  · unfold detectionEfficiency
    rw [if_neg (by simp; exact ⟨h1, h0⟩)]
    have hlen : (Table.resetIndex t).length = t.length := by simp [Table.resetIndex]
    refine ⟨keepBy (fun _ u => (Fl.fin u).le (.fin q)) t.resetIndex (drawFrom N md5
      (getModuleRNG N md5 (run N md5 (init base) hist) efficiencyName).2 efficiencyName t.resetIndex.length).1, _, rfl, ?_⟩
    rw [rows_keepBy, Table.rows_resetIndex, drawFrom_fst, held_getModuleRNG, held_run, held_init, hlen]
    simp only [stream, after_add, Fl.le_fin]

example : (∀ op, Event.other op ∈ [Event.chunk [(0, 1), (1, 5)], .other (.draw "x" 3), .chunk [(0, 2)]] → Foreign dropName op) ∧
    fadingRun exGen exMd5 (fun n : ℕ => .fin (n / 7)) (init 0)
      [Event.chunk [(0, 1), (1, 5)], .other (.draw "x" 3), .chunk [(0, 2)]] = [1, 5] := by
  refine ⟨?_, by decide +kernel⟩
  intro op h
  simp at h
  subst h
  simp [Foreign, dropName]

example : ∀ g, 0 ≤ (exGen.next g).1 ∧ (exGen.next g).1 < 1 := by
  intro g
  simp only [exGen]
  have h : g % 7 < 7 := Nat.mod_lt _ (by norm_num)
  constructor
  · positivity
  · rw [div_lt_one (by norm_num)]; exact_mod_cast h

/-! ## C33 -/

open Filters.Spec (Below)

theorem simpleSensorArea_rows (N : Gen G) (md5 : String → ℕ) (ff : Fl) (s : Rngs G) (t : Table ρ)
    (hr : t.map (·.1) = List.range t.length) :
    (simpleSensorArea N md5 ff s t).1.rows =
      ((t.rows.zip (drawFrom N md5 s fovName t.length).1).filter fun x => !ff.lt (.fin x.2)).map (·.1) := by
  simp only [simpleSensorArea, Table.rows_resetIndex]
  have hlen : (drawFrom N md5 s fovName t.length).1.length = t.length := by
    rw [drawFrom_fst]; simp
  generalize (drawFrom N md5 s fovName t.length).1 = us at hlen ⊢
  -- generalise the starting label
  suffices H : ∀ (us : List ℚ) (t : Table ρ) (k : ℕ) (bad : List ℕ), us.length = t.length →
      t.map (·.1) = (List.range' k t.length) →
      (∀ j, k ≤ j → (j ∈ bad ↔ j ∈ ((us.zipIdx k).filter fun x => ff.lt (.fin x.1)).map (·.2))) →
      (t.dropLabels bad).rows = ((t.rows.zip us).filter fun x => !ff.lt (.fin x.2)).map (·.1) by
    apply H us t 0 _ hlen (by rw [hr, List.range_eq_range'])
    intro j _; rfl
  intro us
  induction us with
  | nil =>
    intro t k bad h1 h2 h3
    have : t = [] := List.length_eq_zero_iff.1 h1.symm
    subst this; rfl
  | cons u us ih =>
    intro t k bad h1 h2 h3
    cases t with
    | nil => simp at h1
    | cons a t =>
      obtain ⟨l, r⟩ := a
      simp only [List.length_cons, List.range'_succ, List.map_cons, List.cons.injEq] at h2
      obtain ⟨rfl, h2⟩ := h2
      have hkmem : l ∈ bad ↔ ff.lt (.fin u) = true := by
        rw [h3 l (le_refl _)]
        simp only [List.mem_map, List.mem_filter, Prod.exists]
        constructor
        · rintro ⟨v, j, ⟨hm, hp⟩, rfl⟩
          rw [List.zipIdx_cons] at hm
          rcases List.mem_cons.1 hm with h | h
          · cases h; exact hp
          · have := List.le_snd_of_mem_zipIdx h
            simp at this
        · intro hp; exact ⟨u, l, ⟨by simp [List.zipIdx_cons], hp⟩, rfl⟩
      have hrec := ih t (l + 1) bad (by simpa using h1) h2 (by
        intro j hj
        rw [h3 j (by omega), List.zipIdx_cons, List.filter_cons]
        split
        · rw [List.map_cons, List.mem_cons]
          constructor
          · rintro (h | h)
            · simp at h; omega
            · exact h
          · exact fun h => .inr h
        · exact Iff.rfl)
      simp only [Table.dropLabels, Table.rows, List.filter_cons, List.map_cons, List.zip_cons_cons] at hrec ⊢
      by_cases hp : ff.lt (.fin u) = true
      · have : bad.contains l = true := List.contains_iff_mem.2 (hkmem.2 hp)
        simp only [this, hp, Bool.not_true, Bool.false_eq_true, if_false]
        exact hrec
      · have : bad.contains l = false := by
          rw [← Bool.not_eq_true, List.contains_iff_mem, hkmem]; exact hp
        simp only [this, hp, Bool.not_false, if_true, List.map_cons]
        rw [hrec]

/-- C33: the circular field of view keeps, unchanged and in order, exactly the rows closer to the field centre than the
radius. -/
theorem C33_circle (sep : ρ → Fl) (radius : Fl) (t : Table ρ) :
    (circleFootprint sep radius t).rows = keep (fun r => Below (sep r) radius) t.rows := by
  unfold circleFootprint
  rw [Table.rows_resetIndex, Table.rows_mask]
  refine filter_eq_keep _ _ _ (fun r _ => ?_)
  cases h1 : sep r <;> cases radius <;> simp [Fl.lt, Below, Filters.Spec.num]

/-- C33: on a table with a fresh index the fill factor keeps a row iff the row's own draw (one per row, in row order, from
the stream of the field-of-view module) is at most the fill factor. -/
theorem C33_fill_factor (N : Gen G) (md5 : String → ℕ) (base : ℤ) :
    ∃ sd : ℕ, ∀ (history : List Op) (q : ℚ) (t : Table ρ), t.map (·.1) = List.range t.length →
      (simpleSensorArea N md5 (.fin q) (run N md5 (init base) history) t).1.rows =
        ((t.rows.zip ((List.range t.length).map (fun i => stream N sd (drawn fovName history + i)))).filter
          (fun x => decide (x.2 ≤ q))).map (·.1) := by
  refine ⟨moduleSeed md5 base fovName, fun hist q t hr => ?_⟩
  rw [simpleSensorArea_rows N md5 (.fin q) _ t hr, drawFrom_fst, held_run, held_init]
  simp only [stream, after_add, Fl.lt_fin]
  congr 1
  apply List.filter_congr
  intro x _
  simp [← not_le]

/-- C33: with fill factor 1 (or more) everything is kept. -/
theorem C33_fill_factor_one (N : Gen G) (md5 : String → ℕ) (hN : ∀ g, 0 ≤ (N.next g).1 ∧ (N.next g).1 < 1) (s : Rngs G)
    (q : ℚ) (hq : 1 ≤ q) (t : Table ρ) (hr : t.map (·.1) = List.range t.length) :
    (simpleSensorArea N md5 (.fin q) s t).1.rows = t.rows := by
  rw [simpleSensorArea_rows N md5 (.fin q) s t hr, List.filter_eq_self.2]
  · rw [List.map_fst_zip]
    rw [drawFrom_fst]; simp [Table.rows]
  · rintro ⟨r, u⟩ hm
    obtain ⟨-, h2⟩ := List.of_mem_zip hm
    rw [drawFrom_fst] at h2
    obtain ⟨i, -, rfl⟩ := List.mem_map.1 h2
    have := (hN (after N (held N md5 s fovName) i)).2
    simp only [Fl.lt_fin, Bool.not_eq_true', decide_eq_false_iff_not, not_lt]; linarith

/-- C33: radius and fill factor both set and non-zero: the circle first, then the fill factor on a fresh index. -/
theorem C33_applyCircle (N : Gen G) (md5 : String → ℕ) (base : ℤ) (sep : ρ → Fl) :
    ∃ sd : ℕ, ∀ (history : List Op) (radius q : ℚ), radius ≠ 0 → q ≠ 0 → ∀ (t : Table ρ),
      (applyCircle N md5 sep (some (.fin radius)) (some (.fin q)) (run N md5 (init base) history) t).1.rows =
        let inside := keep (fun r => Below (sep r) (.fin radius)) t.rows
        ((inside.zip ((List.range inside.length).map (fun i => stream N sd (drawn fovName history + i)))).filter
          (fun x => decide (x.2 ≤ q))).map (·.1) := by
  obtain ⟨sd, h⟩ := C33_fill_factor (ρ := ρ) N md5 base
  refine ⟨sd, fun hist radius q hr hq t => ?_⟩
  have h1 : truthy (some (.fin radius)) = true := by simp [truthy, Fl.eq, hr]
  have h2 : truthy (some (.fin q)) = true := by simp [truthy, Fl.eq, hq]
  simp only [applyCircle, h1, h2, if_true, Option.getD_some]
  have hlab : (circleFootprint sep (.fin radius) t).map (·.1) = List.range (circleFootprint sep (.fin radius) t).length := by
    unfold circleFootprint
    rw [Table.labels_resetIndex]; simp [Table.resetIndex]
  rw [h hist q _ hlab, C33_circle]
  have : (circleFootprint sep (.fin radius) t).length = (keep (fun r => Below (sep r) (.fin radius)) t.rows).length := by
    rw [← C33_circle]; simp [Table.rows]
  rw [this]

/-- C33 is false at zero, which validation accepts (`fill_factor` and `circle_radius` may be 0): a zero fill factor keeps
every row instead of (almost) none, because the value is tested for truth. -/
theorem C33_zero_fill_factor_fails (N : Gen G) (md5 : String → ℕ) (sep : ρ → Fl) (s : Rngs G) (t : Table ρ) :
    (applyCircle N md5 sep none (some (.fin 0)) s t).1 = t := rfl

/-- ... and a zero radius keeps every row although none is closer than 0. -/
theorem C33_zero_radius_fails (N : Gen G) (md5 : String → ℕ) (sep : ρ → Fl) (s : Rngs G) (t : Table ρ) :
    (applyCircle N md5 sep (some (.fin 0)) none s t).1 = t := rfl

/-- C33: on a table whose index is not fresh the fill factor may drop nothing at all (positions are used as labels): the
fresh-index hypothesis is needed. -/
theorem C33_stale_index_fails :
    (simpleSensorArea exGen exMd5 (.fin (-1)) (init 0) [(5, ()), (6, ())]).1.rows = [(), ()] ∧
      (simpleSensorArea exGen exMd5 (.fin (-1)) (init 0) [(0, ()), (1, ())]).1.rows = [] := by decide +kernel

example : ([(0, 'a'), (1, 'b')] : Table Char).map (·.1) = List.range 2 := by decide

end Sorcha.Rng
