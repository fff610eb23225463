import Verif.Driver.Lemmas
import Verif.Base.Keep

/-! # Lemmas about the ephemeris generator: what is found when the visits are in order of time -/

namespace Sorcha.Driver
open Sorcha.Driver.Spec

variable {K U R S V G C : Type} [Field K] [LinearOrder K] [IsStrictOrderedRing K] [FloorRing K]

theorem roundEven_near (x : K) : |x - roundEven x| ≤ 1 / 2 := by
  have h1 := Int.floor_le x
  have h2 := Int.lt_floor_add_one x
  unfold roundEven
  rw [abs_le]
  split_ifs with a b c
  · constructor <;> linarith
  · push_cast; constructor <;> linarith
  · constructor <;> linarith
  · push_cast; constructor <;> linarith

/-- What the table holds about object `k`, whose integrator was started in `s0` and answers `pos`; `T` is the time of the first visit. -/
structure Holds (E : Env K U R S V G) (k : String) (s0 : S) (pos : K → U → R) (T : K) (s : Table K U S) : Prop where
  tm : s.tm = s.t0 - E.interval
  tp : s.tp = s.t0 + E.interval
  vm : s.vm k = direction E pos (s.t0 - E.interval)
  v0 : s.v0 k = direction E pos s.t0
  vp : s.vp k = direction E pos (s.t0 + E.interval)
  sims : Reach E s0 (s.sims k)
  pixels : ∀ p, k ∈ s.pixels p ↔ p ∈ E.traversed (around E s.t0) (directions E pos s.t0)
  grid : ∃ n : ℤ, s.t0 = T + n * E.interval

theorem unitVectors_holds {E : Env K U R S V G} {k : String} {s0 : S} {pos : K → U → R} (ha : Answers E s0 pos) {names : List String} (hn : names.Nodup) (hk : k ∈ names)
    (t : K) {acc : (String → U) × (String → S)} (h : Reach E s0 (acc.2 k)) :
    (unitVectors E (E.obs t) t names acc).1 k = direction E pos t ∧ Reach E s0 ((unitVectors E (E.obs t) t names acc).2 k) := by
  rw [(unitVectors_mem E _ t k names acc hn hk).1, (unitVectors_mem E _ t k names acc hn hk).2, ha _ h]
  exact ⟨rfl, h.next _ _⟩

theorem computePixels_holds (E : Env K U R S V G) {k : String} {s0 : S} {pos : K → U → R} {T : K} {names : List String} (hk : k ∈ names) {s : Table K U S}
    (tm : s.tm = s.t0 - E.interval) (tp : s.tp = s.t0 + E.interval) (vm : s.vm k = direction E pos (s.t0 - E.interval)) (v0 : s.v0 k = direction E pos s.t0)
    (vp : s.vp k = direction E pos (s.t0 + E.interval)) (sims : Reach E s0 (s.sims k)) (grid : ∃ n : ℤ, s.t0 = T + n * E.interval) :
    Holds E k s0 pos T (computePixels E names s) where
  tm := tm
  tp := tp
  vm := vm
  v0 := v0
  vp := vp
  sims := sims
  grid := grid
  pixels p := by
    simp only [computePixels, List.mem_filter, hk, true_and, List.contains_iff_mem, tm, tp, vm, v0, vp]
    rfl

theorem initTable_holds {E : Env K U R S V G} {k : String} {pos : K → U → R} {names : List String} (hn : names.Nodup) (hk : k ∈ names) (sims : String → S)
    (ha : Answers E (sims k) pos) (t : K) : Holds E k (sims k) pos t (initTable E names sims t) := by
  have m := unitVectors_holds ha hn hk (t - E.interval) (acc := (fun _ => E.obs t, sims)) .start
  have z := unitVectors_holds ha hn hk t (acc := (fun _ => E.obs t, _)) m.2
  have p := unitVectors_holds ha hn hk (t + E.interval) (acc := (fun _ => E.obs t, _)) z.2
  exact computePixels_holds E hk rfl rfl m.1 z.1 p.1 p.2 ⟨0, by simp [initTable]⟩

theorem update_holds {E : Env K U R S V G} {k : String} {s0 : S} {pos : K → U → R} (ha : Answers E s0 pos) {T : K} {names : List String} (hn : names.Nodup) (hk : k ∈ names)
    {s : Table K U S} (h : Holds E k s0 pos T s) (t : K) : Holds E k s0 pos T (update E names s t) := by
  obtain ⟨n, hgrid⟩ := h.grid
  unfold update
  simp only
  split_ifs
  · have a := unitVectors_holds ha hn hk (s.tm - E.interval) (acc := (fun _ => E.obs t, s.sims)) h.sims
    refine computePixels_holds E hk rfl (by simp [h.tm]) a.1 (h.vm.trans (by simp [h.tm])) (h.v0.trans (by simp [h.tm])) a.2 ⟨n - 1, ?_⟩
    simp only [h.tm, hgrid]; push_cast; ring
  · have a := unitVectors_holds ha hn hk (s.tp + E.interval) (acc := (fun _ => E.obs t, s.sims)) h.sims
    refine computePixels_holds E hk (by simp [h.tp]) rfl (h.v0.trans (by simp [h.tp])) (h.vp.trans (by simp [h.tp])) a.1 a.2 ⟨n + 1, ?_⟩
    simp only [h.tp, hgrid]; push_cast; ring
  · have z := unitVectors_holds ha hn hk (s.t0 + roundEven ((t - s.t0) / E.interval) * E.interval) (acc := (fun _ => E.obs t, s.sims)) h.sims
    have p := unitVectors_holds ha hn hk (s.t0 + roundEven ((t - s.t0) / E.interval) * E.interval + E.interval) (acc := (fun _ => E.obs t, _)) z.2
    have m := unitVectors_holds ha hn hk (s.t0 + roundEven ((t - s.t0) / E.interval) * E.interval - E.interval) (acc := (fun _ => E.obs t, _)) p.2
    refine computePixels_holds E hk rfl rfl m.1 z.1 p.1 m.2 ⟨n + roundEven ((t - s.t0) / E.interval), ?_⟩
    simp only [hgrid]; push_cast; ring
  · exact h

theorem update_t0 {E : Env K U R S V G} (hP : 0 < E.interval) (names : List String) {s : Table K U S} (htm : s.tm = s.t0 - E.interval) (htp : s.tp = s.t0 + E.interval)
    {t : K} (hle : s.t0 - E.interval / 2 ≤ t) : |t - (update E names s t).t0| ≤ E.interval / 2 := by
  unfold update
  simp only
  split_ifs with c1 c2 c3
  · rw [htm] at c3; linarith
  · simp only [computePixels, htp]
    have : t - s.t0 > E.interval / 2 := by
      rcases lt_abs.1 c1 with h | h
      · linarith
      · linarith
    rw [abs_le] at c2 ⊢
    constructor <;> linarith
  · simp only [computePixels]
    have h := roundEven_near ((t - s.t0) / E.interval)
    have e : t - (s.t0 + roundEven ((t - s.t0) / E.interval) * E.interval) = ((t - s.t0) / E.interval - roundEven ((t - s.t0) / E.interval)) * E.interval := by
      field_simp; ring
    rw [e, abs_mul, abs_of_pos hP]
    calc _ ≤ 1 / 2 * E.interval := mul_le_mul_of_nonneg_right h hP.le
      _ = _ := by ring
  · push Not at c1
    linarith

theorem update_again {E : Env K U R S V G} (names : List String) {s : Table K U S} {t : K} (h : |t - s.t0| ≤ E.interval / 2) : update E names s t = s := by
  unfold update
  simp only
  rw [if_neg (by push Not; linarith)]

open Classical in
theorem visit_own {E : Env K U R S V G} (ho : Iterates E) {k : String} {s0 : S} {pos : K → U → R} (ha : Answers E s0 pos) {T : K} (hP : 0 < E.interval) {names : List String}
    (hn : names.Nodup) (hk : k ∈ names) {s : Table K U S} (h : Holds E k s0 pos T s) (w : Pointing.Visit V) (hle : s.t0 - E.interval / 2 ≤ E.jd w) :
    ∃ τ, |E.jd w - τ| ≤ E.interval / 2 ∧ (∃ n : ℤ, τ = T + n * E.interval) ∧
      ((visit E names s w).1.filter fun o => o.obj = k) = (if Found E pos w τ then [rowFor E k pos w] else []) ∧
      Holds E k s0 pos T (visit E names s w).2 ∧ (visit E names s w).2.t0 = τ := by
  have h1 := update_holds ha hn hk h (E.jd w)
  have near := update_t0 hP names h.tm h.tp hle
  have e2 : update E names (update E names s (E.jd w)) (E.jd w) = update E names s (E.jd w) := update_again names near
  refine ⟨(update E names s (E.jd w)).t0, near, h1.grid, ?_, ?_, ?_⟩
  · simp only [visit, e2]
    set s1 := update E names s (E.jd w) with hs1
    by_cases hd : k ∈ designations E s1 w
    · rw [(examine_mem E s1 w k _ s1.sims (designations_nodup ho _ w) hd).1]
      have hp : ∃ p ∈ E.field w E.fov, p ∈ E.traversed (around E s1.t0) (directions E pos s1.t0) := by
        obtain ⟨p, hp, hm⟩ := (mem_designations ho _ _ _).1 hd
        exact ⟨p, hp, (h1.pixels p).1 hm⟩
      simp only [examine, h1.tm, h1.tp, h1.vm, h1.v0, h1.vp]
      have e3 : (E.step (s1.sims k) (E.jd w - E.jdRef) (E.rObs w)).1 = atVisit E pos w := ha _ h1.sims _ _
      rw [e3]
      by_cases hi : E.ang (E.interp (around E s1.t0) (directions E pos s1.t0) (E.jd w)) w < E.fov + E.buffer
      · have hi' := hi
        unfold around directions at hi'
        rw [if_pos hi']
        by_cases hx : E.ang (E.dir (atVisit E pos w)) w < E.fov + E.buffer
        · rw [if_pos hx, if_pos ⟨hp, hi, hx⟩]; rfl
        · rw [if_neg hx, if_neg fun c => hx c.2.2]
      · have hi' := hi
        unfold around directions at hi'
        rw [if_neg hi', if_neg fun c => hi c.2.1]
    · rw [(examine_not_mem E s1 w k _ s1.sims hd).1, if_neg]
      rintro ⟨⟨p, hp, hm⟩, -⟩
      exact hd ((mem_designations ho _ _ _).2 ⟨p, hp, (h1.pixels p).2 hm⟩)
  · simp only [visit, e2]
    set s1 := update E names s (E.jd w) with hs1
    refine { h1 with sims := ?_ }
    show Reach E s0 ((examine E s1 w (designations E s1 w) s1.sims).2 k)
    by_cases hd : k ∈ designations E s1 w
    · rw [(examine_mem E s1 w k _ s1.sims (designations_nodup ho _ w) hd).2]
      simp only [examine]
      split_ifs
      · simp only [Function.update_self]; exact h1.sims.next _ _
      · simp only [Function.update_self]; exact h1.sims.next _ _
      · exact h1.sims
    · rw [(examine_not_mem E s1 w k _ s1.sims hd).2]; exact h1.sims
  · simp only [visit, e2]

open Classical in
theorem visits_own {E : Env K U R S V G} (ho : Iterates E) {k : String} {s0 : S} {pos : K → U → R} (ha : Answers E s0 pos) {T : K} (hP : 0 < E.interval) {names : List String}
    (hn : names.Nodup) (hk : k ∈ names) : ∀ (vs : List (Pointing.Visit V)) {s : Table K U S}, Holds E k s0 pos T s →
      (∀ w ∈ vs, s.t0 - E.interval / 2 ≤ E.jd w) → (vs.map E.jd).Pairwise (· ≤ ·) →
      ∃ τs : List K, List.Forall₂ (fun w τ => |E.jd w - τ| ≤ E.interval / 2 ∧ ∃ n : ℤ, τ = T + n * E.interval) vs τs ∧
        ((visits E names s vs).filter fun o => o.obj = k) = (keep (fun x => Found E pos x.1 x.2) (vs.zip τs)).map fun x => rowFor E k pos x.1
  | [], s, _, _, _ => ⟨[], .nil, by simp [visits, keep]⟩
  | w :: ws, s, h, hle, hp => by
    obtain ⟨τ, near, grid, e1, h1, e2⟩ := visit_own ho ha hP hn hk h w (hle w (by simp))
    rw [List.map_cons, List.pairwise_cons] at hp
    obtain ⟨τs, f, e3⟩ := visits_own ho ha hP hn hk ws h1 (fun w' hw' => by
      have := hp.1 (E.jd w') (List.mem_map_of_mem hw')
      rw [e2]; rw [abs_le] at near; linarith) hp.2
    refine ⟨τ :: τs, .cons ⟨near, grid⟩ f, ?_⟩
    simp only [visits, List.filter_append, e1, e3, List.zip_cons_cons]
    unfold keep
    by_cases hf : Found E pos w τ
    · simp [hf]
    · simp [hf]

end Sorcha.Driver
