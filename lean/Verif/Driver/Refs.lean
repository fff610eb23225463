import Verif.Driver.Props

/-!
# The reference times of the generator

They depend on the times of the visits alone, and so are the same for all objects and all sets of objects.
-/

namespace Sorcha.Driver

open Sorcha.Driver.Spec

variable {K U R S V G C : Type} [Field K] [LinearOrder K] [IsStrictOrderedRing K] [FloorRing K]

/-- The reference time for a visit at `t` after one at the reference time `τ`. -/
def nextRef (I τ t : K) : K :=
  if |t - τ| > 1 / 2 * I then if |t - τ| ≤ 3 / 2 * I then if t ≤ τ - I then τ - I else τ + I else τ + roundEven ((t - τ) / I) * I else τ

/-- The reference times of the visits at the given times. -/
def refs (I : K) : K → List K → List K
  | _, [] => []
  | τ, t :: ts => nextRef I τ t :: refs I (nextRef I τ t) ts

theorem update_ref (E : Env K U R S V G) (names : List String) {s : Table K U S} (hm : s.tm = s.t0 - E.interval) (hp : s.tp = s.t0 + E.interval) (t : K) :
    (update E names s t).t0 = nextRef E.interval s.t0 t := by
  unfold update nextRef
  simp only
  by_cases h1 : |t - s.t0| > 1 / 2 * E.interval
  · rw [if_pos h1, if_pos h1]
    by_cases h2 : |t - s.t0| ≤ 3 / 2 * E.interval
    · rw [if_pos h2, if_pos h2, hm]
      by_cases h3 : t ≤ s.t0 - E.interval
      · rw [if_pos h3, if_pos h3]; simp only [computePixels]
      · rw [if_neg h3, if_neg h3]; simp only [computePixels]; exact hp
    · rw [if_neg h2, if_neg h2]; rfl
  · rw [if_neg h1, if_neg h1]

theorem nextRef_near {I : K} (hP : 0 < I) {τ t : K} (hle : τ - I / 2 ≤ t) : |t - nextRef I τ t| ≤ I / 2 := by
  unfold nextRef
  split_ifs with c1 c2 c3
  · linarith
  · have : t - τ > I / 2 := by
      rcases lt_abs.1 c1 with h | h
      · linarith
      · linarith
    rw [abs_le] at c2 ⊢
    constructor <;> linarith
  · have h := roundEven_near ((t - τ) / I)
    have e : t - (τ + roundEven ((t - τ) / I) * I) = ((t - τ) / I - roundEven ((t - τ) / I)) * I := by
      field_simp; ring
    rw [e, abs_mul, abs_of_pos hP]
    calc _ ≤ 1 / 2 * I := mul_le_mul_of_nonneg_right h hP.le
      _ = _ := by ring
  · push Not at c1
    linarith

theorem refs_near {I : K} (hP : 0 < I) : ∀ {ts : List K} {τ : K}, (∀ t ∈ ts, τ - I / 2 ≤ t) → ts.Pairwise (· ≤ ·) →
    List.Forall₂ (fun t τ => |t - τ| ≤ I / 2) ts (refs I τ ts)
  | [], _, _, _ => .nil
  | t :: ts, τ, h, hp => by
    have near := nextRef_near hP (h t (by simp))
    rw [List.pairwise_cons] at hp
    refine .cons near (refs_near hP (fun t' ht' => ?_) hp.2)
    have := hp.1 t' ht'
    rw [abs_le] at near
    linarith

open Classical in
theorem visits_refs {E : Env K U R S V G} (ho : Iterates E) {k : String} {s0 : S} {pos : K → U → R} (ha : Answers E s0 pos) {T : K} (hP : 0 < E.interval) {names : List String}
    (hn : names.Nodup) (hk : k ∈ names) : ∀ (vs : List (Pointing.Visit V)) {s : Table K U S}, Holds E k s0 pos T s →
      (∀ w ∈ vs, s.t0 - E.interval / 2 ≤ E.jd w) → (vs.map E.jd).Pairwise (· ≤ ·) →
      List.Forall₂ (fun w τ => |E.jd w - τ| ≤ E.interval / 2 ∧ ∃ n : ℤ, τ = T + n * E.interval) vs (refs E.interval s.t0 (vs.map E.jd)) ∧
        ((visits E names s vs).filter fun o => o.obj = k) =
          (keep (fun x => Found E pos x.1 x.2) (vs.zip (refs E.interval s.t0 (vs.map E.jd)))).map fun x => rowFor E k pos x.1
  | [], s, _, _, _ => ⟨.nil, by simp [visits, keep]⟩
  | w :: ws, s, h, hle, hp => by
    obtain ⟨τ, near, grid, e1, h1, e2⟩ := visit_own ho ha hP hn hk h w (hle w (by simp))
    rw [List.map_cons, List.pairwise_cons] at hp
    obtain ⟨f, e3⟩ := visits_refs ho ha hP hn hk ws h1 (fun w' hw' => by
      have := hp.1 (E.jd w') (List.mem_map_of_mem hw')
      rw [e2]; rw [abs_le] at near; linarith) hp.2
    have hτ : nextRef E.interval s.t0 (E.jd w) = τ := by
      rw [← e2]
      have hu := update_holds ha hn hk h (E.jd w)
      have near' := update_t0 hP names h.tm h.tp (hle w (by simp))
      have e4 : update E names (update E names s (E.jd w)) (E.jd w) = update E names s (E.jd w) := update_again names near'
      rw [← update_ref E names h.tm h.tp]
      simp only [visit, e4]
    rw [List.map_cons, refs, hτ]
    rw [e2] at f e3
    refine ⟨.cons ⟨near, grid⟩ f, ?_⟩
    simp only [visits, List.filter_append, e1, e3, List.zip_cons_cons]
    unfold keep
    by_cases hf : Found E pos w τ
    · simp [hf]
    · simp [hf]

end Sorcha.Driver

namespace Sorcha.Driver.Props

open Sorcha.Driver.Spec

variable {K U R S V G C : Type} [Field K] [LinearOrder K] [IsStrictOrderedRing K] [FloorRing K]

/-- C61 (reference times): for visits in order of time there is one list of reference times, each at most half an interval from its visit, with which all objects are
searched, whatever else is in their set. -/
theorem C61_reference {E : Env K U R S V G} (hi : Iterates E) (hP : 0 < E.interval) (v : Pointing.Visit V) (vs : List (Pointing.Visit V))
    (hchron : ((v :: vs).map E.jd).Pairwise (· ≤ ·)) :
    ∃ τs : List K, List.Forall₂ (fun w τ => |E.jd w - τ| ≤ E.interval / 2) (v :: vs) τs ∧
      ∀ (start : Readers.Rec C → S) (idle : S) (objs : List (Readers.Rec C)), (objs.map (·.id)).Nodup → ∀ r ∈ objs, ∀ pos, Answers E (start r) pos →
        ((ephemeris E start idle v vs objs).filter fun o => o.obj = r.id) =
          (keep (fun x => Found E pos x.1 x.2) ((v :: vs).zip τs)).map fun x => rowFor E r.id pos x.1 := by
  have key : ∀ (start : Readers.Rec C → S) (idle : S) (objs : List (Readers.Rec C)), (objs.map (·.id)).Nodup → ∀ r ∈ objs, ∀ pos, Answers E (start r) pos →
      List.Forall₂ (fun w τ => |E.jd w - τ| ≤ E.interval / 2 ∧ ∃ n : ℤ, τ = E.jd v + n * E.interval) (v :: vs) (refs E.interval (E.jd v) ((v :: vs).map E.jd)) ∧
        ((ephemeris E start idle v vs objs).filter fun o => o.obj = r.id) =
          (keep (fun x => Found E pos x.1 x.2) ((v :: vs).zip (refs E.interval (E.jd v) ((v :: vs).map E.jd)))).map fun x => rowFor E r.id pos x.1 := by
    intro start idle objs huniq r hr pos ha
    have hid : r.id ∈ objs.map (·.id) := List.mem_map_of_mem hr
    have hst : simDict start idle objs r.id = start r := by
      obtain ⟨r', hr', e1, e2⟩ := start_of (start := start) (idle := idle) hid
      rw [e2, List.inj_on_of_nodup_map huniq hr' hr e1]
    have hinit := initTable_holds (E := E) (pos := pos) (keys_nodup objs) ((mem_keys objs r.id).2 hid) (simDict start idle objs) (by rw [hst]; exact ha) (E.jd v)
    refine visits_refs hi (by rw [hst]; exact ha) hP (keys_nodup objs) ((mem_keys objs r.id).2 hid) (v :: vs) hinit (fun w hw => ?_) hchron
    show E.jd v - E.interval / 2 ≤ E.jd w
    rcases List.mem_cons.1 hw with rfl | hw
    · linarith
    · rw [List.map_cons, List.pairwise_cons] at hchron
      have := hchron.1 _ (List.mem_map_of_mem (f := E.jd) hw)
      linarith
  refine ⟨refs E.interval (E.jd v) ((v :: vs).map E.jd), ?_, fun start idle objs h1 r h2 pos h3 => (key start idle objs h1 r h2 pos h3).2⟩
  have := refs_near hP (ts := (v :: vs).map E.jd) (τ := E.jd v) (fun t ht => ?_) hchron
  · rwa [List.forall₂_map_left_iff] at this
  · rw [List.map_cons] at ht hchron
    rcases List.mem_cons.1 ht with rfl | ht
    · linarith
    · have := (List.pairwise_cons.1 hchron).1 t ht
      linarith

end Sorcha.Driver.Props
