import Verif.Pointing.Spec
import Mathlib.Data.List.Forall2
import Mathlib.Data.List.Nodup
import Mathlib.Tactic.Linarith
import Mathlib.Tactic.NormNum
import Mathlib.Tactic.Push
import Mathlib.Tactic.Ring
import Mathlib.Tactic.FieldSimp

/-! # Property C40: visits and observations -/

namespace Sorcha.Pointing.Props
open Sorcha.Pointing
variable {V W : Type}

/-! ### Reading -/

theorem setTimes_prepared {survey : String} {v v' : Visit V} (h : setTimes survey v = some v') : Spec.Prepared survey v v' := by
  unfold setTimes at h
  split_ifs at h with h1 h2
  · rw [← Option.some.inj h]
    refine ⟨Or.inl ⟨by simpa using h1, rfl, ?_⟩, rfl, rfl, rfl, rfl, rfl, rfl, rfl⟩
    simp only
    ring
  · rw [← Option.some.inj h]
    refine ⟨Or.inr ⟨by simpa using h2, rfl, ?_⟩, rfl, rfl, rfl, rfl, rfl, rfl, rfl⟩
    simp only
    ring

theorem mapM_forall₂ {α β : Type} (f : α → Option β) (l : List α) (r : List β) (h : l.mapM f = some r) : List.Forall₂ (fun a b => f a = some b) l r := by
  induction l generalizing r with
  | nil =>
    rw [List.mapM_nil] at h
    rw [← Option.some.inj h]
    exact List.Forall₂.nil
  | cons a l ih =>
    rw [List.mapM_cons] at h
    cases ha : f a with
    | none => rw [ha] at h; simp at h
    | some b =>
      cases hr : l.mapM f with
      | none => rw [ha, hr] at h; simp at h
      | some bs =>
        rw [ha, hr] at h
        rw [← Option.some.inj h]
        exact List.Forall₂.cons ha (ih bs hr)

theorem mapM_of_all {α β : Type} (f : α → Option β) (l : List α) (h : ∀ a ∈ l, f a ≠ none) : ∃ r, l.mapM f = some r := by
  induction l with
  | nil => exact ⟨[], rfl⟩
  | cons a l ih =>
    obtain ⟨r, hr⟩ := ih (fun b hb => h b (List.mem_cons_of_mem _ hb))
    cases ha : f a with
    | none => exact absurd ha (h a List.mem_cons_self)
    | some b =>
      refine ⟨b :: r, ?_⟩
      rw [List.mapM_cons, ha, hr]
      rfl

/-- C40 (reading): the visits used are exactly the visits of the answer that are in an observing filter, in order, with consistent start and
midpoint; there is at least one; with the DES fading function they all have its two values. -/
theorem C40_read {answer : Option (List (Visit V))} {observing : List String} {survey : String} {fading hasFading : Bool} {r : List (Visit V)}
    (h : readPointing answer observing survey fading hasFading = .ok r) : r ≠ [] ∧ (∃ df, answer = some df ∧
      List.Forall₂ (Spec.Prepared survey) (df.filter fun v => decide (v.filter ∈ observing)) r) ∧
      (fading = true → (survey = "DES" ∨ survey = "des") → ∀ v ∈ r, v.c ≠ none ∧ v.k ≠ none) := by
  unfold readPointing at h
  cases answer with
  | none => simp at h
  | some df =>
    simp only at h
    have hc : (fun v : Visit V => observing.contains v.filter) = fun v => decide (v.filter ∈ observing) := by
      funext v; rw [Bool.eq_iff_iff]; simp
    rw [hc] at h
    by_cases he : (df.filter fun v => decide (v.filter ∈ observing)).isEmpty = true
    · rw [if_pos he] at h; simp at h
    · rw [if_neg he] at h
      cases hm : (df.filter fun v => decide (v.filter ∈ observing)).mapM (setTimes survey) with
      | none => rw [hm] at h; simp at h
      | some dfo =>
        rw [hm] at h
        simp only at h
        have hf := mapM_forall₂ _ _ _ hm
        have hprep : List.Forall₂ (Spec.Prepared survey) (df.filter fun v => decide (v.filter ∈ observing)) dfo :=
          hf.imp fun _ _ h => setTimes_prepared h
        have hne : dfo ≠ [] := by
          intro e
          have := hprep.length_eq
          rw [e] at this
          exact he (by rw [List.isEmpty_iff_length_eq_zero]; exact this)
        by_cases hfad : (fading && ["DES", "des"].contains survey) = true
        · rw [if_pos hfad] at h
          by_cases hh : (!hasFading) = true
          · rw [if_pos hh] at h; simp at h
          · rw [if_neg hh] at h
            by_cases ha : dfo.any (fun v => v.c.isNone || v.k.isNone) = true
            · rw [if_pos ha] at h; simp at h
            · rw [if_neg ha] at h
              rw [← Except.ok.inj h]
              refine ⟨hne, ⟨df, rfl, hprep⟩, fun _ _ v hv => ?_⟩
              rw [List.any_eq_true] at ha
              push Not at ha
              have := ha v hv
              cases hc' : v.c <;> cases hk' : v.k <;> simp_all
        · rw [if_neg hfad] at h
          rw [← Except.ok.inj h]
          refine ⟨hne, ⟨df, rfl, hprep⟩, fun h1 h2 => ?_⟩
          exact absurd (by rw [h1]; rcases h2 with rfl | rfl <;> decide) hfad

/-- C40 (reading): for the known surveys only an empty selection or missing fading values stop the run. -/
theorem C40_read_ok (df : List (Visit V)) (observing : List String) (survey : String)
    (hs : survey = "rubin_sim" ∨ survey = "RUBIN_SIM" ∨ survey = "DES" ∨ survey = "des") (hv : ∃ v ∈ df, v.filter ∈ observing) :
    ∃ r, readPointing (some df) observing survey false false = .ok r := by
  unfold readPointing
  simp only
  obtain ⟨v, hv, hf⟩ := hv
  have he : ¬ (df.filter fun v => observing.contains v.filter).isEmpty = true := by
    rw [List.isEmpty_iff, List.filter_eq_nil_iff]
    push Not
    exact ⟨v, hv, by simpa using hf⟩
  rw [if_neg he]
  obtain ⟨r, hr⟩ := mapM_of_all (setTimes (V := V) survey) (df.filter fun v => observing.contains v.filter) (by
    intro a _
    unfold setTimes
    rcases hs with rfl | rfl | rfl | rfl
    · rw [if_pos (by decide)]; simp
    · rw [if_pos (by decide)]; simp
    · rw [if_neg (by decide), if_pos (by decide)]; simp
    · rw [if_neg (by decide), if_pos (by decide)]; simp)
  rw [hr]
  exact ⟨r, rfl⟩

example : ∃ r, readPointing (some [(⟨1, "r", 60000, 0, 30, 30, none, none, ()⟩ : Visit Unit), ⟨2, "Y", 60000, 0, 30, 30, none, none, ()⟩]) ["r", "g"]
    "rubin_sim" false false = .ok r ∧ r.map (·.id) = [1] := ⟨_, rfl, by decide⟩

/-! ### Matching -/

theorem merge_filterMap (obs : List (Obs W)) (db : List (Visit V)) :
    ((mergeLeft obs db).filterMap fun r => r.2.map fun v => (r.1, v)) = obs.flatMap fun o => (db.filter (·.id = o.field)).map fun v => (o, v) := by
  unfold mergeLeft
  rw [List.filterMap_flatMap]
  apply List.flatMap_congr
  intro o _
  cases h : db.filter (·.id = o.field) with
  | nil => rfl
  | cons v vs =>
    simp only
    rw [List.filterMap_map]
    simp [Function.comp_def]

theorem isclose_iff (a b : ℚ) : isclose a b = true ↔ Spec.Agree a b := by
  unfold isclose Spec.Agree
  norm_num

/-- C40 (matching): the result is each observation combined with the visits of its field, in the order of the observations; observations without
a visit are dropped; and all times agree. -/
theorem C40_match {obs : List (Obs W)} {db : List (Visit V)} {r : List (Obs W × Visit V)} (h : matchPointing obs db = .ok r) :
    r = (obs.flatMap fun o => (db.filter (·.id = o.field)).map fun v => (o, v)) ∧ ∀ p ∈ r, Spec.Agree p.2.start p.1.mjd := by
  unfold matchPointing at h
  simp only [merge_filterMap] at h
  split_ifs at h with hc
  rw [← Except.ok.inj h]
  refine ⟨rfl, fun p hp => ?_⟩
  rw [List.all_eq_true] at hc
  exact (isclose_iff _ _).1 (hc p hp)

/-- C40 (times): one observation whose time does not agree with its visit stops the run. -/
theorem C40_mismatch (obs : List (Obs W)) (db : List (Visit V)) (o : Obs W) (ho : o ∈ obs) (v : Visit V) (hv : v ∈ db) (hid : v.id = o.field)
    (ht : ¬ Spec.Agree v.start o.mjd) : matchPointing obs db = .error .times := by
  unfold matchPointing
  simp only [merge_filterMap]
  rw [if_neg]
  intro hc
  rw [List.all_eq_true] at hc
  refine ht ((isclose_iff _ _).1 (hc (o, v) ?_))
  rw [List.mem_flatMap]
  exact ⟨o, ho, List.mem_map.2 ⟨v, List.mem_filter.2 ⟨hv, by simpa using hid⟩, rfl⟩⟩

theorem filter_unique {db : List (Visit V)} (hu : (db.map (·.id)).Nodup) (n : ℕ) : db.filter (·.id = n) = (db.find? (·.id = n)).toList := by
  induction db with
  | nil => rfl
  | cons v db ih =>
    rw [List.map_cons, List.nodup_cons] at hu
    rw [List.filter_cons, List.find?_cons]
    by_cases h : v.id = n
    · simp only [h, decide_true, if_true, Option.toList_some]
      congr 1
      rw [List.filter_eq_nil_iff]
      intro w hw he
      exact hu.1 (List.mem_map.2 ⟨w, hw, by rw [h]; simpa using he⟩)
    · simp only [h, decide_false, Bool.false_eq_true, if_false]
      exact ih hu.2

/-- C40 (unique fields): when the field numbers are unique, the result has exactly the observations that have a visit, each once and in order. -/
theorem C40_unique {obs : List (Obs W)} {db : List (Visit V)} {r : List (Obs W × Visit V)} (h : matchPointing obs db = .ok r)
    (hu : (db.map (·.id)).Nodup) : r.map (·.1) = obs.filter (fun o => decide (o.field ∈ db.map (·.id))) ∧
      ∀ p ∈ r, p.2 ∈ db ∧ p.2.id = p.1.field := by
  have hr := (C40_match h).1
  subst hr
  constructor
  · rw [List.map_flatMap]
    clear h
    induction obs with
    | nil => rfl
    | cons o obs ih =>
      rw [List.flatMap_cons, ih, List.filter_cons, filter_unique hu]
      cases hf : db.find? (·.id = o.field) with
      | none =>
        rw [if_neg]
        · rfl
        · rw [List.find?_eq_none] at hf
          simp only [decide_eq_true_eq, List.mem_map, not_exists, not_and]
          intro v hv he
          exact hf v hv (by simpa using he)
      | some v =>
        rw [if_pos]
        · rfl
        · have h1 := List.mem_of_find?_eq_some hf
          have h2 := List.find?_some hf
          simp only [decide_eq_true_eq] at h2 ⊢
          exact List.mem_map.2 ⟨v, h1, h2⟩
  · intro p hp
    rw [List.mem_flatMap] at hp
    obtain ⟨o, -, hp⟩ := hp
    obtain ⟨v, hv, rfl⟩ := List.mem_map.1 hp
    rw [List.mem_filter] at hv
    exact ⟨hv.1, by simpa using hv.2⟩

/-- C40 (blocks): matching a block of observations is matching each part, so the visits a row gets do not depend on the other rows of its block. -/
theorem C40_append {obs₁ obs₂ : List (Obs W)} {db : List (Visit V)} {r₁ r₂ : List (Obs W × Visit V)} (h₁ : matchPointing obs₁ db = .ok r₁)
    (h₂ : matchPointing obs₂ db = .ok r₂) : matchPointing (obs₁ ++ obs₂) db = .ok (r₁ ++ r₂) := by
  have e1 := C40_match h₁
  have e2 := C40_match h₂
  unfold matchPointing
  simp only [merge_filterMap, List.flatMap_append]
  rw [← e1.1, ← e2.1, if_pos]
  rw [List.all_append, Bool.and_eq_true]
  constructor
  · rw [List.all_eq_true]; intro p hp; exact (isclose_iff _ _).2 (e1.2 p hp)
  · rw [List.all_eq_true]; intro p hp; exact (isclose_iff _ _).2 (e2.2 p hp)

/-- C40 (own ephemerides): ephemerides computed for these visits carry the visit's midpoint as their time. They are never rejected, for dates after
1995 (MJD 50000) and visits shorter than a day. -/
theorem C40_own_ephemeris {answer : Option (List (Visit V))} {observing : List String} {fading hasFading : Bool} {db : List (Visit V)}
    (h : readPointing answer observing "rubin_sim" fading hasFading = .ok db) (hu : (db.map (·.id)).Nodup) (obs : List (Obs W))
    (htime : ∀ v ∈ db, v.mid ≥ 50000 ∧ 0 ≤ v.visitTime ∧ v.visitTime ≤ 86400)
    (hobs : ∀ o ∈ obs, ∃ v ∈ db, o.field = v.id ∧ o.mjd = v.mid) : ∃ r, matchPointing obs db = .ok r ∧ r.map (·.1) = obs := by
  obtain ⟨-, ⟨df, -, hp⟩, -⟩ := C40_read h
  have hmid : ∀ v' ∈ db, (v'.mid - v'.start) * 86400 = v'.visitTime / 2 := by
    intro v' hv'
    obtain ⟨i, hi⟩ := List.mem_iff_getElem.1 hv'
    obtain ⟨hi, he⟩ := hi
    have hi' : i < (df.filter fun v => decide (v.filter ∈ observing)).length := by rw [hp.length_eq]; exact hi
    have := hp.get hi' hi
    simp only [List.get_eq_getElem] at this
    rw [he] at this
    obtain ⟨(⟨-, -, h2⟩ | ⟨h1, -⟩), -, -, h4, -⟩ := this
    · rw [h4]; exact h2
    · rcases h1 with h1 | h1 <;> exact absurd h1 (by decide)
  have hok : ∃ r, matchPointing obs db = .ok r := by
    unfold matchPointing
    simp only [merge_filterMap]
    rw [if_pos]
    · exact ⟨_, rfl⟩
    · rw [List.all_eq_true]
      intro p hp'
      rw [List.mem_flatMap] at hp'
      obtain ⟨o, ho, hp'⟩ := hp'
      obtain ⟨w, hw, rfl⟩ := List.mem_map.1 hp'
      rw [List.mem_filter] at hw
      obtain ⟨v, hv, h1, h2⟩ := hobs o ho
      have hwv : w = v := List.inj_on_of_nodup_map hu hw.1 hv (by rw [← h1]; simpa using hw.2)
      subst hwv
      rw [isclose_iff]
      unfold Spec.Agree
      simp only
      obtain ⟨t1, t2, t3⟩ := htime w hv
      have hm := hmid w hv
      have hd : w.mid - w.start = w.visitTime / 2 / 86400 := by field_simp; linarith
      have ha : w.visitTime / 2 / 86400 ≤ 1 / 2 := by
        rw [div_div, div_le_iff₀ (by norm_num)]; linarith
      have hb : 0 ≤ w.visitTime / 2 / 86400 := div_nonneg (div_nonneg t2 (by norm_num)) (by norm_num)
      rw [h2, abs_sub_comm, hd, abs_of_nonneg hb, abs_of_nonneg (by linarith)]
      norm_num
      linarith
  obtain ⟨r, hr⟩ := hok
  refine ⟨r, hr, ?_⟩
  rw [(C40_unique hr hu).1, List.filter_eq_self]
  intro o ho
  obtain ⟨v, hv, h1, -⟩ := hobs o ho
  simp only [decide_eq_true_eq, h1]
  exact List.mem_map.2 ⟨v, hv, rfl⟩

example : matchPointing [(⟨"a", 1, 60000.0002, ()⟩ : Obs Unit), ⟨"b", 7, 60000, ()⟩] [(⟨1, "r", 60000, 60000.0002, 30, 30, none, none, ()⟩ :
    Visit Unit)] = .ok [(⟨"a", 1, 60000.0002, ()⟩, ⟨1, "r", 60000, 60000.0002, 30, 30, none, none, ()⟩)] := by decide +kernel

/-- C40 fails as a check of times: a relative tolerance is used, so an observation half a day away from its visit is accepted. -/
theorem C40_tolerance_fails : ∃ (o : Obs Unit) (v : Visit Unit), |v.start - o.mjd| = 1 / 2 ∧ matchPointing [o] [v] = .ok [(o, v)] :=
  ⟨⟨"a", 1, 60000, ()⟩, ⟨1, "r", 60000 + 1 / 2, 60001, 30, 30, none, none, ()⟩, by norm_num [abs_of_pos], by decide +kernel⟩

/-- C40 fails for repeated field numbers: the observation appears twice. -/
theorem C40_repeated_fields_fails : ∃ (o : Obs Unit) (db : List (Visit Unit)) (r : List (Obs Unit × Visit Unit)), matchPointing [o] db = .ok r ∧
    r.map (·.1) = [o, o] :=
  ⟨⟨"a", 1, 60000, ()⟩, [⟨1, "r", 60000, 60000, 30, 30, none, none, ()⟩, ⟨1, "g", 60000, 60000, 30, 30, none, none, ()⟩],
    [(⟨"a", 1, 60000, ()⟩, ⟨1, "r", 60000, 60000, 30, 30, none, none, ()⟩), (⟨"a", 1, 60000, ()⟩, ⟨1, "g", 60000, 60000, 30, 30, none, none, ()⟩)],
    by decide +kernel, rfl⟩

end Sorcha.Pointing.Props
