import Verif.Visits.Lemmas
import Mathlib.Tactic.NormNum
import Mathlib.Tactic.Ring
import Mathlib.Tactic.IntervalCases

/-!
# Property C52: visit-specific footprints
-/

namespace Sorcha.Visits.Props
open Sorcha.Visits

/-- C52 (unwrapping): for a search radius of at most 90 degrees the unwrapped position is the position relative to the field. -/
theorem C52_unwrap (b : ℝ) (hb : b ≤ 90) (obs : List Obs) (hr : Spec.Regular b obs) (f : String) (i : ℕ) (o : Obs)
    (ho : (obs.filter (·.field = f))[i]? = some o) : ∃ p, (unwrap b (obs.filter (·.field = f)))[i]? = some p ∧ Spec.Place b o p := by
  rw [unwrap_eq, List.getElem?_map, ho]
  refine ⟨_, rfl, ?_⟩
  have hm := List.mem_filter.1 (List.mem_of_getElem? ho)
  have hof : o.field = f := of_decide_eq_true hm.2
  set g := obs.filter (·.field = f) with hg
  have hall : ∀ o' ∈ g, o'.fieldRA = o.fieldRA := by
    intro o' ho'
    have hm' := List.mem_filter.1 ho'
    exact hr.sameField o' hm'.1 o hm.1 ((of_decide_eq_true hm'.2).trans hof.symm)
  have hog : o ∈ g := List.mem_of_getElem? ho
  have hex1 : (∃ o' ∈ g, o'.fieldRA + b > 360) ↔ o.fieldRA + b > 360 :=
    ⟨fun ⟨o', h, h'⟩ => by rw [hall o' h] at h'; exact h', fun h => ⟨o, hog, h⟩⟩
  have hex2 : (∃ o' ∈ g, o'.fieldRA - b < 0) ↔ o.fieldRA - b < 0 :=
    ⟨fun ⟨o', h, h'⟩ => by rw [hall o' h] at h'; exact h', fun h => ⟨o, hog, h⟩⟩
  obtain ⟨hf0, hf1⟩ := hr.fieldRange o hm.1
  obtain ⟨hr0, hr1⟩ := hr.raRange o hm.1
  obtain ⟨r, ⟨n, hn⟩, habs⟩ := hr.near o hm.1
  rw [abs_lt] at habs
  have hn1 : n = 0 ∨ n = 1 ∨ n = -1 := by
    have h1 : (n : ℝ) < 2 := by linarith
    have h2 : (-2 : ℝ) < n := by linarith
    have h1' : n < 2 := by exact_mod_cast h1
    have h2' : -2 < n := by exact_mod_cast h2
    omega
  unfold shift
  simp only [hex1, hex2]
  rw [if_pos (by linarith : b < 180)]
  by_cases h1 : o.fieldRA + b > 360
  · rw [if_pos h1, if_neg (by linarith : ¬ o.fieldRA - b < 0)]
    by_cases h3 : o.ra < 180
    · rw [if_pos h3]
      refine ⟨⟨⟨1, by push_cast; ring⟩, ?_⟩, rfl⟩
      rw [abs_lt]
      rcases hn1 with h | h | h <;> rw [h] at hn <;> push_cast at hn <;> constructor <;> linarith
    · rw [if_neg h3]
      refine ⟨⟨⟨0, by push_cast; ring⟩, ?_⟩, rfl⟩
      rw [abs_lt]
      rcases hn1 with h | h | h <;> rw [h] at hn <;> push_cast at hn <;> constructor <;> linarith
  · rw [if_neg h1]
    by_cases h2 : o.fieldRA - b < 0
    · rw [if_pos h2]
      by_cases h3 : o.ra > 180
      · rw [if_pos h3]
        refine ⟨⟨⟨-1, by push_cast; ring⟩, ?_⟩, rfl⟩
        rw [abs_lt]
        rcases hn1 with h | h | h <;> rw [h] at hn <;> push_cast at hn <;> constructor <;> linarith
      · rw [if_neg h3]
        refine ⟨⟨⟨0, by push_cast; ring⟩, ?_⟩, rfl⟩
        rw [abs_lt]
        rcases hn1 with h | h | h <;> rw [h] at hn <;> push_cast at hn <;> constructor <;> linarith
    · rw [if_neg h2]
      refine ⟨⟨⟨0, by push_cast; ring⟩, ?_⟩, rfl⟩
      rw [abs_lt]
      rcases hn1 with h | h | h <;> rw [h] at hn <;> push_cast at hn <;> constructor <;> linarith

section
variable {x : Ext} {ccdNum : ℕ} {b : ℝ} {db : String → List Chip} {obs : List Obs}

theorem shift_place (hb : b ≤ 90) (hr : Spec.Regular b obs) {o : Obs} (ho : o ∈ obs) : Spec.Place b o (shift b (group obs o.field) o) := by
  have hm : o ∈ obs.filter (fun o' => decide (o'.field = o.field)) := List.mem_filter.2 ⟨ho, by simp⟩
  obtain ⟨i, hi⟩ := List.mem_iff_getElem?.1 hm
  obtain ⟨p, hp, hpl⟩ := C52_unwrap b hb obs hr o.field i o hi
  rw [unwrap_eq, List.getElem?_map, hi] at hp
  have := Option.some.inj hp
  unfold group
  rw [this]
  exact hpl

theorem place_unique (hb : b ≤ 90) {o : Obs} {p q : ℝ × ℝ} (hp : Spec.Place b o p) (hq : Spec.Place b o q) : p = q := by
  obtain ⟨⟨⟨n, hn⟩, h1⟩, h2⟩ := hp
  obtain ⟨⟨⟨m, hm⟩, h3⟩, h4⟩ := hq
  rw [abs_lt] at h1 h3
  have hnm : n = m := by
    have a1 : (n - m : ℝ) < 1 := by linarith
    have a2 : (-1 : ℝ) < n - m := by linarith
    have a1' : n - m < 1 := by exact_mod_cast a1
    have a2' : -1 < n - m := by exact_mod_cast a2
    omega
  apply Prod.ext
  · rw [hn, hm, hnm]
  · rw [h2, h4]

/-- The chip found for a row is one of its visit and contains its position. -/
theorem hit_sound (hb : b ≤ 90) (hr : Spec.Regular b obs) {o : Obs} (ho : o ∈ obs) {c : Chip} (hc : hitOf x ccdNum b db obs o = some c) :
    c ∈ db o.field ∧ ∃ p, Spec.Place b o p ∧ x.contains c p = true := by
  unfold hitOf at hc
  by_cases hd : db o.field = []
  · rw [if_pos hd] at hc; exact absurd hc (by simp)
  rw [if_neg hd] at hc
  unfold firstHit at hc
  have h1 := List.mem_of_find?_eq_some hc
  have h2 := List.find?_some hc
  rw [List.mem_filterMap] at h1
  obtain ⟨i, -, hi⟩ := h1
  exact ⟨List.mem_of_getElem? hi, _, shift_place hb hr ho, h2⟩

/-- C52 (what is kept): the filter never fails; the rows that stay are rows of the table, each at most once and in their order, and each
carries the identifier and the limiting magnitude of a chip of its own visit that contains its position. -/
theorem C52_sound (hs : Spec.Sound x) (hf : Spec.FreshIndex obs) (hb : b ≤ 90) (hr : Spec.Regular b obs) :
    ∃ out, applyVisits x ccdNum b db obs = some out ∧ (out.map (·.obs)).Sublist obs ∧
      ∀ r ∈ out, ∃ chip ∈ db r.obs.field, ∃ p, Spec.Place b r.obs p ∧ x.contains chip p = true ∧
        r.detectorID = chip.detectorID ∧ r.limMag = chip.limMag := by
  refine ⟨_, applyVisits_eq hs hf, ?_, ?_⟩
  · have : ∀ l : List Obs, ((l.filterMap (rowOf x ccdNum b db obs)).map (·.obs)).Sublist l := by
      intro l
      induction l with
      | nil => simp
      | cons o l ih =>
        rw [List.filterMap_cons]
        cases h : rowOf x ccdNum b db obs o with
        | none => exact ih.trans (List.sublist_cons_self _ _)
        | some r =>
          unfold rowOf at h
          rw [Option.map_eq_some_iff] at h
          obtain ⟨c, -, rfl⟩ := h
          exact ih.cons_cons o
    exact this obs
  · intro r hr'
    rw [List.mem_filterMap] at hr'
    obtain ⟨o, ho, h⟩ := hr'
    unfold rowOf at h
    rw [Option.map_eq_some_iff] at h
    obtain ⟨c, hc, rfl⟩ := h
    obtain ⟨h1, p, h2, h3⟩ := hit_sound hb hr ho hc
    exact ⟨c, h1, p, h2, h3, rfl, rfl⟩

theorem refPoints_get (chips : List Chip) (k t : ℕ) (c : Chip) (hk : chips[k]? = some c) (ht : t < 5) :
    (refPoints chips)[5 * k + t]? = (Spec.refs c)[t]? := by
  induction chips generalizing k with
  | nil => simp at hk
  | cons c0 chips ih =>
    unfold refPoints
    rw [List.flatMap_cons]
    cases k with
    | zero =>
      simp only [List.getElem?_cons_zero, Option.some.injEq] at hk
      subst hk
      rw [List.getElem?_append_left (by simp; omega)]
      simp [Spec.refs]
    | succ k =>
      rw [List.getElem?_append_right (by simp; omega)]
      have : 5 * (k + 1) + t - [c0.centre, c0.llc, c0.lrc, c0.urc, c0.ulc].length = 5 * k + t := by simp; omega
      rw [this]
      exact ih k (by simpa using hk)

theorem refPoints_length (chips : List Chip) : (refPoints chips).length = 5 * chips.length := by
  induction chips with
  | nil => rfl
  | cons c chips ih =>
    unfold refPoints at *
    rw [List.flatMap_cons, List.length_append, ih]
    simp; omega

/-- If a reference point has at most `k` reference points at most as far as itself, it is among the `k` nearest. -/
theorem mem_knn {pts : List (ℝ × ℝ)} {k : ℕ} {p a : ℝ × ℝ} {r : List ℕ} (hr : Spec.IsNearest pts (min k pts.length) p r) {i : ℕ}
    (hi : pts[i]? = some a) (hc : (pts.filter fun y => decide (Spec.sqDist p y ≤ Spec.sqDist p a)).length ≤ k) : i ∈ r := by
  classical
  by_contra hn
  have hil : i < pts.length := (List.getElem?_eq_some_iff.1 hi).1
  by_cases hk : pts.length ≤ k
  · have hlen : r.length = pts.length := by rw [hr.count]; omega
    have hsub : r ⊆ List.range pts.length := fun j hj => List.mem_range.2 (hr.valid j hj)
    have hperm := (List.subperm_of_subset hr.distinct hsub).perm_of_length_le (by rw [List.length_range, hlen])
    exact hn (hperm.mem_iff.2 (List.mem_range.2 hil))
  · have hlen : r.length = k := by rw [hr.count]; omega
    have hsub : (i :: r) ⊆ (List.range pts.length).filter fun j => decide (∀ y, pts[j]? = some y → Spec.sqDist p y ≤ Spec.sqDist p a) := by
      intro j hj
      rw [List.mem_filter]
      rcases List.mem_cons.1 hj with rfl | hj
      · refine ⟨List.mem_range.2 hil, ?_⟩
        rw [decide_eq_true_eq]
        intro y hy
        rw [hi] at hy
        rw [Option.some.inj hy]
      · refine ⟨List.mem_range.2 (hr.valid j hj), ?_⟩
        rw [decide_eq_true_eq]
        intro y hy
        exact hr.nearest j hj i hil hn y a hy hi
    have hnd : (i :: r).Nodup := List.nodup_cons.2 ⟨hn, hr.distinct⟩
    have hle := (List.subperm_of_subset hnd hsub).length_le
    have hcount : ((List.range pts.length).filter fun j => decide (∀ y, pts[j]? = some y → Spec.sqDist p y ≤ Spec.sqDist p a)).length =
        (pts.filter fun y => decide (Spec.sqDist p y ≤ Spec.sqDist p a)).length := by
      have hmap : (List.range pts.length).map (fun j => pts.getD j (0, 0)) = pts := by
        apply List.ext_getElem
        · simp
        · intro n h1 h2
          simp only [List.getElem_map, List.getElem_range]
          rw [List.getD_eq_getElem?_getD, List.getElem?_eq_getElem h2]
          rfl
      conv_rhs => rw [← hmap, List.filter_map, List.length_map]
      congr 1
      apply List.filter_congr
      intro j hj
      rw [List.mem_range] at hj
      simp only [Function.comp_apply, List.getD_eq_getElem?_getD, List.getElem?_eq_getElem hj, Option.getD_some, decide_eq_decide]
      exact ⟨fun h => h _ rfl, fun h y hy => by rw [← Option.some.inj hy]; exact h⟩
    have hle' := hle.trans_eq (Eq.trans (by congr!) hcount)
    rw [List.length_cons, hlen] at hle'
    omega

/-- C52 (what must be kept): an observation on a chip of its visit stays, provided the chip is the visit's only one, or one of the chip's
five reference points (centre and corners) is among the `ccdNum` (3) reference points nearest to the observation: at most `ccdNum`
reference points of the visit are as close. -/
theorem C52_complete (hs : Spec.Sound x) (hf : Spec.FreshIndex obs) (hb : b ≤ 90) (hr : Spec.Regular b obs) (o : Obs) (ho : o ∈ obs) (chip : Chip)
    (hchip : chip ∈ db o.field) (p : ℝ × ℝ) (hp : Spec.Place b o p) (hin : x.contains chip p = true)
    (hnear : (db o.field).length = 1 ∨ ∃ a ∈ Spec.refs chip,
      (((db o.field).flatMap Spec.refs).filter fun y => decide (Spec.sqDist p y ≤ Spec.sqDist p a)).length ≤ ccdNum) :
    ∃ out, applyVisits x ccdNum b db obs = some out ∧ o ∈ out.map (·.obs) := by
  classical
  refine ⟨_, applyVisits_eq hs hf, ?_⟩
  have hpp : p = shift b (group obs o.field) o := place_unique hb hp (shift_place hb hr ho)
  have hd : db o.field ≠ [] := List.ne_nil_of_mem hchip
  obtain ⟨k, hk⟩ := List.mem_iff_getElem?.1 hchip
  have hkl : k < (db o.field).length := (List.getElem?_eq_some_iff.1 hk).1
  have hcand : k ∈ candidates x ccdNum (db o.field) ((group obs o.field).map (shift b (group obs o.field))) := by
    unfold candidates
    rw [(hs.order _).mem_iff]
    by_cases hone : (db o.field).length > 1
    · rw [if_pos hone, List.mem_dedup, List.mem_flatMap]
      refine ⟨shift b (group obs o.field) o, List.mem_map_of_mem (List.mem_filter.2 ⟨ho, by simp⟩), ?_⟩
      rw [List.mem_map]
      rcases hnear with h1 | ⟨a, ha, hc⟩
      · omega
      · obtain ⟨t, ht⟩ := List.mem_iff_getElem?.1 ha
        have ht5 : t < 5 := by
          have := (List.getElem?_eq_some_iff.1 ht).1
          simpa [Spec.refs] using this
        refine ⟨5 * k + t, ?_, by omega⟩
        rw [← hpp]
        exact mem_knn (hs.knn _ _ _ (min_le_right _ _)) (by rw [refPoints_get _ k t chip hk ht5]; exact ht) hc
    · rw [if_neg hone]
      rw [List.mem_singleton]
      omega
  have hhit : ∃ c, hitOf x ccdNum b db obs o = some c := by
    unfold hitOf
    rw [if_neg hd]
    unfold firstHit
    rw [← Option.isSome_iff_exists, List.find?_isSome]
    exact ⟨chip, List.mem_filterMap.2 ⟨k, hcand, hk⟩, by rw [← hpp]; exact hin⟩
  obtain ⟨c, hc⟩ := hhit
  rw [List.mem_map]
  refine ⟨⟨o, c.detectorID, c.limMag⟩, List.mem_filterMap.2 ⟨o, ho, ?_⟩, rfl⟩
  unfold rowOf
  rw [hc]
  rfl

end

end Sorcha.Visits.Props
