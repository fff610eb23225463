import Verif.Visits.Props
import Mathlib.Tactic.FieldSimp

/-!
# Property C52: examples and cases where the English property fails
-/

namespace Sorcha.Visits.Props
open Sorcha.Visits

theorem exists_nearest (pts : List (ℝ × ℝ)) (k : ℕ) (p : ℝ × ℝ) (hk : k ≤ pts.length) : ∃ r, Spec.IsNearest pts k p r := by
  classical
  let key : ℕ → ℝ := fun i => Spec.sqDist p (pts.getD i (0, 0))
  let rel : ℕ → ℕ → Prop := fun i j => key i ≤ key j
  haveI : Std.Total rel := ⟨fun i j => le_total (key i) (key j)⟩
  haveI : IsTrans ℕ rel := ⟨fun i j l h1 h2 => le_trans (a := key i) h1 h2⟩
  set s := List.insertionSort rel (List.range pts.length) with hs
  have hperm : s.Perm (List.range pts.length) := List.perm_insertionSort _ _
  have hsorted : s.Pairwise rel := List.pairwise_insertionSort _ _
  have hlen : s.length = pts.length := by rw [hperm.length_eq, List.length_range]
  have hnd : s.Nodup := hperm.nodup_iff.2 List.nodup_range
  refine ⟨s.take k, ?_, ?_, ?_, ?_⟩
  · rw [List.length_take, hlen]; omega
  · exact hnd.sublist (List.take_sublist _ _)
  · intro i hi
    exact List.mem_range.1 (hperm.mem_iff.1 (List.mem_of_mem_take hi))
  · intro i hi j hj hn a c ha hc
    have hjs : j ∈ s := hperm.mem_iff.2 (List.mem_range.2 hj)
    rw [← List.take_append_drop k s, List.mem_append] at hjs
    have hjd := hjs.resolve_left hn
    have hp := hsorted
    rw [← List.take_append_drop k s, List.pairwise_append] at hp
    have := hp.2.2 i hi j hjd
    simp only [rel, key, List.getD_eq_getElem?_getD, ha, hc, Option.getD_some] at this
    exact this

/-- Outside functions that behave as documented exist. -/
theorem exists_sound : ∃ x : Ext, Spec.Sound x ∧ Spec.Rectangles x := by
  classical
  refine ⟨⟨fun c p => decide (c.llc.1 < p.1 ∧ p.1 < c.urc.1 ∧ c.llc.2 < p.2 ∧ p.2 < c.urc.2),
    fun pts k p => if h : k ≤ pts.length then (exists_nearest pts k p h).choose else [], id, id⟩, ⟨?_, ?_, ?_⟩, ?_⟩
  · intro pts k p hk
    simp only [dif_pos hk]
    exact (exists_nearest pts k p hk).choose_spec
  · intro l; exact List.Perm.refl _
  · intro l; exact List.Perm.refl _
  · rintro c x0 x1 y0 y1 ⟨-, -, h1, -, h2, -⟩ p
    simp only [h1, h2, decide_eq_true_eq]

/-- A point with `k` strictly closer points is not among the `k` nearest. -/
theorem not_mem_knn {pts : List (ℝ × ℝ)} {k : ℕ} {p : ℝ × ℝ} {r : List ℕ} (hr : Spec.IsNearest pts k p r) {i : ℕ} (S : List ℕ) (hS : S.Nodup)
    (hk : k ≤ S.length) (hi : i ∉ S) {a : ℝ × ℝ} (ha : pts[i]? = some a)
    (hc : ∀ j ∈ S, ∃ c, pts[j]? = some c ∧ Spec.sqDist p c < Spec.sqDist p a) : i ∉ r := by
  intro hir
  have hsub : (i :: S) ⊆ r := by
    intro j hj
    rcases List.mem_cons.1 hj with rfl | hj
    · exact hir
    · by_contra hn
      obtain ⟨c, h1, h2⟩ := hc j hj
      exact absurd (hr.nearest i hir j (List.getElem?_eq_some_iff.1 h1).1 hn a c ha h1) (not_le.2 h2)
  have := (List.subperm_of_subset (List.nodup_cons.2 ⟨hi, hS⟩) hsub).length_le
  rw [List.length_cons, hr.count] at this
  omega

/-- A long chip. -/
noncomputable def long : Chip := ⟨(100, 0), (110, 0), (110, 1), (100, 1), (105, 1 / 2), 1, 24⟩
/-- A small chip next to its long side. -/
noncomputable def small : Chip := ⟨(102, 1), (103, 1), (103, 2), (102, 2), (205 / 2, 3 / 2), 2, 25⟩
/-- An observation on the long chip, near the small one. -/
noncomputable def target : Obs := ⟨0, "v1", 205 / 2, 9 / 10, 105⟩
/-- An observation of another object, on the long chip. -/
noncomputable def other : Obs := ⟨1, "v1", 201 / 2, 1 / 2, 105⟩

theorem long_rect : Spec.IsRectangle long 100 110 0 1 := by
  refine ⟨by norm_num, by norm_num, rfl, rfl, rfl, rfl⟩

theorem small_rect : Spec.IsRectangle small 102 103 1 2 := by
  refine ⟨by norm_num, by norm_num, rfl, rfl, rfl, rfl⟩

theorem place_target : Spec.Place 20 target (205 / 2, 9 / 10) :=
  ⟨⟨⟨0, by simp [target]⟩, by simp only [target]; rw [abs_lt]; constructor <;> norm_num⟩, rfl⟩

theorem place_other : Spec.Place 20 other (201 / 2, 1 / 2) :=
  ⟨⟨⟨0, by simp [other]⟩, by simp only [other]; rw [abs_lt]; constructor <;> norm_num⟩, rfl⟩

theorem regular_one : Spec.Regular 20 [target] := by
  constructor
  · intro o ho o' ho' _; simp only [List.mem_singleton] at ho ho'; rw [ho, ho']
  · intro o ho; simp only [List.mem_singleton] at ho; subst ho; constructor <;> norm_num [target]
  · intro o ho; simp only [List.mem_singleton] at ho; subst ho; constructor <;> norm_num [target]
  · intro o ho; simp only [List.mem_singleton] at ho; subst ho; exact ⟨_, place_target.1⟩

theorem regular_two : Spec.Regular 20 [target, other] := by
  constructor
  · intro o ho o' ho' _
    simp only [List.mem_cons, List.not_mem_nil, or_false] at ho ho'
    rcases ho with rfl | rfl <;> rcases ho' with rfl | rfl <;> rfl
  · intro o ho
    simp only [List.mem_cons, List.not_mem_nil, or_false] at ho
    rcases ho with rfl | rfl <;> constructor <;> norm_num [target, other]
  · intro o ho
    simp only [List.mem_cons, List.not_mem_nil, or_false] at ho
    rcases ho with rfl | rfl <;> constructor <;> norm_num [target, other]
  · intro o ho
    simp only [List.mem_cons, List.not_mem_nil, or_false] at ho
    rcases ho with rfl | rfl
    · exact ⟨_, place_target.1⟩
    · exact ⟨_, place_other.1⟩

theorem fresh_one : Spec.FreshIndex [target] := by
  intro i o h
  match i with
  | 0 => simp at h; subst h; rfl
  | i + 1 => simp at h

theorem fresh_two : Spec.FreshIndex [target, other] := by
  intro i o h
  match i with
  | 0 => simp at h; subst h; rfl
  | 1 => simp at h; subst h; rfl
  | i + 2 => simp at h

theorem refPoints_two : refPoints [long, small] = [(105, 1 / 2), (100, 0), (110, 0), (110, 1), (100, 1),
    (205 / 2, 3 / 2), (102, 1), (103, 1), (103, 2), (102, 2)] := rfl

/-- Near the small chip, the three nearest reference points all belong to it. -/
theorem knn_target {x : Ext} (hs : Spec.Sound x) : ∀ i ∈ x.knn (refPoints [long, small]) 3 (205 / 2, 9 / 10), i / 5 = 1 := by
  intro i hi
  have hn := hs.knn (refPoints [long, small]) 3 (205 / 2, 9 / 10) (by rw [refPoints_two]; simp)
  have hv := hn.valid i hi
  rw [refPoints_two] at hv
  simp only [List.length_cons, List.length_nil] at hv
  by_contra h
  have hlt : i < 5 := by omega
  have key : ∀ a, (refPoints [long, small])[i]? = some a → Spec.sqDist (205 / 2, 9 / 10) a > 1 → False := by
    intro a ha hd
    refine not_mem_knn hn [5, 6, 7] (by decide) (le_refl _) ?_ ha ?_ hi
    · simp only [List.mem_cons, List.not_mem_nil, or_false]; omega
    · intro j hj
      simp only [List.mem_cons, List.not_mem_nil, or_false] at hj
      rcases hj with rfl | rfl | rfl
      · exact ⟨(205 / 2, 3 / 2), rfl, lt_trans (by norm_num [Spec.sqDist]) hd⟩
      · exact ⟨(102, 1), rfl, lt_trans (by norm_num [Spec.sqDist]) hd⟩
      · exact ⟨(103, 1), rfl, lt_trans (by norm_num [Spec.sqDist]) hd⟩
  interval_cases i
  · exact key (105, 1 / 2) rfl (by norm_num [Spec.sqDist])
  · exact key (100, 0) rfl (by norm_num [Spec.sqDist])
  · exact key (110, 0) rfl (by norm_num [Spec.sqDist])
  · exact key (110, 1) rfl (by norm_num [Spec.sqDist])
  · exact key (100, 1) rfl (by norm_num [Spec.sqDist])

theorem min_three : min 3 (refPoints [long, small]).length = 3 := by rw [refPoints_two]; simp

/-- C52 fails (preselection): "an observation on a chip of its visit is kept" is false. Only the chips of the three nearest reference points
are examined, and a point of a long chip can be closer to three reference points of its neighbour. It fails for every polygon library
and every nearest neighbour search that do as documented. -/
theorem C52_preselection_fails : ∀ x : Ext, Spec.Sound x → Spec.Rectangles x →
    ∃ (db : String → List Chip) (obs : List Obs) (o : Obs) (chip : Chip) (p : ℝ × ℝ), Spec.FreshIndex obs ∧ Spec.Regular 20 obs ∧
      o ∈ obs ∧ chip ∈ db o.field ∧ Spec.Place 20 o p ∧ x.contains chip p = true ∧ applyVisits x 3 20 db obs = some [] := by
  intro x hs hx
  refine ⟨fun _ => [long, small], [target], target, long, (205 / 2, 9 / 10), fresh_one, regular_one, by simp, by simp, place_target, ?_, ?_⟩
  · rw [hx _ _ _ _ _ long_rect]; norm_num
  · rw [applyVisits_eq hs fresh_one]
    have hsh : shift 20 (group [target] "v1") target = (205 / 2, 9 / 10) :=
      place_unique (by norm_num) (shift_place (by norm_num) regular_one (by simp)) place_target
    have hg : group [target] "v1" = [target] := by simp [group, target]
    have : rowOf x 3 20 (fun _ => [long, small]) [target] target = none := by
      unfold rowOf hitOf
      rw [if_neg (by simp)]
      have hf : target.field = "v1" := rfl
      rw [hf, hsh]
      rw [Option.map_eq_none_iff]
      unfold firstHit
      rw [List.find?_eq_none]
      intro c hc
      rw [List.mem_filterMap] at hc
      obtain ⟨k, hk, hc⟩ := hc
      unfold candidates at hk
      rw [(hs.order _).mem_iff, if_pos (by simp), List.mem_dedup, List.mem_flatMap] at hk
      obtain ⟨q, hq, hk⟩ := hk
      rw [hg] at hq hsh
      simp only [List.map_cons, List.map_nil, List.mem_singleton] at hq
      rw [hsh] at hq
      rw [hq, min_three, List.mem_map] at hk
      obtain ⟨i, hi, rfl⟩ := hk
      rw [knn_target hs i hi] at hc
      have : c = small := (Option.some.inj hc).symm
      rw [this, hx _ _ _ _ _ small_rect]
      norm_num
    simp [this]

/-- C52 fails (other objects): whether an observation is kept depends on the other observations of the visit that are processed with it.
The same observation is dropped when it is alone in the chunk and kept when an observation of another object is there too. So the output
depends on how the objects are divided into chunks. -/
theorem C52_other_objects_fails : ∀ x : Ext, Spec.Sound x → Spec.Rectangles x →
    ∃ (db : String → List Chip) (o o' : Obs), Spec.Regular 20 [o, o'] ∧ Spec.FreshIndex [o, o'] ∧ Spec.FreshIndex [o] ∧
      applyVisits x 3 20 db [o] = some [] ∧ ∃ out, applyVisits x 3 20 db [o, o'] = some out ∧ o ∈ out.map (·.obs) := by
  intro x hs hx
  refine ⟨fun _ => [long, small], target, other, regular_two, fresh_two, fresh_one, ?_, _, applyVisits_eq hs fresh_two, ?_⟩
  · rw [applyVisits_eq hs fresh_one]
    have hsh : shift 20 (group [target] "v1") target = (205 / 2, 9 / 10) :=
      place_unique (by norm_num) (shift_place (by norm_num) regular_one (by simp)) place_target
    have hg : group [target] "v1" = [target] := by simp [group, target]
    have : rowOf x 3 20 (fun _ => [long, small]) [target] target = none := by
      unfold rowOf hitOf
      rw [if_neg (by simp)]
      have hf : target.field = "v1" := rfl
      rw [hf, hsh]
      rw [Option.map_eq_none_iff]
      unfold firstHit
      rw [List.find?_eq_none]
      intro c hc
      rw [List.mem_filterMap] at hc
      obtain ⟨k, hk, hc⟩ := hc
      unfold candidates at hk
      rw [(hs.order _).mem_iff, if_pos (by simp), List.mem_dedup, List.mem_flatMap] at hk
      obtain ⟨q, hq, hk⟩ := hk
      rw [hg] at hq hsh
      simp only [List.map_cons, List.map_nil, List.mem_singleton] at hq
      rw [hsh] at hq
      rw [hq, min_three, List.mem_map] at hk
      obtain ⟨i, hi, rfl⟩ := hk
      rw [knn_target hs i hi] at hc
      have : c = small := (Option.some.inj hc).symm
      rw [this, hx _ _ _ _ _ small_rect]
      norm_num
    simp [this]
  · have hsh : shift 20 (group [target, other] "v1") target = (205 / 2, 9 / 10) :=
      place_unique (by norm_num) (shift_place (by norm_num) regular_two (by simp)) place_target
    have hsh' : shift 20 (group [target, other] "v1") other = (201 / 2, 1 / 2) :=
      place_unique (by norm_num) (shift_place (by norm_num) regular_two (by simp)) place_other
    have hg : group [target, other] "v1" = [target, other] := by simp [group, target, other]
    have hcand : 0 ∈ candidates x 3 [long, small] ((group [target, other] "v1").map (shift 20 (group [target, other] "v1"))) := by
      unfold candidates
      rw [(hs.order _).mem_iff, if_pos (by simp), List.mem_dedup, List.mem_flatMap]
      refine ⟨(201 / 2, 1 / 2), ?_, List.mem_map.2 ⟨1, ?_, rfl⟩⟩
      · rw [← hsh', hg]; simp
      · refine mem_knn (a := (100, 0)) (hs.knn _ _ _ (min_le_right _ _)) rfl ?_
        rw [refPoints_two]
        norm_num [Spec.sqDist, List.filter_cons]
    have hhit : ∃ c, hitOf x 3 20 (fun _ => [long, small]) [target, other] target = some c := by
      unfold hitOf
      rw [if_neg (by simp)]
      unfold firstHit
      rw [← Option.isSome_iff_exists, List.find?_isSome]
      refine ⟨long, List.mem_filterMap.2 ⟨0, hcand, rfl⟩, ?_⟩
      have hf : target.field = "v1" := rfl
      rw [hf, hsh, hx _ _ _ _ _ long_rect]
      norm_num
    obtain ⟨c, hc⟩ := hhit
    rw [List.mem_map]
    refine ⟨⟨target, c.detectorID, c.limMag⟩, List.mem_filterMap.2 ⟨target, by simp, ?_⟩, rfl⟩
    unfold rowOf
    rw [hc]
    rfl

/-- The observation of the single visit `v1` with a single chip, for the two theorems below. -/
theorem single_dropped {x : Ext} (hs : Spec.Sound x) (o : Obs) (hl : o.label = 0) (chip : Chip) (b : ℝ)
    (h : x.contains chip (shift b (group [o] o.field) o) = false) : applyVisits x 3 b (fun _ => [chip]) [o] = some [] := by
  have hf : Spec.FreshIndex [o] := by
    intro i o' h'
    match i with
    | 0 => simp at h'; subst h'; exact hl
    | i + 1 => simp at h'
  rw [applyVisits_eq hs hf]
  have : rowOf x 3 b (fun _ => [chip]) [o] o = none := by
    unfold rowOf hitOf
    rw [if_neg (by simp), Option.map_eq_none_iff]
    unfold firstHit
    rw [List.find?_eq_none]
    intro c hc
    rw [List.mem_filterMap] at hc
    obtain ⟨k, hk, hc⟩ := hc
    have hk0 : k = 0 := by
      unfold candidates at hk
      rw [(hs.order _).mem_iff] at hk
      simpa using hk
    rw [hk0] at hc
    have : c = chip := (Option.some.inj hc).symm
    rw [this, h]
    simp
  simp [this]

/-- C52 fails (large search radius): for a search radius between 90 and 180 degrees an observation inside the only chip of its visit is
dropped, because its right ascension is moved by a turn although it need not be. -/
theorem C52_large_radius_fails : ∀ x : Ext, Spec.Sound x → Spec.Rectangles x →
    ∃ (b : ℝ) (chip : Chip) (o : Obs) (p : ℝ × ℝ), b < 180 ∧ Spec.Regular b [o] ∧ Spec.FreshIndex [o] ∧ Spec.Place b o p ∧
      p = (o.ra, o.dec) ∧ x.contains chip p = true ∧ applyVisits x 3 b (fun _ => [chip]) [o] = some [] := by
  intro x hs hx
  have hrect : Spec.IsRectangle ⟨(160, -10), (180, -10), (180, 10), (160, 10), (170, 0), 1, 24⟩ 160 180 (-10) 10 := by
    refine ⟨by norm_num, by norm_num, rfl, rfl, rfl, rfl⟩
  have hpl : Spec.Place 175 ⟨0, "v1", 170, 0, 190⟩ (170, 0) :=
    ⟨⟨⟨0, by simp⟩, by simp only; rw [abs_lt]; constructor <;> norm_num⟩, rfl⟩
  refine ⟨175, ⟨(160, -10), (180, -10), (180, 10), (160, 10), (170, 0), 1, 24⟩, ⟨0, "v1", 170, 0, 190⟩, (170, 0), by norm_num, ?_, ?_,
    hpl, rfl, ?_, ?_⟩
  · constructor
    · intro o ho o' ho' _; simp only [List.mem_singleton] at ho ho'; rw [ho, ho']
    · intro o ho; simp only [List.mem_singleton] at ho; subst ho; constructor <;> norm_num
    · intro o ho; simp only [List.mem_singleton] at ho; subst ho; constructor <;> norm_num
    · intro o ho; simp only [List.mem_singleton] at ho; subst ho; exact ⟨_, hpl.1⟩
  · intro i o' h'
    match i with
    | 0 => simp at h'; subst h'; rfl
    | i + 1 => simp at h'
  · rw [hx _ _ _ _ _ hrect]; norm_num
  · refine single_dropped hs _ rfl _ _ ?_
    have : shift 175 (group [⟨0, "v1", 170, 0, 190⟩] "v1") ⟨0, "v1", 170, 0, 190⟩ = (530, 0) := by
      unfold shift group; norm_num
    rw [this, ← Bool.not_eq_true, hx _ _ _ _ _ hrect]
    norm_num

/-- C52 fails (high declination): the search radius is compared with differences of right ascension. At declination 60 a difference of
4 degrees in right ascension is about 2 degrees on the sky, inside the default search radius of 2.26 degrees, but the observation on the other
side of right ascension 0 is not moved, and is dropped although it is inside the only chip of its visit. -/
theorem C52_high_declination_fails : ∀ x : Ext, Spec.Sound x → Spec.Rectangles x →
    ∃ (chip : Chip) (o : Obs), o.dec = 60 ∧ o.fieldRA = 357 ∧ o.ra = 1 ∧ x.contains chip (o.ra + 360, o.dec) = true ∧
      applyVisits x 3 (226 / 100) (fun _ => [chip]) [o] = some [] := by
  intro x hs hx
  have hrect : Spec.IsRectangle ⟨(352, 59), (362, 59), (362, 61), (352, 61), (357, 60), 1, 24⟩ 352 362 59 61 := by
    refine ⟨by norm_num, by norm_num, rfl, rfl, rfl, rfl⟩
  refine ⟨⟨(352, 59), (362, 59), (362, 61), (352, 61), (357, 60), 1, 24⟩, ⟨0, "v1", 1, 60, 357⟩, rfl, rfl, rfl, ?_, ?_⟩
  · rw [hx _ _ _ _ _ hrect]; norm_num
  · refine single_dropped hs _ rfl _ _ ?_
    have : shift (226 / 100) (group [⟨0, "v1", 1, 60, 357⟩] "v1") ⟨0, "v1", 1, 60, 357⟩ = (1, 60) := by
      unfold shift group; norm_num
    rw [this, ← Bool.not_eq_true, hx _ _ _ _ _ hrect]
    norm_num

/-- The hypotheses of `C52_sound` and `C52_complete` can be met: an observation on the other side of right ascension 0 is kept. -/
example : ∃ x : Ext, ∃ out, applyVisits x 3 (226 / 100) (fun _ => [⟨(358, -1), (361, -1), (361, 1), (358, 1), (359.5, 0), 7, 24⟩])
    [⟨0, "v1", 1 / 2, 0, 359⟩] = some out ∧ (⟨0, "v1", 1 / 2, 0, 359⟩ : Obs) ∈ out.map (·.obs) := by
  obtain ⟨x, hs, hx⟩ := exists_sound
  have hpl : Spec.Place (226 / 100) ⟨0, "v1", 1 / 2, 0, 359⟩ (721 / 2, 0) :=
    ⟨⟨⟨1, by norm_num⟩, by simp only; rw [abs_lt]; constructor <;> norm_num⟩, rfl⟩
  refine ⟨x, C52_complete hs ?_ (by norm_num) ?_ _ (by simp) ⟨(358, -1), (361, -1), (361, 1), (358, 1), (359.5, 0), 7, 24⟩ (by simp)
    (721 / 2, 0) hpl ?_ (Or.inl rfl)⟩
  · intro i o' h'
    match i with
    | 0 => simp at h'; subst h'; rfl
    | i + 1 => simp at h'
  · constructor
    · intro o ho o' ho' _; simp only [List.mem_singleton] at ho ho'; rw [ho, ho']
    · intro o ho; simp only [List.mem_singleton] at ho; subst ho; constructor <;> norm_num
    · intro o ho; simp only [List.mem_singleton] at ho; subst ho; constructor <;> norm_num
    · intro o ho; simp only [List.mem_singleton] at ho; subst ho; exact ⟨_, hpl.1⟩
  · rw [hx _ 358 361 (-1) 1 ⟨by norm_num, by norm_num, rfl, rfl, rfl, rfl⟩]; norm_num

/-- C52 fails (index): the labels of the table are used as row positions, so on a table whose index is not fresh the filter stops with an
error. -/
theorem C52_stale_index_fails : ∃ (x : Ext) (chip : Chip) (o : Obs), Spec.Sound x ∧ Spec.Rectangles x ∧ Spec.Regular 20 [o] ∧
    x.contains chip (o.ra, o.dec) = true ∧ applyVisits x 3 20 (fun _ => [chip]) [o] = none := by
  obtain ⟨x, hs, hx⟩ := exists_sound
  have hpl : Spec.Place 20 ⟨3, "v1", 205 / 2, 9 / 10, 105⟩ (205 / 2, 9 / 10) :=
    ⟨⟨⟨0, by simp⟩, by simp only; rw [abs_lt]; constructor <;> norm_num⟩, rfl⟩
  have hreg : Spec.Regular 20 [⟨3, "v1", 205 / 2, 9 / 10, 105⟩] := by
    constructor
    · intro o ho o' ho' _; simp only [List.mem_singleton] at ho ho'; rw [ho, ho']
    · intro o ho; simp only [List.mem_singleton] at ho; subst ho; constructor <;> norm_num
    · intro o ho; simp only [List.mem_singleton] at ho; subst ho; constructor <;> norm_num
    · intro o ho; simp only [List.mem_singleton] at ho; subst ho; exact ⟨_, hpl.1⟩
  have hin : x.contains long (205 / 2, 9 / 10) = true := by rw [hx _ _ _ _ _ long_rect]; norm_num
  refine ⟨x, long, ⟨3, "v1", 205 / 2, 9 / 10, 105⟩, hs, hx, hreg, hin, ?_⟩
  have hsh : shift 20 (group [⟨3, "v1", 205 / 2, 9 / 10, 105⟩] "v1") ⟨3, "v1", 205 / 2, 9 / 10, 105⟩ = (205 / 2, 9 / 10) :=
    place_unique (by norm_num) (shift_place (by norm_num) hreg (by simp)) hpl
  have hmem : (3, long) ∈ allHits x 3 20 (fun _ => [long]) [⟨3, "v1", 205 / 2, 9 / 10, 105⟩] := by
    rw [mem_allHits]
    refine ⟨_, List.mem_singleton_self _, rfl, ?_⟩
    unfold hitOf
    rw [if_neg (by simp)]
    simp only [hsh]
    unfold firstHit candidates
    have ho : x.order [0] = [0] := List.perm_singleton.1 (hs.order [0])
    simp [ho, hin]
  have hall : ∀ h ∈ allHits x 3 20 (fun _ => [long]) [⟨3, "v1", 205 / 2, 9 / 10, 105⟩], h.1 = 3 := by
    rintro ⟨l, c⟩ h
    rw [mem_allHits] at h
    obtain ⟨o, ho, hl, -⟩ := h
    simp only [List.mem_singleton] at ho
    subst ho
    exact hl.symm
  unfold applyVisits
  rw [Option.map_eq_none_iff]
  have h3 : ∃ c, (3, c) ∈ visitsFootprint x 3 20 (fun _ => [long]) [⟨3, "v1", 205 / 2, 9 / 10, 105⟩] := by
    unfold visitsFootprint
    simp only
    obtain ⟨c, hc⟩ : ∃ c, (allHits x 3 20 (fun _ => [long]) [⟨3, "v1", 205 / 2, 9 / 10, 105⟩]).reverse.find? (fun q => decide (q.1 = 3)) = some c := by
      rw [← Option.isSome_iff_exists, List.find?_isSome]
      exact ⟨_, List.mem_reverse.2 hmem, by simp⟩
    refine ⟨c.2, ?_⟩
    have hc1 : c.1 = 3 := by simpa using List.find?_some hc
    rw [List.mem_filterMap]
    refine ⟨3, ?_, ?_⟩
    · rw [(hs.order' _).mem_iff, List.mem_dedup, List.mem_map]
      exact ⟨_, hmem, rfl⟩
    · rw [hc, ← hc1]
  obtain ⟨c, hc⟩ := h3
  have : ∀ l : List (ℕ × Chip), (3, c) ∈ l → (l.mapM fun h => (([⟨3, "v1", 205 / 2, 9 / 10, 105⟩] : List Obs)[h.1]?).map
      fun o => (⟨o, h.2.detectorID, h.2.limMag⟩ : OutRow)) = none := by
    intro l
    induction l with
    | nil => simp
    | cons q l ih =>
      intro hm
      rw [List.mapM_cons]
      rcases List.mem_cons.1 hm with rfl | hm
      · rfl
      · rw [ih hm]
        cases (Option.map _ _ : Option OutRow) <;> rfl
  exact this _ hc

end Sorcha.Visits.Props
