import Verif.Driver.Spec
import Verif.Readers.Lemmas
import Mathlib.Tactic.Linarith
import Mathlib.Tactic.NormNum
import Mathlib.Tactic.Push
import Mathlib.Tactic.Ring
import Mathlib.Tactic.FieldSimp
import Mathlib.Algebra.Order.Field.Basic

/-! # Lemmas about the ephemeris generator -/

namespace Sorcha.Driver
open Sorcha.Driver.Spec

variable {K U R S V G C : Type} [Field K] [LinearOrder K] [IsStrictOrderedRing K] [FloorRing K]

/-! ## One object among others -/

theorem unitVectors_not_mem (E : Env K U R S V G) (r : U) (t : K) (k : String) : ∀ (names : List String) (acc : (String → U) × (String → S)), k ∉ names →
    (unitVectors E r t names acc).1 k = acc.1 k ∧ (unitVectors E r t names acc).2 k = acc.2 k
  | [], acc, _ => ⟨rfl, rfl⟩
  | x :: xs, acc, h => by
    rw [List.mem_cons, not_or] at h
    simp only [unitVectors]
    obtain ⟨h1, h2⟩ := unitVectors_not_mem E r t k xs _ h.2
    rw [h1, h2]
    simp only [Function.update_of_ne h.1, and_self]

theorem unitVectors_mem (E : Env K U R S V G) (r : U) (t : K) (k : String) : ∀ (names : List String) (acc : (String → U) × (String → S)), names.Nodup → k ∈ names →
    (unitVectors E r t names acc).1 k = E.dir (E.step (acc.2 k) (t - E.jdRef) r).1 ∧ (unitVectors E r t names acc).2 k = (E.step (acc.2 k) (t - E.jdRef) r).2
  | [], acc, _, h => by simp at h
  | x :: xs, acc, hn, h => by
    simp only [unitVectors]
    rw [List.nodup_cons] at hn
    by_cases hx : k = x
    · subst hx
      obtain ⟨h1, h2⟩ := unitVectors_not_mem E r t k xs
        (Function.update acc.1 k (E.dir (E.step (acc.2 k) (t - E.jdRef) r).1), Function.update acc.2 k (E.step (acc.2 k) (t - E.jdRef) r).2) hn.1
      rw [h1, h2]
      simp only [Function.update_self, and_self]
    · obtain ⟨h1, h2⟩ := unitVectors_mem E r t k xs
        (Function.update acc.1 x (E.dir (E.step (acc.2 x) (t - E.jdRef) r).1), Function.update acc.2 x (E.step (acc.2 x) (t - E.jdRef) r).2) hn.2
        ((List.mem_cons.1 h).resolve_left hx)
      rw [h1, h2]
      simp only [Function.update_of_ne hx, and_self]

/-- Two tables agree on what concerns object `k`. -/
structure Same (k : String) (s s' : Table K U S) : Prop where
  tm : s.tm = s'.tm
  t0 : s.t0 = s'.t0
  tp : s.tp = s'.tp
  vm : s.vm k = s'.vm k
  v0 : s.v0 k = s'.v0 k
  vp : s.vp k = s'.vp k
  sims : s.sims k = s'.sims k
  pixels : ∀ p, k ∈ s.pixels p ↔ k ∈ s'.pixels p

theorem unitVectors_same (E : Env K U R S V G) (r : U) (t : K) {k : String} {A B : List String} (hA : A.Nodup) (hB : B.Nodup) (kA : k ∈ A) (kB : k ∈ B)
    {acc acc' : (String → U) × (String → S)} (h : acc.2 k = acc'.2 k) :
    (unitVectors E r t A acc).1 k = (unitVectors E r t B acc').1 k ∧ (unitVectors E r t A acc).2 k = (unitVectors E r t B acc').2 k := by
  rw [(unitVectors_mem E r t k A acc hA kA).1, (unitVectors_mem E r t k A acc hA kA).2, (unitVectors_mem E r t k B acc' hB kB).1,
    (unitVectors_mem E r t k B acc' hB kB).2, h]
  exact ⟨rfl, rfl⟩

theorem computePixels_same (E : Env K U R S V G) {k : String} {A B : List String} (kA : k ∈ A) (kB : k ∈ B) {s s' : Table K U S} (htm : s.tm = s'.tm) (ht0 : s.t0 = s'.t0)
    (htp : s.tp = s'.tp) (hvm : s.vm k = s'.vm k) (hv0 : s.v0 k = s'.v0 k) (hvp : s.vp k = s'.vp k) (hs : s.sims k = s'.sims k) :
    Same k (computePixels E A s) (computePixels E B s') where
  tm := htm
  t0 := ht0
  tp := htp
  vm := hvm
  v0 := hv0
  vp := hvp
  sims := hs
  pixels p := by
    simp only [computePixels, List.mem_filter, kA, kB, true_and, htm, ht0, htp, hvm, hv0, hvp]

theorem initTable_same (E : Env K U R S V G) {k : String} {A B : List String} (hA : A.Nodup) (hB : B.Nodup) (kA : k ∈ A) (kB : k ∈ B) {sims sims' : String → S}
    (h : sims k = sims' k) (t : K) : Same k (initTable E A sims t) (initTable E B sims' t) := by
  have m := unitVectors_same E (E.obs (t - E.interval)) (t - E.interval) hA hB kA kB (acc := (fun _ => E.obs t, sims)) (acc' := (fun _ => E.obs t, sims')) h
  have z := unitVectors_same E (E.obs t) t hA hB kA kB (acc := (fun _ => E.obs t, (unitVectors E (E.obs (t - E.interval)) (t - E.interval) A (fun _ => E.obs t, sims)).2))
    (acc' := (fun _ => E.obs t, (unitVectors E (E.obs (t - E.interval)) (t - E.interval) B (fun _ => E.obs t, sims')).2)) m.2
  have p := unitVectors_same E (E.obs (t + E.interval)) (t + E.interval) hA hB kA kB (acc := (fun _ => E.obs t, (unitVectors E (E.obs t) t A
      (fun _ => E.obs t, (unitVectors E (E.obs (t - E.interval)) (t - E.interval) A (fun _ => E.obs t, sims)).2)).2))
    (acc' := (fun _ => E.obs t, (unitVectors E (E.obs t) t B
      (fun _ => E.obs t, (unitVectors E (E.obs (t - E.interval)) (t - E.interval) B (fun _ => E.obs t, sims')).2)).2)) z.2
  exact computePixels_same E kA kB rfl rfl rfl m.1 z.1 p.1 p.2

theorem update_same (E : Env K U R S V G) {k : String} {A B : List String} (hA : A.Nodup) (hB : B.Nodup) (kA : k ∈ A) (kB : k ∈ B) {s s' : Table K U S}
    (h : Same k s s') (t : K) : Same k (update E A s t) (update E B s' t) := by
  unfold update
  simp only [h.t0]
  by_cases c1 : |t - s'.t0| > 1 / 2 * E.interval
  · simp only [c1, if_true]
    by_cases c2 : |t - s'.t0| ≤ 3 / 2 * E.interval
    · simp only [c2, if_true, h.tm, h.tp]
      by_cases c3 : t ≤ s'.tm
      · simp only [c3, if_true]
        have a := unitVectors_same E (E.obs (s'.tm - E.interval)) (s'.tm - E.interval) hA hB kA kB (acc := (fun _ => E.obs t, s.sims)) (acc' := (fun _ => E.obs t, s'.sims)) h.sims
        exact computePixels_same E kA kB rfl rfl rfl a.1 h.vm h.v0 a.2
      · simp only [c3, if_false]
        have a := unitVectors_same E (E.obs (s'.tp + E.interval)) (s'.tp + E.interval) hA hB kA kB (acc := (fun _ => E.obs t, s.sims)) (acc' := (fun _ => E.obs t, s'.sims)) h.sims
        exact computePixels_same E kA kB rfl rfl rfl h.v0 h.vp a.1 a.2
    · simp only [c2, if_false]
      have z := unitVectors_same E (E.obs (s'.t0 + roundEven ((t - s'.t0) / E.interval) * E.interval)) (s'.t0 + roundEven ((t - s'.t0) / E.interval) * E.interval) hA hB kA kB
        (acc := (fun _ => E.obs t, s.sims)) (acc' := (fun _ => E.obs t, s'.sims)) h.sims
      have p := unitVectors_same E (E.obs (s'.t0 + roundEven ((t - s'.t0) / E.interval) * E.interval + E.interval))
        (s'.t0 + roundEven ((t - s'.t0) / E.interval) * E.interval + E.interval) hA hB kA kB
        (acc := (fun _ => E.obs t, _)) (acc' := (fun _ => E.obs t, _)) z.2
      have m := unitVectors_same E (E.obs (s'.t0 + roundEven ((t - s'.t0) / E.interval) * E.interval - E.interval))
        (s'.t0 + roundEven ((t - s'.t0) / E.interval) * E.interval - E.interval) hA hB kA kB
        (acc := (fun _ => E.obs t, _)) (acc' := (fun _ => E.obs t, _)) p.2
      exact computePixels_same E kA kB rfl rfl rfl m.1 z.1 p.1 m.2
  · simp only [c1, if_false]
    exact h

/-! ## The candidates of a visit -/

theorem examine_obj (E : Env K U R S V G) (s : Table K U S) (v : Pointing.Visit V) : ∀ (ds : List String) (sims : String → S),
    ((examine E s v ds sims).1.map (·.obj)).Sublist ds
  | [], sims => by simp [examine]
  | k :: ks, sims => by
    simp only [examine]
    split_ifs
    · simp only [List.map_cons]
      exact (examine_obj E s v ks _).cons_cons k
    · exact (examine_obj E s v ks _).cons k
    · exact (examine_obj E s v ks _).cons k

theorem examine_not_mem (E : Env K U R S V G) (s : Table K U S) (v : Pointing.Visit V) (k : String) : ∀ (ds : List String) (sims : String → S), k ∉ ds →
    ((examine E s v ds sims).1.filter fun o => o.obj = k) = [] ∧ (examine E s v ds sims).2 k = sims k
  | [], sims, _ => by simp [examine]
  | x :: xs, sims, h => by
    rw [List.mem_cons, not_or] at h
    have hx : x ≠ k := fun e => h.1 e.symm
    simp only [examine]
    split_ifs
    · obtain ⟨h1, h2⟩ := examine_not_mem E s v k xs (Function.update sims x (E.step (sims x) (E.jd v - E.jdRef) (E.rObs v)).2) h.2
      refine ⟨?_, by rw [h2, Function.update_of_ne h.1]⟩
      rw [List.filter_cons, if_neg (by simpa using hx), h1]
    · obtain ⟨h1, h2⟩ := examine_not_mem E s v k xs (Function.update sims x (E.step (sims x) (E.jd v - E.jdRef) (E.rObs v)).2) h.2
      exact ⟨h1, by rw [h2, Function.update_of_ne h.1]⟩
    · exact examine_not_mem E s v k xs sims h.2

theorem examine_mem (E : Env K U R S V G) (s : Table K U S) (v : Pointing.Visit V) (k : String) : ∀ (ds : List String) (sims : String → S), ds.Nodup → k ∈ ds →
    ((examine E s v ds sims).1.filter fun o => o.obj = k) = (examine E s v [k] sims).1 ∧ (examine E s v ds sims).2 k = (examine E s v [k] sims).2 k
  | [], sims, _, h => by simp at h
  | x :: xs, sims, hn, h => by
    rw [List.nodup_cons] at hn
    by_cases hx : x = k
    · subst hx
      simp only [examine]
      split_ifs
      · obtain ⟨h1, h2⟩ := examine_not_mem E s v x xs (Function.update sims x (E.step (sims x) (E.jd v - E.jdRef) (E.rObs v)).2) hn.1
        refine ⟨?_, by rw [h2]⟩
        rw [List.filter_cons, if_pos (by simp), h1]
      · obtain ⟨h1, h2⟩ := examine_not_mem E s v x xs (Function.update sims x (E.step (sims x) (E.jd v - E.jdRef) (E.rObs v)).2) hn.1
        exact ⟨by rw [h1], by rw [h2]⟩
      · exact examine_not_mem E s v x xs sims hn.1
    · have hx' : k ≠ x := fun e => hx e.symm
      have key : ∀ sims' : String → S, sims' k = sims k →
          ((examine E s v xs sims').1.filter fun o => o.obj = k) = (examine E s v [k] sims).1 ∧ (examine E s v xs sims').2 k = (examine E s v [k] sims).2 k := by
        intro sims' e
        obtain ⟨h1, h2⟩ := examine_mem E s v k xs sims' hn.2 ((List.mem_cons.1 h).resolve_left hx')
        rw [h1, h2]
        simp only [examine, e]
        split_ifs <;> simp [e]
      simp only [examine.eq_def E s v (x :: xs)]
      split_ifs
      · have := key (Function.update sims x (E.step (sims x) (E.jd v - E.jdRef) (E.rObs v)).2) (Function.update_of_ne hx' _ _)
        refine ⟨?_, this.2⟩
        rw [List.filter_cons, if_neg (by simpa using hx)]; exact this.1
      · exact key _ (Function.update_of_ne hx' _ _)
      · exact key _ rfl

theorem examine_one_same (E : Env K U R S V G) {k : String} {s s' : Table K U S} (h : Same k s s') (v : Pointing.Visit V) :
    (examine E s v [k] s.sims).1 = (examine E s' v [k] s'.sims).1 ∧ (examine E s v [k] s.sims).2 k = (examine E s' v [k] s'.sims).2 k := by
  simp only [examine, h.tm, h.t0, h.tp, h.vm, h.v0, h.vp, h.sims]
  split_ifs <;> simp [h.sims]

theorem designations_nodup {E : Env K U R S V G} (ho : Iterates E) (s : Table K U S) (v : Pointing.Visit V) : (designations E s v).Nodup :=
  (ho _).nodup_iff.2 (List.nodup_dedup _)

theorem mem_designations {E : Env K U R S V G} (ho : Iterates E) (s : Table K U S) (v : Pointing.Visit V) (k : String) :
    k ∈ designations E s v ↔ ∃ p ∈ E.field v E.fov, k ∈ s.pixels p := by
  unfold designations
  rw [(ho _).mem_iff, List.mem_dedup, List.mem_flatMap]

theorem visit_same {E : Env K U R S V G} (ho : Iterates E) {k : String} {A B : List String} (hA : A.Nodup) (hB : B.Nodup) (kA : k ∈ A) (kB : k ∈ B) {s s' : Table K U S}
    (h : Same k s s') (v : Pointing.Visit V) :
    ((visit E A s v).1.filter fun o => o.obj = k) = ((visit E B s' v).1.filter fun o => o.obj = k) ∧ Same k (visit E A s v).2 (visit E B s' v).2 := by
  have h1 := update_same E hA hB kA kB h (E.jd v)
  have h2 := update_same E hA hB kA kB h1 (E.jd v)
  have hd : k ∈ designations E (update E A s (E.jd v)) v ↔ k ∈ designations E (update E B s' (E.jd v)) v := by
    rw [mem_designations ho, mem_designations ho]
    exact exists_congr fun p => and_congr_right fun _ => h1.pixels p
  have e := examine_one_same E h2 v
  by_cases hk : k ∈ designations E (update E A s (E.jd v)) v
  · have a := examine_mem E (update E A (update E A s (E.jd v)) (E.jd v)) v k _ (update E A (update E A s (E.jd v)) (E.jd v)).sims (designations_nodup ho _ v) hk
    have b := examine_mem E (update E B (update E B s' (E.jd v)) (E.jd v)) v k _ (update E B (update E B s' (E.jd v)) (E.jd v)).sims (designations_nodup ho _ v) (hd.1 hk)
    refine ⟨?_, ?_⟩
    · simp only [visit]; rw [a.1, b.1]; exact e.1
    · exact { h2 with sims := by simp only [visit]; rw [a.2, b.2]; exact e.2 }
  · have a := examine_not_mem E (update E A (update E A s (E.jd v)) (E.jd v)) v k _ (update E A (update E A s (E.jd v)) (E.jd v)).sims hk
    have b := examine_not_mem E (update E B (update E B s' (E.jd v)) (E.jd v)) v k _ (update E B (update E B s' (E.jd v)) (E.jd v)).sims (fun x => hk (hd.2 x))
    refine ⟨?_, ?_⟩
    · simp only [visit]; rw [a.1, b.1]
    · exact { h2 with sims := by simp only [visit]; rw [a.2, b.2]; exact h2.sims }

theorem visits_same {E : Env K U R S V G} (ho : Iterates E) {k : String} {A B : List String} (hA : A.Nodup) (hB : B.Nodup) (kA : k ∈ A) (kB : k ∈ B) :
    ∀ (vs : List (Pointing.Visit V)) {s s' : Table K U S}, Same k s s' →
      ((visits E A s vs).filter fun o => o.obj = k) = (visits E B s' vs).filter fun o => o.obj = k
  | [], _, _, _ => rfl
  | v :: vs, s, s', h => by
    obtain ⟨h1, h2⟩ := visit_same ho hA hB kA kB h v
    simp only [visits, List.filter_append, h1, visits_same ho hA hB kA kB vs h2]

/-! ## Only objects of the table -/

/-- The pixel table lists keys only. -/
def Keyed (names : List String) (s : Table K U S) : Prop := ∀ p, ∀ k ∈ s.pixels p, k ∈ names

theorem computePixels_keyed (E : Env K U R S V G) (names : List String) (s : Table K U S) : Keyed names (computePixels E names s) :=
  fun _ _ h => List.mem_of_mem_filter h

theorem update_keyed (E : Env K U R S V G) {names : List String} {s : Table K U S} (h : Keyed names s) (t : K) : Keyed names (update E names s t) := by
  unfold update
  simp only
  split_ifs
  · exact computePixels_keyed E names _
  · exact computePixels_keyed E names _
  · exact computePixels_keyed E names _
  · exact h

theorem visit_keyed {E : Env K U R S V G} (ho : Iterates E) {names : List String} {s : Table K U S} (h : Keyed names s) (v : Pointing.Visit V) :
    (∀ o ∈ (visit E names s v).1, o.obj ∈ names) ∧ Keyed names (visit E names s v).2 := by
  have h1 := update_keyed E h (E.jd v)
  refine ⟨fun o hm => ?_, update_keyed E h1 (E.jd v)⟩
  have : o.obj ∈ designations E (update E names s (E.jd v)) v :=
    (examine_obj E _ v _ _).subset (List.mem_map_of_mem hm)
  obtain ⟨p, -, hp⟩ := (mem_designations ho _ _ _).1 this
  exact h1 p _ hp

theorem visits_keyed {E : Env K U R S V G} (ho : Iterates E) {names : List String} : ∀ (vs : List (Pointing.Visit V)) {s : Table K U S}, Keyed names s →
    ∀ o ∈ visits E names s vs, o.obj ∈ names
  | [], _, _, o, h => by simp [visits] at h
  | v :: vs, s, hk, o, h => by
    obtain ⟨h1, h2⟩ := visit_keyed ho hk v
    simp only [visits, List.mem_append] at h
    exact h.elim (h1 o) (visits_keyed ho vs h2 o)

theorem initTable_keyed (E : Env K U R S V G) (names : List String) (sims : String → S) (t : K) : Keyed names (initTable E names sims t) :=
  computePixels_keyed E names _

/-! ## Keys and starting states -/

theorem mem_keys (objs : List (Readers.Rec C)) (k : String) : k ∈ keys objs ↔ k ∈ objs.map (·.id) := by
  simp only [keys, List.mem_reverse, List.mem_dedup]

theorem keys_nodup (objs : List (Readers.Rec C)) : (keys objs).Nodup := List.nodup_reverse.2 (List.nodup_dedup _)

theorem simDict_filter (start : Readers.Rec C → S) (idle : S) (objs : List (Readers.Rec C)) (k : String) :
    simDict start idle (objs.filter fun r => r.id = k) k = simDict start idle objs k := by
  unfold simDict
  rw [← List.filter_reverse, List.find?_filter]
  simp

end Sorcha.Driver
