import Verif.Linking.Lemmas4
import Mathlib.Data.List.Perm.Subperm

namespace Sorcha.Linking
open Spec

theorem _root_.Sorcha.Linking.Spec.DistinctTimes.perm {a b : List Obs} (h : DistinctTimes a) (hp : a.Perm b) : DistinctTimes b :=
  hp.pairwise h (fun h => h.symm)

theorem strict_of_distinct {obs : List Obs} (hs : InTimeOrder obs) (hd : DistinctTimes obs) :
    obs.Pairwise fun a b => a.mjd < b.mjd :=
  (List.pairwise_and_iff.2 ⟨hs, hd⟩).imp fun h => lt_of_le_of_ne h.1 h.2

theorem sorted_unique {a b : List Obs} (ha : InTimeOrder a) (hb : InTimeOrder b) (hp : a.Perm b)
    (hd : DistinctTimes a) : a = b := by
  apply List.Perm.eq_of_pairwise (le := fun a b => a.mjd < b.mjd) _ (strict_of_distinct ha hd)
    (strict_of_distinct hb (hd.perm hp)) hp
  intro x y _ _ h1 h2
  exact absurd (lt_trans h1 h2) (lt_irrefl _)

theorem wellPhased_perm {c : Cfg} {a b : List Obs} (hp : a.Perm b) : WellPhased c a ↔ WellPhased c b :=
  ⟨fun h o ho => h o (hp.mem_iff.2 ho), fun h o ho => h o (hp.mem_iff.1 ho)⟩

/-- For observations in strict time order the order-free tracklet condition is the same. -/
theorem hasTracklet_set (c : Cfg) (night : List Obs) (hs : InTimeOrder night) (hd : DistinctTimes night) :
    HasTracklet c night ↔ c.minObs ≤ night.length ∧
  (c.minObs = 1 ∨ ∃ a ∈ night, ∃ b ∈ night, a.mjd < b.mjd ∧ b.mjd - a.mjd < c.maxdt ∧
    c.minlen < c.sep b.ra b.dec a.ra a.dec ∧
    c.minObs ≤ night.countP fun o => decide (a.mjd ≤ o.mjd ∧ o.mjd ≤ b.mjd)) := by
  unfold HasTracklet
  apply and_congr_right
  intro _
  apply or_congr_right
  have hst := strict_of_distinct hs hd
  constructor
  · rintro ⟨P, a, M, b, Q, rfl, h1, h2, h3, h4⟩
    refine ⟨a, by simp, b, by simp, h1, h2, h3, le_trans h4 ?_⟩
    have hsub : (a :: (M ++ [b])).Sublist (P ++ a :: M ++ b :: Q) := by
      have e : P ++ a :: M ++ b :: Q = P ++ ((a :: (M ++ [b])) ++ Q) := by simp
      rw [e]
      exact (List.sublist_append_left _ _).trans (List.sublist_append_right _ _)
    have := hsub.countP_le (p := fun o => decide (a.mjd ≤ o.mjd ∧ o.mjd ≤ b.mjd))
    refine le_trans ?_ this
    have hlen : (a :: (M ++ [b])).countP (fun o => decide (a.mjd ≤ o.mjd ∧ o.mjd ≤ b.mjd)) =
        (a :: (M ++ [b])).length := by
      rw [List.countP_eq_length]
      have hs' := hs.sublist hsub
      rw [List.pairwise_cons, List.pairwise_append] at hs'
      intro o ho
      simp only [decide_eq_true_eq]
      rcases List.mem_cons.1 ho with rfl | ho
      · exact ⟨le_refl _, le_of_lt h1⟩
      · refine ⟨hs'.1 o ho, ?_⟩
        rcases List.mem_append.1 ho with ho | ho
        · exact hs'.2.2.2 o ho b (by simp)
        · simp at ho; rw [ho]
    rw [hlen]; simp
  · rintro ⟨a, ha, b, hb, h1, h2, h3, h4⟩
    obtain ⟨j, hj, hja⟩ := List.getElem_of_mem ha
    obtain ⟨i, hi, hib⟩ := List.getElem_of_mem hb
    have hji : j < i := by
      by_contra hc
      rcases Nat.eq_or_lt_of_le (not_lt.1 hc) with h | h
      · subst h; rw [hja] at hib; rw [hib] at h1; exact lt_irrefl _ h1
      · have := List.pairwise_iff_getElem.1 hs i j hi hj h
        rw [hib, hja] at this; linarith
    obtain ⟨P, M, Q, hl, hlen⟩ := split_two night i j b a hji
      (by rw [List.getElem?_eq_getElem hi, hib]) (by rw [List.getElem?_eq_getElem hj, hja])
    refine ⟨P, a, M, b, Q, hl, h1, h2, h3, le_trans h4 ?_⟩
    have hst' := hst
    rw [hl, List.append_assoc, List.pairwise_append] at hst'
    obtain ⟨_, hst2, hst3⟩ := hst'
    have hz1 : P.countP (fun o => decide (a.mjd ≤ o.mjd ∧ o.mjd ≤ b.mjd)) = 0 := by
      rw [List.countP_eq_zero]
      intro o ho
      have := hst3 o ho a (by simp)
      simp only [decide_eq_true_eq, not_and_or, not_le]
      exact Or.inl this
    have hz2 : Q.countP (fun o => decide (a.mjd ≤ o.mjd ∧ o.mjd ≤ b.mjd)) = 0 := by
      rw [List.countP_eq_zero]
      intro o ho
      rw [List.cons_append, List.pairwise_cons, List.pairwise_append] at hst2
      have := (List.pairwise_cons.1 hst2.2.2.1).1 o ho
      simp only [decide_eq_true_eq, not_and_or, not_le]
      exact Or.inr this
    rw [hl, List.append_assoc, List.countP_append, List.cons_append, List.countP_cons, List.countP_append,
      List.countP_cons, hz1, hz2]
    have := List.countP_le_length (p := fun o => decide (a.mjd ≤ o.mjd ∧ o.mjd ≤ b.mjd)) (l := M)
    split <;> split <;> omega

/-- The order-free description of tracklet nights, for any time-sorted arrangement of observations at distinct
times. -/
theorem trackletNight_set (c : Cfg) (obs sorted : List Obs) (hp : sorted.Perm obs) (hs : InTimeOrder sorted)
    (hd : DistinctTimes obs) (n : ℤ) : TrackletNight c sorted n ↔ TrackletNightSet c obs n := by
  unfold TrackletNight TrackletNightSet
  simp only
  have hpf := hp.filter (fun o => decide (nightOf c o = n))
  have hds : DistinctTimes sorted := hd.perm hp.symm
  rw [show (∃ o ∈ sorted, nightOf c o = n ∧ HasTracklet c (sorted.filter fun o => decide (nightOf c o = n))) ↔
    (obs.filter fun o => decide (nightOf c o = n)) ≠ [] ∧ HasTracklet c (sorted.filter fun o => decide (nightOf c o = n)) from ?_]
  · rw [hasTracklet_set c _ (List.Pairwise.filter _ hs) (List.Pairwise.filter _ hds)]
    apply and_congr_right
    intro _
    rw [hpf.length_eq]
    apply and_congr_right
    intro _
    apply or_congr_right
    constructor
    · rintro ⟨a, ha, b, hb, h1, h2, h3, h4⟩
      refine ⟨a, hpf.mem_iff.1 ha, b, hpf.mem_iff.1 hb, h1, h2, h3, ?_⟩
      rw [← hpf.countP_eq]; exact h4
    · rintro ⟨a, ha, b, hb, h1, h2, h3, h4⟩
      refine ⟨a, hpf.mem_iff.2 ha, b, hpf.mem_iff.2 hb, h1, h2, h3, ?_⟩
      rw [hpf.countP_eq]; exact h4
  · constructor
    · rintro ⟨o, ho, hon, h⟩
      refine ⟨List.ne_nil_of_mem (a := o) ?_, h⟩
      rw [List.mem_filter]
      exact ⟨hp.mem_iff.1 ho, by simpa using hon⟩
    · rintro ⟨h1, h2⟩
      obtain ⟨o, ho⟩ := List.exists_mem_of_ne_nil _ h1
      rw [List.mem_filter] at ho
      exact ⟨o, hp.mem_iff.2 ho.1, by simpa using ho.2, h2⟩

theorem trackletNightSet_mono (c : Cfg) (obs obs' : List Obs) (h : obs.Subperm obs') (n : ℤ)
    (ht : TrackletNightSet c obs n) : TrackletNightSet c obs' n := by
  unfold TrackletNightSet at *
  simp only at *
  have hsub : (obs.filter fun o => decide (nightOf c o = n)).Subperm (obs'.filter fun o => decide (nightOf c o = n)) :=
    h.filter _
  obtain ⟨h1, h2, h3⟩ := ht
  have hmem : ∀ o, o ∈ (obs.filter fun o => decide (nightOf c o = n)) →
      o ∈ (obs'.filter fun o => decide (nightOf c o = n)) := fun o ho => hsub.subset ho
  refine ⟨?_, le_trans h2 hsub.length_le, ?_⟩
  · obtain ⟨o, ho⟩ := List.exists_mem_of_ne_nil _ h1
    exact List.ne_nil_of_mem (hmem o ho)
  · rcases h3 with h3 | ⟨a, ha, b, hb, e1, e2, e3, e4⟩
    · exact Or.inl h3
    · exact Or.inr ⟨a, hmem a ha, b, hmem b hb, e1, e2, e3, le_trans e4 (hsub.countP_le _)⟩

theorem discoveryNight_mono (T T' : ℤ → Prop) (h : ∀ n, T n → T' n) (w l : ℕ) (D : ℤ)
    (hD : DiscoveryNight T w l D) : DiscoveryNight T' w l D := by
  unfold DiscoveryNight at *
  refine le_trans hD (Finset.card_le_card ?_)
  intro n hn
  simp only [inWindow, Finset.mem_filter] at hn ⊢
  exact ⟨hn.1, h n hn.2⟩

/-! ## linkObservations -/

theorem mapM_ok_iff {α β ε} (f : α → Except ε β) (l : List α) (r : List β) :
    l.mapM f = .ok r ↔ List.Forall₂ (fun a b => f a = .ok b) l r := by
  induction l generalizing r with
  | nil =>
    simp only [List.mapM_nil]
    constructor
    · intro h; cases h; exact .nil
    · intro h; cases h; rfl
  | cons a l ih =>
    rw [List.mapM_cons]
    constructor
    · intro h
      cases ha : f a with
      | error e => rw [ha] at h; cases h
      | ok b =>
        cases hl : l.mapM f with
        | error e => rw [ha, hl] at h; cases h
        | ok bs =>
          rw [ha, hl] at h
          cases h
          exact .cons ha ((ih bs).1 hl)
    · intro h
      cases h with
      | cons h1 h2 => rw [h1, (ih _).2 h2]; rfl

theorem linkObservations_spec {ρ} (sortT : List Obs → List Obs) (c : Cfg) (w : String → ℕ → ℚ)
    (draws : List ℚ → ℕ → ℚ) (rows : List (Row ρ)) (obj : List (String × Link))
    (h : linkObservations sortT c w draws rows = .ok obj) :
    (obj.map (·.1)).Nodup ∧
    (∀ id, id ∈ obj.map (·.1) ↔ ∃ r ∈ rows, r.objId = id) ∧
    (∀ id L, (id, L) ∈ obj →
      linkObject sortT c (w id) draws ((rows.filter fun r => r.objId == id).map (·.obs)) = .ok L) := by
  unfold linkObservations at h
  simp only at h
  rw [mapM_ok_iff] at h
  set ids := ((rows.map (·.objId)).dedup.insertionSort (· ≤ ·)) with hids
  have key : ∀ (ids : List String) (obj : List (String × Link)),
      List.Forall₂ (fun a b => (do
        let l ← linkObject sortT c (w a) draws ((rows.filter fun r => r.objId == a).map (·.obs))
        return (a, l)) = Except.ok b) ids obj →
      obj.map (·.1) = ids ∧ ∀ id L, (id, L) ∈ obj →
        linkObject sortT c (w id) draws ((rows.filter fun r => r.objId == id).map (·.obs)) = .ok L := by
    intro ids obj hf
    induction hf with
    | nil => exact ⟨rfl, by simp⟩
    | @cons a b l1 l2 h1 _ ih =>
      cases hl : linkObject sortT c (w a) draws ((rows.filter fun r => r.objId == a).map (·.obs)) with
      | error e => rw [hl] at h1; cases h1
      | ok L =>
        rw [hl] at h1
        cases h1
        refine ⟨by simp [ih.1], ?_⟩
        intro id L' hm
        rcases List.mem_cons.1 hm with hm | hm
        · cases hm; exact hl
        · exact ih.2 id L' hm
  obtain ⟨k1, k2⟩ := key ids obj h
  refine ⟨?_, ?_, k2⟩
  · rw [k1, hids]
    exact (List.perm_insertionSort _ _).nodup_iff.2 (List.nodup_dedup _)
  · intro id
    rw [k1, hids, (List.perm_insertionSort _ _).mem_iff, List.mem_dedup, List.mem_map]

/-- In a list of pairs with distinct keys, the entries with a given key are the one entry. -/
theorem filter_key_eq {β : Type} (l : List (String × β)) (hn : (l.map (·.1)).Nodup) (id : String) (v : β)
    (hm : (id, v) ∈ l) : (l.filter fun o => o.1 == id) = [(id, v)] := by
  induction l with
  | nil => simp at hm
  | cons x l ih =>
    simp only [List.map_cons, List.nodup_cons] at hn
    rcases List.mem_cons.1 hm with rfl | hm
    · rw [List.filter_cons_of_pos (by simp)]
      congr 1
      rw [List.filter_eq_nil_iff]
      intro y hy he
      apply hn.1
      rw [List.mem_map]
      exact ⟨y, hy, by simpa using he⟩
    · rw [List.filter_cons_of_neg]
      · exact ih hn.2 hm
      · intro he
        apply hn.1
        rw [List.mem_map]
        exact ⟨(id, v), hm, by simpa using (by simpa using he : x.1 = id).symm⟩

end Sorcha.Linking
