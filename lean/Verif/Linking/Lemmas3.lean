import Verif.Linking.Lemmas2

namespace Sorcha.Linking
open Spec

/-! ## slices of sorted lists -/

theorem take_countP_sorted {α} (l : List α) (p : α → Bool)
    (h : l.Pairwise fun a b => p b = true → p a = true) : l.take (l.countP p) = l.filter p := by
  induction l with
  | nil => simp
  | cons a l ih =>
    rw [List.pairwise_cons] at h
    by_cases ha : p a = true
    · rw [List.countP_cons_of_pos ha, List.filter_cons_of_pos ha, List.take_succ_cons, ih h.2]
    · have h0 : ∀ b ∈ l, ¬ p b = true := fun b hb hpb => ha (h.1 b hb hpb)
      rw [List.countP_cons_of_neg ha, List.filter_cons_of_neg ha]
      have : l.countP p = 0 := List.countP_eq_zero.2 h0
      rw [this, List.take_zero, eq_comm, List.filter_eq_nil_iff]
      exact h0

theorem drop_countP_sorted {α} (l : List α) (p : α → Bool)
    (h : l.Pairwise fun a b => p b = true → p a = true) : l.drop (l.countP p) = l.filter (fun a => !p a) := by
  induction l with
  | nil => simp
  | cons a l ih =>
    rw [List.pairwise_cons] at h
    by_cases ha : p a = true
    · rw [List.countP_cons_of_pos ha, List.filter_cons_of_neg (by simp [ha]), List.drop_succ_cons, ih h.2]
    · have h0 : ∀ b ∈ l, ¬ p b = true := fun b hb hpb => ha (h.1 b hb hpb)
      have : (a :: l).countP p = 0 := List.countP_eq_zero.2 (by
        intro b hb
        rcases List.mem_cons.1 hb with rfl | hb
        · exact ha
        · exact h0 b hb)
      rw [this, List.drop_zero, eq_comm, List.filter_eq_self]
      intro b hb
      rcases List.mem_cons.1 hb with rfl | hb
      · simpa using ha
      · simpa using h0 b hb

/-- `a[searchsorted(key, x, left) : searchsorted(key, y, left)]` on a sorted key. -/
theorem slice_range {α} (l : List α) (f : α → ℤ) (hs : l.Pairwise fun a b => f a ≤ f b) (x y : ℤ) (hxy : x ≤ y) :
    slice l ((l.map f).countP fun z => decide (z < x)) ((l.map f).countP fun z => decide (z < y))
      = l.filter (fun a => decide (x ≤ f a ∧ f a < y)) := by
  unfold slice
  rw [List.countP_map, List.countP_map]
  rw [take_countP_sorted l _ (hs.imp fun {a b} hab hb => by
    simp only [Function.comp, decide_eq_true_eq] at hb ⊢; omega)]
  have e : l.countP ((fun z => decide (z < x)) ∘ f) =
      (l.filter ((fun z => decide (z < y)) ∘ f)).countP ((fun z => decide (z < x)) ∘ f) := by
    rw [List.countP_filter]
    apply List.countP_congr
    intro a _
    simp only [Function.comp, Bool.and_eq_true, decide_eq_true_eq]
    omega
  rw [e, drop_countP_sorted _ _ ((hs.filter _).imp fun {a b} hab hb => by
    simp only [Function.comp, decide_eq_true_eq] at hb ⊢; omega), List.filter_filter]
  apply List.filter_congr
  intro a _
  simp only [Function.comp, ← decide_not, ← Bool.decide_and]
  rw [decide_eq_decide]
  omega

theorem countP_le_eq_lt (l : List ℤ) (v : ℤ) :
    (l.countP fun z => decide (z ≤ v)) = l.countP fun z => decide (z < v + 1) := by
  apply List.countP_congr; intro a _; simp only [decide_eq_true_eq]; omega

/-! ## truncation and nights -/

theorem truncInt_mono {x y : ℚ} (h : x ≤ y) : truncInt x ≤ truncInt y := by
  unfold truncInt
  split <;> split
  · exact Int.floor_le_floor h
  · rename_i h1 h2; exact absurd (le_trans h1 h) h2
  · rename_i h1 h2
    have a : ⌈x⌉ ≤ 0 := Int.ceil_le.2 (by push_cast; linarith)
    have b : 0 ≤ ⌊y⌋ := Int.floor_nonneg.2 h2
    omega
  · exact Int.ceil_le_ceil h

theorem truncInt_eq_floor {x : ℚ} (h : 0 ≤ x) : truncInt x = ⌊x⌋ := by simp [truncInt, h]

theorem phase_iff (t : ℚ) :
    ((1 : ℚ) / 10 < t - truncInt t ∧ t - truncInt t < 9 / 10) ↔
      0 ≤ t ∧ (1 : ℚ) / 10 < Int.fract t ∧ Int.fract t < 9 / 10 := by
  by_cases h : 0 ≤ t
  · rw [truncInt_eq_floor h, Int.self_sub_floor]; simp [h]
  · have h1 : truncInt t = ⌈t⌉ := by simp [truncInt, h]
    have h2 := Int.le_ceil t
    rw [h1]
    constructor
    · rintro ⟨h3, _⟩; linarith
    · rintro ⟨h3, _⟩; exact absurd h3 h

theorem phased_all (c : Cfg) (obs : List Obs) :
    (((obs.map fun o => o.mjd - c.nightStart).map fun t => t - (truncInt t : ℚ)).all
      fun f => decide ((1 : ℚ) / 10 < f ∧ f < 9 / 10)) = true ↔ WellPhased c obs := by
  simp only [List.all_eq_true, List.mem_map, decide_eq_true_eq, WellPhased]
  constructor
  · intro h o ho
    exact (phase_iff _).1 (h _ ⟨_, ⟨o, ho, rfl⟩, rfl⟩)
  · rintro h f ⟨t, ⟨o, ho, rfl⟩, rfl⟩
    exact (phase_iff _).2 (h o ho)

/-! ## trackletsInNights -/

theorem unique_sorted (xs : List ℤ) : (unique xs).Pairwise (· < ·) := by
  have h1 : (unique xs).Pairwise (· ≤ ·) := List.pairwise_insertionSort _ _
  have h2 : (unique xs).Nodup := by
    unfold unique
    exact (List.perm_insertionSort _ _).nodup_iff.2 xs.nodup_dedup
  exact (List.pairwise_and_iff.2 ⟨h1, h2⟩).imp (fun h => lt_of_le_of_ne h.1 h.2)

theorem mem_unique (xs : List ℤ) (n : ℤ) : n ∈ unique xs ↔ n ∈ xs := by
  unfold unique
  rw [List.mem_insertionSort, List.mem_dedup]

theorem trackletLoop_spec (c : Cfg) (obs : List Obs) (f : Obs → ℤ) (hs : InTimeOrder obs)
    (hf : obs.Pairwise fun a b => f a ≤ f b) (ns : List ℤ) (b : ℕ)
    (hns : ns.Pairwise (· < ·))
    (hb : ∀ n, ns.head? = some n → b = (obs.map f).countP fun z => decide (z < n))
    (hcov : ∀ o ∈ obs, f o ∈ ns ∨ ∀ n ∈ ns, f o < n) :
    ∃ has, trackletLoop c obs b (ns.map (searchRight (obs.map f))) = .ok has ∧ has.length = ns.length ∧
      ∀ n x, (n, x) ∈ ns.zip has → (x = true ↔ HasTracklet c (obs.filter fun o => decide (f o = n))) := by
  induction ns generalizing b with
  | nil => exact ⟨[], rfl, rfl, by simp⟩
  | cons n ns ih =>
    have hb' := hb n rfl
    rw [List.pairwise_cons] at hns
    have hsl : slice obs b (searchRight (obs.map f) n) = obs.filter fun o => decide (f o = n) := by
      unfold searchRight
      rw [countP_le_eq_lt, hb', slice_range obs f hf n (n+1) (by omega)]
      apply List.filter_congr
      intro o _
      rw [decide_eq_decide]; omega
    have hso : InTimeOrder (obs.filter fun o => decide (f o = n)) := List.Pairwise.filter _ hs
    obtain ⟨x, hx1, hx2⟩ := hasTracklet_sorted c _ hso
    obtain ⟨has, h1, h2, h3⟩ := ih (searchRight (obs.map f) n) hns.2 (by
        intro m hm
        unfold searchRight
        apply List.countP_congr
        intro z hz
        rw [List.mem_map] at hz
        obtain ⟨o, ho, rfl⟩ := hz
        have hmn : m ∈ ns := List.mem_of_head? hm
        have hnm := hns.1 m hmn
        simp only [decide_eq_true_eq]
        constructor
        · intro h; omega
        · intro h
          rcases hcov o ho with h' | h'
          · rcases List.mem_cons.1 h' with h' | h'
            · omega
            · exfalso
              -- f o ∈ ns and m is the head, so m ≤ f o
              cases ns with
              | nil => simp at h'
              | cons m' ns' =>
                simp only [List.head?_cons, Option.some.injEq] at hm
                subst hm
                rcases List.mem_cons.1 h' with h'' | h''
                · omega
                · have := (List.pairwise_cons.1 hns.2).1 _ h''
                  omega
          · have := h' n (by simp); omega)
      (by
        intro o ho
        rcases hcov o ho with h' | h'
        · rcases List.mem_cons.1 h' with h' | h'
          · right; intro m hm; have := hns.1 m hm; omega
          · exact Or.inl h'
        · right; intro m hm; exact h' m (List.mem_cons_of_mem _ hm))
    refine ⟨x :: has, ?_, by simp [h2], ?_⟩
    · simp only [List.map_cons, trackletLoop, hsl, hx1, h1]
      rfl
    · intro m y hmy
      rw [List.zip_cons_cons, List.mem_cons] at hmy
      rcases hmy with h | h
      · simp only [Prod.mk.injEq] at h
        obtain ⟨rfl, rfl⟩ := h
        exact hx2
      · exact h3 m y h

theorem trackletsInNights_spec (c : Cfg) (obs : List Obs) (f : Obs → ℤ) (hs : InTimeOrder obs)
    (hf : obs.Pairwise fun a b => f a ≤ f b) :
    ∃ has, trackletsInNights c (obs.map f) obs = .ok (unique (obs.map f), has) ∧
      has.length = (unique (obs.map f)).length ∧
      ∀ n, Marked (unique (obs.map f)) has n ↔
        (∃ o ∈ obs, f o = n) ∧ HasTracklet c (obs.filter fun o => decide (f o = n)) := by
  obtain ⟨has, h1, h2, h3⟩ := trackletLoop_spec c obs f hs hf (unique (obs.map f)) 0 (unique_sorted _)
    (by
      intro n hn
      rw [eq_comm, List.countP_eq_zero]
      intro z hz
      have hz' : z ∈ unique (obs.map f) := (mem_unique _ _).2 hz
      have hso := unique_sorted (obs.map f)
      cases hu : unique (obs.map f) with
      | nil => rw [hu] at hn; simp at hn
      | cons m ms =>
        rw [hu] at hn hz' hso
        simp only [List.head?_cons, Option.some.injEq] at hn
        subst hn
        simp only [decide_eq_true_eq]
        rcases List.mem_cons.1 hz' with h | h
        · omega
        · have := (List.pairwise_cons.1 hso).1 z h; omega)
    (by
      intro o ho
      left
      exact (mem_unique _ _).2 (List.mem_map_of_mem ho))
  refine ⟨has, by simp only [trackletsInNights, h1]; rfl, h2, ?_⟩
  intro n
  constructor
  · intro h
    refine ⟨?_, (h3 n true h).1 rfl⟩
    have := (mem_unique _ _).1 (Marked.mem h)
    simpa using this
  · rintro ⟨⟨o, ho, hon⟩, hT⟩
    have hn : n ∈ unique (obs.map f) := (mem_unique _ _).2 (List.mem_map.2 ⟨o, ho, hon⟩)
    obtain ⟨k, hk, hkn⟩ := List.getElem_of_mem hn
    have hk2 : k < has.length := by omega
    have hm : (n, has[k]) ∈ (unique (obs.map f)).zip has := by
      rw [List.mem_iff_getElem]
      refine ⟨k, by simp; omega, by simp [hkn]⟩
    have := (h3 n has[k] hm).2 hT
    rw [this] at hm
    exact hm

/-! ## choosing the discovery -/

/-- Offered discovery nights, for both branches. -/
theorem offered_spec (nights : List ℤ) (has : List Bool) (window nlink : ℕ) (w : ℕ → ℚ)
    (hne : nights ≠ []) (hsort : nights.Pairwise (· < ·)) (hw : 1 ≤ window) (hl : 1 ≤ nlink) :
    ∃ offered,
      offeredNights nights has window nlink w = .ok offered ∧
      offered.Pairwise (· < ·) ∧
      (∀ D ∈ offered, DiscoveryNight (Marked nights has) window nlink D) ∧
      (nlink = 1 → ∀ D, D ∈ offered ↔ Marked nights has D) ∧
      ((∀ k, 0 < w k) → ∀ D, DiscoveryNight (Marked nights has) window nlink D →
        ∃ E, offered.head? = some E ∧ E ≤ D) := by
  by_cases h1 : 1 < nlink
  · obtain ⟨ds, n0, e, hs, hm, hn0⟩ := discWindow_eq nights has window nlink w hne hsort hw hl
    refine ⟨_, by unfold offeredNights; rw [if_pos h1]; exact e, hs.sublist (dedupe_sublist _ _ _), ?_, by omega, ?_⟩
    · intro D hD
      exact (hm D).1 ((dedupe_sublist _ _ _).subset hD)
    · intro hpos D hD
      cases ds with
      | nil => have := (hm D).2 hD; simp at this
      | cons d ds =>
        refine ⟨d, ?_, ?_⟩
        · rw [dedupe_head]
          · rfl
          · apply ne_of_gt
            apply Finset.sum_pos
            · intro n _; exact hpos _
            · have hd : DiscoveryNight _ _ _ d := (hm d).1 (by simp)
              apply Finset.card_pos.1
              exact lt_of_lt_of_le hl hd
        · rcases List.mem_cons.1 ((hm D).2 hD) with h | h
          · omega
          · have := (List.pairwise_cons.1 hs).1 D h; omega
  · have hl1 : nlink = 1 := by omega
    have hmem : ∀ D, D ∈ maskBy nights has ↔ Marked nights has D := by
      intro D
      simp only [maskBy, List.mem_map, List.mem_filter]
      constructor
      · rintro ⟨⟨n, b⟩, ⟨h1, h2⟩, rfl⟩
        simp only at h2; subst h2; exact h1
      · intro h; exact ⟨(D, true), ⟨h, rfl⟩, rfl⟩
    have hsorted : (maskBy nights has).Pairwise (· < ·) := by
      refine List.Pairwise.sublist ?_ hsort
      unfold maskBy
      exact (List.filter_sublist.map _).trans (zip_fst_sublist _ _)
    refine ⟨_, by unfold offeredNights; rw [if_neg h1], hsorted, ?_, fun _ => hmem, ?_⟩
    · intro D hD
      unfold DiscoveryNight
      rw [hl1]
      apply Finset.card_pos.2
      refine ⟨D, ?_⟩
      simp only [inWindow, Finset.mem_filter, Finset.mem_Icc]
      exact ⟨⟨by omega, le_refl _⟩, (hmem D).1 hD⟩
    · intro _ D hD
      unfold DiscoveryNight at hD
      rw [hl1] at hD
      obtain ⟨n, hn⟩ := Finset.card_pos.1 hD
      simp only [inWindow, Finset.mem_filter, Finset.mem_Icc] at hn
      have hnm := (hmem n).2 hn.2
      cases hL : maskBy nights has with
      | nil => rw [hL] at hnm; simp at hnm
      | cons d ds =>
        rw [hL] at hnm hsorted
        refine ⟨d, rfl, ?_⟩
        rcases List.mem_cons.1 hnm with h | h
        · omega
        · have := (List.pairwise_cons.1 hsorted).1 n h; omega

/-- The index chosen: the first `k` below the number of offers with `u k < p`. -/
theorem head_nonzeroIdx (n : ℕ) (u : ℕ → ℚ) (p : ℚ) :
    match (nonzeroIdx ((List.range n).map fun k => decide (u k < p))).head? with
    | none => ∀ k < n, ¬ u k < p
    | some k => k < n ∧ u k < p ∧ ∀ j < k, ¬ u j < p := by
  have hm : ∀ k, k ∈ nonzeroIdx ((List.range n).map fun k => decide (u k < p)) ↔ k < n ∧ u k < p := by
    intro k
    rw [mem_nonzeroIdx, List.getElem?_map]
    by_cases h : k < n
    · simp [h]
    · simp [h]
  have hs := nonzeroIdx_sorted ((List.range n).map fun k => decide (u k < p))
  cases hL : nonzeroIdx ((List.range n).map fun k => decide (u k < p)) with
  | nil =>
    simp only [List.head?_nil]
    intro k hk hu
    have := (hm k).2 ⟨hk, hu⟩
    rw [hL] at this; simp at this
  | cons k ks =>
    simp only [List.head?_cons]
    obtain ⟨h1, h2⟩ := (hm k).1 (by rw [hL]; simp)
    refine ⟨h1, h2, ?_⟩
    intro j hj hu
    have hjm := (hm j).2 ⟨by omega, hu⟩
    rw [hL] at hjm hs
    rcases List.mem_cons.1 hjm with h | h
    · omega
    · have := (List.pairwise_cons.1 hs).1 j h; omega

theorem argmin?_spec (l : List ℚ) :
    match argmin? l with
    | none => l = []
    | some k => k < l.length ∧ ∀ x ∈ l, l.getD k 0 ≤ x := by
  induction l with
  | nil => simp [argmin?]
  | cons x xs ih =>
    simp only [argmin?]
    cases h : argmin? xs with
    | none =>
      rw [h] at ih
      simp only at ih ⊢
      subst ih
      simp
    | some k =>
      rw [h] at ih
      simp only at ih ⊢
      by_cases hx : x ≤ xs.getD k 0
      · rw [if_pos hx]
        refine ⟨by simp, ?_⟩
        intro y hy
        rcases List.mem_cons.1 hy with rfl | hy
        · simp
        · simpa using le_trans hx (ih.2 y hy)
      · rw [if_neg hx]
        refine ⟨by simpa using ih.1, ?_⟩
        intro y hy
        rcases List.mem_cons.1 hy with rfl | hy
        · rw [List.getD_cons_succ]; exact le_of_lt (not_le.1 hx)
        · rw [List.getD_cons_succ]; exact ih.2 y hy

end Sorcha.Linking
