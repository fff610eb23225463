import Verif.Linking.Lemmas

namespace Sorcha.Linking
open Spec

/-- Night `n` is marked as having a tracklet. -/
abbrev Marked (nights : List ℤ) (has : List Bool) (n : ℤ) : Prop := (n, true) ∈ nights.zip has

theorem Marked.mem {nights : List ℤ} {has : List Bool} {n : ℤ} (h : Marked nights has n) : n ∈ nights :=
  (List.of_mem_zip h).1

theorem indicator_getD {α : Type} [Zero α] [One α] (nights : List ℤ) (has : List Bool) (n0 : ℤ) (nlen : ℕ)
    (hnd : nights.Nodup) (hb : ∀ n ∈ nights, n0 ≤ n ∧ (n - n0).toNat < nlen) (t : ℕ) :
    (scatter nlen (nights.map fun n => (n - n0).toNat) (has.map fun b => if b then (1:α) else 0)).getD t 0
      = if Marked nights has (n0 + t) then 1 else 0 := by
  have hidx : (nights.map fun n => (n - n0).toNat).Nodup := by
    rw [List.nodup_map_iff_inj_on hnd]
    intro x hx y hy e
    have := (hb x hx).1; have := (hb y hy).1; omega
  have hz : (nights.map fun n => (n - n0).toNat).zip (has.map fun b => if b then (1:α) else 0)
      = (nights.zip has).map (Prod.map (fun n => (n - n0).toNat) (fun b => if b then (1:α) else 0)) := by
    rw [List.zip_map]
  split
  · rename_i hM
    have hn := (hb _ hM.mem)
    have ht : ((n0 + (t:ℤ)) - n0).toNat = t := by omega
    apply scatter_getD_in _ _ _ _ _ hidx
    · rw [hz, List.mem_map]
      exact ⟨(n0 + t, true), hM, by simp⟩
    · rw [ht] at hn; exact hn.2
  · rename_i hM
    by_cases hex : ∃ b, (n0 + (t:ℤ), b) ∈ nights.zip has
    · obtain ⟨b, hbm⟩ := hex
      have hbf : b = false := by
        cases b with
        | false => rfl
        | true => exact absurd hbm hM
      subst hbf
      have hn := (hb _ (List.of_mem_zip hbm).1)
      have ht : ((n0 + (t:ℤ)) - n0).toNat = t := by omega
      apply scatter_getD_in _ _ _ _ _ hidx
      · rw [hz, List.mem_map]
        exact ⟨(n0 + t, false), hbm, by simp⟩
      · rw [ht] at hn; exact hn.2
    · apply scatter_getD_notin
      intro v hv
      rw [hz, List.mem_map] at hv
      obtain ⟨⟨n, b⟩, hnb, he⟩ := hv
      simp only [Prod.map, Prod.mk.injEq] at he
      have := (hb _ (List.of_mem_zip hnb).1).1
      have hn : n = n0 + t := by omega
      exact hex ⟨b, hn ▸ hnb⟩

/-- Sum over array positions = sum over the nights of the trailing window. -/
theorem sum_window {α : Type} [AddCommMonoid α] (T : ℤ → Prop) [DecidablePred T] (n0 : ℤ) (hT : ∀ n, T n → n0 ≤ n)
    (w t : ℕ) (g : ℤ → α) :
    ∑ i ∈ (Finset.range (t+1)).filter (fun i => t < i + w), (if T (n0 + i) then g (n0 + i) else 0)
      = ∑ n ∈ inWindow T w (n0 + t), g n := by
  rw [← Finset.sum_filter]
  refine Finset.sum_bij (fun i _ => n0 + (i:ℤ)) ?_ ?_ ?_ ?_
  · intro i hi
    simp only [Finset.mem_filter, Finset.mem_range] at hi
    simp only [inWindow, Finset.mem_filter, Finset.mem_Icc]
    refine ⟨⟨by omega, by omega⟩, hi.2⟩
  · intro i _ j _ h; simpa using h
  · intro n hn
    simp only [inWindow, Finset.mem_filter, Finset.mem_Icc] at hn
    have := hT n hn.2
    refine ⟨(n - n0).toNat, ?_, by omega⟩
    have e : n0 + ((n - n0).toNat : ℤ) = n := by omega
    simp only [Finset.mem_filter, Finset.mem_range, e]
    exact ⟨⟨by omega, by omega⟩, hn.2⟩
  · intros; rfl

/-- The de-duplication step on a list of nights `ds` with window sums `F`. -/
def dedupe (F : ℤ → ℚ) : ℚ → List ℤ → List ℤ
  | _, [] => []
  | prev, d :: ds => if F d ≠ prev then d :: dedupe F (F d) ds else dedupe F (F d) ds

theorem maskBy_adjDiff (F : ℤ → ℚ) (prev : ℚ) (ds : List ℤ) :
    maskBy ds ((adjDiffFrom prev (ds.map F)).map fun x => decide (x ≠ 0)) = dedupe F prev ds := by
  induction ds generalizing prev with
  | nil => rfl
  | cons d ds ih =>
    have := ih (F d)
    simp only [maskBy, List.map_cons, adjDiffFrom, dedupe] at this ⊢
    rw [List.zip_cons_cons, List.filter_cons]
    by_cases h : F d ≠ prev
    · have h' : decide (F d - prev ≠ 0) = true := by simpa [sub_eq_zero] using h
      simp only [h', if_true, List.map_cons, if_pos h, this]
    · have h' : decide (F d - prev ≠ 0) = false := by simpa [sub_eq_zero] using h
      simp only [h', if_neg h]
      simpa using this

theorem dedupe_sublist (F : ℤ → ℚ) (prev : ℚ) (ds : List ℤ) : (dedupe F prev ds).Sublist ds := by
  induction ds generalizing prev with
  | nil => exact List.Sublist.refl _
  | cons d ds ih =>
    simp only [dedupe]; split
    · exact (ih _).cons_cons _
    · exact (ih _).cons _

theorem dedupe_head (F : ℤ → ℚ) (prev : ℚ) (d : ℤ) (ds : List ℤ) (h : F d ≠ prev) :
    dedupe F prev (d :: ds) = d :: dedupe F (F d) ds := by
  simp [dedupe, h]

/-- Which discovery nights survive de-duplication when sums determine sets. -/
theorem mem_dedupe_changed (F : ℤ → ℚ) (S : ℤ → Finset ℤ) (nlink : ℕ)
    (hFS : ∀ a b, F a = F b ↔ S a = S b)
    (hconv : ∀ a m b, a ≤ m → m ≤ b → S a ∩ S b ⊆ S m)
    (ds : List ℤ) (last : ℤ) (hlast : nlink ≤ (S last).card)
    (hmem : ∀ D, D ∈ ds ↔ last < D ∧ nlink ≤ (S D).card) (hsort : ds.Pairwise (· < ·)) (D : ℤ) :
    D ∈ dedupe F (F last) ds ↔ last < D ∧ nlink ≤ (S D).card ∧ S D ≠ S (D - 1) := by
  induction ds generalizing last with
  | nil =>
    simp only [dedupe, List.not_mem_nil, false_iff]
    rintro ⟨h1, h2, _⟩
    have := (hmem D).2 ⟨h1, h2⟩
    simp at this
  | cons d ds ih =>
    obtain ⟨hd1, hd2⟩ := (hmem d).1 (by simp)
    rw [List.pairwise_cons] at hsort
    have hmem' : ∀ D, D ∈ ds ↔ d < D ∧ nlink ≤ (S D).card := by
      intro D
      constructor
      · intro h
        exact ⟨hsort.1 D h, ((hmem D).1 (List.mem_cons_of_mem _ h)).2⟩
      · rintro ⟨h1, h2⟩
        have := (hmem D).2 ⟨by omega, h2⟩
        rcases List.mem_cons.1 this with rfl | h
        · omega
        · exact h
    have ih' := ih d hd2 hmem' hsort.2
    have hgap : ∀ m, last < m → m < d → ¬ nlink ≤ (S m).card := by
      intro m h1 h2 h3
      have := (hmem m).2 ⟨h1, h3⟩
      rcases List.mem_cons.1 this with rfl | h
      · omega
      · have := hsort.1 m h; omega
    have key : F d ≠ F last ↔ S d ≠ S (d - 1) := by
      rw [Ne, hFS]
      by_cases e : d - 1 = last
      · rw [e]
      · have hm := hgap (d-1) (by omega) (by omega)
        constructor
        · intro _ h
          apply hm; rw [← h]; exact hd2
        · intro _ h
          apply hm
          have := hconv last (d-1) d (by omega) (by omega)
          rw [h, Finset.inter_self] at this
          exact le_trans hlast (Finset.card_le_card (h ▸ this))
    simp only [dedupe]
    have hnotin : d ∉ dedupe F (F d) ds := by
      intro h
      have := hsort.1 d ((dedupe_sublist _ _ _).subset h)
      omega
    by_cases hFd : F d ≠ F last
    · rw [if_pos hFd, List.mem_cons, ih']
      constructor
      · rintro (rfl | ⟨h1, h2, h3⟩)
        · exact ⟨hd1, hd2, key.1 hFd⟩
        · exact ⟨by omega, h2, h3⟩
      · rintro ⟨h1, h2, h3⟩
        rcases lt_trichotomy D d with h | h | h
        · exact absurd h2 (hgap D h1 h)
        · exact Or.inl h
        · exact Or.inr ⟨h, h2, h3⟩
    · rw [if_neg hFd, ih']
      constructor
      · rintro ⟨h1, h2, h3⟩; exact ⟨by omega, h2, h3⟩
      · rintro ⟨h1, h2, h3⟩
        rcases lt_trichotomy D d with h | h | h
        · exact absurd h2 (hgap D h1 h)
        · subst h; exact absurd (key.2 h3) hFd
        · exact ⟨h, h2, h3⟩

/-- The weight given to tracklet night `n`. -/
noncomputable def wt (T : ℤ → Prop) (n0 : ℤ) (w : ℕ → ℚ) (n : ℤ) : ℚ :=
  open Classical in w (((Finset.Ico n0 n).filter T).card)

/-- `discWindow` on strictly increasing nights: de-duplicated list of all discovery nights. -/
theorem discWindow_eq (nights : List ℤ) (has : List Bool) (window nlink : ℕ) (w : ℕ → ℚ)
    (hne : nights ≠ []) (hsort : nights.Pairwise (· < ·)) (hw : 1 ≤ window) (hl : 1 ≤ nlink) :
    ∃ ds n0, discWindow nights has window nlink w =
        .ok (dedupe (fun D => ∑ n ∈ inWindow (Marked nights has) window D, wt (Marked nights has) n0 w n) 0 ds)
      ∧ ds.Pairwise (· < ·)
      ∧ (∀ D, D ∈ ds ↔ DiscoveryNight (Marked nights has) window nlink D)
      ∧ (∀ n ∈ nights, n0 ≤ n) := by
  classical
  obtain ⟨n0, h0⟩ : ∃ n0, nights.min? = some n0 := by
    cases h : nights.min? with
    | none => exact absurd (List.min?_eq_none_iff.1 h) hne
    | some x => exact ⟨x, rfl⟩
  obtain ⟨nm, hm⟩ : ∃ n, nights.max? = some n := by
    cases h : nights.max? with
    | none => exact absurd (List.max?_eq_none_iff.1 h) hne
    | some x => exact ⟨x, rfl⟩
  have hmin : ∀ n ∈ nights, n0 ≤ n := (List.min?_eq_some_iff.1 h0).2
  have hmax : ∀ n ∈ nights, n ≤ nm := (List.max?_eq_some_iff.1 hm).2
  have hn0 : n0 ∈ nights := (List.min?_eq_some_iff.1 h0).1
  have hn0m := hmax n0 hn0
  set nlen := (nm + window - n0 + 1).toNat with hnlen
  have hb : ∀ n ∈ nights, n0 ≤ n ∧ (n - n0).toNat < nlen := by
    intro n hn
    have := hmin n hn; have := hmax n hn
    exact ⟨by omega, by omega⟩
  have hnd : nights.Nodup := hsort.imp (fun h => ne_of_lt h)
  set T : ℤ → Prop := Marked nights has with hT
  have hTn0 : ∀ n, T n → n0 ≤ n := fun n h => hmin n (Marked.mem h)
  -- integer array
  have harr : ∀ t, t < nlen → (windowDiff window (cumsumFrom 0 (scatter nlen (nights.map fun n => (n - n0).toNat)
      (has.map fun b => if b then (1:ℤ) else 0)))).getD t 0 = (inWindow T window (n0 + t)).card := by
    intro t ht
    rw [windowSum_getD _ _ _ (by rw [length_scatter]; exact ht)]
    rw [Finset.sum_congr rfl (fun i _ => indicator_getD nights has n0 nlen hnd hb i)]
    rw [sum_window T n0 hTn0 window t (fun _ => (1:ℤ))]
    simp
  -- weights array
  have harr2 : ∀ t, t < nlen → (windowDiff window (cumsumFrom 0 (fillNonzero w 0 (scatter nlen
      (nights.map fun n => (n - n0).toNat)
      (has.map fun b => if b then (1:ℚ) else 0))))).getD t 0 = ∑ n ∈ inWindow T window (n0 + t), wt T n0 w n := by
    intro t ht
    rw [windowSum_getD _ _ _ (by rw [length_fillNonzero, length_scatter]; exact ht)]
    rw [← sum_window T n0 hTn0 window t (wt T n0 w)]
    apply Finset.sum_congr rfl
    intro i _
    have hi := indicator_getD (α := ℚ) nights has n0 nlen hnd hb
    obtain ⟨f1, f2⟩ := fillNonzero_getD w 0 (scatter nlen (nights.map fun n => (n - n0).toNat)
      (has.map fun b => if b then (1:ℚ) else 0)) i
    by_cases hTi : T (n0 + i)
    · rw [if_pos hTi, f2 (by rw [hi]; simp [hT ▸ hTi])]
      unfold wt
      congr 1
      rw [zero_add]
      refine Finset.card_bij (fun i _ => n0 + (i:ℤ)) ?_ ?_ ?_
      · intro j hj
        simp only [Finset.mem_filter, Finset.mem_range, hi] at hj
        simp only [Finset.mem_filter, Finset.mem_Ico]
        refine ⟨⟨by omega, by omega⟩, ?_⟩
        by_contra hc
        exact hj.2 (if_neg hc)
      · intro a _ b _ h; simpa using h
      · intro n hn
        simp only [Finset.mem_filter, Finset.mem_Ico] at hn
        have e : n0 + ((n - n0).toNat : ℤ) = n := by omega
        refine ⟨(n - n0).toNat, ?_, e⟩
        simp only [Finset.mem_filter, Finset.mem_range, hi, e]
        refine ⟨by omega, ?_⟩
        rw [if_pos hn.2]; norm_num
    · rw [if_neg hTi, f1]
      rw [hi, if_neg hTi]
  set arr := windowDiff window (cumsumFrom 0 (scatter nlen (nights.map fun n => (n - n0).toNat)
      (has.map fun b => if b then (1:ℤ) else 0))) with harrdef
  have hlen : arr.length = nlen := by
    rw [harrdef, length_windowDiff, length_cumsumFrom, length_scatter]
  set dn : List ℕ := nonzeroIdx (arr.map fun x => decide ((nlink : ℤ) ≤ x)) with hdn
  have hdmem : ∀ d, d ∈ dn ↔ d < nlen ∧ nlink ≤ (inWindow T window (n0 + d)).card := by
    intro d
    rw [hdn, mem_nonzeroIdx, List.getElem?_map]
    by_cases hd : d < nlen
    · have hd' : d < arr.length := by omega
      have := harr d hd
      rw [List.getD_eq_getElem?_getD, List.getElem?_eq_getElem hd'] at this
      simp only [Option.getD_some] at this
      rw [List.getElem?_eq_getElem hd']
      simp [this, hd]
    · rw [List.getElem?_eq_none (by omega)]
      simp [hd]
  refine ⟨dn.map fun d : ℕ => (d : ℤ) + n0, n0, ?_, ?_, ?_, hmin⟩
  · unfold discWindow
    rw [h0, hm]
    simp only []
    rw [if_neg (by omega)]
    rw [← maskBy_adjDiff]
    simp only [List.map_map]
    congr 4
    apply List.map_congr_left
    intro d hd
    rw [harr2 d ((hdmem d).1 hd).1]
    simp [add_comm]
  · rw [List.pairwise_map]
    exact (nonzeroIdx_sorted _).imp (fun h => by omega)
  · intro D
    rw [List.mem_map]
    constructor
    · rintro ⟨d, hd, rfl⟩
      unfold DiscoveryNight
      rw [add_comm]
      exact ((hdmem d).1 hd).2
    · intro hD
      have hpos : 0 < (inWindow T window D).card := lt_of_lt_of_le hl hD
      obtain ⟨n, hn⟩ := Finset.card_pos.1 hpos
      simp only [inWindow, Finset.mem_filter, Finset.mem_Icc] at hn
      have h1 := hTn0 n hn.2
      have h2 := hmax n (Marked.mem hn.2)
      have e : n0 + ((D - n0).toNat : ℤ) = D := by omega
      refine ⟨(D - n0).toNat, (hdmem _).2 ⟨by omega, ?_⟩, by omega⟩
      rw [e]; exact hD

end Sorcha.Linking
