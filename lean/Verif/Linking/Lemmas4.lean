import Verif.Linking.Lemmas3

namespace Sorcha.Linking
open Spec

/-! ## exact set of offered nights for generic weights -/

theorem zip_snd_sublist {β γ : Type} (l : List β) (m : List γ) : ((l.zip m).map (·.2)).Sublist m := by
  induction l generalizing m with
  | nil => simp
  | cons a l ih => cases m with
    | nil => simp
    | cons b m => simpa using (ih m).cons_cons b

theorem rank_lt (nights : List ℤ) (has : List Bool) (n0 n : ℤ) (h : Marked nights has n) :
    (open Classical in ((Finset.Ico n0 n).filter (Marked nights has)).card) < has.count true := by
  classical
  have h1 : insert n ((Finset.Ico n0 n).filter (Marked nights has)) ⊆ (maskBy nights has).toFinset := by
    intro x hx
    have hM : Marked nights has x := by
      rcases Finset.mem_insert.1 hx with rfl | hx
      · exact h
      · exact (Finset.mem_filter.1 hx).2
    simp only [maskBy, List.mem_toFinset, List.mem_map, List.mem_filter]
    exact ⟨(x, true), ⟨hM, rfl⟩, rfl⟩
  have h2 := Finset.card_le_card h1
  rw [Finset.card_insert_of_notMem (by simp)] at h2
  have h3 : (maskBy nights has).length ≤ has.count true := by
    unfold maskBy
    rw [List.length_map, List.count_eq_countP, ← List.countP_eq_length_filter]
    have e : (nights.zip has).countP (fun x => x.2) = ((nights.zip has).map (·.2)).countP (fun b => b == true) := by
      rw [List.countP_map]; apply List.countP_congr; intro x _; simp
    rw [e]
    exact (zip_snd_sublist nights has).countP_le
  have h4 := List.toFinset_card_le (maskBy nights has)
  omega

theorem rank_inj (T : ℤ → Prop) (n0 a b : ℤ) (ha : T a) (hb : T b) (h0a : n0 ≤ a) (h0b : n0 ≤ b)
    (h : (open Classical in ((Finset.Ico n0 a).filter T).card) = (open Classical in ((Finset.Ico n0 b).filter T).card)) :
    a = b := by
  classical
  wlog hab : a < b generalizing a b with H
  · rcases lt_trichotomy a b with h' | h' | h'
    · exact absurd h' hab
    · exact h'
    · exact (H b a hb ha h0b h0a h.symm h').symm
  exfalso
  have : insert a ((Finset.Ico n0 a).filter T) ⊆ (Finset.Ico n0 b).filter T := by
    intro x hx
    rcases Finset.mem_insert.1 hx with rfl | hx
    · simp [ha, h0a, hab]
    · simp only [Finset.mem_filter, Finset.mem_Ico] at hx ⊢
      exact ⟨⟨hx.1.1, by omega⟩, hx.2⟩
  have h2 := Finset.card_le_card this
  rw [Finset.card_insert_of_notMem (by simp)] at h2
  omega

theorem sum_wt_inj (nights : List ℤ) (has : List Bool) (n0 : ℤ) (w : ℕ → ℚ) (hn0 : ∀ n ∈ nights, n0 ≤ n)
    (hg : Generic w (has.count true)) (A B : Finset ℤ) (hA : ∀ n ∈ A, Marked nights has n)
    (hB : ∀ n ∈ B, Marked nights has n)
    (h : ∑ n ∈ A, wt (Marked nights has) n0 w n = ∑ n ∈ B, wt (Marked nights has) n0 w n) : A = B := by
  classical
  set r : ℤ → ℕ := fun n => ((Finset.Ico n0 n).filter (Marked nights has)).card with hr
  have hinj : ∀ a b, Marked nights has a → Marked nights has b → r a = r b → a = b := by
    intro a b ha hb hab
    exact rank_inj (Marked nights has) n0 a b ha hb (hn0 a ha.mem) (hn0 b hb.mem) (by convert hab)
  have hlt : ∀ a, Marked nights has a → r a < has.count true := by
    intro a ha
    have := rank_lt nights has n0 a ha
    convert this
  have hsum : ∀ S : Finset ℤ, (∀ n ∈ S, Marked nights has n) →
      ∑ n ∈ S, wt (Marked nights has) n0 w n = ∑ k ∈ S.image r, w k := by
    intro S hS
    rw [Finset.sum_image]
    · apply Finset.sum_congr rfl
      intro n _
      unfold wt
      rw [hr]
      congr!
    · intro a ha b hb hab
      exact hinj a b (hS a ha) (hS b hb) hab
  have hsub : ∀ S : Finset ℤ, (∀ n ∈ S, Marked nights has n) → S.image r ⊆ Finset.range (has.count true) := by
    intro S hS k hk
    obtain ⟨n, hn, rfl⟩ := Finset.mem_image.1 hk
    exact Finset.mem_range.2 (hlt n (hS n hn))
  rw [hsum A hA, hsum B hB] at h
  have himg := hg _ _ (hsub A hA) (hsub B hB) h
  ext n
  constructor
  · intro hn
    have : r n ∈ B.image r := himg ▸ Finset.mem_image_of_mem r hn
    obtain ⟨m, hm, hmn⟩ := Finset.mem_image.1 this
    exact hinj m n (hB m hm) (hA n hn) hmn ▸ hm
  · intro hn
    have : r n ∈ A.image r := himg.symm ▸ Finset.mem_image_of_mem r hn
    obtain ⟨m, hm, hmn⟩ := Finset.mem_image.1 this
    exact hinj m n (hA m hm) (hB n hn) hmn ▸ hm

theorem inWindow_conv (T : ℤ → Prop) (w : ℕ) (a m b : ℤ) (h1 : a ≤ m) (h2 : m ≤ b) :
    inWindow T w a ∩ inWindow T w b ⊆ inWindow T w m := by
  intro x hx
  simp only [inWindow, Finset.mem_inter, Finset.mem_filter, Finset.mem_Icc] at hx ⊢
  refine ⟨⟨by omega, by omega⟩, hx.1.2⟩

theorem discWindow_generic (nights : List ℤ) (has : List Bool) (window nlink : ℕ) (w : ℕ → ℚ)
    (hne : nights ≠ []) (hsort : nights.Pairwise (· < ·)) (hw : 1 ≤ window) (hl : 1 ≤ nlink)
    (hg : Generic w (has.count true)) :
    ∃ offered, discWindow nights has window nlink w = .ok offered ∧
      ∀ D, D ∈ offered ↔ DiscoveryNight (Marked nights has) window nlink D ∧
        inWindow (Marked nights has) window D ≠ inWindow (Marked nights has) window (D - 1) := by
  obtain ⟨ds, n0, e, hs, hm, hn0⟩ := discWindow_eq nights has window nlink w hne hsort hw hl
  refine ⟨_, e, ?_⟩
  intro D
  have hmk : ∀ D, ∀ n ∈ inWindow (Marked nights has) window D, Marked nights has n := by
    intro D n hn
    simp only [inWindow, Finset.mem_filter] at hn
    exact hn.2
  cases ds with
  | nil =>
    simp only [dedupe, List.not_mem_nil, false_iff]
    rintro ⟨h, _⟩
    have := (hm D).2 h
    simp at this
  | cons d ds =>
    have hd : DiscoveryNight _ _ _ d := (hm d).1 (by simp)
    have hdne : (inWindow (Marked nights has) window d).Nonempty :=
      Finset.card_pos.1 (lt_of_lt_of_le hl hd)
    have hFS : ∀ a b, (∑ n ∈ inWindow (Marked nights has) window a, wt (Marked nights has) n0 w n) =
        (∑ n ∈ inWindow (Marked nights has) window b, wt (Marked nights has) n0 w n) ↔
        inWindow (Marked nights has) window a = inWindow (Marked nights has) window b := by
      intro a b
      constructor
      · exact sum_wt_inj nights has n0 w hn0 hg _ _ (hmk a) (hmk b)
      · intro h; rw [h]
    rw [dedupe_head _ _ _ _ (by
      intro h0
      have := sum_wt_inj nights has n0 w hn0 hg _ ∅ (hmk d) (by simp) (by simpa using h0)
      rw [this] at hdne
      exact Finset.not_nonempty_empty hdne)]
    rw [List.pairwise_cons] at hs
    have hmin : ∀ E, DiscoveryNight (Marked nights has) window nlink E → d ≤ E := by
      intro E hE
      rcases List.mem_cons.1 ((hm E).2 hE) with h | h
      · omega
      · have := hs.1 E h; omega
    have hkey := mem_dedupe_changed
      (fun D => ∑ n ∈ inWindow (Marked nights has) window D, wt (Marked nights has) n0 w n)
      (inWindow (Marked nights has) window) nlink hFS
      (fun a m b h1 h2 => inWindow_conv _ _ a m b h1 h2) ds d hd
      (by
        intro E
        constructor
        · intro hE
          exact ⟨hs.1 E hE, (hm E).1 (List.mem_cons_of_mem _ hE)⟩
        · rintro ⟨h1, h2⟩
          rcases List.mem_cons.1 ((hm E).2 h2) with h | h
          · omega
          · exact h) hs.2 D
    rw [List.mem_cons, hkey]
    constructor
    · rintro (rfl | ⟨h1, h2, h3⟩)
      · refine ⟨hd, ?_⟩
        intro heq
        have : DiscoveryNight (Marked nights has) window nlink (D - 1) := by
          unfold DiscoveryNight; rw [← heq]; exact hd
        have := hmin _ this
        omega
      · exact ⟨h2, h3⟩
    · rintro ⟨h1, h2⟩
      rcases lt_trichotomy d D with h | h | h
      · exact Or.inr ⟨h, h1, h2⟩
      · exact Or.inl h.symm
      · have := hmin D h1; omega

/-! ## linkSorted -/

theorem nights_mono (c : Cfg) (obs : List Obs) (hs : InTimeOrder obs) :
    obs.Pairwise fun a b => truncInt (a.mjd - c.nightStart) ≤ truncInt (b.mjd - c.nightStart) :=
  hs.imp fun h => truncInt_mono (by linarith)

/-- Complete description of `linkSorted` on well-phased observations. -/
theorem linkSorted_spec (c : Cfg) (w : ℕ → ℚ) (draws : List ℚ → ℕ → ℚ) (obs : List Obs)
    (hs : InTimeOrder obs) (hne : obs ≠ []) (hp : WellPhased c obs) (hw : 1 ≤ c.window) (hl : 1 ≤ c.nlink) :
    ∃ (offered : List ℤ) (L : Link), linkSorted c w draws obs = .ok L ∧
      offered.Pairwise (· < ·) ∧
      (∀ D ∈ offered, DiscoveryNight (TrackletNight c obs) c.window c.nlink D) ∧
      (c.nlink = 1 → ∀ D, D ∈ offered ↔ TrackletNight c obs D) ∧
      ((∀ k, 0 < w k) → ∀ D, DiscoveryNight (TrackletNight c obs) c.window c.nlink D →
        ∃ E, offered.head? = some E ∧ E ≤ D) ∧
      (Generic w obs.length → 1 < c.nlink → ∀ D, D ∈ offered ↔
          DiscoveryNight (TrackletNight c obs) c.window c.nlink D ∧
          inWindow (TrackletNight c obs) c.window D ≠ inWindow (TrackletNight c obs) c.window (D - 1)) ∧
      ((L = Link.default ∧ ∀ k < offered.length, ¬ draws (obs.map (·.ra)) k < c.p) ∨
        ∃ k D, offered[k]? = some D ∧ draws (obs.map (·.ra)) k < c.p ∧
          (∀ j < k, ¬ draws (obs.map (·.ra)) j < c.p) ∧ L.date = some D ∧ L.chances = offered.length ∧
          ∃ o ∈ obs, o.src = L.obsId ∧ D - c.window + 1 ≤ nightOf c o ∧ nightOf c o ≤ D ∧
            ∀ o' ∈ obs, D - c.window + 1 ≤ nightOf c o' → nightOf c o' ≤ D → o.mjd ≤ o'.mjd) := by
  set f : Obs → ℤ := fun o => truncInt (o.mjd - c.nightStart) with hf
  have hfn : ∀ o ∈ obs, f o = nightOf c o := by
    intro o ho
    rw [hf]; simp only
    rw [truncInt_eq_floor (hp o ho).1]; rfl
  have hmono : obs.Pairwise fun a b => f a ≤ f b := nights_mono c obs hs
  obtain ⟨has, e1, hlen, hmk⟩ := trackletsInNights_spec c obs f hs hmono
  set nights := unique (obs.map f) with hnights
  have hT : ∀ n, Marked nights has n ↔ TrackletNight c obs n := by
    intro n
    rw [hmk]
    unfold TrackletNight
    have hfil : (obs.filter fun o => decide (f o = n)) = obs.filter fun o => decide (nightOf c o = n) := by
      apply List.filter_congr
      intro o ho
      rw [hfn o ho]
    rw [hfil]
    constructor
    · rintro ⟨⟨o, ho, hon⟩, h⟩
      exact ⟨o, ho, by rw [← hfn o ho]; exact hon, h⟩
    · rintro ⟨o, ho, hon, h⟩
      exact ⟨⟨o, ho, by rw [hfn o ho]; exact hon⟩, h⟩
  have hTeq : Marked nights has = TrackletNight c obs := by
    funext n; exact propext (hT n)
  have hnne : nights ≠ [] := by
    intro h
    obtain ⟨o, ho⟩ := List.exists_mem_of_ne_nil obs hne
    have : f o ∈ nights := (mem_unique _ _).2 (List.mem_map_of_mem ho)
    rw [h] at this; simp at this
  have hnsort := unique_sorted (obs.map f)
  obtain ⟨offered, e2, hos, hsound, hone, hearly⟩ :=
    offered_spec nights has c.window c.nlink w hnne hnsort hw hl
  rw [hTeq] at hsound hone hearly
  have hgen : Generic w obs.length → 1 < c.nlink → ∀ D, D ∈ offered ↔
          DiscoveryNight (TrackletNight c obs) c.window c.nlink D ∧
          inWindow (TrackletNight c obs) c.window D ≠ inWindow (TrackletNight c obs) c.window (D - 1) := by
    have hk : has.count true ≤ obs.length := by
      have h1 : has.count true ≤ has.length := List.count_le_length
      have h2 : nights.length ≤ obs.length := by
        rw [hnights]; unfold unique
        rw [List.length_insertionSort]
        have := (List.dedup_sublist (obs.map f)).length_le
        simpa using this
      omega
    · intro hg hl1
      have hg' : Generic w (has.count true) := by
        intro A B hA hB
        exact hg A B (hA.trans (Finset.range_mono hk)) (hB.trans (Finset.range_mono hk))
      obtain ⟨off', e3, h3⟩ := discWindow_generic nights has c.window c.nlink w hnne hnsort hw hl hg'
      unfold offeredNights at e2
      rw [if_pos hl1, e3] at e2
      cases e2
      rw [hTeq] at h3
      exact h3
  have hphase : (((obs.map fun o => o.mjd - c.nightStart).map fun t => t - (truncInt t : ℚ)).all
      fun f => decide ((1 : ℚ) / 10 < f ∧ f < 9 / 10)) = true := (phased_all c obs).2 hp
  have hmapf : (obs.map fun o => o.mjd - c.nightStart).map truncInt = obs.map f := by
    rw [List.map_map]; rfl
  have hhead := head_nonzeroIdx offered.length (draws (obs.map (·.ra))) c.p
  have hdo : discoveryOpportunities nights has c.window c.nlink c.p w (draws (obs.map (·.ra)))
      = .ok ((nonzeroIdx ((List.range offered.length).map fun k =>
          decide (draws (obs.map (·.ra)) k < c.p))).head?, offered) := by
    unfold discoveryOpportunities
    rw [e2]; rfl
  refine ⟨offered, ?_⟩
  unfold linkSorted
  simp only [hphase, hmapf, e1, hdo, Bool.not_true, Bool.false_eq_true, if_false, bind, Except.bind]
  cases hk : (nonzeroIdx ((List.range offered.length).map fun k =>
          decide (draws (obs.map (·.ra)) k < c.p))).head? with
  | none =>
    rw [hk] at hhead
    exact ⟨Link.default, rfl, hos, hsound, hone, hearly, hgen, Or.inl ⟨rfl, hhead⟩⟩
  | some k =>
    rw [hk] at hhead
    obtain ⟨hk1, hk2, hk3⟩ := hhead
    have hD : offered[k]? = some offered[k] := List.getElem?_eq_getElem hk1
    set D := offered[k] with hDdef
    have hDmem : D ∈ offered := List.getElem_mem hk1
    have hdisc := hsound D hDmem
    -- the slice
    have hslice : slice obs (searchLeft (obs.map f) (D - c.window + 1)) (searchLeft (obs.map f) (D + 1))
        = obs.filter (fun a => decide (D - c.window + 1 ≤ f a ∧ f a < D + 1)) :=
      slice_range obs f hmono _ _ (by omega)
    have hne2 : (obs.filter (fun a => decide (D - c.window + 1 ≤ f a ∧ f a < D + 1))) ≠ [] := by
      obtain ⟨n, hn⟩ := Finset.card_pos.1 (lt_of_lt_of_le hl hdisc)
      simp only [inWindow, Finset.mem_filter, Finset.mem_Icc] at hn
      obtain ⟨⟨hn1, hn2⟩, o, ho, hon, _⟩ := hn
      apply List.ne_nil_of_mem (a := o)
      rw [List.mem_filter]
      refine ⟨ho, ?_⟩
      have := hfn o ho
      simp only [decide_eq_true_eq]; omega
    have harg := argmin?_spec ((slice obs (searchLeft (obs.map f) (D - c.window + 1))
      (searchLeft (obs.map f) (D + 1))).map (·.mjd))
    simp only [hD]
    cases hmn : argmin? ((slice obs (searchLeft (obs.map f) (D - c.window + 1))
      (searchLeft (obs.map f) (D + 1))).map (·.mjd)) with
    | none =>
      rw [hmn] at harg
      simp only at harg
      rw [hslice, List.map_eq_nil_iff] at harg
      exact absurd harg hne2
    | some k' =>
      rw [hmn] at harg
      obtain ⟨ha1, ha2⟩ := harg
      rw [List.length_map] at ha1
      -- the element
      have hel : obs[searchLeft (obs.map f) (D - c.window + 1) + k']? =
          (slice obs (searchLeft (obs.map f) (D - c.window + 1)) (searchLeft (obs.map f) (D + 1)))[k']? := by
        unfold slice
        rw [List.getElem?_drop, List.getElem?_take]
        rw [if_pos]
        have : k' < ((obs.take (searchLeft (obs.map f) (D + 1))).drop
            (searchLeft (obs.map f) (D - c.window + 1))).length := ha1
        simp only [List.length_drop, List.length_take] at this
        omega
      rw [List.getElem?_eq_getElem ha1] at hel
      set o := (slice obs (searchLeft (obs.map f) (D - c.window + 1)) (searchLeft (obs.map f) (D + 1)))[k'] with ho
      have homem : o ∈ obs.filter (fun a => decide (D - c.window + 1 ≤ f a ∧ f a < D + 1)) := by
        rw [← hslice]; exact List.getElem_mem ha1
      rw [List.mem_filter] at homem
      obtain ⟨ho1, ho2⟩ := homem
      simp only [decide_eq_true_eq] at ho2
      simp only [hel]
      have hif : truncInt (o.mjd - c.nightStart) + c.window > D := by
        have : f o = truncInt (o.mjd - c.nightStart) := rfl
        omega
      rw [if_pos hif]
      refine ⟨⟨o.src, some D, offered.length⟩, rfl, hos, hsound, hone, hearly, hgen, Or.inr ⟨k, D, hD, hk2, hk3, rfl, rfl, o, ho1, rfl, ?_, ?_, ?_⟩⟩
      · rw [← hfn o ho1]; omega
      · rw [← hfn o ho1]; omega
      · intro o' ho' h1 h2
        have hmem' : o'.mjd ∈ (slice obs (searchLeft (obs.map f) (D - c.window + 1))
            (searchLeft (obs.map f) (D + 1))).map (·.mjd) := by
          rw [hslice]
          apply List.mem_map_of_mem
          rw [List.mem_filter]
          rw [← hfn o' ho'] at h1 h2
          exact ⟨ho', by simp only [decide_eq_true_eq]; omega⟩
        have := ha2 _ hmem'
        rw [List.getD_eq_getElem?_getD, List.getElem?_map, List.getElem?_eq_getElem ha1] at this
        exact this

theorem linkSorted_badPhase (c : Cfg) (w : ℕ → ℚ) (draws : List ℚ → ℕ → ℚ) (obs : List Obs)
    (hp : ¬ WellPhased c obs) : linkSorted c w draws obs = .error .nightBoundary := by
  unfold linkSorted
  have : (((obs.map fun o => o.mjd - c.nightStart).map fun t => t - (truncInt t : ℚ)).all
      fun f => decide ((1 : ℚ) / 10 < f ∧ f < 9 / 10)) = false := by
    rw [← Bool.not_eq_true, phased_all]; exact hp
  simp only [this, Bool.not_false, if_true]
  rfl

end Sorcha.Linking
