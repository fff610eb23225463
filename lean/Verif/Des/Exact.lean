import Verif.Des.Props
import Mathlib.Order.WellFoundedSet

/-!
# DES discovery: exactly which objects are kept
-/

namespace Sorcha.Des.Props
open Sorcha.Des

variable {V : Type}

/-- Three neighbours in a list. -/
def Nb (d : List ℚ) (a b c : ℚ) : Prop := ∃ p q, d = p ++ a :: b :: c :: q

/-- The recursion for lists. -/
def SearchL (d : List ℚ) (counts : ℚ → Prop) : Prop :=
  ∀ a b c, Nb d a b c → (counts a ↔ (b - a < 999 ∧ c - b < 999 ∧ ∀ a' b' c', Nb d a' b' c' → a' < a → counts a' → b - a < b' - a' ∧ c - b < c' - b'))

theorem split_unique {d p q p' q' : List ℚ} {a : ℚ} (hd : d.Nodup) (h : d = p ++ a :: q) (h' : d = p' ++ a :: q') : p = p' ∧ q = q' := by
  subst h
  rcases List.append_eq_append_iff.1 h' with ⟨t, h1, h2⟩ | ⟨t, h1, h2⟩
  · cases t with
    | nil => simp at h1 h2; exact ⟨h1.symm, h2⟩
    | cons x t =>
      simp only [List.cons_append, List.cons.injEq] at h2
      obtain ⟨rfl, h2⟩ := h2
      rw [h2] at hd
      have := (List.nodup_append.1 hd).2.1
      simp at this
  · cases t with
    | nil => simp at h1 h2; exact ⟨h1, h2.symm⟩
    | cons x t =>
      simp only [List.cons_append, List.cons.injEq] at h2
      obtain ⟨rfl, h2⟩ := h2
      rw [h1] at hd
      have := (List.nodup_append.1 hd).2.2 a (by simp) a (by simp)
      exact absurd rfl this

theorem nb_unique {d : List ℚ} {a b c b' c' : ℚ} (hd : d.Nodup) (h : Nb d a b c) (h' : Nb d a b' c') : b = b' ∧ c = c' := by
  obtain ⟨p, q, h⟩ := h
  obtain ⟨p', q', h'⟩ := h'
  obtain ⟨-, e⟩ := split_unique hd h h'
  simp only [List.cons.injEq] at e
  exact ⟨e.1, e.2.1⟩

theorem pairs_exact {d : List ℚ} (hd : d.Pairwise (· < ·)) {counts : ℚ → Prop} (hs : SearchL d counts) (w : ℚ) : ∀ (suf pre : List ℚ) (f s : ℚ), d = pre ++ suf →
    (∀ x y, (y < f ∧ x < s) ↔ (x < 999 ∧ y < 999 ∧ ∀ a' b' c', Nb d a' b' c' → a' ∈ pre → counts a' → x < b' - a' ∧ y < c' - b')) →
    (((pairs f s suf).1 < w ∧ (pairs f s suf).2 < w) ↔
      ((f < w ∧ s < w) ∨ ∃ a b c, Nb d a b c ∧ a ∈ suf ∧ counts a ∧ b - a < w ∧ c - b < w)) := by
  have hnd : d.Nodup := hd.imp fun h => ne_of_lt h
  intro suf
  induction suf with
  | nil => intro pre f s _ _; simp [pairs]
  | cons a suf ih =>
    intro pre f s he hi
    match suf, ih with
    | [], _ =>
      have : ∀ b c x, Nb d x b c → x ∈ [a] → False := by
        intro b c x ⟨p, q, hx⟩ hxa
        rw [List.mem_singleton] at hxa; subst hxa
        obtain ⟨-, e⟩ := split_unique hnd he hx
        cases e
      constructor
      · intro h; exact .inl (by simpa [pairs] using h)
      · rintro (h | ⟨x, b, c, h1, h2, -⟩)
        · simpa [pairs] using h
        · exact (this b c x h1 h2).elim
    | [b0], _ =>
      have : ∀ b c x, Nb d x b c → x ∈ [a, b0] → False := by
        intro b c x ⟨p, q, hx⟩ hxa
        simp only [List.mem_cons, List.not_mem_nil, or_false] at hxa
        rcases hxa with rfl | rfl
        · obtain ⟨-, e⟩ := split_unique hnd he hx
          cases e
        · obtain ⟨-, e⟩ := split_unique hnd (p := pre ++ [a]) (q := []) (by rw [he]; simp) hx
          cases e
      constructor
      · intro h; exact .inl (by simpa [pairs] using h)
      · rintro (h | ⟨x, b, c, h1, h2, -⟩)
        · simpa [pairs] using h
        · exact (this b c x h1 h2).elim
    | b :: c :: r, ih =>
      have hnb : Nb d a b c := ⟨pre, r, he⟩
      have hpre : ∀ x ∈ d, (x < a ↔ x ∈ pre) := by
        intro x hx
        rw [he, List.pairwise_append] at hd
        constructor
        · intro hlt
          rw [he] at hx
          rcases List.mem_append.1 hx with h | h
          · exact h
          · rcases List.mem_cons.1 h with rfl | h
            · exact absurd hlt (lt_irrefl _)
            · exact absurd ((List.pairwise_cons.1 hd.2.1).1 x h) (not_lt.2 hlt.le)
        · intro h; exact hd.2.2 x h a (by simp)
      have hcount : counts a ↔ (c - b < f ∧ b - a < s) := by
        rw [hs a b c hnb, hi]
        constructor
        · rintro ⟨h1, h2, h3⟩
          refine ⟨h1, h2, fun a' b' c' hn hp hc => ?_⟩
          have hm : a' ∈ d := by rw [he]; exact List.mem_append_left _ hp
          exact h3 a' b' c' hn ((hpre a' hm).2 hp) hc
        · rintro ⟨h1, h2, h3⟩
          refine ⟨h1, h2, fun a' b' c' hn hp hc => ?_⟩
          have hm : a' ∈ d := by obtain ⟨p, q, h⟩ := hn; rw [h]; simp
          exact h3 a' b' c' hn ((hpre a' hm).1 hp) hc
      have he' : d = (pre ++ [a]) ++ b :: c :: r := by rw [he]; simp
      by_cases hc : c - b < f ∧ b - a < s
      · have hca := hcount.2 hc
        have hu : pairs f s (a :: b :: c :: r) = pairs (c - b) (b - a) (b :: c :: r) := by
          rw [pairs, if_pos hc]
        rw [hu, ih (pre ++ [a]) (c - b) (b - a) he' ?_]
        · constructor
          · rintro (⟨h1, h2⟩ | ⟨x, y, z, h1, h2, h3⟩)
            · exact .inr ⟨a, b, c, hnb, by simp, hca, h2, h1⟩
            · exact .inr ⟨x, y, z, h1, List.mem_cons_of_mem _ h2, h3⟩
          · rintro (⟨h1, h2⟩ | ⟨x, y, z, h1, h2, h3, h4, h5⟩)
            · exact .inl ⟨hc.1.trans h1, hc.2.trans h2⟩
            · rcases List.mem_cons.1 h2 with rfl | h2
              · obtain ⟨rfl, rfl⟩ := nb_unique hnd hnb h1
                exact .inl ⟨h5, h4⟩
              · exact .inr ⟨x, y, z, h1, h2, h3, h4, h5⟩
        · intro x y
          constructor
          · rintro ⟨h1, h2⟩
            obtain ⟨k1, k2, k3⟩ := (hi x y).1 ⟨h1.trans hc.1, h2.trans hc.2⟩
            refine ⟨k1, k2, fun a' b' c' hn hp hc' => ?_⟩
            rcases List.mem_append.1 hp with hp | hp
            · exact k3 a' b' c' hn hp hc'
            · rw [List.mem_singleton] at hp; subst hp
              obtain ⟨rfl, rfl⟩ := nb_unique hnd hnb hn
              exact ⟨h2, h1⟩
          · rintro ⟨-, -, k3⟩
            have := k3 a b c hnb (by simp) hca
            exact ⟨this.2, this.1⟩
      · have hu : pairs f s (a :: b :: c :: r) = pairs f s (b :: c :: r) := by
          rw [pairs, if_neg hc]
        have hca : ¬ counts a := fun h => hc (hcount.1 h)
        rw [hu, ih (pre ++ [a]) f s he' ?_]
        · constructor
          · rintro (h | ⟨x, y, z, h1, h2, h3⟩)
            · exact .inl h
            · exact .inr ⟨x, y, z, h1, List.mem_cons_of_mem _ h2, h3⟩
          · rintro (h | ⟨x, y, z, h1, h2, h3, h4⟩)
            · exact .inl h
            · rcases List.mem_cons.1 h2 with rfl | h2
              · exact absurd h3 hca
              · exact .inr ⟨x, y, z, h1, h2, h3, h4⟩
        · intro x y
          rw [hi]
          refine and_congr_right fun _ => and_congr_right fun _ => forall_congr' fun a' => ?_
          constructor
          · intro h b' c' hn hp hc'
            rcases List.mem_append.1 hp with hp | hp
            · exact h b' c' hn hp hc'
            · rw [List.mem_singleton] at hp; subst hp; exact absurd hc' hca
          · intro h b' c' hn hp hc'
            exact h b' c' hn (List.mem_append_left _ hp) hc'

/-- In an ordered list neighbours are members with none in between. -/
theorem nb_iff {d : List ℚ} (hd : d.Pairwise (· < ·)) (a b c : ℚ) :
    Nb d a b c ↔ (a ∈ d ∧ b ∈ d ∧ c ∈ d) ∧ a < b ∧ b < c ∧ ∀ t ∈ d, t ≤ a ∨ t = b ∨ c ≤ t := by
  constructor
  · rintro ⟨p, q, rfl⟩
    rw [List.pairwise_append] at hd
    obtain ⟨-, h2, h3⟩ := hd
    simp only [List.pairwise_cons] at h2
    refine ⟨by simp, h2.1 b (by simp), h2.2.1 c (by simp), ?_⟩
    intro t ht
    simp only [List.mem_append, List.mem_cons] at ht
    rcases ht with h | rfl | rfl | rfl | h
    · exact .inl (h3 t h a (by simp)).le
    · exact .inl le_rfl
    · exact .inr (.inl rfl)
    · exact .inr (.inr le_rfl)
    · exact .inr (.inr (h2.2.2.1 t h).le)
  · rintro ⟨⟨ha, hb, hc⟩, hab, hbc, hn⟩
    obtain ⟨p, q, rfl⟩ := List.append_of_mem ha
    rw [List.pairwise_append, List.pairwise_cons] at hd
    obtain ⟨-, ⟨h1, h2⟩, h3⟩ := hd
    have hq : ∀ x, a < x → x ∈ p ++ a :: q → x ∈ q := by
      intro x hx hm
      rcases List.mem_append.1 hm with h | h
      · exact absurd (h3 x h a (by simp)) (not_lt.2 hx.le)
      · rcases List.mem_cons.1 h with rfl | h
        · exact absurd hx (lt_irrefl _)
        · exact h
    have hbq := hq b hab hb
    have hcq := hq c (hab.trans hbc) hc
    cases q with
    | nil => exact absurd hbq List.not_mem_nil
    | cons y q =>
      rw [List.pairwise_cons] at h2
      have hy : y = b := by
        rcases List.mem_cons.1 hbq with h | h
        · exact h.symm
        · have e1 := h2.1 b h
          have e2 := h1 y (by simp)
          rcases hn y (by simp) with h | h | h
          · exact absurd e2 (not_lt.2 h)
          · exact h
          · exact absurd (e1.trans hbc) (not_lt.2 h)
      subst hy
      have hcq' := (List.mem_cons.1 hcq).resolve_left hbc.ne'
      cases q with
      | nil => exact absurd hcq' List.not_mem_nil
      | cons z q =>
        have hz : z = c := by
          rcases List.mem_cons.1 hcq' with h | h
          · exact h.symm
          · have e1 := (List.pairwise_cons.1 h2.2).1 c h
            have e2 := h2.1 z (by simp)
            rcases hn z (by simp) with h | h | h
            · exact absurd (hab.trans e2) (not_lt.2 h)
            · exact absurd e2 (by rw [h]; exact lt_irrefl _)
            · exact absurd e1 (not_lt.2 h)
        subst hz
        exact ⟨p, q, rfl⟩

theorem nb_successive (times : List ℚ) (hs : times.Pairwise (· ≤ ·)) (a b c : ℚ) : Nb (det times) a b c ↔ Spec.Successive times a b c := by
  obtain ⟨d1, d2⟩ := det_spec times hs
  rw [nb_iff d1]
  unfold Spec.Successive Spec.NightStart
  simp only [d2]

theorem triplet_exact (times : List ℚ) (hs : times.Pairwise (· ≤ ·)) (w : ℚ) (hw : w ≤ 999) (counts : ℚ → Prop) (hc : Spec.Search times counts) :
    triplet times w = true ↔ ∃ a b c, Spec.Successive times a b c ∧ counts a ∧ b - a < w ∧ c - b < w := by
  obtain ⟨d1, -⟩ := det_spec times hs
  have hL : SearchL (det times) counts := by
    intro a b c h
    rw [hc a b c ((nb_successive times hs a b c).1 h)]
    simp only [nb_successive times hs]
  have := pairs_exact d1 hL w (det times) [] 999 999 rfl (by intro x y; simp [and_comm])
  unfold triplet
  simp only [decide_eq_true_eq]
  rw [this]
  constructor
  · rintro (⟨h, -⟩ | ⟨a, b, c, h1, -, h2⟩)
    · exact absurd h (not_lt.2 hw)
    · exact ⟨a, b, c, (nb_successive times hs a b c).1 h1, h2⟩
  · rintro ⟨a, b, c, h1, h2⟩
    have h1' := (nb_successive times hs a b c).2 h1
    exact .inr ⟨a, b, c, h1', ((nb_iff d1 a b c).1 h1').1.1, h2⟩

theorem search_perm {l l' : List ℚ} (h : l.Perm l') (counts : ℚ → Prop) : Spec.Search l counts ↔ Spec.Search l' counts := by
  unfold Spec.Search Spec.Successive Spec.NightStart
  simp only [h.mem_iff]

theorem successive_perm {l l' : List ℚ} (h : l.Perm l') (a b c : ℚ) : Spec.Successive l a b c ↔ Spec.Successive l' a b c := by
  unfold Spec.Successive Spec.NightStart
  simp only [h.mem_iff]

/-- C37 (the search is determined): for any times there is one and only one answer to which three successive nights count. -/
theorem C37_search (times : List ℚ) :
    (∃ counts, Spec.Search times counts) ∧
    ∀ counts counts', Spec.Search times counts → Spec.Search times counts' → ∀ a b c, Spec.Successive times a b c → (counts a ↔ counts' a) := by
  have hfin : {x | x ∈ times}.Finite := List.finite_toSet times
  have hwf : WellFounded fun x y : {x | x ∈ times} => (x : ℚ) < y := hfin.wellFoundedOn
  constructor
  · let F : ∀ x : {x | x ∈ times}, (∀ y : {x | x ∈ times}, (y : ℚ) < x → Prop) → Prop := fun x rec =>
      ∀ b c, Spec.Successive times x b c → b - x < 999 ∧ c - b < 999 ∧
        ∀ (a' b' c' : ℚ) (hm : a' ∈ times) (hlt : a' < x), Spec.Successive times a' b' c' → rec ⟨a', hm⟩ hlt → b - x < b' - a' ∧ c - b < c' - b'
    let C : {x | x ∈ times} → Prop := hwf.fix F
    have hC : ∀ x, C x = F x fun y _ => C y := fun x => hwf.fix_eq F x
    refine ⟨fun a => ∃ h : a ∈ times, C ⟨a, h⟩, ?_⟩
    intro a b c hsuc
    have hu : ∀ b' c', Spec.Successive times a b' c' → b' = b ∧ c' = c := by
      intro b' c' h'
      obtain ⟨⟨n1, n2, n3⟩, l1, l2, l3⟩ := hsuc
      obtain ⟨⟨m1, m2, m3⟩, k1, k2, k3⟩ := h'
      have e1 : b' = b := by
        rcases l3 b' m2 with h | h | h
        · exact absurd k1 (not_lt.2 h)
        · exact h
        · rcases k3 b n2 with h' | h' | h'
          · exact absurd l1 (not_lt.2 h')
          · exact h'.symm
          · linarith
      subst e1
      refine ⟨rfl, ?_⟩
      rcases l3 c' m3 with h | h | h
      · linarith
      · linarith
      · rcases k3 c n3 with h' | h' | h'
        · linarith
        · linarith
        · linarith
    constructor
    · rintro ⟨h, hc⟩
      rw [hC] at hc
      obtain ⟨c1, c2, c3⟩ := hc b c hsuc
      exact ⟨c1, c2, fun a' b' c' h1 h2 ⟨h3, h4⟩ => c3 a' b' c' h3 h2 h1 h4⟩
    · rintro ⟨c1, c2, c3⟩
      refine ⟨hsuc.1.1.1, ?_⟩
      rw [hC]
      intro b' c' h'
      obtain ⟨rfl, rfl⟩ := hu b' c' h'
      exact ⟨c1, c2, fun a' b' c' hm hlt h1 h2 => c3 a' b' c' h1 hlt ⟨hm, h2⟩⟩
  · intro counts counts' h h' a
    by_cases ham : a ∈ times
    · have := hwf.induction (C := fun x => ∀ b c, Spec.Successive times x b c → (counts x ↔ counts' x)) ⟨a, ham⟩ ?_
      · exact this
      · intro x ih b c hs
        rw [h x b c hs, h' x b c hs]
        refine and_congr_right fun _ => and_congr_right fun _ => ?_
        constructor
        · intro k a' b' c' h1 h2 h3
          exact k a' b' c' h1 h2 ((ih ⟨a', h1.1.1.1⟩ h2 b' c' h1).2 h3)
        · intro k a' b' c' h1 h2 h3
          exact k a' b' c' h1 h2 ((ih ⟨a', h1.1.1.1⟩ h2 b' c' h1).1 h3)
    · intro b c hs
      exact absurd hs.1.1.1 ham

/-- C37 (exactly the objects kept): all rows of an object are kept iff it was seen in nine nights, or in seven with a long arc and the search for a triplet meets three
successive nights that count and follow each other within the window. -/
theorem C37_exact {sort : List (Row V) → List (Row V)} (hsort : Spec.SortSound sort) (obs : List (Row V)) (r : Row V) (hr : r ∈ obs) (counts : ℚ → Prop)
    (hc : Spec.Search ((Spec.rowsOf r.obj obs).map (·.t)) counts) :
    r ∈ discoveryFilter sort obs ↔
      (Spec.nights ((Spec.rowsOf r.obj obs).map (·.t)) ≥ 9 ∨
        (Spec.nights ((Spec.rowsOf r.obj obs).map (·.t)) ≥ 7 ∧ Spec.LongArc ((Spec.rowsOf r.obj obs).map (·.t)) ∧
          ∃ w : ℚ, ((Spec.Distant (Spec.rowsOf r.obj obs) ∧ w = 90) ∨ (¬ Spec.Distant (Spec.rowsOf r.obj obs) ∧ w = 60)) ∧
            ∃ a b c, Spec.Successive ((Spec.rowsOf r.obj obs).map (·.t)) a b c ∧ counts a ∧ b - a < w ∧ c - b < w)) := by
  rw [mem_filter_iff hsort]
  have hmem : r ∈ Spec.rowsOf r.obj obs := by unfold Spec.rowsOf; simp [hr]
  have hne : Spec.rowsOf r.obj obs ≠ [] := List.ne_nil_of_mem hmem
  generalize Spec.rowsOf r.obj obs = rows at *
  have hp := sort_perm (rows.map (·.t))
  have hne' : (rows.map (·.t)).insertionSort (· ≤ ·) ≠ [] := by
    intro e
    have := hp.length_eq
    rw [e] at this
    simp at this
    exact hne (List.eq_nil_of_length_eq_zero this.symm)
  unfold found
  simp only [Bool.or_eq_true, Bool.and_eq_true, decide_eq_true_eq, nunique_sorted, hr, true_and]
  rw [arccut_iff _ hne', longArc_perm hp, triplet_exact _ (sort_sorted _) _ (by split_ifs <;> norm_num) counts ((search_perm hp counts).2 hc)]
  simp only [successive_perm hp]
  refine or_congr_right ?_
  have hw : ∀ Q : ℚ → Prop, Q (if distanceSq rows ≥ bound then 90 else 60) ↔ ∃ w : ℚ, ((Spec.Distant rows ∧ w = 90) ∨ (¬ Spec.Distant rows ∧ w = 60)) ∧ Q w := by
    intro Q
    by_cases hd : distanceSq rows ≥ bound
    · have := (distant_iff rows hne).1 hd
      rw [if_pos hd]
      exact ⟨fun h => ⟨90, .inl ⟨this, rfl⟩, h⟩, by rintro ⟨w, ⟨-, rfl⟩ | ⟨h, -⟩, h'⟩; exacts [h', absurd this h]⟩
    · have : ¬ Spec.Distant rows := fun h => hd ((distant_iff rows hne).2 h)
      rw [if_neg hd]
      exact ⟨fun h => ⟨60, .inr ⟨this, rfl⟩, h⟩, by rintro ⟨w, ⟨h, -⟩ | ⟨-, rfl⟩, h'⟩; exacts [absurd h this, h']⟩
  rw [hw fun w => ∃ a b c, Spec.Successive (rows.map (·.t)) a b c ∧ counts a ∧ b - a < w ∧ c - b < w]
  exact ⟨fun ⟨⟨a, b⟩, c⟩ => ⟨c, a, b⟩, fun ⟨c, a, b⟩ => ⟨⟨a, b⟩, c⟩⟩

/-- The hypotheses are met: by `C37_search` there always is such a search. Here the object is kept for its triplet, which is that of its third night: the two before it have
longer gaps. -/
example : ∃ counts, Spec.Search ((Spec.rowsOf "o" (seenAt [0, 100, 190, 230, 265, 390, 490])).map (·.t)) counts ∧
    ∃ w : ℚ, ∃ a b c, Spec.Successive ((Spec.rowsOf "o" (seenAt [0, 100, 190, 230, 265, 390, 490])).map (·.t)) a b c ∧ counts a ∧ b - a < w ∧ c - b < w := by
  obtain ⟨counts, hc⟩ := (C37_search ((Spec.rowsOf "o" (seenAt [0, 100, 190, 230, 265, 390, 490])).map (·.t))).1
  refine ⟨counts, hc, ?_⟩
  have hr : (⟨"o", 0, 4487936121, 0, 0, ()⟩ : Row Unit) ∈ seenAt [0, 100, 190, 230, 265, 390, 490] := by decide +kernel
  have hk : (⟨"o", 0, 4487936121, 0, 0, ()⟩ : Row Unit) ∈ discoveryFilter sortT (seenAt [0, 100, 190, 230, 265, 390, 490]) := by decide +kernel
  rcases (C37_exact sortT_sound _ _ hr counts hc).1 hk with h | ⟨-, -, w, -, h⟩
  · exact absurd h (by decide +kernel)
  · exact ⟨w, h⟩

end Sorcha.Des.Props
