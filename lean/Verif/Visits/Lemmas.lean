import Verif.Visits.Spec
import Mathlib.Tactic.Linarith
import Mathlib.Tactic.Push

namespace Sorcha.Visits

/-- Unwrapped position of one row of a visit's group. -/
noncomputable def shift (b : ℝ) (g : List Obs) (o : Obs) : ℝ × ℝ :=
  open Classical in
  if b < 180 then
    let p := if ∃ o ∈ g, o.fieldRA + b > 360 then (if o.ra < 180 then (o.ra + 360, o.dec) else (o.ra, o.dec)) else (o.ra, o.dec)
    if ∃ o ∈ g, o.fieldRA - b < 0 then (if p.1 > 180 then (p.1 - 360, p.2) else p) else p
  else (o.ra, o.dec)

theorem unwrap_eq (b : ℝ) (g : List Obs) : unwrap b g = g.map (shift b g) := by
  unfold unwrap shift
  by_cases h : b < 180
  · by_cases h1 : ∃ o ∈ g, o.fieldRA + b > 360 <;> by_cases h2 : ∃ o ∈ g, o.fieldRA - b < 0 <;>
      simp only [h, h1, h2, if_true, if_false, List.map_map] <;> rfl
  · simp [h]

/-- The group of a visit. -/
def group (obs : List Obs) (f : String) : List Obs := obs.filter (·.field = f)

/-- The chip found for a row. -/
noncomputable def hitOf (x : Ext) (ccdNum : ℕ) (b : ℝ) (db : String → List Chip) (obs : List Obs) (o : Obs) : Option Chip :=
  if db o.field = [] then none
  else firstHit x (db o.field) (candidates x ccdNum (db o.field) ((group obs o.field).map (shift b (group obs o.field))))
    (shift b (group obs o.field) o)

theorem zip_map_filterMap {α β γ : Type} (g : List α) (f : α → β) (F : α × β → Option γ) :
    (g.zip (g.map f)).filterMap F = g.filterMap fun a => F (a, f a) := by
  induction g with
  | nil => rfl
  | cons a g ih =>
    simp only [List.map_cons, List.zip_cons_cons, List.filterMap_cons, ih]

theorem mem_allHits (x : Ext) (ccdNum : ℕ) (b : ℝ) (db : String → List Chip) (obs : List Obs) (l : ℕ) (c : Chip) :
    (l, c) ∈ allHits x ccdNum b db obs ↔ ∃ o ∈ obs, o.label = l ∧ hitOf x ccdNum b db obs o = some c := by
  unfold allHits
  rw [List.mem_flatMap]
  constructor
  · rintro ⟨f, -, h⟩
    unfold visitHits at h
    by_cases hd : db f = []
    · rw [if_pos hd] at h; exact absurd h List.not_mem_nil
    · rw [if_neg hd] at h
      simp only at h
      rw [unwrap_eq, zip_map_filterMap, List.mem_filterMap] at h
      obtain ⟨o, ho, h⟩ := h
      rw [List.mem_filter] at ho
      have hf : o.field = f := of_decide_eq_true ho.2
      rw [Option.map_eq_some_iff] at h
      obtain ⟨c', h1, h2⟩ := h
      refine ⟨o, ho.1, congrArg Prod.fst h2, ?_⟩
      unfold hitOf
      rw [hf, if_neg hd]
      rw [show c = c' from (congrArg Prod.snd h2).symm]
      exact h1
  · rintro ⟨o, ho, hl, h⟩
    refine ⟨o.field, List.mem_dedup.2 (List.mem_map.2 ⟨o, ho, rfl⟩), ?_⟩
    unfold hitOf at h
    by_cases hd : db o.field = []
    · rw [if_pos hd] at h; exact absurd h (by simp)
    · rw [if_neg hd] at h
      unfold visitHits
      rw [if_neg hd]
      simp only
      rw [unwrap_eq, zip_map_filterMap, List.mem_filterMap]
      refine ⟨o, List.mem_filter.2 ⟨ho, by simp⟩, ?_⟩
      rw [Option.map_eq_some_iff]
      exact ⟨c, h, by rw [hl]⟩

section
variable {x : Ext} {ccdNum : ℕ} {b : ℝ} {db : String → List Chip} {obs : List Obs}

theorem fresh_inj (hf : Spec.FreshIndex obs) {o o' : Obs} (ho : o ∈ obs) (ho' : o' ∈ obs) (h : o.label = o'.label) : o = o' := by
  obtain ⟨i, hi⟩ := List.mem_iff_getElem?.1 ho
  obtain ⟨j, hj⟩ := List.mem_iff_getElem?.1 ho'
  have := hf i o hi
  have := hf j o' hj
  have hij : i = j := by omega
  rw [hij] at hi
  exact Option.some.inj (hi.symm.trans hj)

theorem fresh_get (hf : Spec.FreshIndex obs) {o : Obs} (ho : o ∈ obs) : obs[o.label]? = some o := by
  obtain ⟨i, hi⟩ := List.mem_iff_getElem?.1 ho
  rw [hf i o hi]; exact hi

theorem fresh_sorted (hf : Spec.FreshIndex obs) : obs.Pairwise fun a c => a.label < c.label := by
  rw [List.pairwise_iff_getElem]
  intro i j hi hj hij
  have h1 := hf i _ (List.getElem?_eq_getElem hi)
  have h2 := hf j _ (List.getElem?_eq_getElem hj)
  omega

theorem hits_unique (hf : Spec.FreshIndex obs) {l : ℕ} {c c' : Chip} (h : (l, c) ∈ allHits x ccdNum b db obs) (h' : (l, c') ∈ allHits x ccdNum b db obs) :
    c = c' := by
  rw [mem_allHits] at h h'
  obtain ⟨o, ho, hl, hc⟩ := h
  obtain ⟨o', ho', hl', hc'⟩ := h'
  have := fresh_inj hf ho ho' (hl.trans hl'.symm)
  subst this
  rw [hc] at hc'
  exact Option.some.inj hc'

theorem find_hit (hf : Spec.FreshIndex obs) {l : ℕ} {c : Chip} (h : (l, c) ∈ allHits x ccdNum b db obs) :
    (allHits x ccdNum b db obs).reverse.find? (fun y => decide (y.1 = l)) = some (l, c) := by
  cases hfind : (allHits x ccdNum b db obs).reverse.find? (fun y => decide (y.1 = l)) with
  | none =>
    rw [List.find?_eq_none] at hfind
    exact absurd (hfind (l, c) (List.mem_reverse.2 h)) (by simp)
  | some y =>
    have hm := List.mem_reverse.1 (List.mem_of_find?_eq_some hfind)
    have hl := List.find?_some hfind
    simp only [decide_eq_true_eq] at hl
    obtain ⟨l', c'⟩ := y
    simp only at hl
    subst hl
    rw [hits_unique hf h hm]

theorem footprint_mem (hs : Spec.Sound x) (hf : Spec.FreshIndex obs) (y : ℕ × Chip) :
    y ∈ visitsFootprint x ccdNum b db obs ↔ y ∈ allHits x ccdNum b db obs := by
  unfold visitsFootprint
  simp only
  rw [List.mem_filterMap]
  constructor
  · rintro ⟨l, -, h⟩
    exact List.mem_reverse.1 (List.mem_of_find?_eq_some h)
  · intro h
    exact ⟨y.1, (hs.order' _).mem_iff.2 (List.mem_dedup.2 (List.mem_map_of_mem h)), find_hit hf h⟩

theorem footprint_labels (hs : Spec.Sound x) (hf : Spec.FreshIndex obs) : ((visitsFootprint x ccdNum b db obs).map Prod.fst).Nodup := by
  unfold visitsFootprint
  simp only
  have hn : (x.order' ((allHits x ccdNum b db obs).map (·.1)).dedup).Nodup := (hs.order' _).nodup_iff.2 (List.nodup_dedup _)
  have hsub : (((x.order' ((allHits x ccdNum b db obs).map (·.1)).dedup).filterMap
      fun l => (allHits x ccdNum b db obs).reverse.find? fun y => decide (y.1 = l)).map Prod.fst).Sublist
      (x.order' ((allHits x ccdNum b db obs).map (·.1)).dedup) := by
    generalize x.order' ((allHits x ccdNum b db obs).map (·.1)).dedup = L
    induction L with
    | nil => simp
    | cons l L ih =>
      rw [List.filterMap_cons]
      cases hfind : (allHits x ccdNum b db obs).reverse.find? (fun y => decide (y.1 = l)) with
      | none => simp only; exact ih.trans (List.sublist_cons_self _ _)
      | some y =>
        have hl := List.find?_some hfind
        simp only [decide_eq_true_eq] at hl
        simp only [List.map_cons, hl]
        exact ih.cons_cons l
  exact hsub.nodup hn

/-- The result row for an observation. -/
noncomputable def rowOf (x : Ext) (ccdNum : ℕ) (b : ℝ) (db : String → List Chip) (obs : List Obs) (o : Obs) : Option OutRow :=
  (hitOf x ccdNum b db obs o).map fun c => ⟨o, c.detectorID, c.limMag⟩

theorem mapM_some {α β : Type} (F : α → Option β) (G : α → β) (l : List α) (h : ∀ a ∈ l, F a = some (G a)) : l.mapM F = some (l.map G) := by
  induction l with
  | nil => rfl
  | cons a l ih =>
    rw [List.mapM_cons, h a List.mem_cons_self, ih fun a' ha' => h a' (List.mem_cons_of_mem _ ha')]
    rfl

/-- With a fresh index the result is the observations with a chip, in order. -/
theorem applyVisits_eq (hs : Spec.Sound x) (hf : Spec.FreshIndex obs) :
    applyVisits x ccdNum b db obs = some (obs.filterMap (rowOf x ccdNum b db obs)) := by
  classical
  unfold applyVisits
  by_cases hne : obs = []
  · subst hne
    have : visitsFootprint x ccdNum b db [] = [] := by
      have h0 : allHits x ccdNum b db [] = [] := rfl
      unfold visitsFootprint
      simp only [h0, List.map_nil, List.dedup_nil]
      rw [List.Perm.eq_nil (hs.order' [])]
      rfl
    rw [this]
    rfl
  have hinh : ∃ o0 : Obs, o0 ∈ obs := List.exists_mem_of_ne_nil _ hne
  obtain ⟨o0, -⟩ := hinh
  let G : ℕ × Chip → OutRow := fun h => ⟨(obs[h.1]?).getD o0, h.2.detectorID, h.2.limMag⟩
  have hget : ∀ h ∈ visitsFootprint x ccdNum b db obs, ∃ o ∈ obs, o.label = h.1 ∧ hitOf x ccdNum b db obs o = some h.2 ∧ obs[h.1]? = some o := by
    intro h hh
    rw [footprint_mem hs hf] at hh
    obtain ⟨o, ho, hl, hc⟩ := (mem_allHits ..).1 hh
    exact ⟨o, ho, hl, hc, by rw [← hl]; exact fresh_get hf ho⟩
  rw [mapM_some _ G _ (by
    intro h hh
    obtain ⟨o, -, -, -, hg⟩ := hget h hh
    simp only [G, hg, Option.map_some, Option.getD_some])]
  simp only [Option.map_some, Option.some.injEq]
  have hlab : ∀ h ∈ visitsFootprint x ccdNum b db obs, (G h).obs.label = h.1 := by
    intro h hh
    obtain ⟨o, -, hl, -, hg⟩ := hget h hh
    simp only [G, hg, Option.getD_some, hl]
  have hmemL : ∀ r, r ∈ (visitsFootprint x ccdNum b db obs).map G ↔ r ∈ obs.filterMap (rowOf x ccdNum b db obs) := by
    intro r
    rw [List.mem_map, List.mem_filterMap]
    constructor
    · rintro ⟨h, hh, rfl⟩
      obtain ⟨o, ho, hl, hc, hg⟩ := hget h hh
      refine ⟨o, ho, ?_⟩
      unfold rowOf
      simp only [hc, Option.map_some, G, hg, Option.getD_some]
    · rintro ⟨o, ho, hr⟩
      unfold rowOf at hr
      rw [Option.map_eq_some_iff] at hr
      obtain ⟨c, hc, rfl⟩ := hr
      refine ⟨(o.label, c), (footprint_mem hs hf _).2 ((mem_allHits ..).2 ⟨o, ho, rfl, hc⟩), ?_⟩
      simp only [G, fresh_get hf ho, Option.getD_some]
  have hnodL : ((visitsFootprint x ccdNum b db obs).map G).Nodup := by
    apply List.Nodup.of_map (fun r : OutRow => r.obs.label)
    rw [List.map_map]
    have : (visitsFootprint x ccdNum b db obs).map ((fun r : OutRow => r.obs.label) ∘ G) = (visitsFootprint x ccdNum b db obs).map Prod.fst :=
      List.map_congr_left hlab
    rw [this]
    exact footprint_labels hs hf
  have hstrict : (obs.filterMap (rowOf x ccdNum b db obs)).Pairwise fun a c => a.obs.label < c.obs.label := by
    rw [List.pairwise_filterMap]
    refine (fresh_sorted hf).imp ?_
    intro a c hac r hr r' hr'
    unfold rowOf at hr hr'
    rw [Option.map_eq_some_iff] at hr hr'
    obtain ⟨_, -, rfl⟩ := hr
    obtain ⟨_, -, rfl⟩ := hr'
    exact hac
  have hnodR : (obs.filterMap (rowOf x ccdNum b db obs)).Nodup := hstrict.imp fun h e => by rw [e] at h; exact lt_irrefl _ h
  have hperm : ((visitsFootprint x ccdNum b db obs).map G).Perm (obs.filterMap (rowOf x ccdNum b db obs)) :=
    (List.perm_ext_iff_of_nodup hnodL hnodR).2 hmemL
  have hpw : (((visitsFootprint x ccdNum b db obs).map G).insertionSort fun a c => a.obs.label ≤ c.obs.label).Pairwise
      fun a c => a.obs.label ≤ c.obs.label := by
    haveI : Std.Total (fun a c : OutRow => a.obs.label ≤ c.obs.label) := ⟨fun a c => le_total _ _⟩
    haveI : IsTrans OutRow (fun a c : OutRow => a.obs.label ≤ c.obs.label) := ⟨fun a c d => le_trans⟩
    exact List.pairwise_insertionSort _ _
  refine List.Perm.eq_of_pairwise (le := fun a c : OutRow => a.obs.label ≤ c.obs.label) ?_ hpw (hstrict.imp le_of_lt)
    ((List.perm_insertionSort _ _).trans hperm)
  intro a c ha hc h1 h2
  have ha' := (hperm.mem_iff).1 ((List.perm_insertionSort _ _).mem_iff.1 ha)
  rw [List.mem_filterMap] at ha' hc
  obtain ⟨o, ho, hr⟩ := ha'
  obtain ⟨o', ho', hr'⟩ := hc
  have e1 : a.obs = o := by
    unfold rowOf at hr; rw [Option.map_eq_some_iff] at hr; obtain ⟨_, -, rfl⟩ := hr; rfl
  have e2 : c.obs = o' := by
    unfold rowOf at hr'; rw [Option.map_eq_some_iff] at hr'; obtain ⟨_, -, rfl⟩ := hr'; rfl
  have : o = o' := fresh_inj hf ho ho' (by rw [← e1, ← e2]; exact le_antisymm h1 h2)
  subst this
  exact Option.some.inj (hr.symm.trans hr')

end

end Sorcha.Visits
