import Verif.DesRun.Spec
import Verif.Pipeline.Lemmas2
import Verif.Pipeline.Props
import Verif.Visits.Props
import Verif.Des.Props

namespace Sorcha.DesRun
open Sorcha.Pipeline (Row State Numbered Agreeing pairs LimitsFit Dim)
open Sorcha.Pipeline.Spec (rowOf bare)
open Sorcha.DesRun.Spec Sorcha.Filters.Spec Sorcha.Filters

variable {G W V : Type}

/-! ## Field of view -/

theorem filterMap_subperm {α β : Type} (f : α → Option β) (g : α → List β) (l : List α) (h : ∀ a ∈ l, ∀ y, f a = some y → y ∈ g a) :
    (l.filterMap f).Subperm (l.flatMap g) := by
  induction l with
  | nil => exact List.Subperm.refl _
  | cons a l ih =>
    have ih := ih fun a' ha' => h a' (by simp [ha'])
    rw [List.flatMap_cons]
    cases hf : f a with
    | none =>
      rw [List.filterMap_cons_none hf]
      exact ih.trans (List.sublist_append_right _ _).subperm
    | some y =>
      rw [List.filterMap_cons_some hf]
      have hy := h a (by simp) y hf
      have h1 : [y].Subperm (g a) := List.singleton_subperm_iff.2 hy
      exact h1.append ih

theorem onVisits_spec (E : Env G W V) (c : Config.Cfg) (t t' : Table (Row W V)) (hn : Numbered t) (hb : ∀ r ∈ t.rows, r.rest.detector = none)
    (hsort : ∀ l, (E.base.sortIndex l).Perm l) (hs : Visits.Spec.Sound E.ext) {q} (hc : c.fov = .visits q)
    (hreg : ∀ b, Radius c b → b ≤ 90 ∧ Visits.Spec.Regular (b : ℝ) (t.rows.map (place E))) (h : onVisits E c t = .ok t') :
    Agreeing t' ∧ t'.rows.Subperm (keep (InView E c) (t.rows.flatMap (views E c))) := by
  unfold onVisits at h
  cases hsim : c.simulation with
  | none => simp [hsim] at h
  | some a =>
    simp only [hsim] at h
    cases hq : Pipeline.toQ (a.fov.add a.buffer) with
    | none => simp [hq] at h
    | some b =>
      simp only [hq] at h
      have hrad : Radius c b := by
        have : ∃ f g : ℚ, a.fov = .fin f ∧ a.buffer = .fin g ∧ b = f + g := by
          cases h1 : a.fov <;> cases h2 : a.buffer <;> rw [h1, h2] at hq <;> simp only [Fl.add, Pipeline.toQ] at hq <;> cases hq
          exact ⟨_, _, rfl, rfl, rfl⟩
        obtain ⟨f, g, h1, h2, h3⟩ := this
        exact ⟨a, f, g, hsim, h1, h2, h3⟩
      obtain ⟨hb90, hr⟩ := hreg b hrad
      have hrow : ∀ r ∈ t, (place E r.2).field = (toVisit E r).field ∧ (place E r.2).ra = (toVisit E r).ra ∧ (place E r.2).dec = (toVisit E r).dec ∧
          (place E r.2).fieldRA = (toVisit E r).fieldRA := by
        intro r hr
        refine ⟨rfl, rfl, rfl, ?_⟩
        have := hb r.2 (List.mem_map.2 ⟨r, hr, rfl⟩)
        simp only [place, toVisit, Pipeline.bare_self r.2 this]
      have hfresh : Visits.Spec.FreshIndex (t.map (toVisit E)) := by
        intro i o hi
        rw [List.getElem?_map, Option.map_eq_some_iff] at hi
        obtain ⟨r, hr, rfl⟩ := hi
        have : (t.map (·.1))[i]? = some r.1 := by rw [List.getElem?_map, hr]; rfl
        rw [hn] at this
        obtain ⟨hi, he⟩ := List.getElem?_eq_some_iff.1 this
        simp only [List.getElem_range] at he
        exact he.symm
      have hregV : Visits.Spec.Regular (b : ℝ) (t.map (toVisit E)) := by
        have hm : ∀ o ∈ t.map (toVisit E), ∃ o' ∈ t.rows.map (place E), o'.field = o.field ∧ o'.ra = o.ra ∧ o'.dec = o.dec ∧ o'.fieldRA = o.fieldRA := by
          intro o ho
          obtain ⟨r, hr, rfl⟩ := List.mem_map.1 ho
          exact ⟨place E r.2, List.mem_map.2 ⟨r.2, List.mem_map.2 ⟨r, hr, rfl⟩, rfl⟩, hrow r hr⟩
        constructor
        · intro o ho o' ho' he
          obtain ⟨x, hx, e1, -, -, e4⟩ := hm o ho
          obtain ⟨x', hx', e1', -, -, e4'⟩ := hm o' ho'
          rw [← e4, ← e4']
          exact hr.sameField x hx x' hx' (by rw [e1, e1', he])
        · intro o ho
          obtain ⟨x, hx, e1, -, -, e4⟩ := hm o ho
          rw [← e4]; exact hr.fieldRange x hx
        · intro o ho
          obtain ⟨x, hx, -, e2, -, -⟩ := hm o ho
          rw [← e2]; exact hr.raRange x hx
        · intro o ho
          obtain ⟨x, hx, -, e2, -, e4⟩ := hm o ho
          obtain ⟨r, hr'⟩ := hr.near x hx
          refine ⟨r, ?_⟩
          unfold Visits.Spec.Unwrapped at hr' ⊢
          rw [← e2, ← e4]; exact hr'
      -- the chip found for a row
      let hit : ℕ × Row W V → Option Visits.Chip := fun r => Visits.hitOf E.ext 3 (b : ℝ) E.chips (t.map (toVisit E)) (toVisit E r)
      let set : ℕ × Row W V → Visits.Chip → ℕ × Row W V := fun r ch => (r.1, { r.2 with rest := { r.2.rest with detector := some ch.detectorID.toNat } })
      have hgetlab : ∀ r ∈ t, t[r.1]? = some r := by
        intro r hr
        obtain ⟨i, hi⟩ := List.mem_iff_getElem?.1 hr
        have : (t.map (·.1))[i]? = some r.1 := by rw [List.getElem?_map, hi]; rfl
        rw [hn] at this
        obtain ⟨hi', he⟩ := List.getElem?_eq_some_iff.1 this
        simp only [List.getElem_range] at he
        rw [← he]; exact hi
      have hhit : ∀ x ∈ Visits.visitsFootprint E.ext 3 (b : ℝ) E.chips (t.map (toVisit E)), ∃ r ∈ t, r.1 = x.1 ∧ hit r = some x.2 ∧ t[x.1]? = some r := by
        intro x hx
        rw [Visits.footprint_mem hs hfresh] at hx
        obtain ⟨o, ho, hl, hc⟩ := (Visits.mem_allHits ..).1 hx
        obtain ⟨r, hr, rfl⟩ := List.mem_map.1 ho
        exact ⟨r, hr, hl, hc, by rw [← show r.1 = x.1 from hl]; exact hgetlab r hr⟩
      cases hm : (Visits.visitsFootprint E.ext 3 (b : ℝ) E.chips (t.map (toVisit E))).mapM
          (fun h => (t[h.1]?).map fun r => (r.1, { r.2 with rest := { r.2.rest with detector := some h.2.detectorID.toNat } })) with
      | none => rw [hm] at h; cases h
      | some l =>
        rw [hm] at h
        have ht' := Except.ok.inj h
        subst ht'
        obtain ⟨e1, e2⟩ := Pipeline.mapM_some _ _ _ hm
        -- the result is a permutation of the rows with their chips
        have hmem : ∀ y, y ∈ l ↔ ∃ r ∈ t, (hit r).map (set r) = some y := by
          intro y
          rw [e1, List.mem_filterMap]
          constructor
          · rintro ⟨x, hx, hy⟩
            obtain ⟨r, hr, hl, hh, hg⟩ := hhit x hx
            rw [hg] at hy
            refine ⟨r, hr, ?_⟩
            rw [hh]; exact hy
          · rintro ⟨r, hr, hy⟩
            obtain ⟨ch, hch, rfl⟩ := Option.map_eq_some_iff.1 hy
            refine ⟨(r.1, ch), (Visits.footprint_mem hs hfresh _).2 ((Visits.mem_allHits ..).2 ⟨toVisit E r, List.mem_map.2 ⟨r, hr, rfl⟩, rfl, hch⟩), ?_⟩
            rw [hgetlab r hr]; rfl
        have hnod : (l.map (·.1)).Nodup := by
          have : l.map (·.1) = (Visits.visitsFootprint E.ext 3 (b : ℝ) E.chips (t.map (toVisit E))).map Prod.fst := by
            rw [e1]
            have key : ∀ L : List (ℕ × Visits.Chip), (∀ x ∈ L, ∃ r ∈ t, r.1 = x.1 ∧ hit r = some x.2 ∧ t[x.1]? = some r) →
                (L.filterMap (fun h => (t[h.1]?).map fun r => (r.1, ({ r.2 with rest := { r.2.rest with detector := some h.2.detectorID.toNat } } : Row W V)))).map (·.1) = L.map Prod.fst := by
              intro L hL
              induction L with
              | nil => rfl
              | cons x L ih =>
                obtain ⟨r, hr, hl, hh, hg⟩ := hL x (by simp)
                rw [List.filterMap_cons_some (by rw [hg]; rfl)]
                rw [List.map_cons, List.map_cons, ih fun x hx => hL x (by simp [hx])]
                simp [hl]
            exact key _ hhit
          rw [this]; exact Visits.footprint_labels hs hfresh
        have hnod' : l.Nodup := List.Nodup.of_map _ hnod
        have hnodt : (t.filterMap fun r => (hit r).map (set r)).Nodup := by
          apply List.Nodup.of_map (fun r : ℕ × Row W V => r.1)
          refine List.Nodup.sublist ?_ hn.nodup
          have key : ∀ L : Table (Row W V), ((L.filterMap fun r => (hit r).map (set r)).map (·.1)).Sublist (L.map (·.1)) := by
            intro L
            induction L with
            | nil => simp
            | cons r L ih =>
              rw [List.filterMap_cons]
              cases hit r with
              | none => exact ih.trans (List.sublist_cons_self _ _)
              | some ch => exact ih.cons_cons _
          exact key t
        have hperm : l.Perm (t.filterMap fun r => (hit r).map (set r)) :=
          (List.perm_ext_iff_of_nodup hnod' hnodt).2 fun y => by rw [hmem, List.mem_filterMap]
        refine ⟨?_, ?_⟩
        · intro x hx y hy hxy
          have hx := (hsort l).mem_iff.1 hx
          have hy := (hsort l).mem_iff.1 hy
          rw [Pipeline.Spec.bare, Pipeline.Spec.bare]
          have : x = y := List.inj_on_of_nodup_map hnod hx hy hxy
          rw [this]
        · have hp : (E.base.sortIndex l).rows.Perm ((t.filterMap fun r => (hit r).map (set r)).map (·.2)) := ((hsort l).trans hperm).map _
          refine hp.subperm.trans ?_
          rw [List.map_filterMap]
          have e : t.rows.flatMap (views E c) = t.flatMap fun r => views E c r.2 := by
            unfold Table.rows; rw [List.flatMap_map]
          rw [e, Pipeline.keep_flatMap]
          apply filterMap_subperm
          intro r hr y hy
          rw [Option.map_map, Option.map_eq_some_iff] at hy
          obtain ⟨ch, hch, rfl⟩ := hy
          have hsnd := Visits.Props.hit_sound (db := E.chips) (x := E.ext) (ccdNum := 3) (by exact_mod_cast hb90) hregV (List.mem_map.2 ⟨r, hr, rfl⟩) hch
          obtain ⟨hmemc, p, hp, hcont⟩ := hsnd
          rw [mem_keep]
          constructor
          · unfold views
            rw [hc]
            exact List.mem_map.2 ⟨ch, hmemc, rfl⟩
          · unfold InView
            rw [hc]
            refine ⟨b, hrad, ch, hmemc, p, ?_, hcont, rfl⟩
            have h4 : E.fieldRA (bare (set r ch).2) = E.fieldRA r.2 := by
              have : bare (set r ch).2 = r.2 := Pipeline.bare_onDet r.2 _ (hb r.2 (List.mem_map.2 ⟨r, hr, rfl⟩))
              rw [this]
            unfold Visits.Spec.Place Visits.Spec.Unwrapped at hp ⊢
            simp only [Function.comp_apply, place, h4]
            exact hp

end Sorcha.DesRun
