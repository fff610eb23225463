import Verif.Pipeline.Lemmas2
import Verif.Pipeline.Props

/-!
# Rounds that do not fail
-/

namespace Sorcha.Pipeline

open Sorcha.Filters Sorcha.Pipeline.Spec

variable {G W V : Type}

/-- The observations can be worked on: their times are those of the pointing table, their magnitudes and positions can be computed; for the linking filter the settings are
finite, the IDs have only ASCII characters, and the times are well inside the nights. -/
structure Spec.Workable (E : Env G W V) (c : Config.Cfg) (obs : List (Pointing.Obs W)) : Prop where
  times : ∀ o ∈ obs, ∀ v ∈ E.db, v.id = o.field → Pointing.Spec.Agree v.start o.mjd ∧ E.measure (o, v) ≠ none
  sortIndex : ∀ l, (E.sortIndex l).Perm l
  linking : ∀ ssp, c.linking.ssp = some ssp → Linking.Spec.Sorts E.sortT ∧ ∃ lc, Settings E ssp lc ∧
    ∀ o ∈ obs, Linking.Spec.Ascii o.obj ∧ Linking.Spec.WellPhased lc [⟨o.field, o.mjd, 0, 0⟩]

/-- The settings a round can work with: no footprint and no fading function of DES, as many saturation limits as filters, and at least one night and one tracklet for the
linking filter. -/
structure Spec.Sound (c : Config.Cfg) : Prop where
  camera : ∀ q, c.fov ≠ .visits q
  fading : ∀ x, c.fading ≠ .des x
  limits : c.saturation.on.on = true → ∃ ls, c.saturation.limits = some ls ∧ c.filters.length ≤ ls.length
  window : ∀ ssp, c.linking.ssp = some ssp → 1 ≤ ssp.window ∧ 1 ≤ ssp.nTracklets

/-- Where a row comes from. -/
def From (obs : List (Pointing.Obs W)) (r : Row W V) : Prop := r.rest.src.1 ∈ obs ∧ r.objId = r.rest.src.1.obj

theorem fieldOfView_total (E : Env G W V) (c : Config.Cfg) (s : State G) (t : Table (Row W V)) (h : ∀ q, c.fov ≠ .visits q) :
    ∃ x, fieldOfView E c s t = .ok x := by
  unfold fieldOfView
  cases hc : c.fov with
  | none => exact ⟨_, rfl⟩
  | visits q => exact absurd hc (h q)
  | footprint p e => exact ⟨_, rfl⟩
  | circle f r =>
    simp only
    split_ifs <;> exact ⟨_, rfl⟩

theorem fade_total (E : Env G W V) (c : Config.Cfg) (s : State G) (t : Table (Row W V)) (h : ∀ q, c.fading ≠ .des q) :
    ∃ x, fade E c s t = .ok x := by
  unfold fade
  cases hc : c.fading with
  | off => exact ⟨_, rfl⟩
  | des q => exact absurd hc (h q)
  | on p e =>
    simp only
    split_ifs <;> exact ⟨_, rfl⟩

theorem link_total (E : Env G W V) (c : Config.Cfg) (s : State G) (t : Table (Row W V)) (obs : List (Pointing.Obs W)) (hc : Sound c)
    (h : Workable E c obs) (hf : ∀ r ∈ t.rows, From obs r) : ∃ out, link E c s t = .ok out := by
  apply link_good
  intro ssp hs _
  obtain ⟨hT, lc, hset, hobs⟩ := h.linking ssp hs
  obtain ⟨h1, h2⟩ := hc.window ssp hs
  obtain ⟨-, -, -, -, -, hw, hl, -⟩ := id hset
  refine ⟨lc, hset, ?_⟩
  have hwin : 1 ≤ lc.window := by omega
  have hnl : 1 ≤ lc.nlink := by omega
  have hall : ∀ id, ∃ L, Linking.linkObject E.sortT lc (E.weights s.round id) E.draws (seenOf id t.rows) = .ok L := by
    intro id
    apply (Linking.C04_linkObject_total E.sortT hT lc _ _ _ hwin hnl).1
    intro o ho
    unfold seenOf at ho
    obtain ⟨r, hr, rfl⟩ := List.mem_map.1 ho
    have := (hobs _ (hf r (List.mem_filter.1 hr).1).1).2 _ (List.mem_singleton.2 rfl)
    exact this
  choose L hL using hall
  refine ⟨fun id => (L id).date, fun id hid => ?_⟩
  obtain ⟨r, hr, rfl⟩ := hid
  refine ⟨?_, L r.objId, hL _, rfl⟩
  rw [(hf r hr).2]
  exact (hobs _ (hf r hr).1).1

/-- A round works. -/
theorem process_total (E : Env G W V) (c : Config.Cfg) (s : State G) (obs : List (Pointing.Obs W)) (hc : Sound c)
    (h : Workable E c obs) : ∃ x, process E c s obs = .ok x := by
  unfold process
  by_cases h0 : obs.length = 0
  · rw [if_pos h0]; exact ⟨_, rfl⟩
  rw [if_neg h0]
  obtain ⟨t, ht⟩ := measured_good (E := E) (c := c) (obs := obs) (fun p hp => by
    obtain ⟨o1, o2, o3⟩ := mem_pairs.1 hp
    obtain ⟨a, b⟩ := h.times p.1 o1 p.2 o2 o3
    exact ⟨a, by simpa [Option.isSome_iff_ne_none] using b⟩)
  obtain ⟨hn, hrows, -⟩ := measured_ok ht
  obtain ⟨hn1, hf2⟩ := randomize_spec E c s t hn
  have hf0 : ∀ r ∈ t.rows, From obs r ∧ r.rest.detector = none := by
    intro r hr
    rw [hrows, List.mem_filterMap] at hr
    obtain ⟨p, hp, he⟩ := hr
    rw [Option.map_eq_some_iff] at he
    obtain ⟨m, -, rfl⟩ := he
    exact ⟨⟨(mem_pairs.1 hp).1, rfl⟩, rfl⟩
  have hf1 : ∀ r ∈ (randomize E c s t).1.rows, From obs r ∧ r.rest.detector = none := by
    intro r hr
    obtain ⟨r', h1, h2⟩ := Props.mem_forall₂ hf2 r hr
    obtain ⟨⟨a, b⟩, d⟩ := hf0 r' (mem_keep.1 h1).1
    refine ⟨⟨?_, ?_⟩, ?_⟩
    · rw [h2.1]; exact a
    · rw [h2.2.2.1, b, h2.1]
    · rw [h2.2.1]; exact d
  obtain ⟨⟨t2, s2⟩, e2⟩ := fieldOfView_total E c (randomize E c s t).2 (randomize E c s t).1 hc.camera
  obtain ⟨a1, a2, -, -⟩ := fieldOfView_spec E c _ s2 _ t2 hn1 (fun r hr => (hf1 r hr).2) h.sortIndex e2
  have hf2' : ∀ r ∈ t2.rows, From obs r := by
    intro r hr
    have := (mem_keep.1 (a2.subset hr)).1
    rw [List.mem_flatMap] at this
    obtain ⟨r', h1, h2⟩ := this
    obtain ⟨v1, v2, -⟩ := Props.views_source E c r' r h2
    obtain ⟨⟨x, y⟩, -⟩ := hf1 r' h1
    exact ⟨by rw [v1]; exact x, by rw [v2, y, v1]⟩
  have hf3 : ∀ r ∈ (magCut c (snrCut c t2)).rows, From obs r := by
    intro r hr
    rw [magCut_rows, snrCut_rows] at hr
    exact hf2' r (mem_keep.1 (mem_keep.1 hr).1).1
  obtain ⟨⟨t3, s3⟩, e3⟩ := fade_total E c s2 (magCut c (snrCut c t2)) hc.fading
  obtain ⟨b1, b2, -, -⟩ := fade_spec E c s2 s3 _ t3 (magCut_agreeing c _ (snrCut_agreeing c _ a1)) e3
  obtain ⟨t4, e4, h4⟩ := brightCut_good c t3 b1 (fun _ => hc.limits)
  obtain ⟨out, e5⟩ := link_total E c s3 t4 obs hc h (fun r hr => by
    rw [h4] at hr
    exact hf3 r (b2.subset (mem_keep.1 hr).1))
  simp only [ht, bind, Except.bind, e2, e3, e4, e5]
  exact ⟨_, rfl⟩

theorem Spec.Workable.part {E : Env G W V} {c : Config.Cfg} {obs obs' : List (Pointing.Obs W)} (h : Workable E c obs) (hs : ∀ o ∈ obs', o ∈ obs) : Workable E c obs' :=
  { h with
    times := fun o ho => h.times o (hs o ho)
    linking := fun ssp hssp => by
      obtain ⟨a, lc, e, f⟩ := h.linking ssp hssp
      exact ⟨a, lc, e, fun o ho => f o (hs o ho)⟩ }

end Sorcha.Pipeline
