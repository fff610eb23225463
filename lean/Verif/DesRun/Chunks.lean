import Verif.DesRun.Stages
import Verif.Pipeline.Split
import Verif.Des.Props

/-! # Lemmas: what the rounds of a DES run do to one object -/

namespace Sorcha.DesRun
open Sorcha.Pipeline (Row State Numbered Agreeing pairs LimitsFit Dim nil_of_length own mem_own own_append keep_filter_comm mem_pairs_own whole_own own_own)
open Sorcha.Pipeline.Spec (rowOf bare Whole)
open Sorcha.DesRun.Spec Sorcha.Filters.Spec Sorcha.Filters

variable {G W V : Type}

/-! ## The cuts on objects, one object at a time -/

theorem mem_nearF {c : Config.Cfg} {l : List (Row W V)} {r : Row W V} :
    r ∈ nearF c l ↔ r ∈ l ∧ (c.linking.distanceOn.on = true → ∃ r' ∈ l, r'.objId = r.objId ∧ nearB c r' = true) := by
  unfold nearF
  by_cases hon : c.linking.distanceOn.on = true
  · rw [if_pos hon, List.mem_filter, List.any_eq_true]
    simp [hon]
  · rw [if_neg hon]; simp [hon]

theorem mem_moveF {c : Config.Cfg} {l : List (Row W V)} {r : Row W V} :
    r ∈ moveF c l ↔ r ∈ l ∧ (c.linking.motionOn.on = true → moveB c r = true) := by
  unfold moveF
  by_cases hon : c.linking.motionOn.on = true
  · rw [if_pos hon, List.mem_filter]; simp [hon]
  · rw [if_neg hon]; simp [hon]

theorem nearF_sublist (c : Config.Cfg) (l : List (Row W V)) : (nearF c l).Sublist l := by
  unfold nearF; split
  · exact List.filter_sublist
  · exact List.Sublist.refl _

theorem moveF_sublist (c : Config.Cfg) (l : List (Row W V)) : (moveF c l).Sublist l := by
  unfold moveF; split
  · exact List.filter_sublist
  · exact List.Sublist.refl _

theorem nearF_perm (c : Config.Cfg) {l l' : List (Row W V)} (h : l.Perm l') : (nearF c l).Perm (nearF c l') := by
  unfold nearF
  split
  · refine (h.filter _).trans (List.Perm.of_eq ?_)
    apply List.filter_congr
    intro r _
    rw [Bool.eq_iff_iff, List.any_eq_true, List.any_eq_true]
    simp only [h.mem_iff]
  · exact h

theorem moveF_perm (c : Config.Cfg) {l l' : List (Row W V)} (h : l.Perm l') : (moveF c l).Perm (moveF c l') := by
  unfold moveF
  split
  · exact h.filter _
  · exact h

theorem nearF_own (c : Config.Cfg) (id : String) (l : List (Row W V)) :
    (nearF c l).filter (fun r => r.objId = id) = nearF c (l.filter fun r => r.objId = id) := by
  unfold nearF
  split
  · rw [List.filter_filter, List.filter_filter]
    apply List.filter_congr
    intro r _
    by_cases hr : r.objId = id
    · simp only [hr, decide_true, Bool.true_and, Bool.and_true]
      rw [Bool.eq_iff_iff, List.any_eq_true, List.any_eq_true]
      constructor
      · rintro ⟨r', h1, h2⟩
        simp only [Bool.and_eq_true, decide_eq_true_eq] at h2
        exact ⟨r', List.mem_filter.2 ⟨h1, by simp [h2.1]⟩, by simp [h2]⟩
      · rintro ⟨r', h1, h2⟩
        exact ⟨r', (List.mem_filter.1 h1).1, h2⟩
    · simp [hr]
  · rfl

theorem moveF_own (c : Config.Cfg) (id : String) (l : List (Row W V)) :
    (moveF c l).filter (fun r => r.objId = id) = moveF c (l.filter fun r => r.objId = id) := by
  unfold moveF
  split
  · rw [List.filter_filter, List.filter_filter]
    apply List.filter_congr
    intro r _
    exact Bool.and_comm _ _
  · rfl

theorem toDes_some {r : Row W V} {d : Des.Row (Row W V)} (h : toDes r = some d) : d.rest = r ∧ SeenAs d r := by
  unfold toDes at h
  split at h
  · rename_i x y z hx hy hz
    rw [← Option.some.inj h]
    exact ⟨rfl, rfl, rfl, hx, hy, hz⟩
  · cases h

theorem toDes_own (id : String) (l : List (Row W V)) :
    Des.Spec.rowsOf id (l.filterMap toDes) = (l.filter fun r => r.objId = id).filterMap toDes := by
  unfold Des.Spec.rowsOf
  induction l with
  | nil => rfl
  | cons r l ih =>
    cases h : toDes r with
    | none =>
      rw [List.filterMap_cons, h]
      by_cases hr : r.objId = id
      · rw [List.filter_cons_of_pos (by simp [hr]), List.filterMap_cons, h]; exact ih
      · rw [List.filter_cons_of_neg (by simp [hr])]; exact ih
    | some d =>
      have hd := (toDes_some h).2.1
      rw [List.filterMap_cons, h]
      simp only
      by_cases hr : r.objId = id
      · rw [List.filter_cons_of_pos (a := d) (by simp [hd, hr]), List.filter_cons_of_pos (a := r) (by simp [hr]), List.filterMap_cons, h, ih]
      · rw [List.filter_cons_of_neg (a := d) (by simp [hd, hr]), List.filter_cons_of_neg (a := r) (by simp [hr]), ih]

theorem toDes_rest (l : List (Row W V)) (h : ∀ r ∈ l, (toDes r).isSome = true) : (l.filterMap toDes).map (·.rest) = l ∧
    List.Forall₂ SeenAs (l.filterMap toDes) l := by
  induction l with
  | nil => exact ⟨rfl, .nil⟩
  | cons r l ih =>
    obtain ⟨d, hd⟩ := Option.isSome_iff_exists.1 (h r (by simp))
    obtain ⟨i1, i2⟩ := ih fun r hr => h r (by simp [hr])
    rw [List.filterMap_cons, hd]
    exact ⟨by rw [List.map_cons, i1, (toDes_some hd).1], .cons (toDes_some hd).2 i2⟩

theorem mem_toDes {l : List (Row W V)} {d : Des.Row (Row W V)} (h : d ∈ l.filterMap toDes) : d.rest ∈ l ∧ d.obj = d.rest.objId := by
  obtain ⟨r, hr, hd⟩ := List.mem_filterMap.1 h
  obtain ⟨e1, e2, -⟩ := toDes_some hd
  exact ⟨e1 ▸ hr, by rw [e2, e1]⟩

theorem discoveryFilter_perm {sort : List (Des.Row (Row W V)) → List (Des.Row (Row W V))} (hsort : Des.Spec.SortSound sort) {l l' : List (Des.Row (Row W V))} (h : l.Perm l') :
    (Des.discoveryFilter sort l).Perm (Des.discoveryFilter sort l') :=
  Pipeline.perm_of_filters (fun d : Des.Row (Row W V) => d.obj) _ _ fun id => Des.Props.C37_own hsort l l' id (h.filter _)

theorem discF_perm (E : Env G W V) (hE : Des.Spec.SortSound E.sortTime) (c : Config.Cfg) {l l' : List (Row W V)} (h : l.Perm l') : (discF E c l).Perm (discF E c l') := by
  unfold discF
  split
  · exact (discoveryFilter_perm hE (h.filterMap _)).map _
  · exact h

/-- The rows of one object after the discovery filter: all or none. -/
theorem disc_rows (E : Env G W V) (hE : Des.Spec.SortSound E.sortTime) (l : List (Row W V)) (id : String) :
    (((Des.discoveryFilter E.sortTime (l.filterMap toDes)).map (·.rest)).filter fun r => r.objId = id).Perm
      ((if Des.found ((l.filter fun r => r.objId = id).filterMap toDes) = true then (l.filter fun r => r.objId = id).filterMap toDes else []).map (·.rest)) := by
  rw [← toDes_own, List.filter_map]
  have e : ((Des.discoveryFilter E.sortTime (l.filterMap toDes)).filter ((fun r : Row W V => decide (r.objId = id)) ∘ fun d => d.rest)) =
      Des.Spec.rowsOf id (Des.discoveryFilter E.sortTime (l.filterMap toDes)) := by
    unfold Des.Spec.rowsOf
    apply List.filter_congr
    intro d hd
    have := mem_toDes ((Des.Props.mem_filter_iff hE _ d).1 hd).1
    simp [this.2]
  rw [e]
  exact (Des.Props.rowsOf_filter hE _ id).map _

theorem discF_own (E : Env G W V) (hE : Des.Spec.SortSound E.sortTime) (c : Config.Cfg) (id : String) (l : List (Row W V)) :
    ((discF E c l).filter fun r => r.objId = id).Perm (discF E c (l.filter fun r => r.objId = id)) := by
  unfold discF
  split
  · refine (disc_rows E hE l id).trans ?_
    have h := disc_rows E hE (l.filter fun r => r.objId = id) id
    rw [List.filter_filter] at h
    simp only [Bool.and_self] at h
    refine h.symm.trans (List.Perm.of_eq ?_)
    rw [List.filter_eq_self]
    intro r hr
    obtain ⟨d, hd, rfl⟩ := List.mem_map.1 hr
    have := mem_toDes ((Des.Props.mem_filter_iff hE _ d).1 hd).1
    simpa using (List.mem_filter.1 this.1).2
  · exact List.Perm.refl _

theorem discF_nil (E : Env G W V) (hE : Des.Spec.SortSound E.sortTime) (c : Config.Cfg) : discF E c [] = [] := by
  unfold discF
  split
  · have : Des.discoveryFilter E.sortTime (([] : List (Row W V)).filterMap toDes) = [] := (hE.perm _).eq_nil
    rw [this]; rfl
  · rfl

/-- The three cuts after each other. -/
def finish (E : Env G W V) (c : Config.Cfg) (l : List (Row W V)) : List (Row W V) := discF E c (moveF c (nearF c l))

theorem finish_perm (E : Env G W V) (hE : Des.Spec.SortSound E.sortTime) (c : Config.Cfg) {l l' : List (Row W V)} (h : l.Perm l') : (finish E c l).Perm (finish E c l') :=
  discF_perm E hE c (moveF_perm c (nearF_perm c h))

theorem finish_own (E : Env G W V) (hE : Des.Spec.SortSound E.sortTime) (c : Config.Cfg) (id : String) (l : List (Row W V)) :
    ((finish E c l).filter fun r => r.objId = id).Perm (finish E c (l.filter fun r => r.objId = id)) := by
  unfold finish
  refine (discF_own E hE c id _).trans (List.Perm.of_eq ?_)
  rw [moveF_own, nearF_own]

theorem finish_nil (E : Env G W V) (hE : Des.Spec.SortSound E.sortTime) (c : Config.Cfg) : finish E c [] = [] := by
  unfold finish
  rw [nearF_nil, moveF_nil, discF_nil E hE]

/-! ## Restriction to one object -/

theorem views_obj {E : Env G W V} {c : Config.Cfg} {r r' : Row W V} (h : r' ∈ views E c r) : r'.objId = r.objId ∧ r'.rest.src = r.rest.src ∧ r'.optFilter = r.optFilter ∧
    r'.snr = r.snr ∧ bare r' = bare r := by
  by_cases hc : ∃ q, c.fov = .visits q
  · obtain ⟨q, hc⟩ := hc
    unfold views at h
    rw [hc] at h
    obtain ⟨chip, -, rfl⟩ := List.mem_map.1 h
    exact ⟨rfl, rfl, rfl, rfl, rfl⟩
  · rw [views_other E c (fun q hq => hc ⟨q, hq⟩)] at h
    obtain ⟨h1, h2, h3, h4, h5⟩ := Pipeline.Props.views_source E.base c r r' h
    exact ⟨h2, h1, h3, h4, h5⟩

theorem candidates_own (E : Env G W V) (c : Config.Cfg) (id : String) (obs : List (Pointing.Obs W)) :
    (candidates E c obs).filter (fun r => r.objId = id) = candidates E c (own id obs) := by
  unfold candidates
  induction obs with
  | nil => rfl
  | cons o obs ih =>
    have hobj : ∀ r, r ∈ ((E.base.db.filter fun v => v.id = o.field).flatMap fun v => match E.base.measure (o, v) with
        | none => []
        | some m => views E c (rowOf c (o, v) m)) → r.objId = o.obj := by
      intro r h
      obtain ⟨v, -, hr⟩ := List.mem_flatMap.1 h
      cases hm : E.base.measure (o, v) with
      | none => simp [hm] at hr
      | some m =>
        simp only [hm] at hr
        exact (views_obj hr).1
    rw [List.flatMap_cons, List.filter_append, ih]
    by_cases ho : o.obj = id
    · have h2 : own id (o :: obs) = o :: own id obs := by simp [own, ho]
      rw [h2, List.flatMap_cons]
      congr 1
      rw [List.filter_eq_self]
      intro r hr
      simp [hobj r hr, ho]
    · have h2 : own id (o :: obs) = own id obs := by simp [own, ho]
      rw [h2]
      rw [List.filter_eq_nil_iff.2, List.nil_append]
      intro r hr
      simp [hobj r hr, ho]

theorem seenRows_own (E : Env G W V) (c : Config.Cfg) (id : String) (obs : List (Pointing.Obs W)) :
    (seenRows E c obs).filter (fun r => r.objId = id) = seenRows E c (own id obs) := by
  unfold seenRows
  rw [← candidates_eq, ← candidates_eq, keep_filter_comm, candidates_own]

theorem reached_own (E : Env G W V) (c : Config.Cfg) (id : String) (obs : List (Pointing.Obs W)) :
    (keep (MagOk c) (seenRows E c obs)).filter (fun r => r.objId = id) = keep (MagOk c) (seenRows E c (own id obs)) := by
  rw [keep_filter_comm, seenRows_own]

theorem survivors_own (E : Env G W V) (c : Config.Cfg) (id : String) (obs : List (Pointing.Obs W)) :
    (survivors E c obs).filter (fun r => r.objId = id) = survivors E c (own id obs) := by
  unfold survivors
  rw [keep_filter_comm, candidates_own]

/-! ## A round that succeeds -/

/-- The conditions under which a round without random features succeeds. -/
structure Ok (E : Env G W V) (c : Config.Cfg) (obs : List (Pointing.Obs W)) : Prop where
  plain : obs ≠ [] → c.expert.randomization.on = false
  match_ : ∀ p ∈ pairs E.base obs, Pointing.Spec.Agree p.2.start p.1.mjd ∧ (E.base.measure p).isSome
  snr : seenRows E c obs ≠ [] → c.expert.snrLimit = none
  limits : keep (MagOk c) (seenRows E c obs) ≠ [] → LimitsFit c
  distance : survivors E c obs ≠ [] → c.linking.distanceOn.on = true → c.linking.distance.isSome = true
  motion : nearF c (survivors E c obs) ≠ [] → c.linking.motionOn.on = true → c.linking.motion.isSome = true
  place : c.linking.desDiscovery.on = true → ∀ r ∈ moveF c (nearF c (survivors E c obs)), (toDes r).isSome = true

theorem ok_nil (E : Env G W V) (c : Config.Cfg) : Ok E c [] :=
  ⟨fun h => absurd rfl h, by simp [pairs], fun h => absurd rfl h, fun h => absurd rfl h, fun h => absurd rfl h,
    fun h => absurd (nearF_nil c) h, fun _ r hr => by
      rw [show survivors E c [] = [] from rfl, nearF_nil, moveF_nil] at hr
      exact absurd hr List.not_mem_nil⟩

theorem Sound.ofDet {E : Env G W V} {c : Config.Cfg} (hd : Deterministic c) (hs : ∀ l, (E.base.sortIndex l).Perm l) (ht : Des.Spec.SortSound E.sortTime) (obs : List (Pointing.Obs W)) :
    Sound E c obs := ⟨hs, ht, fun q hq => absurd hq (hd.2.2 q)⟩

theorem perm_ne {α : Type} {a b : List α} (h : a.Perm b) (hb : b ≠ []) : a ≠ [] := fun h0 => hb (by rw [h0] at h; exact h.symm.eq_nil)

theorem process_is_ok {E : Env G W V} {c : Config.Cfg} (hd : Deterministic c) (hs : ∀ l, (E.base.sortIndex l).Perm l) (ht : Des.Spec.SortSound E.sortTime)
    {s s' : State G} {obs : List (Pointing.Obs W)} {out : List (Row W V)} (h : process E c s obs = .ok (out, s')) :
    Ok E c obs ∧ out.Perm (finish E c (survivors E c obs)) := by
  by_cases hne : obs = []
  · subst hne
    simp only [process, List.length_nil, if_true] at h
    cases h
    exact ⟨ok_nil E c, by rw [show survivors E c [] = [] from rfl, finish_nil E ht]⟩
  · obtain ⟨h1, h2, inView, reached, -, h4, -, h6, h7, h8, h9, h10⟩ := process_stages E c s s' obs out (Sound.ofDet hd hs ht obs) hne h
    obtain ⟨a1, a2, a3⟩ := h6 hd
    have p1 := nearF_perm c a2
    refine ⟨⟨fun _ => h1, h2, fun h0 => h4 (perm_ne a1 h0), fun h0 => a3 (perm_ne (Pipeline.keep_perm _ a1) h0), fun h0 => h7 (perm_ne a2 h0),
      fun h0 => h8 (perm_ne p1 h0), fun hon r hr => h9 hon r ((moveF_perm c p1).mem_iff.2 hr)⟩, ?_⟩
    rw [h10]
    exact finish_perm E ht c a2

theorem process_good {E : Env G W V} {c : Config.Cfg} (hd : Deterministic c) (hs : ∀ l, (E.base.sortIndex l).Perm l)
    (s : State G) {obs : List (Pointing.Obs W)} (hok : Ok E c obs) : ∃ out s', process E c s obs = .ok (out, s') := by
  unfold process
  by_cases hne : obs.length = 0
  · rw [if_pos hne]; exact ⟨_, _, rfl⟩
  rw [if_neg hne]
  have hne : obs ≠ [] := by simpa using hne
  obtain ⟨t, hm⟩ := Pipeline.measured_good (c := c) hok.match_
  obtain ⟨hn, hrows, -⟩ := Pipeline.measured_ok hm
  have hrows : t.rows = plain E c obs := hrows
  obtain ⟨⟨t2, s2⟩, hv⟩ := fov_good E c s t hd.2.2
  have hb : ∀ r ∈ t.rows, r.rest.detector = none := fun r hr => plain_detector (hrows ▸ hr)
  obtain ⟨a1, -, a3⟩ := fov_spec E c s s2 t t2 hn hb (hok.plain hne) hs (fun q hq => absurd hq (hd.2.2 q)) hv
  have a3 := a3 hd
  rw [hrows] at a3
  have a3 : t2.rows.Perm (seenRows E c obs) := a3
  have hcut : snrCut c t2 = .ok t2 := by
    unfold snrCut
    by_cases h0 : t2 = []
    · subst h0; simp
    · have h1 : seenRows E c obs ≠ [] := perm_ne a3.symm (by simpa [Table.rows] using h0)
      simp [hok.snr h1]
  have hfade : fade E c s2 (Pipeline.magCut c t2) = .ok (Pipeline.magCut c t2, s2) := by
    unfold fade; rw [hd.1]
  have hmag : (Pipeline.magCut c t2).rows.Perm (keep (MagOk c) (seenRows E c obs)) := by
    have : (Pipeline.magCut c t2).rows = keep (MagOk c) t2.rows := Pipeline.magCut_rows c t2
    rw [this]
    exact Pipeline.keep_perm _ a3
  have b1 := Pipeline.magCut_agreeing c _ a1
  obtain ⟨t4, h4, h5⟩ := Pipeline.brightCut_good c (Pipeline.magCut c t2) b1 (by
    intro h0
    apply hok.limits
    exact perm_ne hmag.symm (by simpa [Table.rows] using h0))
  have c1 := brightCut_agreeing c _ t4 b1 h4
  have hp : t4.rows.Perm (survivors E c obs) := by
    rw [h5, survivors_eq]
    exact Pipeline.keep_perm _ hmag
  obtain ⟨t5, h6⟩ := distance_good c t4 fun h0 => hok.distance (perm_ne hp.symm h0)
  obtain ⟨d1, d2, -⟩ := distance_ok c t4 t5 c1 h6
  have hp5 : t5.rows.Perm (nearF c (survivors E c obs)) := by rw [d2]; exact nearF_perm c hp
  obtain ⟨t6, h7⟩ := motion_good c t5 fun h0 => hok.motion (perm_ne hp5.symm h0)
  obtain ⟨e1, -⟩ := motion_ok c t5 t6 d1 h7
  obtain ⟨out, h8⟩ := discover_good E c t6 (by
    intro hon r hr
    rw [e1] at hr
    exact hok.place hon r ((moveF_perm c hp5).mem_iff.1 hr))
  have hrand : randomize c t = .ok t := by simp [randomize, hok.plain hne]
  refine ⟨out, { s2 with round := s2.round + 1 }, ?_⟩
  simp only [hm, bind, Except.bind, Except.mapError, hrand, hv, hcut, hfade, h4, h6, h7, h8]
  rfl

theorem Ok.own {E : Env G W V} {c : Config.Cfg} {obs : List (Pointing.Obs W)} (h : Ok E c obs) (id : String) : Ok E c (own id obs) := by
  have ne : ∀ {l l' : List (Row W V)}, l.filter (fun r => r.objId = id) = l' → l' ≠ [] → l ≠ [] := by
    rintro l l' rfl h0 rfl
    exact h0 rfl
  refine ⟨fun h0 => h.plain (by rintro rfl; exact h0 rfl), fun p hp => h.match_ p (mem_pairs_own.1 hp).1, fun h0 => h.snr (ne (seenRows_own E c id obs) h0),
    fun h0 => h.limits (ne (reached_own E c id obs) h0), fun h0 => h.distance (ne (survivors_own E c id obs) h0), ?_, ?_⟩
  · intro h0
    apply h.motion
    refine ne ?_ h0
    rw [nearF_own, survivors_own]
  · intro hon r hr
    rw [← survivors_own, ← nearF_own, ← moveF_own] at hr
    exact h.place hon r (List.mem_filter.1 hr).1

theorem ok_of_own {E : Env G W V} {c : Config.Cfg} {obs : List (Pointing.Obs W)} (h : ∀ id, Ok E c (own id obs)) : Ok E c obs := by
  have ne : ∀ {l : List (Row W V)}, l ≠ [] → ∃ id, l.filter (fun r => r.objId = id) ≠ [] := by
    intro l h0
    obtain ⟨r, hr⟩ := List.exists_mem_of_ne_nil _ h0
    exact ⟨r.objId, List.ne_nil_of_mem (List.mem_filter.2 ⟨hr, by simp⟩)⟩
  refine ⟨?_, fun p hp => (h p.1.obj).match_ p (mem_pairs_own.2 ⟨hp, rfl⟩), ?_, ?_, ?_, ?_, ?_⟩
  · intro h0
    obtain ⟨o, ho⟩ := List.exists_mem_of_ne_nil _ h0
    exact (h o.obj).plain (List.ne_nil_of_mem (mem_own.2 ⟨ho, rfl⟩))
  · intro h0
    obtain ⟨id, hid⟩ := ne h0
    rw [seenRows_own] at hid
    exact (h id).snr hid
  · intro h0
    obtain ⟨id, hid⟩ := ne h0
    rw [reached_own] at hid
    exact (h id).limits hid
  · intro h0
    obtain ⟨id, hid⟩ := ne h0
    rw [survivors_own] at hid
    exact (h id).distance hid
  · intro h0
    obtain ⟨id, hid⟩ := ne h0
    rw [nearF_own, survivors_own] at hid
    exact (h id).motion hid
  · intro hon r hr
    apply (h r.objId).place hon r
    rw [← survivors_own, ← nearF_own, ← moveF_own]
    exact List.mem_filter.2 ⟨hr, by simp⟩

theorem rounds_cons_ok {E : Env G W V} {c : Config.Cfg} {s : State G} {b : List (Pointing.Obs W)} {bs : List (List (Pointing.Obs W))}
    {outs : List (List (Row W V))} (h : rounds E c s (b :: bs) = .ok outs) :
    ∃ out s1 rest, process E c s b = .ok (out, s1) ∧ rounds E c s1 bs = .ok rest ∧ outs.flatten = out ++ rest.flatten ∧
      outs = (if out.length > 0 then out :: rest else rest) := by
  simp only [rounds, bind, Except.bind] at h
  cases hp : process E c s b with
  | error e => simp [hp] at h
  | ok x =>
    obtain ⟨out, s1⟩ := x
    simp only [hp] at h
    cases hr : rounds E c s1 bs with
    | error e => simp [hr] at h
    | ok rest =>
      simp only [hr, pure, Except.pure] at h
      refine ⟨out, s1, rest, rfl, hr, ?_, (Except.ok.inj h).symm⟩
      rw [← Except.ok.inj h]
      split
      · rfl
      · rename_i hl
        have : out = [] := by simpa using hl
        subst this
        rfl

/-- The rows of one object after a run over blocks that keep objects whole. -/
theorem rounds_own {E : Env G W V} {c : Config.Cfg} (hd : Deterministic c) (hs : ∀ l, (E.base.sortIndex l).Perm l) (ht : Des.Spec.SortSound E.sortTime)
    {blocks : List (List (Pointing.Obs W))} : ∀ {s : State G} {outs : List (List (Row W V))}, Whole blocks → rounds E c s blocks = .ok outs →
    ∀ id, Ok E c (own id blocks.flatten) ∧ (outs.flatten.filter fun r => r.objId = id).Perm (finish E c (survivors E c (own id blocks.flatten))) := by
  induction blocks with
  | nil =>
    intro s outs _ h id
    cases h
    exact ⟨ok_nil E c, by
      rw [show survivors E c (own id ([] : List (List (Pointing.Obs W))).flatten) = [] from rfl, finish_nil E ht]; exact List.Perm.refl _⟩
  | cons b bs ih =>
    intro s outs hw h id
    obtain ⟨out, s1, rest, hp, hr, hflat, -⟩ := rounds_cons_ok h
    obtain ⟨hk, hobj⟩ := ih (List.pairwise_cons.1 hw).2 hr id
    obtain ⟨hok, hout⟩ := process_is_ok hd hs ht hp
    have hob : (out.filter fun r => r.objId = id).Perm (finish E c (survivors E c (own id b))) := by
      rw [← survivors_own]
      exact (hout.filter _).trans (finish_own E ht c id _)
    rw [hflat, List.flatten_cons, own_append, List.filter_append]
    rcases whole_own hw id with hnil | hnil
    · rw [hnil] at hob ⊢
      rw [show survivors E c [] = [] from rfl, finish_nil E ht] at hob
      rw [hob.eq_nil]
      exact ⟨hk, hobj⟩
    · rw [hnil] at hobj ⊢
      rw [show survivors E c [] = [] from rfl, finish_nil E ht] at hobj
      rw [hobj.eq_nil, List.append_nil, List.append_nil]
      exact ⟨hok.own id, hob⟩

theorem rounds_good {E : Env G W V} {c : Config.Cfg} (hd : Deterministic c) (hs : ∀ l, (E.base.sortIndex l).Perm l)
    {blocks : List (List (Pointing.Obs W))} : ∀ (s : State G), Whole blocks → (∀ id, Ok E c (own id blocks.flatten)) → ∃ outs, rounds E c s blocks = .ok outs := by
  induction blocks with
  | nil => intro s _ _; exact ⟨_, rfl⟩
  | cons b bs ih =>
    intro s hw hok
    rw [List.flatten_cons] at hok
    have h1 : ∀ id, Ok E c (own id b) := by
      intro id
      have hk := hok id
      rw [own_append] at hk
      rcases whole_own hw id with hnil | hnil
      · rw [hnil]; exact ok_nil E c
      · rwa [hnil, List.append_nil] at hk
    have h2 : ∀ id, Ok E c (own id bs.flatten) := by
      intro id
      have hk := hok id
      rw [own_append] at hk
      rcases whole_own hw id with hnil | hnil
      · rwa [hnil, List.nil_append] at hk
      · rw [hnil]; exact ok_nil E c
    obtain ⟨out, s1, hp⟩ := process_good hd hs s (ok_of_own h1)
    obtain ⟨rest, hr⟩ := ih s1 (List.pairwise_cons.1 hw).2 h2
    simp only [rounds, bind, Except.bind, hp, hr, pure, Except.pure]
    exact ⟨_, rfl⟩

theorem rounds_same {E : Env G W V} {c : Config.Cfg} (hd : Deterministic c) (hs : ∀ l, (E.base.sortIndex l).Perm l) (ht : Des.Spec.SortSound E.sortTime) (s s' : State G)
    {A B : List (List (Pointing.Obs W))} (hA : Whole A) (hB : Whole B) (hAB : ∀ id, own id A.flatten = own id B.flatten) {outs : List (List (Row W V))}
    (h : rounds E c s A = .ok outs) : ∃ outs', rounds E c s' B = .ok outs' ∧ outs.flatten.Perm outs'.flatten := by
  have hown := rounds_own hd hs ht hA h
  obtain ⟨outs', h'⟩ := rounds_good hd hs s' hB fun id => by
    rw [← hAB]
    exact (hown id).1
  refine ⟨outs', h', Pipeline.perm_of_filters (fun r => r.objId) _ _ fun id => ?_⟩
  have h1 := (hown id).2
  have h2 := (rounds_own hd hs ht hB h' id).2
  rw [← hAB] at h2
  exact h1.trans h2.symm

theorem process_input (E : Env G W V) (c : Config.Cfg) (i) (s : State G) (obs : List (Pointing.Obs W)) :
    process E { c with input := i } s obs = process E c s obs := rfl

theorem rounds_input (E : Env G W V) (c : Config.Cfg) (i) (blocks : List (List (Pointing.Obs W))) : ∀ s : State G,
    rounds E { c with input := i } s blocks = rounds E c s blocks := by
  induction blocks with
  | nil => intro s; rfl
  | cons b bs ih =>
    intro s
    simp only [rounds, process_input]
    simp only [ih]

end Sorcha.DesRun
