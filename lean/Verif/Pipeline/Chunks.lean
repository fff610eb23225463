import Verif.Pipeline.Props

/-! # Lemmas: what the rounds do to one object -/

namespace Sorcha.Pipeline
open Sorcha.Pipeline.Spec Sorcha.Pipeline.Props Sorcha.Filters.Spec Sorcha.Filters

/-! ## The linker's date of one object -/

section linker
open Sorcha.Linking Sorcha.Linking.Spec

/-- The date depends neither on the weights, if they are generic, nor on the order of the rows, if rows at the same time are equal. -/
theorem linkObject_date (sortT : List Obs → List Obs) (hT : Sorts sortT) (lc : Cfg) (hw : 1 ≤ lc.window) (hl : 1 ≤ lc.nlink)
    (w w' : ℕ → ℚ) (hg : ∀ m, Generic w m) (hg' : ∀ m, Generic w' m) (draws : List ℚ → ℕ → ℚ) (l l' : List Obs) (hp : l.Perm l')
    (ht : ∀ a ∈ l, ∀ b ∈ l, a.mjd = b.mjd → a = b) :
    (linkObject sortT lc w draws l).map (·.date) = (linkObject sortT lc w' draws l').map (·.date) := by
  have hsort : sortT l = sortT l' := by
    apply List.Perm.eq_of_pairwise (le := fun a b : Obs => a.mjd ≤ b.mjd) _ (hT l).2 (hT l').2 ((hT l).1.trans (hp.trans (hT l').1.symm))
    intro a b ha hb h1 h2
    exact ht a ((hT l).1.mem_iff.1 ha) b (hp.mem_iff.2 ((hT l').1.mem_iff.1 hb)) (le_antisymm h1 h2)
  unfold linkObject
  rw [hp.length_eq, hsort]
  by_cases h0 : l'.length ≠ 0
  · rw [if_pos h0, if_pos h0]
    have hne : sortT l' ≠ [] := by
      intro h
      have := (hT l').1.length_eq
      rw [h] at this
      exact h0 this.symm
    by_cases hph : WellPhased lc (sortT l')
    · obtain ⟨o1, L1, e1, s1, -, n1, -, g1, r1⟩ := linkSorted_spec lc w draws (sortT l') (hT l').2 hne hph hw hl
      obtain ⟨o2, L2, e2, s2, -, n2, -, g2, r2⟩ := linkSorted_spec lc w' draws (sortT l') (hT l').2 hne hph hw hl
      have ho : o1 = o2 := by
        have hmem : ∀ D, D ∈ o1 ↔ D ∈ o2 := by
          intro D
          rcases Nat.eq_or_lt_of_le hl with h | h
          · rw [n1 h.symm, n2 h.symm]
          · rw [g1 (hg _) h, g2 (hg' _) h]
        apply List.Perm.eq_of_pairwise (le := fun a b : ℤ => a < b) _ s1 s2
        · exact (List.perm_ext_iff_of_nodup (s1.imp fun h => ne_of_lt h) (s2.imp fun h => ne_of_lt h)).2 hmem
        · intro a b _ _ h1 h2; exact absurd (lt_trans h1 h2) (lt_irrefl _)
      subst ho
      rw [e1, e2]
      simp only [Except.map]
      congr 1
      rcases r1 with ⟨d1, a1⟩ | ⟨k1, D1, b1, c1, f1, d1, -⟩ <;> rcases r2 with ⟨d2, a2⟩ | ⟨k2, D2, b2, c2, f2, d2, -⟩
      · rw [d1, d2]
      · exact absurd c2 (a1 k2 (List.getElem?_eq_some_iff.1 b2).1)
      · exact absurd c1 (a2 k1 (List.getElem?_eq_some_iff.1 b1).1)
      · have : k1 = k2 := by
          rcases lt_trichotomy k1 k2 with h | h | h
          · exact absurd c1 (f2 k1 h)
          · exact h
          · exact absurd c2 (f1 k2 h)
        subst this
        rw [d1, d2]
        rw [b1] at b2
        exact b2
    · rw [linkSorted_badPhase _ _ _ _ hph, linkSorted_badPhase _ _ _ _ hph]
  · rw [if_neg h0, if_neg h0]

end linker

variable {G W V : Type}

/-! ## Restriction to one object -/

/-- The observations of one object. -/
def own (id : String) (obs : List (Pointing.Obs W)) : List (Pointing.Obs W) := obs.filter fun o => o.obj = id

theorem mem_own {id : String} {obs : List (Pointing.Obs W)} {o : Pointing.Obs W} : o ∈ own id obs ↔ o ∈ obs ∧ o.obj = id := by
  simp [own]

theorem own_append (id : String) (a b : List (Pointing.Obs W)) : own id (a ++ b) = own id a ++ own id b := by simp [own]

/-- The candidates of one observation. -/
def cand (E : Env G W V) (c : Config.Cfg) (o : Pointing.Obs W) : List (Row W V) :=
  (E.db.filter fun v => v.id = o.field).flatMap fun v => match E.measure (o, v) with
    | none => []
    | some m => views E c (rowOf c (o, v) m)

theorem candidates_flatMap (E : Env G W V) (c : Config.Cfg) (obs : List (Pointing.Obs W)) : candidates E c obs = obs.flatMap (cand E c) := rfl

theorem candidate_obj {E : Env G W V} {c : Config.Cfg} {o : Pointing.Obs W} {r : Row W V} (h : r ∈ cand E c o) : r.objId = o.obj := by
  obtain ⟨v, -, hr⟩ := List.mem_flatMap.1 h
  cases hm : E.measure (o, v) with
  | none => simp [hm] at hr
  | some m =>
    simp only [hm] at hr
    exact (views_source E c _ r hr).2.1

theorem candidates_own (E : Env G W V) (c : Config.Cfg) (id : String) (obs : List (Pointing.Obs W)) :
    (candidates E c obs).filter (fun r => r.objId = id) = candidates E c (own id obs) := by
  rw [candidates_flatMap, candidates_flatMap]
  induction obs with
  | nil => rfl
  | cons o obs ih =>
    rw [List.flatMap_cons, List.filter_append, ih]
    by_cases ho : o.obj = id
    · have h2 : own id (o :: obs) = o :: own id obs := by simp [own, ho]
      rw [h2, List.flatMap_cons]
      congr 1
      rw [List.filter_eq_self]
      intro r hr
      simp [candidate_obj hr, ho]
    · have h2 : own id (o :: obs) = own id obs := by simp [own, ho]
      have h3 : ((cand E c o).filter fun r => r.objId = id) = [] := by
        rw [List.filter_eq_nil_iff]
        intro r hr
        simp [candidate_obj hr, ho]
      rw [h2, h3, List.nil_append]

theorem keep_filter_comm {α : Type} (P : α → Prop) (p : α → Bool) (l : List α) : (keep P l).filter p = keep P (l.filter p) := by
  unfold keep
  rw [List.filter_filter, List.filter_filter]
  apply List.filter_congr
  intro a _
  exact Bool.and_comm _ _

theorem survivors_own (E : Env G W V) (c : Config.Cfg) (id : String) (obs : List (Pointing.Obs W)) :
    (survivors E c obs).filter (fun r => r.objId = id) = survivors E c (own id obs) := by
  unfold survivors
  rw [keep_filter_comm, candidates_own]

/-- The rows before the saturation cut. -/
noncomputable def reach (E : Env G W V) (c : Config.Cfg) (obs : List (Pointing.Obs W)) : List (Row W V) :=
  keep (fun r => InView E c r ∧ (∀ l, c.expert.snrLimit = some l → Below l r.snr) ∧ ∀ l, c.expert.magLimit = some l → Below r.trailedSourceMag l)
    (candidates E c obs)

theorem reach_own (E : Env G W V) (c : Config.Cfg) (id : String) (obs : List (Pointing.Obs W)) :
    (reach E c obs).filter (fun r => r.objId = id) = reach E c (own id obs) := by
  unfold reach
  rw [keep_filter_comm, candidates_own]

theorem seenOf_own (E : Env G W V) (c : Config.Cfg) (id : String) (obs : List (Pointing.Obs W)) :
    seenOf id (survivors E c obs) = (survivors E c (own id obs)).map seen := by
  unfold seenOf
  rw [← survivors_own]

theorem survivor_mem {E : Env G W V} {c : Config.Cfg} {obs : List (Pointing.Obs W)} {r : Row W V} (h : r ∈ survivors E c obs) :
    ∃ o ∈ obs, ∃ v ∈ E.db, ∃ m, v.id = o.field ∧ E.measure (o, v) = some m ∧ r.rest.src = (o, v) ∧ r.objId = o.obj ∧ bare r = rowOf c (o, v) m := by
  have h := (mem_keep.1 h).1
  obtain ⟨o, ho, h⟩ := List.mem_flatMap.1 h
  obtain ⟨v, hv, h⟩ := List.mem_flatMap.1 h
  obtain ⟨hv, hf⟩ := List.mem_filter.1 hv
  cases hm : E.measure (o, v) with
  | none => simp [hm] at h
  | some m =>
    simp only [hm] at h
    obtain ⟨e1, e2, -, -, e5⟩ := views_source E c _ r h
    exact ⟨o, ho, v, hv, m, by simpa using hf, hm, e1, e2, e5⟩

theorem seen_bare (r : Row W V) : seen r = seen (bare r) := rfl

/-- Two rows of an object at the same time look the same to the linker. -/
theorem seen_ties {E : Env G W V} {c : Config.Cfg} {obs : List (Pointing.Obs W)} (hdb : (E.db.map (·.id)).Nodup) (ho : OncePerTime obs) (id : String) :
    ∀ a ∈ seenOf id (survivors E c obs), ∀ b ∈ seenOf id (survivors E c obs), a.mjd = b.mjd → a = b := by
  have hinj : ∀ (db : List (Pointing.Visit V)), (db.map (·.id)).Nodup → ∀ v ∈ db, ∀ v' ∈ db, v.id = v'.id → v = v' := by
    intro db h v hv v' hv' he
    exact List.inj_on_of_nodup_map h hv hv' he
  intro a ha b hb hab
  obtain ⟨r, hr, rfl⟩ := List.mem_map.1 ha
  obtain ⟨r', hr', rfl⟩ := List.mem_map.1 hb
  obtain ⟨hr, hid⟩ := List.mem_filter.1 hr
  obtain ⟨hr', hid'⟩ := List.mem_filter.1 hr'
  obtain ⟨o, h1, v, h2, m, h3, h4, h5, h6, h7⟩ := survivor_mem hr
  obtain ⟨o', h1', v', h2', m', h3', h4', h5', h6', h7'⟩ := survivor_mem hr'
  have hmjd : o.mjd = o'.mjd := by
    have : r.rest.src.1.mjd = r'.rest.src.1.mjd := hab
    rwa [h5, h5'] at this
  have hobj : o.obj = o'.obj := by
    rw [← h6, ← h6']
    simp only [decide_eq_true_eq] at hid hid'
    rw [hid, hid']
  have hoo := ho o h1 o' h1' hobj hmjd
  subst hoo
  have hvv := hinj E.db hdb v h2 v' h2' (by rw [h3, h3'])
  subst hvv
  rw [h4] at h4'
  rw [seen_bare, h7, Option.some.inj h4', ← h7', ← seen_bare]

/-! ## A round that succeeds -/

/-- The conditions under which a deterministic round succeeds. -/
structure Ok (E : Env G W V) (c : Config.Cfg) (k : ℕ) (obs : List (Pointing.Obs W)) : Prop where
  camera : obs ≠ [] → ∀ q, c.fov ≠ .visits q
  match_ : ∀ p ∈ pairs E obs, Pointing.Spec.Agree p.2.start p.1.mjd ∧ (E.measure p).isSome
  limits : reach E c obs ≠ [] → LimitsFit c
  link : ∀ ssp, c.linking.ssp = some ssp → survivors E c obs ≠ [] → ∃ lc, Settings E ssp lc ∧ ∃ v, Verdicts E lc k (survivors E c obs) v

theorem Settings.pos {E : Env G W V} {ssp : Config.Ssp} {lc : Linking.Cfg} (h : Settings E ssp lc) (hw : 1 ≤ ssp.window ∧ 1 ≤ ssp.nTracklets) :
    1 ≤ lc.window ∧ 1 ≤ lc.nlink := by
  obtain ⟨-, -, -, -, -, h6, h7, -⟩ := h
  rw [h6, h7]; omega

theorem Settings.unique {E : Env G W V} {ssp : Config.Ssp} {lc lc' : Linking.Cfg} (h : Settings E ssp lc) (h' : Settings E ssp lc') : lc = lc' := by
  rw [← linkCfg_settings] at h h'
  rw [h] at h'
  exact Option.some.inj h'

theorem seenOf_perm (id : String) {a b : List (Row W V)} (h : a.Perm b) : (seenOf id a).Perm (seenOf id b) := (h.filter _).map _

theorem map_ok_date {x : Except Linking.Err Linking.Link} {d : Option ℤ} (h : x.map (·.date) = .ok d) : ∃ L, x = .ok L ∧ d = L.date := by
  cases x with
  | error e => cases h
  | ok L => exact ⟨L, rfl, (Except.ok.inj h).symm⟩

/-- Verdicts carry over to a permutation of the rows and other weights. -/
theorem Verdicts.perm {E : Env G W V} {c : Config.Cfg} {lc : Linking.Cfg} (hS : Regular E c) (hw : 1 ≤ lc.window ∧ 1 ≤ lc.nlink) {k k' : ℕ}
    {obs : List (Pointing.Obs W)} (ho : OncePerTime obs) {rows rows' : List (Row W V)} {v : String → Option ℤ}
    (h1 : rows.Perm (survivors E c obs)) (h2 : rows'.Perm (survivors E c obs)) (h : Verdicts E lc k rows v) : Verdicts E lc k' rows' v := by
  rintro id ⟨r, hr, hid⟩
  obtain ⟨ha, L, hL, hv⟩ := h id ⟨r, h1.mem_iff.2 (h2.mem_iff.1 hr), hid⟩
  have hties := seen_ties (c := c) hS.visits ho id
  have := linkObject_date E.sortT hS.sortT lc hw.1 hw.2 (E.weights k id) (E.weights k' id) (hS.weights k id) (hS.weights k' id) E.draws
    (seenOf id rows) (seenOf id rows') (seenOf_perm id (h1.trans h2.symm)) (fun a ha b hb => hties a ((seenOf_perm id h1).mem_iff.1 ha) b
      ((seenOf_perm id h1).mem_iff.1 hb))
  rw [hL] at this
  obtain ⟨L', hL', hd⟩ := map_ok_date this.symm
  exact ⟨ha, L', hL', by rw [hv, ← hd]⟩

theorem process_is_ok {E : Env G W V} {c : Config.Cfg} (hS : Regular E c) {s s' : State G} {obs : List (Pointing.Obs W)} {out : List (Final W V)}
    (ho : OncePerTime obs) (h : process E c s obs = .ok (out, s')) : Ok E c s.round obs := by
  by_cases hne : obs = []
  · subst hne
    exact ⟨fun h => absurd rfl h, by simp [pairs], fun h => absurd rfl h, fun _ _ h => absurd rfl h⟩
  · obtain ⟨t0, noised, surv, s1, h0, hg, hn, hoff, hs, hdet, hfit, hr1, -, hl⟩ := process_stages E c s s' obs out hS.sortIndex hne h
    have hcand : noised.flatMap (views E c) = candidates E c obs := by rw [hoff hS.det.1, h0, ← candidates_eq]
    have hp : surv.rows.Perm (survivors E c obs) := by have := hdet hS.det; rwa [hcand] at this
    refine ⟨?_, hg, ?_, ?_⟩
    · intro _ q hq
      unfold process at h
      rw [if_neg (by simpa using hne)] at h
      cases hm : measured E c obs with
      | error e => simp [hm, bind, Except.bind] at h
      | ok t => simp [hm, bind, Except.bind, fieldOfView, hq] at h
    · intro hre
      apply hfit hS.det
      rw [hcand]
      exact hre
    · intro ssp hc hsne
      have hsurv : surv ≠ [] := by
        rintro rfl
        exact hsne hp.symm.eq_nil
      obtain ⟨lc, hset, v, hv, -, -⟩ := link_ok E c s1 surv out hS.sortOut ssp hc hl hsurv
      rw [hr1] at hv
      exact ⟨lc, hset, v, hv.perm hS (Settings.pos hset (hS.window ssp hc)) ho hp (List.Perm.refl _)⟩

theorem process_good {E : Env G W V} {c : Config.Cfg} (hS : Regular E c) (s : State G) {obs : List (Pointing.Obs W)}
    (ho : OncePerTime obs) (k : ℕ) (hok : Ok E c k obs) : ∃ out s', process E c s obs = .ok (out, s') := by
  unfold process
  by_cases hne : obs.length = 0
  · rw [if_pos hne]; exact ⟨_, _, rfl⟩
  · rw [if_neg hne]
    have hne : obs ≠ [] := by simpa using hne
    obtain ⟨t, hm⟩ := measured_good (c := c) hok.match_
    obtain ⟨hn, hrows, -⟩ := measured_ok hm
    have hcand : t.rows.flatMap (views E c) = candidates E c obs := by rw [hrows, ← candidates_eq]
    have hb : ∀ r ∈ t.rows, r.rest.detector = none := by
      intro r hr
      rw [hrows, List.mem_filterMap] at hr
      obtain ⟨p, -, hm⟩ := hr
      obtain ⟨m, -, rfl⟩ := Option.map_eq_some_iff.1 hm
      rfl
    have hfov : ∃ t2 s2, fieldOfView E c s t = .ok (t2, s2) := by
      unfold fieldOfView
      split
      · exact ⟨_, _, rfl⟩
      · rename_i q hq; exact absurd hq (hok.camera hne q)
      · split <;> exact ⟨_, _, rfl⟩
      · split <;> exact ⟨_, _, rfl⟩
    obtain ⟨t2, s2, h2⟩ := hfov
    obtain ⟨a1, a2, a3, a4⟩ := fieldOfView_spec E c s s2 t t2 hn hb hS.sortIndex h2
    have hfade : fade E c s2 (magCut c (snrCut c t2)) = .ok (magCut c (snrCut c t2), s2) := by
      unfold fade; rw [hS.det.2.1]
    have hcuts : (magCut c (snrCut c t2)).rows.Perm (reach E c obs) := by
      rw [magCut_rows, snrCut_rows, keep_keep]
      refine (keep_perm _ (a4 hS.det)).trans ?_
      rw [keep_keep, hcand]
      exact List.Perm.refl _
    obtain ⟨t4, h4, h5⟩ := brightCut_good c (magCut c (snrCut c t2)) (magCut_agreeing c _ (snrCut_agreeing c _ a1)) (by
      intro hne'
      apply hok.limits
      intro hnil
      rw [hnil] at hcuts
      apply hne'
      have := hcuts.eq_nil
      simpa [Table.rows] using this)
    have hp : t4.rows.Perm (survivors E c obs) := by
      rw [h5]
      refine (keep_perm _ hcuts).trans ?_
      unfold reach survivors
      rw [keep_keep]
      apply List.Perm.of_eq
      apply keep_congr
      intro r _
      exact ⟨fun ⟨⟨x1, x2, x3⟩, x4⟩ => ⟨x1, x2, x3, x4⟩, fun ⟨x1, x2⟩ => ⟨⟨x1, x2.snr, x2.mag⟩, x2.bright⟩⟩
    obtain ⟨out, h6⟩ := link_good E c s2 t4 (by
      intro ssp hc hne4
      have hsne : survivors E c obs ≠ [] := by
        intro hnil
        rw [hnil] at hp
        apply hne4
        simpa [Table.rows] using hp.eq_nil
      obtain ⟨lc, hset, v, hv⟩ := hok.link ssp hc hsne
      exact ⟨lc, hset, v, hv.perm hS (Settings.pos hset (hS.window ssp hc)) ho (List.Perm.refl _) hp⟩)
    refine ⟨out, { s2 with round := s2.round + 1 }, ?_⟩
    simp only [hm, bind, Except.bind, randomize_off E c s t hS.det.1, h2, hfade, h4, h6]
    rfl

/-! ## The output of one object -/

/-- The output rows of an object whose observations are `obs`. -/
def ObjOut (E : Env G W V) (c : Config.Cfg) (k : ℕ) (id : String) (obs : List (Pointing.Obs W)) (o : List (Final W V)) : Prop :=
  (c.linking.ssp = none → o.Perm ((survivors E c obs).map fun r => ⟨r, none⟩)) ∧
  ∀ ssp, c.linking.ssp = some ssp → (survivors E c obs = [] ∧ o = []) ∨ ∃ lc d, Settings E ssp lc ∧
    (Linking.linkObject E.sortT lc (E.weights k id) E.draws ((survivors E c obs).map seen)).map (·.date) = .ok d ∧
    o.Perm (if c.linking.dropUnlinked && d.isNone then [] else (survivors E c obs).map fun r => ⟨r, some (d.isSome, d)⟩)

theorem ObjOut.nil {E : Env G W V} {c : Config.Cfg} {k : ℕ} {id : String} {o : List (Final W V)} (h : ObjOut E c k id [] o) : o = [] := by
  cases hc : c.linking.ssp with
  | none => exact (h.1 hc).eq_nil
  | some ssp =>
    rcases h.2 ssp hc with ⟨-, h⟩ | ⟨lc, d, -, -, h⟩
    · exact h
    · have : (if c.linking.dropUnlinked && d.isNone then [] else (survivors E c []).map fun r => (⟨r, some (d.isSome, d)⟩ : Final W V)) = [] := by
        split <;> rfl
      rw [this] at h
      exact h.eq_nil

theorem objOut_nil (E : Env G W V) (c : Config.Cfg) (k : ℕ) (id : String) : ObjOut E c k id [] [] :=
  ⟨fun _ => List.Perm.refl _, fun _ _ => .inl ⟨rfl, rfl⟩⟩

theorem ObjOut.perm {E : Env G W V} {c : Config.Cfg} (hS : Regular E c) {k k' : ℕ} {id : String} {obs : List (Pointing.Obs W)} (ho : OncePerTime obs)
    (hid : own id obs = obs) {o o' : List (Final W V)} (h : ObjOut E c k id obs o) (h' : ObjOut E c k' id obs o') : o.Perm o' := by
  cases hc : c.linking.ssp with
  | none => exact (h.1 hc).trans (h'.1 hc).symm
  | some ssp =>
    rcases h.2 ssp hc with ⟨e, rfl⟩ | ⟨lc, d, hs, hd, hp⟩ <;> rcases h'.2 ssp hc with ⟨e', rfl⟩ | ⟨lc', d', hs', hd', hp'⟩
    · exact List.Perm.refl _
    · rw [e] at hp'
      have : (if c.linking.dropUnlinked && d'.isNone then [] else ([] : List (Row W V)).map fun r => (⟨r, some (d'.isSome, d')⟩ : Final W V)) = [] := by
        split <;> rfl
      rw [this] at hp'
      exact hp'.symm
    · rw [e'] at hp
      have : (if c.linking.dropUnlinked && d.isNone then [] else ([] : List (Row W V)).map fun r => (⟨r, some (d.isSome, d)⟩ : Final W V)) = [] := by
        split <;> rfl
      rw [this] at hp
      exact hp
    · have := Settings.unique hs hs'
      subst this
      have hw := Settings.pos hs (hS.window ssp hc)
      have hties := seen_ties (c := c) hS.visits ho id
      rw [seenOf_own, hid] at hties
      have he := linkObject_date E.sortT hS.sortT lc hw.1 hw.2 (E.weights k id) (E.weights k' id) (hS.weights k id) (hS.weights k' id) E.draws
        ((survivors E c obs).map seen) ((survivors E c obs).map seen) (List.Perm.refl _) hties
      rw [hd, hd'] at he
      have := Except.ok.inj he
      subst this
      exact hp.trans hp'.symm

theorem process_objOut {E : Env G W V} {c : Config.Cfg} (hS : Regular E c) {s s' : State G} {obs : List (Pointing.Obs W)} {out : List (Final W V)}
    (ho : OncePerTime obs) (h : process E c s obs = .ok (out, s')) (id : String) :
    ObjOut E c s.round id (own id obs) (out.filter fun f => f.row.objId = id) := by
  by_cases hne : obs = []
  · subst hne
    simp only [process, List.length_nil, if_true] at h
    cases h
    exact objOut_nil E c _ id
  · obtain ⟨t0, noised, surv, s1, h0, hg, hn, hoff, hs, hdet, hfit, hr1, -, hl⟩ := process_stages E c s s' obs out hS.sortIndex hne h
    have hcand : noised.flatMap (views E c) = candidates E c obs := by rw [hoff hS.det.1, h0, ← candidates_eq]
    have hp : surv.rows.Perm (survivors E c obs) := by have := hdet hS.det; rwa [hcand] at this
    constructor
    · intro hc
      rw [link_off E c s1 surv hc] at hl
      rw [← Except.ok.inj hl, List.filter_map, ← survivors_own]
      exact (hp.filter _).map _
    · intro ssp hc
      by_cases hsurv : surv = []
      · subst hsurv
        left
        have hnil : survivors E c obs = [] := hp.symm.eq_nil
        constructor
        · rw [← survivors_own, hnil]; rfl
        · have := out_subperm hS.sortOut hl
          rw [show (Table.rows ([] : Table (Row W V))) = [] from rfl, List.subperm_nil] at this
          rw [List.map_eq_nil_iff.1 this]; rfl
      · obtain ⟨lc, hset, v, hv, hperm, -⟩ := link_ok E c s1 surv out hS.sortOut ssp hc hl hsurv
        rw [hr1] at hv
        have hw := Settings.pos hset (hS.window ssp hc)
        have hv' := hv.perm hS hw ho (k' := s.round) hp (List.Perm.refl _)
        have hperm' : (out.filter fun f => f.row.objId = id).Perm
            (((survivors E c (own id obs)).filter fun r => !c.linking.dropUnlinked || (v r.objId).isSome).map fun r => ⟨r, some ((v r.objId).isSome, v r.objId)⟩) := by
          refine (hperm.filter _).trans ?_
          rw [List.filter_map, List.filter_filter]
          refine ((hp.filter _).trans (List.Perm.of_eq ?_)).map _
          rw [← survivors_own, List.filter_filter]
          apply List.filter_congr
          intro r _
          exact Bool.and_comm _ _
        by_cases hsid : survivors E c (own id obs) = []
        · left
          refine ⟨hsid, ?_⟩
          rw [hsid] at hperm'
          exact hperm'.eq_nil
        · right
          obtain ⟨r, hr⟩ := List.exists_mem_of_ne_nil _ hsid
          have hids : ∀ r ∈ survivors E c (own id obs), r.objId = id := by
            intro r hr
            rw [← survivors_own] at hr
            simpa using (List.mem_filter.1 hr).2
          have hr' : r ∈ survivors E c obs := by
            rw [← survivors_own] at hr
            exact (List.mem_filter.1 hr).1
          obtain ⟨-, L, hL, hvL⟩ := hv' id ⟨r, hr', hids r hr⟩
          rw [seenOf_own] at hL
          refine ⟨lc, v id, hset, by rw [hL, hvL]; rfl, hperm'.trans (List.Perm.of_eq ?_)⟩
          by_cases hcase : (c.linking.dropUnlinked && (v id).isNone) = true
          · rw [if_pos hcase]
            rw [Bool.and_eq_true] at hcase
            rw [List.map_eq_nil_iff, List.filter_eq_nil_iff]
            intro x hx
            rw [hids x hx]
            cases hvi : v id with
            | none => simp [hcase.1]
            | some d => rw [hvi] at hcase; simp at hcase
          · rw [if_neg hcase]
            have hf : ((survivors E c (own id obs)).filter fun r => !c.linking.dropUnlinked || (v r.objId).isSome) = survivors E c (own id obs) := by
              rw [List.filter_eq_self]
              intro x hx
              rw [hids x hx]
              cases hdr : c.linking.dropUnlinked with
              | false => rfl
              | true => cases hvi : v id with
                | none => rw [hdr, hvi] at hcase; simp at hcase
                | some d => rfl
            rw [hf]
            apply List.map_congr_left
            intro x hx
            rw [hids x hx]

end Sorcha.Pipeline
