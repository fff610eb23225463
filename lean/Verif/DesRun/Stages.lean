import Verif.DesRun.Lemmas

/-! # The stages of a DES round -/

namespace Sorcha.DesRun
open Sorcha.Pipeline (Row State Numbered Agreeing pairs LimitsFit Dim nil_of_length)
open Sorcha.Pipeline.Spec (rowOf bare)
open Sorcha.DesRun.Spec Sorcha.Filters.Spec Sorcha.Filters

variable {G W V : Type}

theorem inView_other (E : Env G W V) (c : Config.Cfg) (hc : ∀ q, c.fov ≠ .visits q) (r : Row W V) : InView E c r ↔ Pipeline.Spec.InView E.base c r := by
  unfold InView
  cases h : c.fov with
  | visits q => exact absurd h (hc q)
  | _ => exact Iff.rfl

theorem views_other (E : Env G W V) (c : Config.Cfg) (hc : ∀ q, c.fov ≠ .visits q) (r : Row W V) : views E c r = Pipeline.Spec.views E.base c r := by
  unfold views
  cases h : c.fov with
  | visits q => exact absurd h (hc q)
  | _ => rfl

/-- The state of the other library calls does not matter to the field of view. -/
theorem fov_spec (E : Env G W V) (c : Config.Cfg) (s s' : State G) (t t' : Table (Row W V)) (hn : Numbered t) (hb : ∀ r ∈ t.rows, r.rest.detector = none)
    (hoff : c.expert.randomization.on = false) (hsort : ∀ l, (E.base.sortIndex l).Perm l)
    (hv : ∀ q, c.fov = .visits q → Visits.Spec.Sound E.ext ∧ ∀ b, Radius c b → b ≤ 90 ∧ Visits.Spec.Regular (b : ℝ) (t.rows.map (place E)))
    (h : view E c s t = .ok (t', s')) :
    Agreeing t' ∧ t'.rows.Subperm (keep (InView E c) (t.rows.flatMap (views E c))) ∧
    (Deterministic c → t'.rows.Perm (keep (InView E c) (t.rows.flatMap (views E c)))) := by
  by_cases hc : ∃ q, c.fov = .visits q
  · obtain ⟨q, hc⟩ := hc
    unfold view at h
    rw [hc] at h
    simp only at h
    by_cases hl : t.length > 0
    · rw [if_pos hl] at h
      cases ho : onVisits E c t with
      | error e => simp [ho, Except.map] at h
      | ok u =>
        simp only [ho, Except.map] at h
        obtain ⟨rfl, rfl⟩ := Prod.mk.inj (Except.ok.inj h)
        obtain ⟨h1, h2⟩ := onVisits_spec E c t u hn hb hsort (hv q hc).1 hc (hv q hc).2 ho
        exact ⟨h1, h2, fun hd => absurd hc (hd.2.2 q)⟩
    · rw [if_neg hl] at h
      obtain ⟨rfl, rfl⟩ := Prod.mk.inj (Except.ok.inj h)
      rw [nil_of_length hl]
      exact ⟨fun a ha => absurd ha List.not_mem_nil, List.Subperm.refl _, fun _ => List.Perm.refl _⟩
  · have hc : ∀ q, c.fov ≠ .visits q := fun q hq => hc ⟨q, hq⟩
    have h' : Pipeline.fieldOfView E.base c s t = .ok (t', s') := by
      unfold view at h
      cases hf : c.fov with
      | visits q => exact absurd hf (hc q)
      | _ =>
        rw [hf] at h
        simp only at h
        cases hp : Pipeline.fieldOfView E.base c s t with
        | error e => simp [hp, Except.mapError] at h
        | ok x => simpa [hp, Except.mapError] using h
    obtain ⟨h1, h2, -, h4⟩ := Pipeline.fieldOfView_spec E.base c s s' t t' hn hb hsort h'
    have e : keep (InView E c) (t.rows.flatMap (views E c)) = keep (Pipeline.Spec.InView E.base c) (t.rows.flatMap (Pipeline.Spec.views E.base c)) := by
      rw [List.flatMap_congr fun r _ => views_other E c hc r]
      exact keep_congr fun r _ => inView_other E c hc r
    rw [e]
    exact ⟨h1, h2, fun hd => h4 ⟨hoff, hd.1, hd.2.1⟩⟩

/-- Without the visits footprint the field of view never fails. -/
theorem fov_good (E : Env G W V) (c : Config.Cfg) (s : State G) (t : Table (Row W V)) (hd : ∀ q, c.fov ≠ .visits q) : ∃ x, view E c s t = .ok x := by
  unfold view Pipeline.fieldOfView
  cases hf : c.fov with
  | visits q => exact absurd hf (hd q)
  | none => exact ⟨_, rfl⟩
  | footprint p e => exact ⟨_, rfl⟩
  | circle f r => simp only; split <;> exact ⟨_, rfl⟩

theorem fade_spec (E : Env G W V) (c : Config.Cfg) (s s' : State G) (t t' : Table (Row W V)) (ha : Agreeing t) (h : fade E c s t = .ok (t', s')) :
    Agreeing t' ∧ t'.rows.Sublist t.rows ∧ (Deterministic c → t' = t) := by
  unfold fade at h
  split at h
  · obtain ⟨rfl, rfl⟩ := Prod.mk.inj (Except.ok.inj h)
    exact ⟨ha, List.Sublist.refl _, fun _ => rfl⟩
  · rename_i w p hc
    by_cases hl : t.length > 0
    · rw [if_pos hl] at h; cases h
    · rw [if_neg hl] at h
      obtain ⟨rfl, rfl⟩ := Prod.mk.inj (Except.ok.inj h)
      exact ⟨ha, List.Sublist.refl _, fun _ => rfl⟩
  · rename_i eff hc
    by_cases hl : t.length > 0
    · rw [if_pos hl] at h
      obtain ⟨rfl, rfl⟩ := Prod.mk.inj (Except.ok.inj h)
      refine ⟨(Pipeline.resetIndex_numbered _).agreeing, ?_, fun hd => ?_⟩
      · rw [Table.rows_resetIndex, Rng.rows_keepBy]
        exact Pipeline.zip_filter_sublist _ _ _
      · rw [hd.1] at hc; cases hc
    · rw [if_neg hl] at h
      obtain ⟨rfl, rfl⟩ := Prod.mk.inj (Except.ok.inj h)
      exact ⟨ha, List.Sublist.refl _, fun _ => rfl⟩

theorem brightCut_agreeing (c : Config.Cfg) (t t' : Table (Row W V)) (ha : Agreeing t) (h : Pipeline.brightCut c t = .ok t') : Agreeing t' := by
  unfold Pipeline.brightCut at h
  by_cases hc : (c.saturation.on.on && decide (t.length > 0)) = true
  · rw [if_pos hc] at h
    cases hls : c.saturation.limits with
    | none => rw [hls] at h; simp [brightLimit, Except.mapError] at h
    | some ls =>
      rw [hls] at h
      simp only [brightLimit, bind, Except.bind, pure, Except.pure] at h
      cases hb : brightLabels t c.filters ls with
      | error e => simp [hb, Except.mapError] at h
      | ok lab =>
        simp only [hb, Except.mapError] at h
        rw [← Except.ok.inj h]
        exact (Pipeline.resetIndex_numbered _).agreeing
  · rw [if_neg hc] at h
    rw [← Except.ok.inj h]; exact ha

/-! ## Distance, motion, discovery as functions of rows -/

/-- The test of the distance cut on one row. -/
def nearB (c : Config.Cfg) (r : Row W V) : Bool :=
  match c.linking.distance with
  | none => true
  | some (upper, lower) => (distanceSq r).lt (km upper).sq && (km lower).sq.lt (distanceSq r)

/-- The distance cut on rows. -/
def nearF (c : Config.Cfg) (l : List (Row W V)) : List (Row W V) :=
  if c.linking.distanceOn.on then l.filter fun r => l.any fun r' => decide (r'.objId = r.objId) && nearB c r' else l

/-- The test of the motion cut. -/
def moveB (c : Config.Cfg) (r : Row W V) : Bool :=
  match c.linking.motion with
  | none => true
  | some (upper, lower) => (motionSq r).lt upper.sq && lower.sq.lt (motionSq r)

/-- The motion cut on rows. -/
def moveF (c : Config.Cfg) (l : List (Row W V)) : List (Row W V) := if c.linking.motionOn.on then l.filter (moveB c) else l

theorem moveB_bare (c : Config.Cfg) (r : Row W V) : moveB c r = moveB c (bare r) := rfl

theorem nearF_nil (c : Config.Cfg) : nearF c ([] : List (Row W V)) = [] := by unfold nearF; split <;> rfl

theorem moveF_nil (c : Config.Cfg) : moveF c ([] : List (Row W V)) = [] := by unfold moveF; split <;> rfl

theorem agreeing_filter {t : Table (Row W V)} (h : Agreeing t) (p : ℕ × Row W V → Bool) : Agreeing (t.filter p) :=
  fun a ha b hb => h a (List.mem_of_mem_filter ha) b (List.mem_of_mem_filter hb)

theorem distance_ok (c : Config.Cfg) (t t' : Table (Row W V)) (ha : Agreeing t) (h : distance c t = .ok t') :
    Agreeing t' ∧ t'.rows = nearF c t.rows ∧ (t.rows ≠ [] → c.linking.distanceOn.on = true → c.linking.distance.isSome = true) := by
  unfold distance at h
  unfold nearF
  by_cases hon : c.linking.distanceOn.on = true
  · by_cases hl : t.length > 0
    · rw [if_pos (by simp [hon, hl])] at h
      cases hd : c.linking.distance with
      | none => rw [hd] at h; cases h
      | some ul =>
        obtain ⟨u, l⟩ := ul
        rw [hd] at h
        have h := Except.ok.inj h
        subst h
        refine ⟨agreeing_filter ha _, ?_, fun _ _ => rfl⟩
        rw [if_pos hon]
        unfold distanceCut
        simp only
        rw [Table.rows_mask]
        apply List.filter_congr
        intro r hr
        rw [Bool.eq_iff_iff, List.contains_iff_mem, List.mem_dedup, List.mem_map, Table.rows_mask, List.any_eq_true]
        constructor
        · rintro ⟨r', hr', he⟩
          rw [List.mem_filter] at hr'
          exact ⟨r', hr'.1, by simp only [he, decide_true, Bool.true_and]; unfold nearB; rw [hd]; exact hr'.2⟩
        · rintro ⟨r', hr', he⟩
          simp only [Bool.and_eq_true, decide_eq_true_eq] at he
          refine ⟨r', List.mem_filter.2 ⟨hr', ?_⟩, he.1⟩
          have := he.2
          unfold nearB at this; rw [hd] at this; simpa using this
    · rw [if_neg (by simp [hl])] at h
      have h := Except.ok.inj h
      subst h
      rw [nil_of_length hl, if_pos hon]
      exact ⟨fun a ha => absurd ha List.not_mem_nil, rfl, fun h => absurd rfl h⟩
  · rw [if_neg (by simp [hon])] at h
    have h := Except.ok.inj h
    subst h
    rw [if_neg hon]
    exact ⟨ha, rfl, fun _ h => absurd h hon⟩

theorem distance_good (c : Config.Cfg) (t : Table (Row W V)) (h : t.rows ≠ [] → c.linking.distanceOn.on = true → c.linking.distance.isSome = true) :
    ∃ t', distance c t = .ok t' := by
  unfold distance
  by_cases hc : (c.linking.distanceOn.on && decide (t.length > 0)) = true
  · rw [if_pos hc]
    simp only [Bool.and_eq_true, decide_eq_true_eq] at hc
    have : t.rows ≠ [] := by
      intro h0
      have : t = [] := by simpa [Table.rows] using h0
      rw [this] at hc; simp at hc
    obtain ⟨ul, hul⟩ := Option.isSome_iff_exists.1 (h this hc.1)
    rw [hul]
    exact ⟨_, rfl⟩
  · rw [if_neg hc]; exact ⟨_, rfl⟩

theorem motion_ok (c : Config.Cfg) (t t' : Table (Row W V)) (ha : Agreeing t) (h : motion c t = .ok t') :
    t'.rows = moveF c t.rows ∧ (t.rows ≠ [] → c.linking.motionOn.on = true → c.linking.motion.isSome = true) := by
  unfold motion at h
  unfold moveF
  by_cases hon : c.linking.motionOn.on = true
  · by_cases hl : t.length > 0
    · rw [if_pos (by simp [hon, hl])] at h
      cases hd : c.linking.motion with
      | none => rw [hd] at h; cases h
      | some ul =>
        obtain ⟨u, l⟩ := ul
        rw [hd] at h
        have h := Except.ok.inj h
        subst h
        refine ⟨?_, fun _ _ => rfl⟩
        rw [if_pos hon]
        unfold motionCut
        rw [Table.dropLabels_where _ _ (by
          intro a ha' b hb' hab
          have := ha a ha' b hb' hab
          have e : ∀ r : Row W V, motionSq r = motionSq (bare r) := fun _ => rfl
          show (!((motionSq a.2).lt u.sq && l.sq.lt (motionSq a.2))) = !((motionSq b.2).lt u.sq && l.sq.lt (motionSq b.2))
          rw [e a.2, e b.2, this]), Table.rows_mask]
        apply List.filter_congr
        intro r _
        rw [Bool.not_not]
        unfold moveB; rw [hd]
    · rw [if_neg (by simp [hl])] at h
      have h := Except.ok.inj h
      subst h
      rw [nil_of_length hl, if_pos hon]
      exact ⟨rfl, fun h => absurd rfl h⟩
  · rw [if_neg (by simp [hon])] at h
    have h := Except.ok.inj h
    subst h
    rw [if_neg hon]
    exact ⟨rfl, fun _ h => absurd h hon⟩

theorem motion_good (c : Config.Cfg) (t : Table (Row W V)) (h : t.rows ≠ [] → c.linking.motionOn.on = true → c.linking.motion.isSome = true) :
    ∃ t', motion c t = .ok t' := by
  unfold motion
  by_cases hc : (c.linking.motionOn.on && decide (t.length > 0)) = true
  · rw [if_pos hc]
    simp only [Bool.and_eq_true, decide_eq_true_eq] at hc
    have : t.rows ≠ [] := by
      intro h0
      have : t = [] := by simpa [Table.rows] using h0
      rw [this] at hc; simp at hc
    obtain ⟨ul, hul⟩ := Option.isSome_iff_exists.1 (h this hc.1)
    rw [hul]
    exact ⟨_, rfl⟩
  · rw [if_neg hc]; exact ⟨_, rfl⟩

/-- The discovery filter on rows. -/
def discF (E : Env G W V) (c : Config.Cfg) (l : List (Row W V)) : List (Row W V) :=
  if c.linking.desDiscovery.on then (Des.discoveryFilter E.sortTime (l.filterMap toDes)).map (·.rest) else l

theorem discover_ok (E : Env G W V) (hE : Des.Spec.SortSound E.sortTime) (c : Config.Cfg) (t : Table (Row W V)) (out : List (Row W V)) (h : discover E c t = .ok out) :
    out = discF E c t.rows ∧ (c.linking.desDiscovery.on = true → ∀ r ∈ t.rows, (toDes r).isSome = true) := by
  unfold discover at h
  unfold discF
  by_cases hon : c.linking.desDiscovery.on = true
  · by_cases hl : t.length > 0
    · rw [if_pos (by simp [hon, hl])] at h
      cases hm : t.rows.mapM toDes with
      | none => rw [hm] at h; cases h
      | some rows =>
        rw [hm] at h
        have h := Except.ok.inj h
        subst h
        obtain ⟨e1, e2⟩ := Pipeline.mapM_some _ _ _ hm
        rw [if_pos hon, e1]
        exact ⟨rfl, fun _ r hr => e2 r hr⟩
    · rw [if_neg (by simp [hl])] at h
      have h := Except.ok.inj h
      subst h
      rw [nil_of_length hl, if_pos hon]
      refine ⟨?_, fun _ r hr => absurd hr List.not_mem_nil⟩
      have : Des.discoveryFilter E.sortTime (([] : List (Row W V)).filterMap toDes) = [] := (hE.perm _).eq_nil
      show [] = _
      rw [show (Table.rows ([] : Table (Row W V))) = [] from rfl, this]
      rfl
  · rw [if_neg (by simp [hon])] at h
    have h := Except.ok.inj h
    subst h
    rw [if_neg hon]
    exact ⟨rfl, fun h => absurd h hon⟩

theorem discover_good (E : Env G W V) (c : Config.Cfg) (t : Table (Row W V)) (h : c.linking.desDiscovery.on = true → ∀ r ∈ t.rows, (toDes r).isSome = true) :
    ∃ out, discover E c t = .ok out := by
  unfold discover
  by_cases hc : (c.linking.desDiscovery.on && decide (t.length > 0)) = true
  · rw [if_pos hc]
    simp only [Bool.and_eq_true, decide_eq_true_eq] at hc
    rw [Pipeline.mapM_isSome toDes t.rows (h hc.1)]
    exact ⟨_, rfl⟩
  · rw [if_neg hc]; exact ⟨_, rfl⟩

/-! ## The round -/

/-- The rows before the field of view. -/
def plain (E : Env G W V) (c : Config.Cfg) (obs : List (Pointing.Obs W)) : List (Row W V) :=
  (pairs E.base obs).filterMap fun p => (E.base.measure p).map (rowOf c p)

/-- All rows in view. -/
noncomputable def seenRows (E : Env G W V) (c : Config.Cfg) (obs : List (Pointing.Obs W)) : List (Row W V) :=
  keep (InView E c) ((plain E c obs).flatMap (views E c))

/-- The magnitude cut. -/
def MagOk (c : Config.Cfg) (r : Row W V) : Prop := ∀ l, c.expert.magLimit = some l → Below r.trailedSourceMag l

theorem candidates_eq (E : Env G W V) (c : Config.Cfg) (obs : List (Pointing.Obs W)) : candidates E c obs = (plain E c obs).flatMap (views E c) := by
  unfold candidates plain pairs
  induction obs with
  | nil => rfl
  | cons o obs ih =>
    rw [List.flatMap_cons, List.flatMap_cons, List.filterMap_append, List.flatMap_append, ih]
    congr 1
    rw [List.filterMap_map]
    induction E.base.db.filter fun v => v.id = o.field with
    | nil => rfl
    | cons v vs ih' =>
      rw [List.flatMap_cons, ih']
      cases h : E.base.measure (o, v) with
      | none => simp [Function.comp_def, h]
      | some m => simp [Function.comp_def, h]

theorem survivors_eq (E : Env G W V) (c : Config.Cfg) (obs : List (Pointing.Obs W)) : survivors E c obs = keep (Dim c) (keep (MagOk c) (seenRows E c obs)) := by
  unfold survivors seenRows
  rw [candidates_eq, keep_keep, keep_keep]
  apply keep_congr
  intro r _
  exact ⟨fun h => ⟨h.1, h.2.mag, h.2.bright⟩, fun h => ⟨h.1, h.2.1, h.2.2⟩⟩

theorem plain_detector {E : Env G W V} {c : Config.Cfg} {obs : List (Pointing.Obs W)} {r : Row W V} (h : r ∈ plain E c obs) : r.rest.detector = none := by
  unfold plain at h
  rw [List.mem_filterMap] at h
  obtain ⟨p, -, hm⟩ := h
  obtain ⟨m, -, rfl⟩ := Option.map_eq_some_iff.1 hm
  rfl

theorem plain_candidates (E : Env G W V) (c : Config.Cfg) (obs : List (Pointing.Obs W)) {q} (hc : c.fov = .visits q) :
    Pipeline.Spec.candidates E.base c obs = plain E c obs := by
  rw [Pipeline.Props.candidates_eq]
  rw [List.flatMap_congr (g := fun r => [r]) fun r _ => Pipeline.views_other E.base c (by simp [hc]) r, Pipeline.flatMap_single]
  rfl

/-- What a round does: `reached` are the rows that reach the distance cut. -/
theorem process_stages (E : Env G W V) (c : Config.Cfg) (s s' : State G) (obs : List (Pointing.Obs W)) (out : List (Row W V)) (hS : Sound E c obs) (hne : obs ≠ [])
    (h : process E c s obs = .ok (out, s')) :
    c.expert.randomization.on = false ∧ (∀ p ∈ pairs E.base obs, Pointing.Spec.Agree p.2.start p.1.mjd ∧ (E.base.measure p).isSome) ∧
    ∃ (inView reached : List (Row W V)), inView.Subperm (seenRows E c obs) ∧ (inView ≠ [] → c.expert.snrLimit = none) ∧
      reached.Subperm (keep (Dim c) (keep (MagOk c) inView)) ∧
      (Deterministic c → inView.Perm (seenRows E c obs) ∧ reached.Perm (survivors E c obs) ∧ (keep (MagOk c) inView ≠ [] → LimitsFit c)) ∧
      (reached ≠ [] → c.linking.distanceOn.on = true → c.linking.distance.isSome = true) ∧
      (nearF c reached ≠ [] → c.linking.motionOn.on = true → c.linking.motion.isSome = true) ∧
      (c.linking.desDiscovery.on = true → ∀ r ∈ moveF c (nearF c reached), (toDes r).isSome = true) ∧
      out = discF E c (moveF c (nearF c reached)) := by
  unfold process at h
  rw [if_neg (by simpa using hne)] at h
  cases hm : Pipeline.measured E.base c obs with
  | error e => simp [hm, bind, Except.bind, Except.mapError] at h
  | ok t =>
    obtain ⟨hn, hrows, hgood⟩ := Pipeline.measured_ok hm
    have hrows : t.rows = plain E c obs := hrows
    simp only [hm, bind, Except.bind, Except.mapError] at h
    unfold randomize at h
    by_cases hr : c.expert.randomization.on = true
    · simp [hr] at h
    have hr : c.expert.randomization.on = false := by simpa using hr
    simp only [hr, Bool.false_eq_true, if_false] at h
    cases hv : view E c s t with
    | error e => simp [hv] at h
    | ok x =>
      obtain ⟨t2, s2⟩ := x
      simp only [hv] at h
      have hb : ∀ r ∈ t.rows, r.rest.detector = none := fun r hr => plain_detector (hrows ▸ hr)
      obtain ⟨a1, a2, a3⟩ := fov_spec E c s s2 t t2 hn hb hr hS.sortIndex (by
        intro q hq
        obtain ⟨h1, h2⟩ := hS.visits q hq
        refine ⟨h1, fun b hb => ?_⟩
        rw [hrows, ← plain_candidates E c obs hq]
        exact h2 b hb) hv
      rw [hrows] at a2 a3
      have hsnr : t2.rows ≠ [] → c.expert.snrLimit = none := by
        intro h0
        by_contra hs
        obtain ⟨l, hl⟩ := Option.ne_none_iff_exists'.1 hs
        unfold snrCut at h
        rw [if_pos] at h
        · simp at h
        · have : t2.length > 0 := List.length_pos_iff.2 fun h1 => h0 (by rw [h1]; rfl)
          simp [hl, this]
      have hcut : snrCut c t2 = .ok t2 := by
        unfold snrCut
        by_cases h0 : t2.rows = []
        · have : t2 = [] := by simpa [Table.rows] using h0
          subst this; simp
        · simp [hsnr h0]
      simp only [hcut] at h
      cases hf : fade E c s2 (Pipeline.magCut c t2) with
      | error e => simp [hf] at h
      | ok y =>
        obtain ⟨t3, s3⟩ := y
        simp only [hf] at h
        obtain ⟨b1, b2, b3⟩ := fade_spec E c s2 s3 _ t3 (Pipeline.magCut_agreeing c _ a1) hf
        cases hbr : Pipeline.brightCut c t3 with
        | error e => simp [hbr] at h
        | ok t4 =>
          simp only [hbr] at h
          have hfit := Pipeline.brightCut_ok c t3 t4 hbr
          obtain ⟨t4', h4, h5⟩ := Pipeline.brightCut_good c t3 b1 hfit
          rw [hbr] at h4
          cases h4
          have c1 : Agreeing t4 := brightCut_agreeing c t3 t4 b1 hbr
          cases hd : distance c t4 with
          | error e => simp [hd] at h
          | ok t5 =>
            simp only [hd] at h
            obtain ⟨d1, d2, d3⟩ := distance_ok c t4 t5 c1 hd
            cases hmo : motion c t5 with
            | error e => simp [hmo] at h
            | ok t6 =>
              simp only [hmo] at h
              obtain ⟨e1, e2⟩ := motion_ok c t5 t6 d1 hmo
              cases hdi : discover E c t6 with
              | error e => simp [hdi] at h
              | ok o =>
                simp only [hdi, pure, Except.pure] at h
                obtain ⟨rfl, rfl⟩ := Prod.mk.inj (Except.ok.inj h)
                obtain ⟨f1, f2⟩ := discover_ok E hS.sortTime c t6 o hdi
                have hmag : (Pipeline.magCut c t2).rows = keep (MagOk c) t2.rows := Pipeline.magCut_rows c t2
                refine ⟨hr, hgood, t2.rows, t4.rows, a2, hsnr, ?_, ?_, d3, ?_, ?_, ?_⟩
                · rw [h5]
                  apply Pipeline.keep_subperm
                  rw [← hmag]
                  exact b2.subperm
                · intro hdet
                  refine ⟨a3 hdet, ?_, ?_⟩
                  · rw [h5, b3 hdet, hmag, survivors_eq]
                    exact Pipeline.keep_perm _ (Pipeline.keep_perm _ (a3 hdet))
                  · intro h0
                    apply hfit
                    rw [b3 hdet]
                    intro hnil
                    apply h0
                    rw [← hmag, hnil]; rfl
                · intro h0 hon; rw [← d2] at h0; exact e2 h0 hon
                · rw [← d2, ← e1]; exact f2
                · rw [f1, e1, d2]

end Sorcha.DesRun
