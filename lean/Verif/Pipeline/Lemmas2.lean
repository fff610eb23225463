import Verif.Pipeline.Lemmas
import Verif.Linking.Props

/-! # Lemmas: linking and the whole round -/

namespace Sorcha.Pipeline
open Sorcha.Pipeline.Spec Sorcha.Filters.Spec Sorcha.Filters

variable {G W V : Type}

theorem linkCfg_settings (E : Env G W V) (s : Config.Ssp) (lc : Linking.Cfg) : linkCfg E.linkSep s = some lc ↔ Settings E s lc := by
  unfold linkCfg Settings
  obtain ⟨e, n, d, m, k, w, u⟩ := s
  constructor
  · intro h
    simp only at h ⊢
    cases m <;> cases d <;> cases e <;> cases u <;> simp [toQ] at h
    rw [← h]
    simp
  · rintro ⟨h1, h2, h3, h4, h5, h6, h7, h8⟩
    simp only at h1 h2 h3 h4 h5 h6 h7
    subst h1 h2 h3 h4
    obtain ⟨a, b, a1, a2, a3, a4, a5, a6⟩ := lc
    simp only at h5 h6 h7 h8
    subst h5 h6 h7 h8
    simp [toQ]

/-- The verdict about each object of the rows. -/
def Verdicts (E : Env G W V) (lc : Linking.Cfg) (k : ℕ) (rows : List (Row W V)) (v : String → Option ℤ) : Prop :=
  ∀ id, (∃ r ∈ rows, r.objId = id) →
    Linking.Spec.Ascii id ∧ ∃ L, Linking.linkObject E.sortT lc (E.weights k id) E.draws (seenOf id rows) = .ok L ∧ v id = L.date

theorem rowsOf_linkRow (id : String) (rows : List (Row W V)) : Linking.Spec.rowsOf id (rows.map linkRow) = seenOf id rows := by
  unfold Linking.Spec.rowsOf seenOf
  rw [List.filter_map, List.map_map]
  rfl

theorem link_off (E : Env G W V) (c : Config.Cfg) (s : State G) (t : Table (Row W V)) (hc : c.linking.ssp = none) :
    link E c s t = .ok (t.rows.map fun r => ⟨r, none⟩) := by
  unfold link; rw [hc]

theorem link_ok (E : Env G W V) (c : Config.Cfg) (s : State G) (t : Table (Row W V)) (out : List (Final W V)) (hs : SortsOut E)
    (ssp : Config.Ssp) (hc : c.linking.ssp = some ssp) (h : link E c s t = .ok out) (hne : t ≠ []) :
    ∃ lc, Settings E ssp lc ∧ ∃ v, Verdicts E lc s.round t.rows v ∧
      out.Perm ((t.rows.filter fun r => !c.linking.dropUnlinked || (v r.objId).isSome).map fun r => ⟨r, some ((v r.objId).isSome, v r.objId)⟩) ∧
      out.Pairwise fun a b => a.row.rest.src.1.mjd ≤ b.row.rest.src.1.mjd := by
  unfold link at h
  rw [hc] at h
  simp only at h
  rw [if_pos (List.length_pos_iff.2 hne)] at h
  cases hl : linkCfg E.linkSep ssp with
  | none => simp [hl] at h
  | some lc =>
    simp only [hl] at h
    cases hf : Linking.linkingFilter E.sortT E.sortOut lc (E.weights s.round) E.draws c.linking.dropUnlinked (t.rows.map linkRow) with
    | error e => simp [hf, Except.map, Except.mapError] at h
    | ok o =>
      simp only [hf, Except.map, Except.mapError] at h
      rw [← Except.ok.inj h]
      obtain ⟨h0, v, h1, h2, h3⟩ := Linking.C05_filter_output E.sortT E.sortOut hs lc (E.weights s.round) E.draws c.linking.dropUnlinked (t.rows.map linkRow) o hf
      have hmem : ∀ x ∈ o, x.row.obs.mjd = x.row.rest.rest.src.1.mjd := by
        intro x hx
        obtain ⟨y, hy, rfl⟩ := List.mem_map.1 (h2.mem_iff.1 hx)
        obtain ⟨z, -, rfl⟩ := List.mem_map.1 (List.mem_of_mem_filter hy)
        rfl
      refine ⟨lc, (linkCfg_settings E ssp lc).1 hl, v, ?_, ?_, ?_⟩
      · rintro id ⟨r, hr, rfl⟩
        obtain ⟨L, hL, hv⟩ := h1 r.objId ⟨linkRow r, List.mem_map.2 ⟨r, hr, rfl⟩, rfl⟩
        rw [rowsOf_linkRow] at hL
        exact ⟨h0 (linkRow r) (List.mem_map.2 ⟨r, hr, rfl⟩), L, hL, hv⟩
      · refine (h2.map _).trans ?_
        rw [List.filter_map, List.map_map, List.map_map]
        exact List.Perm.refl _
      · rw [List.pairwise_map]
        refine h3.imp_of_mem ?_
        intro a b ha hb hab
        rw [hmem a ha, hmem b hb] at hab
        exact hab

theorem link_good (E : Env G W V) (c : Config.Cfg) (s : State G) (t : Table (Row W V))
    (h : ∀ ssp, c.linking.ssp = some ssp → t ≠ [] → ∃ lc, Settings E ssp lc ∧ ∃ v, Verdicts E lc s.round t.rows v) :
    ∃ out, link E c s t = .ok out := by
  unfold link
  cases hc : c.linking.ssp with
  | none => exact ⟨_, rfl⟩
  | some ssp =>
    simp only
    by_cases hl : t.length > 0
    · rw [if_pos hl]
      obtain ⟨lc, h1, v, h2⟩ := h ssp hc (List.length_pos_iff.1 hl)
      rw [(linkCfg_settings E ssp lc).2 h1]
      simp only
      have : ∃ obj, Linking.linkObservations E.sortT lc (E.weights s.round) E.draws (t.rows.map linkRow) = .ok obj := by
        unfold Linking.linkObservations
        simp only
        have hall : ∀ id ∈ (((t.rows.map linkRow).map (·.objId)).dedup.insertionSort (· ≤ ·)), ∃ L,
            Linking.linkObject E.sortT lc (E.weights s.round id) E.draws (((t.rows.map linkRow).filter fun r => r.objId == id).map (·.obs)) = .ok L := by
          intro id hid
          have hid' : id ∈ (t.rows.map linkRow).map (·.objId) := by
            rw [List.mem_insertionSort, List.mem_dedup] at hid; exact hid
          obtain ⟨x, hx, rfl⟩ := List.mem_map.1 hid'
          obtain ⟨r, hr, rfl⟩ := List.mem_map.1 hx
          obtain ⟨-, L, hL, -⟩ := h2 r.objId ⟨r, hr, rfl⟩
          refine ⟨L, ?_⟩
          rw [← hL, ← rowsOf_linkRow]
          congr 1
        generalize ((t.rows.map linkRow).map (·.objId)).dedup.insertionSort (· ≤ ·) = ids at hall
        induction ids with
        | nil => exact ⟨_, rfl⟩
        | cons a ids ih =>
          obtain ⟨L, hL⟩ := hall a (by simp)
          obtain ⟨obj, ho⟩ := ih fun id hid => hall id (by simp [hid])
          rw [List.mapM_cons, hL, ho]
          exact ⟨_, rfl⟩
      obtain ⟨obj, ho⟩ := this
      have hasc : ((t.rows.map linkRow).all fun r => Linking.encodable r.objId) = true := Linking.encodable_iff.2 fun x hx => by
        obtain ⟨r, hr, rfl⟩ := List.mem_map.1 hx
        exact (h2 r.objId ⟨r, hr, rfl⟩).1
      unfold Linking.linkingFilter
      rw [ho, hasc]
      exact ⟨_, rfl⟩
    · rw [if_neg hl]; exact ⟨_, rfl⟩

theorem randomize_on (E : Env G W V) (c : Config.Cfg) (s : State G) (t : Table (Row W V)) (hr : c.expert.randomization.on = true) :
    (randomize E c s t).1.rows = (keep (LowCut c) t.rows).mapIdx fun i r => addNoise c (E.noise s.pos (keep (LowCut c) t.rows).length i r) r := by
  unfold randomize
  rw [if_pos hr]
  have e : (if c.expert.defaultSnrCut = true then Filters.snrLimit (.fin 2) t else t).rows = keep (LowCut c) t.rows := by
    unfold LowCut
    by_cases hd : c.expert.defaultSnrCut = true
    · rw [if_pos hd, C09_snr]; apply keep_congr; intro r _; simp [hr, hd]
    · rw [if_neg hd]
      conv_lhs => rw [← keep_true t.rows]
      apply keep_congr; intro r _; simp [hd]
  simp only
  rw [(mapIdx_rows _ (fun i r => addNoise c (E.noise s.pos _ i r) r)).2, e]
  have hl : List.length (if c.expert.defaultSnrCut = true then Filters.snrLimit (.fin 2) t else t) = (keep (LowCut c) t.rows).length := by
    rw [← e]; simp [Table.rows]
  rw [hl]

/-- What a round does, up to the linking filter: `noised` are the rows after the randomisation, `surv` those that reach the linker. -/
theorem process_stages' (E : Env G W V) (c : Config.Cfg) (s s' : State G) (obs : List (Pointing.Obs W)) (out : List (Final W V))
    (hsort : ∀ l, (E.sortIndex l).Perm l) (hne : obs ≠ []) (h : process E c s obs = .ok (out, s')) :
    ∃ (t0 noised : List (Row W V)) (surv : Table (Row W V)) (s1 : State G),
      (c.expert.randomization.on = true → noised = (keep (LowCut c) t0).mapIdx fun i r => addNoise c (E.noise s.pos (keep (LowCut c) t0).length i r) r) ∧
      t0 = (pairs E obs).filterMap (fun p => (E.measure p).map (rowOf c p)) ∧
      (∀ p ∈ pairs E obs, Pointing.Spec.Agree p.2.start p.1.mjd ∧ (E.measure p).isSome) ∧
      List.Forall₂ SameSource noised (keep (LowCut c) t0) ∧
      (c.expert.randomization.on = false → noised = t0) ∧
      surv.rows.Subperm (keep (fun r => InView E c r ∧ WithinLimits c r) (noised.flatMap (views E c))) ∧
      (Deterministic c → surv.rows.Perm (keep (fun r => InView E c r ∧ WithinLimits c r) (noised.flatMap (views E c)))) ∧
      (Deterministic c → keep (fun r => InView E c r ∧ (∀ l, c.expert.snrLimit = some l → Below l r.snr) ∧
          ∀ l, c.expert.magLimit = some l → Below r.trailedSourceMag l) (noised.flatMap (views E c)) ≠ [] → LimitsFit c) ∧
      s1.round = s.round ∧ s'.round = s.round + 1 ∧ link E c s1 surv = .ok out := by
  unfold process at h
  rw [if_neg (by simpa using hne)] at h
  cases hm : measured E c obs with
  | error e => simp [hm, bind, Except.bind] at h
  | ok t =>
    obtain ⟨hn, hrows, hgood⟩ := measured_ok hm
    simp only [hm, bind, Except.bind] at h
    obtain ⟨hn1, hf2⟩ := randomize_spec E c s t hn
    cases hf : fieldOfView E c (randomize E c s t).2 (randomize E c s t).1 with
    | error e => simp [hf] at h
    | ok x =>
      obtain ⟨t2, s2⟩ := x
      simp only [hf] at h
      cases hfd : fade E c s2 (magCut c (snrCut c t2)) with
      | error e => simp [hfd] at h
      | ok y =>
        obtain ⟨t3, s3⟩ := y
        simp only [hfd] at h
        cases hbr : brightCut c t3 with
        | error e => simp [hbr] at h
        | ok t4 =>
          simp only [hbr] at h
          cases hln : link E c s3 t4 with
          | error e => simp [hln] at h
          | ok o =>
            simp only [hln, pure, Except.pure] at h
            obtain ⟨rfl, rfl⟩ := Prod.mk.inj (Except.ok.inj h)
            have hbare : ∀ r ∈ (randomize E c s t).1.rows, r.rest.detector = none := by
              intro r hr
              have : ∀ (a b : List (Row W V)), List.Forall₂ SameSource a b → ∀ r ∈ a, ∃ r' ∈ b, SameSource r r' := by
                intro a b hab
                induction hab with
                | nil => intro r hr; simp at hr
                | cons h1 _ ih =>
                  intro r hr
                  rcases List.mem_cons.1 hr with rfl | hr
                  · exact ⟨_, by simp, h1⟩
                  · obtain ⟨r', h2, h3⟩ := ih r hr; exact ⟨r', by simp [h2], h3⟩
              obtain ⟨r', h1, h2⟩ := this _ _ hf2 r hr
              have h3 := (mem_keep.1 h1).1
              rw [hrows, List.mem_filterMap] at h3
              obtain ⟨p, -, hp⟩ := h3
              rw [Option.map_eq_some_iff] at hp
              obtain ⟨m, -, rfl⟩ := hp
              rw [h2.2.1]; rfl
            obtain ⟨a1, a2, a3, a4⟩ := fieldOfView_spec E c _ s2 _ t2 hn1 hbare hsort hf
            obtain ⟨b1, b2, b3, b4⟩ := fade_spec E c s2 s3 _ t3 (magCut_agreeing c _ (snrCut_agreeing c _ a1)) hfd
            have hfit := brightCut_ok c t3 t4 hbr
            obtain ⟨t4', h4, h5⟩ := brightCut_good c t3 b1 hfit
            rw [hbr] at h4
            cases h4
            have hcuts : (magCut c (snrCut c t2)).rows = keep (fun r => (∀ l, c.expert.snrLimit = some l → Below l r.snr) ∧
                ∀ l, c.expert.magLimit = some l → Below r.trailedSourceMag l) t2.rows := by
              rw [magCut_rows, snrCut_rows, keep_keep]
            have hlim : keep (Dim c) (keep (fun r => (∀ l, c.expert.snrLimit = some l → Below l r.snr) ∧
                ∀ l, c.expert.magLimit = some l → Below r.trailedSourceMag l) (keep (InView E c) ((randomize E c s t).1.rows.flatMap (views E c)))) =
                keep (fun r => InView E c r ∧ WithinLimits c r) ((randomize E c s t).1.rows.flatMap (views E c)) := by
              rw [keep_keep, keep_keep]
              apply keep_congr
              intro r _
              exact ⟨fun ⟨x1, ⟨x2, x3⟩, x4⟩ => ⟨x1, x2, x3, x4⟩, fun ⟨x1, x2⟩ => ⟨x1, ⟨x2.snr, x2.mag⟩, x2.bright⟩⟩
            have hround : (randomize E c s t).2.round = s.round := by
              unfold randomize; split <;> rfl
            refine ⟨t.rows, (randomize E c s t).1.rows, t4, s3, randomize_on E c s t, hrows, hgood, hf2, ?_, ?_, ?_, ?_, by rw [b3, a3, hround], by rw [b3, a3, hround], hln⟩
            · intro hr; rw [randomize_off E c s t hr]
            · rw [h5, ← hlim]
              apply keep_subperm
              refine b2.subperm.trans ?_
              rw [hcuts]
              exact keep_subperm _ a2
            · intro hd
              rw [h5, ← hlim, b4 hd, hcuts]
              exact keep_perm _ (keep_perm _ (a4 hd))
            · intro hd hne'
              apply hfit
              rw [b4 hd]
              intro hnil
              apply hne'
              have : (magCut c (snrCut c t2)).rows = [] := by rw [hnil]; rfl
              rw [hcuts] at this
              have hp := keep_perm (fun r : Row W V => (∀ l, c.expert.snrLimit = some l → Below l r.snr) ∧
                ∀ l, c.expert.magLimit = some l → Below r.trailedSourceMag l) (a4 hd)
              rw [this, keep_keep] at hp
              exact hp.symm.eq_nil

/-- What a round does, up to the linking filter: `noised` are the rows after the randomisation, `surv` those that reach the linker. -/
theorem process_stages (E : Env G W V) (c : Config.Cfg) (s s' : State G) (obs : List (Pointing.Obs W)) (out : List (Final W V))
    (hsort : ∀ l, (E.sortIndex l).Perm l) (hne : obs ≠ []) (h : process E c s obs = .ok (out, s')) :
    ∃ (t0 noised : List (Row W V)) (surv : Table (Row W V)) (s1 : State G),
      t0 = (pairs E obs).filterMap (fun p => (E.measure p).map (rowOf c p)) ∧
      (∀ p ∈ pairs E obs, Pointing.Spec.Agree p.2.start p.1.mjd ∧ (E.measure p).isSome) ∧
      List.Forall₂ SameSource noised (keep (LowCut c) t0) ∧
      (c.expert.randomization.on = false → noised = t0) ∧
      surv.rows.Subperm (keep (fun r => InView E c r ∧ WithinLimits c r) (noised.flatMap (views E c))) ∧
      (Deterministic c → surv.rows.Perm (keep (fun r => InView E c r ∧ WithinLimits c r) (noised.flatMap (views E c)))) ∧
      (Deterministic c → keep (fun r => InView E c r ∧ (∀ l, c.expert.snrLimit = some l → Below l r.snr) ∧
          ∀ l, c.expert.magLimit = some l → Below r.trailedSourceMag l) (noised.flatMap (views E c)) ≠ [] → LimitsFit c) ∧
      s1.round = s.round ∧ s'.round = s.round + 1 ∧ link E c s1 surv = .ok out := by
  obtain ⟨t0, noised, surv, s1, -, h⟩ := process_stages' E c s s' obs out hsort hne h
  exact ⟨t0, noised, surv, s1, h⟩

end Sorcha.Pipeline
