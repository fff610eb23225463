import Verif.Pipeline.Lemmas2
import Verif.Readers.Props

/-!
# Properties of a whole Rubin run: what is output (C11)
-/

namespace Sorcha.Pipeline.Props
open Sorcha.Pipeline Sorcha.Pipeline.Spec Sorcha.Filters.Spec

variable {G W V : Type}

theorem candidates_eq (E : Env G W V) (c : Config.Cfg) (obs : List (Pointing.Obs W)) :
    candidates E c obs = ((pairs E obs).filterMap fun p => (E.measure p).map (rowOf c p)).flatMap (views E c) := by
  unfold candidates pairs
  induction obs with
  | nil => rfl
  | cons o obs ih =>
    rw [List.flatMap_cons, List.flatMap_cons, List.filterMap_append, List.flatMap_append, ih]
    congr 1
    rw [List.filterMap_map]
    induction E.db.filter fun v => v.id = o.field with
    | nil => rfl
    | cons v vs ih' =>
      rw [List.flatMap_cons, ih']
      cases h : E.measure (o, v) with
      | none => simp [Function.comp_def, h]
      | some m => simp [Function.comp_def, h]

theorem mem_forall₂ {α β : Type} {R : α → β → Prop} {a : List α} {b : List β} (h : List.Forall₂ R a b) : ∀ x ∈ a, ∃ y ∈ b, R x y := by
  induction h with
  | nil => intro r hr; simp at hr
  | cons h1 _ ih =>
    intro r hr
    rcases List.mem_cons.1 hr with rfl | hr
    · exact ⟨_, by simp, h1⟩
    · obtain ⟨r', h2, h3⟩ := ih r hr; exact ⟨r', by simp [h2], h3⟩

theorem views_source (E : Env G W V) (c : Config.Cfg) (r r' : Row W V) (h : r' ∈ views E c r) : r'.rest.src = r.rest.src ∧ r'.objId = r.objId ∧
    r'.optFilter = r.optFilter ∧ r'.snr = r.snr ∧ bare r' = bare r := by
  unfold views at h
  split at h
  · obtain ⟨i, _, rfl⟩ := List.mem_map.1 h
    exact ⟨rfl, rfl, rfl, rfl, rfl⟩
  · rw [List.mem_singleton] at h; subst h; exact ⟨rfl, rfl, rfl, rfl, rfl⟩

/-- Properties of the rows that reach the linker. -/
def Fine (E : Env G W V) (c : Config.Cfg) (obs : List (Pointing.Obs W)) (r : Row W V) : Prop :=
  Stems E obs r ∧ InView E c r ∧ WithinLimits c r ∧
    (c.expert.randomization.on = true → c.expert.defaultSnrCut = true → Below (.fin 2) r.snr) ∧
    (c.expert.randomization.on = false → ∃ m, E.measure r.rest.src = some m ∧ bare r = rowOf c r.rest.src m)

/-- The places a row can be found at: no detector, or one of the detectors of the footprint. -/
def places (E : Env G W V) (c : Config.Cfg) : List (Option ℕ) :=
  match c.fov with
  | .footprint _ _ => (List.range E.detectors.length).map some
  | _ => [none]

theorem subperm_map {α β : Type} (f : α → β) {l m : List α} (h : l.Subperm m) : (l.map f).Subperm (m.map f) := by
  obtain ⟨l', h1, h2⟩ := h
  exact ⟨l'.map f, h1.map f, h2.map f⟩

theorem src_eq {a b : List (Row W V)} (h : List.Forall₂ SameSource a b) : a.map (·.rest.src) = b.map (·.rest.src) := by
  induction h with
  | nil => rfl
  | cons h1 _ ih => rw [List.map_cons, List.map_cons, ih, h1.1]

theorem src_filterMap (E : Env G W V) (c : Config.Cfg) (ps : List (Pointing.Obs W × Pointing.Visit V)) (hg : ∀ p ∈ ps, (E.measure p).isSome) :
    (ps.filterMap fun p => (E.measure p).map (rowOf c p)).map (·.rest.src) = ps := by
  induction ps with
  | nil => rfl
  | cons p ps ih =>
    obtain ⟨m, hm⟩ := Option.isSome_iff_exists.1 (hg p (by simp))
    rw [List.filterMap_cons, hm]
    simp only [Option.map_some, List.map_cons]
    rw [ih fun q hq => hg q (by simp [hq])]
    rfl

theorem survivor_fine {E : Env G W V} {c : Config.Cfg} {obs : List (Pointing.Obs W)} {t0 noised surv : List (Row W V)}
    (h0 : t0 = (pairs E obs).filterMap (fun p => (E.measure p).map (rowOf c p)))
    (hg : ∀ p ∈ pairs E obs, Pointing.Spec.Agree p.2.start p.1.mjd ∧ (E.measure p).isSome)
    (hn : List.Forall₂ SameSource noised (keep (LowCut c) t0)) (hoff : c.expert.randomization.on = false → noised = t0)
    (hs : surv.Subperm (keep (fun r => InView E c r ∧ WithinLimits c r) (noised.flatMap (views E c)))) (r : Row W V) (hr : r ∈ surv) : Fine E c obs r := by
  have h1 := hs.subset hr
  rw [mem_keep] at h1
  obtain ⟨h2, h3, h4⟩ := h1
  obtain ⟨a, ha, hra⟩ := List.mem_flatMap.1 h2
  obtain ⟨v1, v2, v3, v4, v5⟩ := views_source E c a r hra
  obtain ⟨b, hb, s1, s2, s3, s4, s5⟩ := mem_forall₂ hn a ha
  obtain ⟨hb, hlow⟩ := mem_keep.1 hb
  have hb' := hb
  rw [h0, List.mem_filterMap] at hb'
  obtain ⟨⟨o, v⟩, hp, hm⟩ := hb'
  obtain ⟨m, hm1, rfl⟩ := Option.map_eq_some_iff.1 hm
  obtain ⟨p1, p2, p3⟩ := mem_pairs.1 hp
  refine ⟨⟨o, p1, v, p2, m, p3, (hg _ hp).1, hm1, by rw [v1, s1]; rfl, by rw [v2, s3]; rfl, by rw [v3, s4]; rfl, by rw [v4, s5]; rfl⟩, h3, h4, ?_, ?_⟩
  · intro x y; rw [v4, s5]; exact hlow x y
  · intro hr0
    have ha' : a ∈ t0 := hoff hr0 ▸ ha
    rw [h0, List.mem_filterMap] at ha'
    obtain ⟨p, -, hm'⟩ := ha'
    obtain ⟨m', hm2, rfl⟩ := Option.map_eq_some_iff.1 hm'
    refine ⟨m', by rw [v1]; exact hm2, ?_⟩
    rw [v5, v1]
    rfl

theorem out_subperm {E : Env G W V} {c : Config.Cfg} {s : State G} {t : Table (Row W V)} {out : List (Final W V)} (hso : SortsOut E)
    (h : link E c s t = .ok out) : (out.map (·.row)).Subperm t.rows := by
  cases hc : c.linking.ssp with
  | none =>
    rw [link_off E c s t hc] at h
    rw [← Except.ok.inj h, List.map_map]
    simp only [Function.comp_def, List.map_id']
    exact List.Subperm.refl _
  | some ssp =>
    by_cases hne : t = []
    · subst hne
      unfold link at h
      rw [hc] at h
      simp at h
      subst h
      exact List.Subperm.refl _
    · obtain ⟨lc, -, v, -, h2, -⟩ := link_ok E c s t out hso ssp hc h hne
      refine (h2.map _).subperm.trans ?_
      rw [List.map_map]
      simp only [Function.comp_def, List.map_id']
      exact List.filter_sublist.subperm

/-- C11 (every output row passed every enabled filter): whatever the generators and the state they are in, each row a round outputs stems from an
observation of the round and a visit of its field, is inside the field of view, above the SNR limit, brighter than the magnitude limit and not saturated, and with
the default cut of the randomisation its SNR is above 2. Without randomisation the row holds exactly the values computed for that observation and visit. -/
theorem C11_sound {E : Env G W V} {c : Config.Cfg} {s s' : State G} {obs : List (Pointing.Obs W)} {out : List (Final W V)}
    (hsort : ∀ l, (E.sortIndex l).Perm l) (hso : SortsOut E) (h : process E c s obs = .ok (out, s')) (f : Final W V) (hf : f ∈ out) :
    Stems E obs f.row ∧ InView E c f.row ∧ WithinLimits c f.row ∧
    (c.expert.randomization.on = true → c.expert.defaultSnrCut = true → Below (.fin 2) f.row.snr) ∧
    (c.expert.randomization.on = false → ∃ m, E.measure f.row.rest.src = some m ∧ bare f.row = rowOf c f.row.rest.src m) := by
  by_cases hne : obs = []
  · subst hne
    simp only [process, List.length_nil, if_true] at h
    cases h
    simp at hf
  · obtain ⟨t0, noised, surv, s1, h0, hg, hn, hoff, hs, -, -, -, -, hl⟩ := process_stages E c s s' obs out hsort hne h
    exact survivor_fine h0 hg hn hoff hs f.row ((out_subperm hso hl).subset (List.mem_map.2 ⟨f, hf, rfl⟩))

/-- C11 (what the randomisation changes): with randomisation, each output row is the row computed for its observation and visit, with the magnitudes and the position the
generator gives for it and nothing else changed; without trailing losses the point source magnitude is the trailed magnitude. -/
theorem C11_noise {E : Env G W V} {c : Config.Cfg} {s s' : State G} {obs : List (Pointing.Obs W)} {out : List (Final W V)}
    (hsort : ∀ l, (E.sortIndex l).Perm l) (hso : SortsOut E) (h : process E c s obs = .ok (out, s')) (hr : c.expert.randomization.on = true)
    (f : Final W V) (hf : f ∈ out) :
    ∃ m i trailed psf ra dec, E.measure f.row.rest.src = some m ∧ (loud E c obs)[i]? = some (rowOf c f.row.rest.src m) ∧
      E.noise s.pos (loud E c obs).length i (rowOf c f.row.rest.src m) = (trailed, psf, ra, dec) ∧
      bare f.row = noisy c (rowOf c f.row.rest.src m) trailed psf ra dec := by
  by_cases hne : obs = []
  · subst hne
    simp only [process, List.length_nil, if_true] at h
    cases h
    simp at hf
  · obtain ⟨t0, noised, surv, s1, hnz, h0, hg, hn, hoff, hs, -, -, -, -, hl⟩ := process_stages' E c s s' obs out hsort hne h
    have e0 : keep (LowCut c) t0 = loud E c obs := by
      have : t0 = obs.flatMap fun o => (E.db.filter fun v => v.id = o.field).filterMap fun v => (E.measure (o, v)).map (rowOf c (o, v)) := by
        rw [h0]; unfold pairs; rw [List.filterMap_flatMap]; congr 1; funext o; rw [List.filterMap_map]; rfl
      unfold loud
      rw [← this]
      apply keep_congr
      intro r _
      unfold LowCut
      exact ⟨fun h => h hr, fun h _ => h⟩
    have hm := hs.subset ((out_subperm hso hl).subset (List.mem_map.2 ⟨f, hf, rfl⟩))
    obtain ⟨hm, -⟩ := mem_keep.1 hm
    obtain ⟨a, ha, hv⟩ := List.mem_flatMap.1 hm
    obtain ⟨v1, -, -, -, v5⟩ := views_source E c a f.row hv
    rw [hnz hr, e0] at ha
    obtain ⟨i, hi, rfl⟩ := List.mem_mapIdx.1 ha
    have hmem : (loud E c obs)[i] ∈ t0 := by
      have hmk : ∀ x ∈ loud E c obs, x ∈ t0 := fun x hx => (mem_keep.1 (e0 ▸ hx)).1
      exact hmk _ (List.getElem_mem hi)
    rw [h0, List.mem_filterMap] at hmem
    obtain ⟨p, -, hp⟩ := hmem
    obtain ⟨m, hm2, hp⟩ := Option.map_eq_some_iff.1 hp
    have hsrc : f.row.rest.src = p := by rw [v1, ← hp]; rfl
    rw [hsrc]
    refine ⟨m, i, _, _, _, _, hm2, by rw [List.getElem?_eq_getElem hi, hp], rfl, ?_⟩
    rw [v5, ← hp]
    rfl

/-- C11 (nothing is duplicated): a round outputs each observation at most once for each visit of its field and each detector. -/
theorem C11_once {E : Env G W V} {c : Config.Cfg} {s s' : State G} {obs : List (Pointing.Obs W)} {out : List (Final W V)}
    (hsort : ∀ l, (E.sortIndex l).Perm l) (hso : SortsOut E) (h : process E c s obs = .ok (out, s')) :
    (out.map fun f => (f.row.rest.src, f.row.rest.detector)).Subperm
      (obs.flatMap fun o => (E.db.filter fun v => v.id = o.field).flatMap fun v => (places E c).map fun d => ((o, v), d)) := by
  by_cases hne : obs = []
  · subst hne
    simp only [process, List.length_nil, if_true] at h
    cases h
    exact List.nil_subperm
  · obtain ⟨t0, noised, surv, s1, h0, hg, hn, hoff, hs, -, -, -, -, hl⟩ := process_stages E c s s' obs out hsort hne h
    have a1 := subperm_map (fun r : Row W V => (r.rest.src, r.rest.detector)) (out_subperm hso hl)
    have a2 := (subperm_map (fun r : Row W V => (r.rest.src, r.rest.detector)) hs).trans
      ((keep_sublist _ _).map fun r : Row W V => (r.rest.src, r.rest.detector)).subperm
    rw [List.map_map] at a1
    refine (a1.trans a2).trans ?_
    have hd : ∀ r ∈ noised, r.rest.detector = none := by
      intro r hr
      obtain ⟨b, hb, e1, e2, -⟩ := mem_forall₂ hn r hr
      have hb := (mem_keep.1 hb).1
      rw [h0, List.mem_filterMap] at hb
      obtain ⟨p, -, hm⟩ := hb
      obtain ⟨m, -, rfl⟩ := Option.map_eq_some_iff.1 hm
      rw [e2]; rfl
    have e1 : (noised.flatMap (views E c)).map (fun r : Row W V => (r.rest.src, r.rest.detector)) =
        (noised.map (·.rest.src)).flatMap fun p => (places E c).map fun d => (p, d) := by
      rw [List.map_flatMap, List.flatMap_map]
      apply List.flatMap_congr
      intro r hr
      unfold views places
      cases c.fov with
      | footprint p e => simp [Function.comp_def]
      | _ => simp [hd r hr]
    have e2 : noised.map (·.rest.src) = (keep (LowCut c) t0).map (·.rest.src) := by
      exact src_eq hn
    have e3 : t0.map (·.rest.src) = pairs E obs := by
      rw [h0]
      exact src_filterMap E c _ fun p hp => (hg p hp).2
    rw [e1, e2]
    have e4 : (obs.flatMap fun o => (E.db.filter fun v => v.id = o.field).flatMap fun v => (places E c).map fun d => ((o, v), d)) =
        (pairs E obs).flatMap fun p => (places E c).map fun d => (p, d) := by
      unfold pairs
      rw [List.flatMap_assoc]
      simp only [List.flatMap_map]
    rw [e4, ← e3]
    exact (List.Sublist.flatMap ((keep_sublist _ _).map _) _).subperm

/-- C11 (linking): with the linking filter on, `surv` being the rows that reached the linker (each of which passed the other filters), every output row
is one of them and carries the flag and date of its object, and with a row all other rows of its object are output; a date is a night that closes a window with enough tracklet nights of these rows;
with `drop_unlinked` only rows with a date are output; and without it all rows are. -/
theorem C11_linked {E : Env G W V} {c : Config.Cfg} {s s' : State G} {obs : List (Pointing.Obs W)} {out : List (Final W V)} {ssp : Config.Ssp}
    (hsort : ∀ l, (E.sortIndex l).Perm l) (hso : SortsOut E) (hT : Linking.Spec.Sorts E.sortT) (hc : c.linking.ssp = some ssp)
    (hw : 1 ≤ ssp.window) (hk : 1 ≤ ssp.nTracklets) (h : process E c s obs = .ok (out, s')) (hne : out ≠ []) :
    ∃ (lc : Linking.Cfg) (surv : List (Row W V)), Settings E ssp lc ∧ (∀ r ∈ surv, Stems E obs r ∧ InView E c r ∧ WithinLimits c r) ∧
      (Deterministic c → surv.Perm (survivors E c obs)) ∧
      (out.map (·.row)).Subperm surv ∧ (c.linking.dropUnlinked = false → (out.map (·.row)).Perm surv) ∧
      (∀ f ∈ out, ((out.map (·.row)).filter fun r => r.objId = f.row.objId).Perm (surv.filter fun r => r.objId = f.row.objId)) ∧
      ∀ f ∈ out, ∃ d, f.link = some (d.isSome, d) ∧ (c.linking.dropUnlinked = true → d.isSome = true) ∧ ∀ D, d = some D →
        Linking.Spec.DiscoveryNight (Linking.Spec.TrackletNight lc (E.sortT (seenOf f.row.objId surv))) lc.window lc.nlink D := by
  have hne0 : obs ≠ [] := by
    rintro rfl
    simp only [process, List.length_nil, if_true] at h
    cases h
    simp at hne
  obtain ⟨t0, noised, surv, s1, h0, hg, hn, hoff, hs, hdet, -, -, -, hl⟩ := process_stages E c s s' obs out hsort hne0 h
  have hsne : surv ≠ [] := by
    rintro rfl
    have := out_subperm hso hl
    rw [show (Table.rows ([] : Table (Row W V))) = [] from rfl, List.subperm_nil] at this
    exact hne (List.map_eq_nil_iff.1 this)
  obtain ⟨lc, hset, v, hv, hp, -⟩ := link_ok E c s1 surv out hso ssp hc hl hsne
  have hwin : 1 ≤ lc.window ∧ 1 ≤ lc.nlink := by
    obtain ⟨-, -, -, -, -, h6, h7, -⟩ := hset
    rw [h6, h7]; omega
  refine ⟨lc, surv.rows, hset, ?_, ?_, out_subperm hso hl, ?_, ?_, ?_⟩
  · intro r hr
    have := survivor_fine h0 hg hn hoff hs r hr
    exact ⟨this.1, this.2.1, this.2.2.1⟩
  · intro hd
    have := hdet hd
    rwa [hoff hd.1, h0, ← candidates_eq] at this
  · intro hdrop
    refine (hp.map _).trans ?_
    rw [hdrop, List.map_map]
    simp [Function.comp_def]
  · intro f hf
    obtain ⟨r, hr, rfl⟩ := List.mem_map.1 (hp.mem_iff.1 hf)
    obtain ⟨hr, hkeep⟩ := List.mem_filter.1 hr
    have hp' := (hp.map (·.row)).filter fun x => x.objId = r.objId
    rw [List.map_map] at hp'
    simp only [Function.comp_def, List.map_id'] at hp'
    refine hp'.trans ?_
    rw [List.filter_filter]
    apply List.Perm.of_eq
    apply List.filter_congr
    intro x _
    by_cases hx : x.objId = r.objId
    · rw [hx]; simpa using hkeep
    · simp [hx]
  · intro f hf
    obtain ⟨r, hr, rfl⟩ := List.mem_map.1 (hp.mem_iff.1 hf)
    obtain ⟨hr, hkeep⟩ := List.mem_filter.1 hr
    refine ⟨v r.objId, rfl, ?_, ?_⟩
    · intro hdrop; simpa [hdrop] using hkeep
    · intro D hD
      obtain ⟨-, L, hL, hvL⟩ := hv r.objId ⟨r, hr, rfl⟩
      exact Linking.C03_date_sound E.sortT hT lc _ _ _ hwin.1 hwin.2 L D hL (by rw [← hvL, hD])

/-- C11 (linking with efficiency 1): for uniform numbers in [0,1) and positive weights the row of an object is flagged exactly if the rows of the object that reached the
linker have a discovery night, the date is the earliest such night, and with `drop_unlinked` exactly the rows of such objects are output. -/
theorem C11_linked_all {E : Env G W V} {c : Config.Cfg} {s s' : State G} {obs : List (Pointing.Obs W)} {out : List (Final W V)} {ssp : Config.Ssp}
    (hsort : ∀ l, (E.sortIndex l).Perm l) (hso : SortsOut E) (hT : Linking.Spec.Sorts E.sortT) (hc : c.linking.ssp = some ssp)
    (hw : 1 ≤ ssp.window) (hk : 1 ≤ ssp.nTracklets) (heff : ssp.efficiency = .fin 1) (hu : Linking.Spec.UnitDraws E.draws)
    (hpos : ∀ k id i, 0 < E.weights k id i) (hdrop : c.linking.dropUnlinked = true) (h : process E c s obs = .ok (out, s')) :
    ∃ (surv : List (Row W V)), (∀ r ∈ surv, Stems E obs r ∧ InView E c r ∧ WithinLimits c r) ∧ (Deterministic c → surv.Perm (survivors E c obs)) ∧
      (surv = [] ∧ out = [] ∨ ∃ lc : Linking.Cfg, Settings E ssp lc ∧
        (out.map (·.row)).Perm (keep (fun r => ∃ D,
          Linking.Spec.DiscoveryNight (Linking.Spec.TrackletNight lc (E.sortT (seenOf r.objId surv))) lc.window lc.nlink D) surv) ∧
        ∀ f ∈ out, ∃ D, f.link = some (true, some D) ∧
          Linking.Spec.DiscoveryNight (Linking.Spec.TrackletNight lc (E.sortT (seenOf f.row.objId surv))) lc.window lc.nlink D ∧
          ∀ D', Linking.Spec.DiscoveryNight (Linking.Spec.TrackletNight lc (E.sortT (seenOf f.row.objId surv))) lc.window lc.nlink D' → D ≤ D') := by
  by_cases hne0 : obs = []
  · subst hne0
    simp only [process, List.length_nil, if_true] at h
    cases h
    exact ⟨[], by simp, fun _ => List.Perm.refl _, .inl ⟨rfl, rfl⟩⟩
  obtain ⟨t0, noised, surv, s1, h0, hg, hn, hoff, hs, hdet, -, -, -, hl⟩ := process_stages E c s s' obs out hsort hne0 h
  refine ⟨surv.rows, ?_, ?_, ?_⟩
  · intro r hr
    have := survivor_fine h0 hg hn hoff hs r hr
    exact ⟨this.1, this.2.1, this.2.2.1⟩
  · intro hd
    have := hdet hd
    rwa [hoff hd.1, h0, ← candidates_eq] at this
  by_cases hsne : surv = []
  · subst hsne
    left
    have := out_subperm hso hl
    rw [show (Table.rows ([] : Table (Row W V))) = [] from rfl, List.subperm_nil] at this
    exact ⟨rfl, List.map_eq_nil_iff.1 this⟩
  right
  obtain ⟨lc, hset, v, hv, hp, -⟩ := link_ok E c s1 surv out hso ssp hc hl hsne
  have hwin : 1 ≤ lc.window ∧ 1 ≤ lc.nlink ∧ lc.p = 1 := by
    obtain ⟨-, -, h5, -, -, h6, h7, -⟩ := hset
    rw [h6, h7]
    rw [heff] at h5
    exact ⟨by omega, by omega, (Fl.fin.inj h5).symm⟩
  have key : ∀ r ∈ surv.rows, (∀ D, v r.objId = some D ↔
      (Linking.Spec.DiscoveryNight (Linking.Spec.TrackletNight lc (E.sortT (seenOf r.objId surv.rows))) lc.window lc.nlink D ∧
        ∀ D', Linking.Spec.DiscoveryNight (Linking.Spec.TrackletNight lc (E.sortT (seenOf r.objId surv.rows))) lc.window lc.nlink D' → D ≤ D')) ∧
      ((v r.objId).isSome ↔ ∃ D, Linking.Spec.DiscoveryNight (Linking.Spec.TrackletNight lc (E.sortT (seenOf r.objId surv.rows))) lc.window lc.nlink D) := by
    intro r hr
    obtain ⟨-, L, hL, hvL⟩ := hv r.objId ⟨r, hr, rfl⟩
    rw [hvL]
    exact Linking.C03_C07_efficiency_one E.sortT hT lc _ _ _ hwin.1 hwin.2.1 hu (hpos _ _) hwin.2.2 L hL
  refine ⟨lc, hset, ?_, ?_⟩
  · refine (hp.map _).trans ?_
    rw [List.map_map]
    simp only [Function.comp_def, List.map_id', hdrop, Bool.not_true, Bool.false_or]
    rw [filter_eq_keep _ _ _ fun r hr => (key r hr).2]
  · intro f hf
    obtain ⟨r, hr, rfl⟩ := List.mem_map.1 (hp.mem_iff.1 hf)
    obtain ⟨hr, hkeep⟩ := List.mem_filter.1 hr
    simp only [hdrop, Bool.not_true, Bool.false_or] at hkeep
    obtain ⟨D, hD⟩ := Option.isSome_iff_exists.1 hkeep
    refine ⟨D, by simp [hD], ?_⟩
    exact ((key r hr).1 D).1 hD

/-- C11 (nothing else is removed): without random features and without linking a round outputs, in some order, exactly the rows that pass all filters. -/
theorem C11_exact {E : Env G W V} {c : Config.Cfg} {s s' : State G} {obs : List (Pointing.Obs W)} {out : List (Final W V)}
    (hsort : ∀ l, (E.sortIndex l).Perm l) (hd : Deterministic c) (hc : c.linking.ssp = none) (h : process E c s obs = .ok (out, s')) :
    (out.map (·.row)).Perm (survivors E c obs) ∧ ∀ f ∈ out, f.link = none := by
  by_cases hne : obs = []
  · subst hne
    simp only [process, List.length_nil, if_true] at h
    cases h
    exact ⟨List.Perm.refl _, by simp⟩
  · obtain ⟨t0, noised, surv, s1, h0, hg, hn, hoff, hs, hdet, -, -, -, hl⟩ := process_stages E c s s' obs out hsort hne h
    rw [link_off E c s1 surv hc] at hl
    rw [← Except.ok.inj hl]
    constructor
    · rw [List.map_map]
      simp only [Function.comp_def, List.map_id']
      have := hdet hd
      rwa [hoff hd.1, h0, ← candidates_eq] at this
    · intro f hf
      obtain ⟨r, -, rfl⟩ := List.mem_map.1 hf
      rfl

/-- C11 (the whole run): each table a run outputs is not empty and comes from one of the blocks by one round, to which the theorems above apply. -/
theorem C11_rounds {E : Env G W V} {c : Config.Cfg} {blocks : List (List (Pointing.Obs W))} : ∀ {s : State G} {outs : List (List (Final W V))},
    rounds E c s blocks = .ok outs → ∀ o ∈ outs, o ≠ [] ∧ ∃ b ∈ blocks, ∃ s1 s2, process E c s1 b = .ok (o, s2) := by
  induction blocks with
  | nil => intro s outs h o ho; cases h; simp at ho
  | cons b blocks ih =>
    intro s outs h o ho
    simp only [rounds, bind, Except.bind] at h
    cases hp : process E c s b with
    | error e => simp [hp] at h
    | ok x =>
      obtain ⟨out, s1⟩ := x
      simp only [hp] at h
      cases hr : rounds E c s1 blocks with
      | error e => simp [hr] at h
      | ok rest =>
        simp only [hr, pure, Except.pure] at h
        have h := Except.ok.inj h
        have hrest : o ∈ rest → o ≠ [] ∧ ∃ b' ∈ b :: blocks, ∃ s1 s2, process E c s1 b' = .ok (o, s2) := by
          intro ho
          obtain ⟨e1, b', hb', e2⟩ := ih hr o ho
          exact ⟨e1, b', by simp [hb'], e2⟩
        by_cases hl : out.length > 0
        · rw [if_pos hl] at h
          subst h
          rcases List.mem_cons.1 ho with rfl | ho
          · exact ⟨List.length_pos_iff.1 hl, b, by simp, s, s1, hp⟩
          · exact hrest ho
        · rw [if_neg hl] at h
          subst h
          exact hrest ho

/-- C11 (every block is used): the tables a run outputs are those of its blocks, each processed once and in order; only empty tables are left out. -/
theorem C11_rounds_all {E : Env G W V} {c : Config.Cfg} {blocks : List (List (Pointing.Obs W))} : ∀ {s : State G} {outs : List (List (Final W V))},
    rounds E c s blocks = .ok outs → ∃ tables : List (List (Final W V)),
      List.Forall₂ (fun b t => ∃ s1 s2, process E c s1 b = .ok (t, s2)) blocks tables ∧ outs = tables.filter fun t => decide (t ≠ []) := by
  induction blocks with
  | nil => intro s outs h; cases h; exact ⟨[], .nil, rfl⟩
  | cons b blocks ih =>
    intro s outs h
    simp only [rounds, bind, Except.bind] at h
    cases hp : process E c s b with
    | error e => simp [hp] at h
    | ok x =>
      obtain ⟨out, s1⟩ := x
      simp only [hp] at h
      cases hr : rounds E c s1 blocks with
      | error e => simp [hr] at h
      | ok rest =>
        simp only [hr, pure, Except.pure] at h
        have h := Except.ok.inj h
        obtain ⟨ts, h1, h2⟩ := ih hr
        refine ⟨out :: ts, .cons ⟨s, s1, hp⟩ h1, ?_⟩
        rw [← h, h2]
        by_cases hl : out.length > 0
        · rw [if_pos hl, List.filter_cons_of_pos (by simpa using List.length_pos_iff.1 hl)]
        · rw [if_neg hl, List.filter_cons_of_neg (by simpa using hl)]

/-- C11 (from the files): in a run with an external ephemeris file each output row stems from a row of that file, of an object of the orbit file, extended by the
object's own data, and passed all enabled filters. -/
theorem C11_files {C : Type} {E : Env G W V} {c : Config.Cfg} {s : State G} {parse : List C → ℕ × ℚ × W} {P : Readers.IdParse} {missing : List C}
    {fe fo : List (Readers.Line C)} {eph orb : List (Readers.Rec C)} {fs : List (List (Readers.Line C))} {ts : List (List (Readers.Rec C))}
    (hsort : ∀ l, (E.sortIndex l).Perm l) (hso : SortsOut E)
    (hcons : Readers.Props.Consistent P fo orb fs ts) (he : Readers.Spec.Holds fe eph) (hse : Readers.Spec.StableIds P eph)
    (size : ℕ) (hc : c.input.chunk = size) (h1 : 1 ≤ size) (fuel : ℕ) (hf : (orb.length + size - 1) / size ≤ fuel) {outs : List (List (Final W V))}
    (h : runExternal E c s parse P missing fe fo fs fuel = some (.ok outs)) (o : List (Final W V)) (ho : o ∈ outs) (f : Final W V) (hfo : f ∈ o) :
    ∃ r ∈ eph, r.id ∈ orb.map (·.id) ∧
      Stems E [⟨r.id, (parse (Readers.Spec.extend (orb :: ts) r).cells).1, (parse (Readers.Spec.extend (orb :: ts) r).cells).2.1,
        (parse (Readers.Spec.extend (orb :: ts) r).cells).2.2⟩] f.row ∧ InView E c f.row ∧ WithinLimits c f.row := by
  unfold runExternal at h
  rw [hc, Readers.Props.C15_blocks P missing fe fo eph orb fs ts hcons he hse size h1 fuel hf] at h
  simp only [Option.some.injEq] at h
  obtain ⟨-, b, hb, s1, s2, hp⟩ := C11_rounds h o ho
  obtain ⟨x, hx, rfl⟩ := List.mem_map.1 hb
  obtain ⟨blk, hblk, rfl⟩ := List.mem_map.1 hx
  obtain ⟨⟨ob, hob, v, hv, m, hm⟩, a2, a3, -⟩ := C11_sound hsort hso hp f hfo
  obtain ⟨y, hy, rfl⟩ := List.mem_map.1 hob
  obtain ⟨r, hr, rfl⟩ := List.mem_map.1 hy
  obtain ⟨hr1, hr2⟩ := List.mem_filter.1 hr
  refine ⟨r, hr1, ?_, ⟨_, List.mem_singleton.2 rfl, v, hv, m, hm⟩, a2, a3⟩
  have hr2 : r.id ∈ Readers.Spec.idsOf blk := by simpa using hr2
  obtain ⟨x, hx, hxid⟩ := List.mem_map.1 hr2
  rw [← hxid]
  have : x ∈ (Readers.Spec.chunks orb size).flatten := List.mem_flatten.2 ⟨blk, hblk, hx⟩
  rw [(Readers.Props.C12_partition orb size h1).1] at this
  exact List.mem_map.2 ⟨x, this, rfl⟩

end Sorcha.Pipeline.Props
