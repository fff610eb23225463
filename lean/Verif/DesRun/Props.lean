import Verif.DesRun.Chunks

/-!
# Properties of a whole DES run (C63)
-/

namespace Sorcha.DesRun.Props
open Sorcha.Pipeline (Row State pairs own mem_own)
open Sorcha.Pipeline.Spec (rowOf bare Stems Whole PartOf)
open Sorcha.DesRun Sorcha.DesRun.Spec Sorcha.Filters.Spec Sorcha.Filters

variable {G W V C : Type}

theorem nearB_iff {c : Config.Cfg} (hL : Sensible c) {u l : Fl} (h : c.linking.distance = some (u, l)) (r : Row W V) :
    nearB c r = true ↔ ∃ upper lower, c.linking.distance = some (.fin upper, .fin lower) ∧ DistanceInside (lower * 149597870.7) (upper * 149597870.7) r := by
  obtain ⟨x, y, rfl, rfl, hx, hy⟩ := hL.1 u l h
  unfold nearB
  rw [h]
  simp only [km]
  have e1 : x * 1495978707 / 10 = x * 149597870.7 := by ring
  have e2 : y * 1495978707 / 10 = y * 149597870.7 := by ring
  rw [e1, e2, distanceSq_inside _ _ (by positivity) (by positivity)]
  constructor
  · intro h'; exact ⟨x, y, rfl, h'⟩
  · rintro ⟨x', y', he, h'⟩
    cases he
    exact h'

theorem moveB_iff {c : Config.Cfg} (hL : Sensible c) {u l : Fl} (h : c.linking.motion = some (u, l)) (r : Row W V) :
    moveB c r = true ↔ ∃ upper lower, c.linking.motion = some (.fin upper, .fin lower) ∧ MotionInside lower upper r := by
  obtain ⟨x, y, rfl, rfl, hx, hy⟩ := hL.2 u l h
  unfold moveB
  rw [h]
  simp only
  rw [motionSq_inside _ _ hy hx]
  constructor
  · intro h'; exact ⟨x, y, rfl, h'⟩
  · rintro ⟨x', y', he, h'⟩
    cases he
    exact h'

theorem kept_eq {c : Config.Cfg} (hL : Sensible c) {l : List (Row W V)} (h1 : l ≠ [] → c.linking.distanceOn.on = true → c.linking.distance.isSome = true)
    (h2 : nearF c l ≠ [] → c.linking.motionOn.on = true → c.linking.motion.isSome = true) : moveF c (nearF c l) = kept c l := by
  have near : ∀ r ∈ l, ((c.linking.distanceOn.on = true → ∃ r' ∈ l, r'.objId = r.objId ∧ nearB c r' = true) ↔ Near c l r) := by
    intro r hr
    unfold Near
    refine imp_congr_right fun hon => ?_
    obtain ⟨⟨u, v⟩, hd⟩ := Option.isSome_iff_exists.1 (h1 (List.ne_nil_of_mem hr) hon)
    constructor
    · rintro ⟨r', a, b, e⟩
      obtain ⟨x, y, e1, e2⟩ := (nearB_iff hL hd r').1 e
      exact ⟨x, y, e1, r', a, b, e2⟩
    · rintro ⟨x, y, e1, r', a, b, e2⟩
      exact ⟨r', a, b, (nearB_iff hL hd r').2 ⟨x, y, e1, e2⟩⟩
  have e1 : nearF c l = keep (Near c l) l := by
    unfold nearF
    by_cases hon : c.linking.distanceOn.on = true
    · rw [if_pos hon]
      apply filter_eq_keep
      intro r hr
      rw [← near r hr, List.any_eq_true]
      simp [hon]
    · rw [if_neg hon]
      symm
      unfold keep
      rw [List.filter_eq_self]
      intro r _
      simp only [decide_eq_true_eq]
      exact fun h => absurd h hon
  have e2 : moveF c (nearF c l) = keep (Moving c) (nearF c l) := by
    unfold moveF
    by_cases hon : c.linking.motionOn.on = true
    · rw [if_pos hon]
      apply filter_eq_keep
      intro r hr
      obtain ⟨⟨u, v⟩, hd⟩ := Option.isSome_iff_exists.1 (h2 (List.ne_nil_of_mem hr) hon)
      rw [moveB_iff hL hd]
      exact ⟨fun h _ => h, fun h => h hon⟩
    · rw [if_neg hon]
      symm
      unfold keep
      rw [List.filter_eq_self]
      intro r _
      simp only [decide_eq_true_eq]
      exact fun h => absurd h hon
  rw [e2, e1, keep_keep]
  rfl

theorem forall₂_time {ds : List (Des.Row (Row W V))} {l : List (Row W V)} (h : List.Forall₂ SeenAs ds l) : ds.map (·.t) = l.map fun r => r.rest.src.1.mjd := by
  induction h with
  | nil => rfl
  | cons h1 _ ih => rw [List.map_cons, List.map_cons, ih, h1.2.1]

theorem discoveries {E : Env G W V} {c : Config.Cfg} (hE : Des.Spec.SortSound E.sortTime) (hon : c.linking.desDiscovery.on = true) {l : List (Row W V)}
    (h : ∀ r ∈ l, (toDes r).isSome = true) : Discoveries l (discF E c l) := by
  have hall : ∀ id, ∀ r ∈ l.filter (fun r => r.objId = id), (toDes r).isSome = true := fun id r hr => h r (List.mem_filter.1 hr).1
  unfold discF
  rw [if_pos hon]
  refine ⟨?_, ?_, ?_, ?_⟩
  · intro id
    have := disc_rows E hE l id
    split at this
    · left
      rwa [(toDes_rest _ (hall id)).1] at this
    · right
      exact this.eq_nil
  · intro r hr
    have := disc_rows E hE l r.objId
    have hmem : r ∈ ((Des.discoveryFilter E.sortTime (l.filterMap toDes)).map (·.rest)).filter fun r' => r'.objId = r.objId := List.mem_filter.2 ⟨hr, by simp⟩
    split at this
    · rename_i hf
      refine ⟨_, (toDes_rest _ (hall r.objId)).2, Des.Props.found_sound _ ?_ hf⟩
      intro h0
      rw [h0] at this
      rw [this.eq_nil] at hmem
      simp at hmem
    · rw [this.eq_nil] at hmem
      simp at hmem
  · intro id ds hds h9
    have := disc_rows E hE l id
    rw [if_pos] at this
    · rwa [(toDes_rest _ (hall id)).1] at this
    · unfold Des.found
      simp only [Bool.or_eq_true, decide_eq_true_eq, Des.Props.nunique_sorted]
      left
      rw [forall₂_time (toDes_rest _ (hall id)).2, ← forall₂_time hds]
      exact h9
  · rw [List.pairwise_map]
    refine (Des.Props.C37_sorted hE (l.filterMap toDes)).imp_of_mem ?_
    intro a b ha hb hab
    have ha := ((Des.Props.mem_filter_iff hE _ a).1 ha).1
    have hb := ((Des.Props.mem_filter_iff hE _ b).1 hb).1
    obtain ⟨r, -, hr⟩ := List.mem_filterMap.1 ha
    obtain ⟨r', -, hr'⟩ := List.mem_filterMap.1 hb
    obtain ⟨x1, x2, x3, -⟩ := toDes_some hr
    obtain ⟨y1, y2, y3, -⟩ := toDes_some hr'
    rw [x1, y1, ← x3, ← y3]
    exact hab

theorem seenRows_fine {E : Env G W V} {c : Config.Cfg} {obs : List (Pointing.Obs W)} (hg : ∀ p ∈ pairs E.base obs, Pointing.Spec.Agree p.2.start p.1.mjd ∧ (E.base.measure p).isSome)
    {r : Row W V} (h : r ∈ seenRows E c obs) : Stems E.base obs r ∧ InView E c r ∧ ∃ m, E.base.measure r.rest.src = some m ∧ bare r = rowOf c r.rest.src m := by
  obtain ⟨h1, h2⟩ := mem_keep.1 h
  obtain ⟨r0, h3, h4⟩ := List.mem_flatMap.1 h1
  unfold DesRun.plain at h3
  obtain ⟨⟨o, v⟩, h5, h6⟩ := List.mem_filterMap.1 h3
  obtain ⟨m, h7, rfl⟩ := Option.map_eq_some_iff.1 h6
  obtain ⟨a1, a2, a3, a4, a5⟩ := views_obj h4
  obtain ⟨p1, p2, p3⟩ := Pipeline.mem_pairs.1 h5
  refine ⟨⟨o, p1, v, p2, m, p3, (hg _ h5).1, h7, a2, a1, a3, a4⟩, h2, m, ?_, ?_⟩
  · rw [a2]; exact h7
  · rw [a5, a2]; rfl

/-- C63 (what a round outputs): there is a list of rows that are all in view and within the magnitude limits, hold exactly the values computed for an observation of the round
and a visit of its field, and occur at most once for each visit and detector; without fading, fill factor and visits footprint these are all such rows. Of them the
round keeps those of objects at the right distance that have the right motion, and outputs them, or, with the discovery filter, those of discovered objects. -/
theorem C63_stages {E : Env G W V} {c : Config.Cfg} {s s' : State G} {obs : List (Pointing.Obs W)} {out : List (Row W V)} (hS : Sound E c obs) (hL : Sensible c)
    (h : process E c s obs = .ok (out, s')) :
    ∃ reached : List (Row W V),
      (∀ r ∈ reached, Stems E.base obs r ∧ InView E c r ∧ WithinLimits c r ∧ ∃ m, E.base.measure r.rest.src = some m ∧ bare r = rowOf c r.rest.src m) ∧
      reached.Subperm (survivors E c obs) ∧ (Deterministic c → reached.Perm (survivors E c obs)) ∧
      (c.linking.desDiscovery.on = false → out = kept c reached) ∧ (c.linking.desDiscovery.on = true → Discoveries (kept c reached) out) := by
  by_cases hne : obs = []
  · subst hne
    simp only [process, List.length_nil, if_true] at h
    cases h
    exact ⟨[], by simp, List.nil_subperm, fun _ => List.Perm.refl _, fun _ => rfl, fun _ => ⟨fun _ => .inr rfl, by simp, fun id ds hds _ => List.Perm.refl _, List.Pairwise.nil⟩⟩
  · obtain ⟨h1, h2, inView, reached, h3, h4, h5, h6, h7, h8, h9, h10⟩ := process_stages E c s s' obs out hS hne h
    have hsub : reached.Subperm (survivors E c obs) := by
      rw [survivors_eq]
      exact h5.trans (Pipeline.keep_subperm _ (Pipeline.keep_subperm _ h3))
    have hk := kept_eq hL h7 h8
    rw [hk] at h9 h10
    refine ⟨reached, ?_, hsub, fun hd => (h6 hd).2.1, ?_, ?_⟩
    · intro r hr
      have hr := hsub.subset hr
      rw [survivors_eq] at hr
      obtain ⟨hr, hdim⟩ := mem_keep.1 hr
      obtain ⟨hr, hmag⟩ := mem_keep.1 hr
      obtain ⟨x1, x2, x3⟩ := seenRows_fine h2 hr
      exact ⟨x1, x2, ⟨hmag, hdim⟩, x3⟩
    · intro hoff
      rw [h10]
      unfold discF
      rw [if_neg (by simp [hoff])]
    · intro hon
      rw [h10]
      exact discoveries hS.sortTime hon (h9 hon)

theorem Discoveries.subperm {kept out : List (Row W V)} (h : Discoveries kept out) : out.Subperm kept := by
  classical
  rw [List.subperm_ext_iff]
  intro r hr
  have key : ∀ l : List (Row W V), l.count r = (l.filter fun r' => r'.objId = r.objId).count r := by
    intro l
    rw [List.count_filter (by simp)]
  rw [key out, key kept]
  rcases h.all_or_none r.objId with h | h
  · exact (h.count_eq r).le
  · rw [h]; simp

theorem out_subperm {c : Config.Cfg} {reached out : List (Row W V)} (h1 : c.linking.desDiscovery.on = false → out = kept c reached)
    (h2 : c.linking.desDiscovery.on = true → Discoveries (kept c reached) out) : out.Subperm (kept c reached) := by
  cases hc : c.linking.desDiscovery.on with
  | false => rw [h1 hc]
  | true => exact Discoveries.subperm (h2 hc)

/-- C63 (every output row passed every enabled filter): whatever the generators and the state they are in. -/
theorem C63_sound {E : Env G W V} {c : Config.Cfg} {s s' : State G} {obs : List (Pointing.Obs W)} {out : List (Row W V)} (hS : Sound E c obs) (hL : Sensible c)
    (h : process E c s obs = .ok (out, s')) (r : Row W V) (hr : r ∈ out) :
    Stems E.base obs r ∧ InView E c r ∧ WithinLimits c r ∧ Moving c r ∧ Near c (survivors E c obs) r ∧
    ∃ m, E.base.measure r.rest.src = some m ∧ bare r = rowOf c r.rest.src m := by
  obtain ⟨reached, h1, h2, -, h3, h4⟩ := C63_stages hS hL h
  have hk := (out_subperm h3 h4).subset hr
  obtain ⟨hk, hn, hm⟩ := mem_keep.1 hk
  obtain ⟨x1, x2, x3, x4⟩ := h1 r hk
  refine ⟨x1, x2, x3, hm, ?_, x4⟩
  intro hon
  obtain ⟨u, l, e, r', hr', e'⟩ := hn hon
  exact ⟨u, l, e, r', h2.subset hr', e'⟩

/-- C63 (nothing is duplicated): a round outputs each observation at most once for each visit of its field and each place on the camera. -/
theorem C63_once {E : Env G W V} {c : Config.Cfg} {s s' : State G} {obs : List (Pointing.Obs W)} {out : List (Row W V)} (hS : Sound E c obs) (hL : Sensible c)
    (h : process E c s obs = .ok (out, s')) :
    (out.map fun r => (r.rest.src, r.rest.detector)).Subperm
      (obs.flatMap fun o => (E.base.db.filter fun v => v.id = o.field).flatMap fun v => (places E c o.field).map fun d => ((o, v), d)) := by
  obtain ⟨reached, -, h2, -, h3, h4⟩ := C63_stages hS hL h
  have hsub : out.Subperm (candidates E c obs) :=
    ((out_subperm h3 h4).trans (keep_sublist _ _).subperm).trans (h2.trans (keep_sublist _ _).subperm)
  refine (Pipeline.Props.subperm_map (fun r : Row W V => (r.rest.src, r.rest.detector)) hsub).trans ?_
  unfold candidates
  rw [List.map_flatMap]
  refine (List.Sublist.subperm ?_)
  clear h h2 h3 h4 hsub hS
  induction obs with
  | nil => exact List.Sublist.refl _
  | cons o obs ih =>
    rw [List.flatMap_cons, List.flatMap_cons]
    refine List.Sublist.append ?_ ih
    rw [List.map_flatMap]
    induction (E.base.db.filter fun v => v.id = o.field) with
    | nil => exact List.Sublist.refl _
    | cons v vs ih' =>
      rw [List.flatMap_cons, List.flatMap_cons]
      refine List.Sublist.append ?_ ih'
      cases E.base.measure (o, v) with
      | none => exact List.nil_sublist _
      | some m =>
        simp only
        refine (List.Sublist.refl _).trans (Eq.subst (motive := fun x => List.Sublist _ x) ?_ (List.Sublist.refl _))
        unfold views places Pipeline.Spec.views
        cases c.fov with
        | footprint p e => simp [Function.comp_def, rowOf]
        | visits q => simp [Function.comp_def, rowOf]
        | _ => simp [rowOf]

/-- C63 (the whole run): each table a run outputs is not empty and comes from one of the blocks by one round. -/
theorem C63_rounds {E : Env G W V} {c : Config.Cfg} {blocks : List (List (Pointing.Obs W))} : ∀ {s : State G} {outs : List (List (Row W V))},
    rounds E c s blocks = .ok outs → ∀ o ∈ outs, o ≠ [] ∧ ∃ b ∈ blocks, ∃ s1 s2, process E c s1 b = .ok (o, s2) := by
  induction blocks with
  | nil => intro s outs h o ho; cases h; simp at ho
  | cons b blocks ih =>
    intro s outs h o ho
    obtain ⟨out, s1, rest, hp, hr, -, he⟩ := rounds_cons_ok h
    have hrest : o ∈ rest → o ≠ [] ∧ ∃ b' ∈ b :: blocks, ∃ s1 s2, process E c s1 b' = .ok (o, s2) := by
      intro ho
      obtain ⟨e1, b', hb', e2⟩ := ih hr o ho
      exact ⟨e1, b', by simp [hb'], e2⟩
    subst he
    by_cases hl : out.length > 0
    · rw [if_pos hl] at ho
      rcases List.mem_cons.1 ho with rfl | ho
      · exact ⟨List.length_pos_iff.1 hl, b, by simp, s, s1, hp⟩
      · exact hrest ho
    · rw [if_neg hl] at ho
      exact hrest ho

/-- C63 (blocks): without random features and the visits footprint, two ways to cut the same observations into blocks, each object being in one block only, give the same
output rows; if the run over the one succeeds, so does the run over the other. -/
theorem C63_blocks {E : Env G W V} {c : Config.Cfg} (hd : Deterministic c) (hs : ∀ l, (E.base.sortIndex l).Perm l) (ht : Des.Spec.SortSound E.sortTime) (s s' : State G)
    {A B : List (List (Pointing.Obs W))} (hA : Whole A) (hB : Whole B) (hAB : ∀ id, (A.flatten.filter fun o => o.obj = id) = B.flatten.filter fun o => o.obj = id)
    {outs : List (List (Row W V))} (h : rounds E c s A = .ok outs) : ∃ outs', rounds E c s' B = .ok outs' ∧ outs.flatten.Perm outs'.flatten :=
  rounds_same hd hs ht s s' hA hB hAB h

theorem runExternal_eq {E : Env G W V} {c : Config.Cfg} (s : State G) {parse : List C → ℕ × ℚ × W} {P : Readers.IdParse} {missing : List C}
    {fe fo : List (Readers.Line C)} {eph orb : List (Readers.Rec C)} {fs : List (List (Readers.Line C))} {ts : List (List (Readers.Rec C))}
    (hcons : Readers.Props.Consistent P fo orb fs ts) (he : Readers.Spec.Holds fe eph) (hse : Readers.Spec.StableIds P eph) (inp : Config.Input)
    {n : ℕ} (h1 : 1 ≤ n) {fuel : ℕ} (hf : (orb.length + n - 1) / n ≤ fuel) :
    runExternal E { c with input := { inp with chunk := n } } s parse P missing fe fo fs fuel = some (rounds E c s (Pipeline.externalBlocks parse orb ts eph n)) := by
  unfold runExternal Pipeline.externalBlocks
  simp only
  rw [Readers.Props.C15_blocks P missing fe fo eph orb fs ts hcons he hse n h1 fuel hf]
  simp only [rounds_input, List.map_map, Function.comp_def]

/-- C63 (chunk size, external ephemerides): for any two chunk sizes a DES run without random features writes the same rows; if it succeeds with one it succeeds with the
other. -/
theorem C63_external {E : Env G W V} {c : Config.Cfg} (hd : Deterministic c) (hs : ∀ l, (E.base.sortIndex l).Perm l) (ht : Des.Spec.SortSound E.sortTime) (s s' : State G)
    {parse : List C → ℕ × ℚ × W} {P : Readers.IdParse} {missing : List C} {fe fo : List (Readers.Line C)} {eph orb : List (Readers.Rec C)}
    {fs : List (List (Readers.Line C))} {ts : List (List (Readers.Rec C))} (hcons : Readers.Props.Consistent P fo orb fs ts) (he : Readers.Spec.Holds fe eph)
    (hse : Readers.Spec.StableIds P eph) (n n' : ℕ) (h1 : 1 ≤ n) (h1' : 1 ≤ n') (fuel fuel' : ℕ) (hf : (orb.length + n - 1) / n ≤ fuel)
    (hf' : (orb.length + n' - 1) / n' ≤ fuel') {outs : List (List (Row W V))}
    (h : runExternal E { c with input := { c.input with chunk := n } } s parse P missing fe fo fs fuel = some (.ok outs)) :
    ∃ outs', runExternal E { c with input := { c.input with chunk := n' } } s' parse P missing fe fo fs fuel' = some (.ok outs') ∧
      outs.flatten.Perm outs'.flatten := by
  rw [runExternal_eq s hcons he hse c.input h1 hf, Option.some.injEq] at h
  obtain ⟨outs', e1, e2⟩ := rounds_same hd hs ht s s' (Pipeline.external_split parse hcons eph h1).2 (Pipeline.external_split parse hcons eph h1').2
    (fun id => by rw [(Pipeline.external_split parse hcons eph h1).1, (Pipeline.external_split parse hcons eph h1').1]) h
  exact ⟨outs', by rw [runExternal_eq s' hcons he hse c.input h1' hf', e1], e2⟩

theorem runGenerated_eq {E : Env G W V} {c : Config.Cfg} (s : State G) {cull : Readers.Rec C → Bool} {ephem : List (Readers.Rec C) → List (Pointing.Obs W)}
    {P : Readers.IdParse} {missing : List C} {fo : List (Readers.Line C)} {orb : List (Readers.Rec C)} {fs : List (List (Readers.Line C))} {ts : List (List (Readers.Rec C))}
    (hcons : Readers.Props.Consistent P fo orb fs ts) (hnone : ephem [] = []) (inp : Config.Input) {n : ℕ} (h1 : 1 ≤ n) {fuel : ℕ} (hf : (orb.length + n - 1) / n ≤ fuel) :
    runGenerated E { c with input := { inp with chunk := n } } s cull ephem P missing fo fs fuel =
      some (rounds E c s ((Readers.Spec.chunks orb n).map fun b => ephem (Pipeline.left c cull ts b))) := by
  unfold runGenerated
  simp only
  rw [Readers.Props.C12_generated P missing fo orb fs ts hcons n h1 fuel hf]
  simp only [rounds_input, List.map_map]
  congr 3
  funext b
  simp only [Function.comp_apply, Pipeline.left]
  cases hb : c.expert.bruteForce with
  | true => simp
  | false =>
    simp only [Bool.false_or, Bool.false_eq_true, if_false]
    by_cases h0 : ((b.map (Readers.Spec.extend ts)).filter fun r => !cull r).length = 0
    · rw [if_pos h0, List.length_eq_zero_iff.1 h0, hnone]
    · rw [if_neg h0]

/-- C63 (chunk size, generated ephemerides): the same, if the observations generated for a set of objects are those generated for each of them alone. -/
theorem C63_generated {E : Env G W V} {c : Config.Cfg} (hd : Deterministic c) (hs : ∀ l, (E.base.sortIndex l).Perm l) (ht : Des.Spec.SortSound E.sortTime) (s s' : State G)
    {cull : Readers.Rec C → Bool} {ephem : List (Readers.Rec C) → List (Pointing.Obs W)} {P : Readers.IdParse} {missing : List C} {fo : List (Readers.Line C)}
    {orb : List (Readers.Rec C)} {fs : List (List (Readers.Line C))} {ts : List (List (Readers.Rec C))} (hcons : Readers.Props.Consistent P fo orb fs ts)
    (hnone : ephem [] = []) (halone : ∀ objs, PartOf orb objs → ∀ id, ((ephem objs).filter fun o => o.obj = id) = ephem (objs.filter fun r => r.id = id))
    (n n' : ℕ) (h1 : 1 ≤ n) (h1' : 1 ≤ n') (fuel fuel' : ℕ) (hf : (orb.length + n - 1) / n ≤ fuel) (hf' : (orb.length + n' - 1) / n' ≤ fuel')
    {outs : List (List (Row W V))}
    (h : runGenerated E { c with input := { c.input with chunk := n } } s cull ephem P missing fo fs fuel = some (.ok outs)) :
    ∃ outs', runGenerated E { c with input := { c.input with chunk := n' } } s' cull ephem P missing fo fs fuel' = some (.ok outs') ∧
      outs.flatten.Perm outs'.flatten := by
  rw [runGenerated_eq s hcons hnone c.input h1 hf, Option.some.injEq] at h
  obtain ⟨outs', e1, e2⟩ := rounds_same hd hs ht s s' (Pipeline.generated_split c cull hcons hnone halone h1).2 (Pipeline.generated_split c cull hcons hnone halone h1').2
    (fun id => by rw [(Pipeline.generated_split c cull hcons hnone halone h1).1, (Pipeline.generated_split c cull hcons hnone halone h1').1]) h
  exact ⟨outs', by rw [runGenerated_eq s' hcons hnone c.input h1' hf', e1], e2⟩

/-! ## Settings a DES run accepts and cannot use -/

/-- C63 fails with an SNR limit: the setting is accepted, but a DES run that reaches the cut with any row stops with a missing column; a run that does not stop writes nothing. -/
theorem C63_snr_fails {E : Env G W V} {c : Config.Cfg} {s s' : State G} {obs : List (Pointing.Obs W)} {out : List (Row W V)} (hS : Sound E c obs)
    (hsnr : c.expert.snrLimit ≠ none) (h : process E c s obs = .ok (out, s')) : out = [] ∧ (Deterministic c → ∀ r ∈ candidates E c obs, ¬ InView E c r) := by
  by_cases hne : obs = []
  · subst hne
    simp only [process, List.length_nil, if_true] at h
    cases h
    exact ⟨rfl, fun _ r hr => absurd hr List.not_mem_nil⟩
  · obtain ⟨h1, h2, inView, reached, h3, h4, h5, h6, h7, h8, h9, h10⟩ := process_stages E c s s' obs out hS hne h
    have h0 : inView = [] := by by_contra h0; exact hsnr (h4 h0)
    have hr : reached = [] := by
      rw [h0] at h5
      exact List.subperm_nil.1 h5
    constructor
    · rw [h10, hr, nearF_nil, moveF_nil, discF_nil E hS.sortTime]
    · intro hd r hr hv
      have := (h6 hd).1
      rw [h0] at this
      have h11 : r ∈ seenRows E c obs := mem_keep.2 ⟨by rw [← candidates_eq]; exact hr, hv⟩
      rw [this.symm.eq_nil] at h11
      exact absurd h11 List.not_mem_nil

/-- C63 fails with the visits footprint and external ephemerides: a run in which an observation is matched to a visit stops with a type error. -/
theorem C63_visits_external_fails {E : Env G W V} {c : Config.Cfg} {s : State G} {obs : List (Pointing.Obs W)} (hc : ∃ q, c.fov = .visits q) (hx : c.simulation = none)
    (hoff : c.expert.randomization.on = false) (hg : ∀ p ∈ pairs E.base obs, Pointing.Spec.Agree p.2.start p.1.mjd ∧ (E.base.measure p).isSome)
    (hne : pairs E.base obs ≠ []) : process E c s obs = .error .typeError := by
  obtain ⟨q, hc⟩ := hc
  obtain ⟨t, hm⟩ := Pipeline.measured_good (c := c) hg
  obtain ⟨-, hrows, -⟩ := Pipeline.measured_ok hm
  have h0 : ¬ obs.length = 0 := by
    intro h0
    rw [List.length_eq_zero_iff.1 h0] at hne
    exact hne rfl
  have ht : t.length > 0 := by
    obtain ⟨p, hp⟩ := List.exists_mem_of_ne_nil _ hne
    obtain ⟨m, hm⟩ := Option.isSome_iff_exists.1 (hg p hp).2
    have : rowOf c p m ∈ t.rows := by rw [hrows]; exact List.mem_filterMap.2 ⟨p, hp, by rw [hm]; rfl⟩
    rw [Table.rows] at this
    have := List.length_pos_of_mem this
    simpa using this
  unfold process
  rw [if_neg h0]
  simp only [hm, bind, Except.bind, Except.mapError, randomize, hoff, view, hc, onVisits, hx, if_pos ht, Except.map, Bool.false_eq_true, if_false]

/-- C63 fails if the distance cut is switched on without limits (also by the text "False", which counts as switched on): a run in which a row reaches the cut stops with
a type error; a run that does not stop writes nothing. -/
theorem C63_limits_fails {E : Env G W V} {c : Config.Cfg} {s s' : State G} {obs : List (Pointing.Obs W)} {out : List (Row W V)} (hS : Sound E c obs)
    (hon : c.linking.distanceOn.on = true) (hno : c.linking.distance = none) (h : process E c s obs = .ok (out, s')) :
    out = [] ∧ (Deterministic c → survivors E c obs = []) := by
  by_cases hne : obs = []
  · subst hne
    simp only [process, List.length_nil, if_true] at h
    cases h
    exact ⟨rfl, fun _ => rfl⟩
  · obtain ⟨h1, h2, inView, reached, h3, h4, h5, h6, h7, h8, h9, h10⟩ := process_stages E c s s' obs out hS hne h
    have hr : reached = [] := by
      by_contra h0
      have := h7 h0 hon
      rw [hno] at this
      cases this
    refine ⟨by rw [h10, hr, nearF_nil, moveF_nil, discF_nil E hS.sortTime], fun hd => ?_⟩
    have := (h6 hd).2.1
    rw [hr] at this
    exact this.symm.eq_nil

end Sorcha.DesRun.Props
