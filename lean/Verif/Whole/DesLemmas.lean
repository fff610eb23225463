import Verif.DesRun.Props
import Verif.Whole.Des
import Verif.Whole.DesSpec
import Verif.Whole.Props2
import Verif.Whole.Props6

/-!
# Lemmas on whole DES runs
-/

namespace Sorcha.Whole

open Sorcha.Csv (Str)
open Sorcha.Readers (Rec IdParse)
open Sorcha.History (Disk Chunk)
open Sorcha.Output (Cell)
open Sorcha.Pipeline (Row own)
open Sorcha.DesRun (Env)
open Sorcha.DesRun.Spec (survivors candidates Near Moving SeenAs Sound Sensible)

variable {G W V : Type}

/-! ## Rounds -/

/-- What the chunks of a run hold. -/
theorem desRounds_ok (w : DesWorld G W V) (E : Env G W V) (c : Config.Cfg) (a : Cli.CmdArgs) : ∀ bs s chunks, desRounds w E c a s bs = (chunks, true) →
    ∃ outs, DesRun.rounds E c s (bs.map (·.1)) = .ok outs ∧
      List.Forall₂ (fun out g => Output.outputFrame w.base.dist (outConfig c) ⟨w.columns c a, out.map w.cells⟩ = .ok g) outs
        (chunks.filterMap fun c => c.results.map (·.1)) ∧
      (chunks.filterMap fun c => c.results.map (·.2)) = outs.map w.stats ∧
      (chunks.filterMap (·.ephemeris)) = bs.filterMap (·.2) := by
  intro bs
  induction bs with
  | nil => intro s chunks h; cases h; exact ⟨[], rfl, .nil, rfl, rfl⟩
  | cons b bs ih =>
    intro s chunks h
    obtain ⟨obs, eph⟩ := b
    simp only [desRounds] at h
    cases hp : DesRun.process E c s obs with
    | error e => simp [hp] at h
    | ok x =>
      obtain ⟨out, s'⟩ := x
      rw [hp] at h
      simp only at h
      split_ifs at h with h0
      · simp only [Prod.mk.injEq] at h
        obtain ⟨outs, e1, e2, e3, e4⟩ := ih s' _ (Prod.ext rfl h.2)
        refine ⟨outs, ?_, ?_, ?_, ?_⟩
        · simp [DesRun.rounds, bind, Except.bind, hp, e1, pure, Except.pure, h0]
        · rw [← h.1]; simpa using e2
        · rw [← h.1]; simpa using e3
        · rw [← h.1]
          cases eph <;> simpa using e4
      · cases ho : Output.outputFrame w.base.dist (outConfig c) ⟨w.columns c a, out.map w.cells⟩ with
        | error e => simp [ho] at h
        | ok g =>
          rw [ho] at h
          simp only [Prod.mk.injEq] at h
          obtain ⟨outs, e1, e2, e3, e4⟩ := ih s' _ (Prod.ext rfl h.2)
          refine ⟨out :: outs, ?_, ?_, ?_, ?_⟩
          · simp [DesRun.rounds, bind, Except.bind, hp, e1, pure, Except.pure, Nat.pos_of_ne_zero h0]
          · rw [← h.1]; simpa using ⟨ho, e2⟩
          · rw [← h.1]; simpa using e3
          · rw [← h.1]
            cases eph <;> simpa using e4

/-- What the chunks of a run that fails hold. -/
theorem desRounds_part (w : DesWorld G W V) (E : Env G W V) (c : Config.Cfg) (a : Cli.CmdArgs) : ∀ bs s,
    ∃ k outs, DesRun.rounds E c s ((bs.map (·.1)).take k) = .ok outs ∧
      List.Forall₂ (fun out g => Output.outputFrame w.base.dist (outConfig c) ⟨w.columns c a, out.map w.cells⟩ = .ok g) outs
        ((desRounds w E c a s bs).1.filterMap fun c => c.results.map (·.1)) := by
  intro bs
  induction bs with
  | nil => intro s; exact ⟨0, [], rfl, .nil⟩
  | cons b bs ih =>
    intro s
    obtain ⟨obs, eph⟩ := b
    simp only [desRounds]
    cases hp : DesRun.process E c s obs with
    | error e => exact ⟨0, [], rfl, .nil⟩
    | ok x =>
      obtain ⟨out, s'⟩ := x
      simp only
      obtain ⟨k, outs, e1, e2⟩ := ih s'
      by_cases h0 : out.length = 0
      · rw [if_pos h0]
        refine ⟨k + 1, outs, ?_, ?_⟩
        · simp [DesRun.rounds, bind, Except.bind, hp, e1, pure, Except.pure, h0]
        · simpa using e2
      · rw [if_neg h0]
        cases ho : Output.outputFrame w.base.dist (outConfig c) ⟨w.columns c a, out.map w.cells⟩ with
        | error e => exact ⟨0, [], rfl, .nil⟩
        | ok g =>
          refine ⟨k + 1, out :: outs, ?_, ?_⟩
          · simp [DesRun.rounds, bind, Except.bind, hp, e1, pure, Except.pure, Nat.pos_of_ne_zero h0]
          · simpa using ⟨ho, e2⟩

/-! ## What comes through -/

theorem des_survivors_append (E : Env G W V) (c : Config.Cfg) (l m : List (Pointing.Obs W)) : survivors E c (l ++ m) = survivors E c l ++ survivors E c m := by
  unfold survivors candidates
  rw [List.flatMap_append, keep_append]

theorem des_survivors_perm (E : Env G W V) (c : Config.Cfg) {l m : List (Pointing.Obs W)} (h : l.Perm m) : (survivors E c l).Perm (survivors E c m) := by
  unfold survivors candidates keep
  exact (h.flatMap_right _).filter _

theorem des_survivors_subperm (E : Env G W V) (c : Config.Cfg) {l m : List (Pointing.Obs W)} (h : l.Subperm m) : (survivors E c l).Subperm (survivors E c m) := by
  obtain ⟨l', h1, h2⟩ := h
  refine (des_survivors_perm E c h1.symm).subperm.trans (List.Sublist.subperm ?_)
  unfold survivors candidates keep
  exact List.Sublist.filter _ (h2.flatMap _)

theorem near_mono {c : Config.Cfg} {l m : List (Row W V)} (h : l ⊆ m) {r : Row W V} (hr : Near c l r) : Near c m r := by
  intro hon
  obtain ⟨u, v, e, r', hr', e'⟩ := hr hon
  exact ⟨u, v, e, r', h hr', e'⟩

theorem Sound.mono {E : Env G W V} {c : Config.Cfg} {obs b : List (Pointing.Obs W)} (h : Sound E c obs) (hb : b ⊆ obs) : Sound E c b := by
  refine ⟨h.sortIndex, h.sortTime, fun q hq => ⟨(h.visits q hq).1, fun r hr => ⟨((h.visits q hq).2 r hr).1, ?_⟩⟩⟩
  have hreg := ((h.visits q hq).2 r hr).2
  have hsub : (Pipeline.Spec.candidates E.base c b).map (DesRun.Spec.place E) ⊆ (Pipeline.Spec.candidates E.base c obs).map (DesRun.Spec.place E) := by
    apply List.map_subset
    unfold Pipeline.Spec.candidates
    intro x hx
    obtain ⟨o, ho, hx⟩ := List.mem_flatMap.1 hx
    exact List.mem_flatMap.2 ⟨o, hb ho, hx⟩
  exact ⟨fun o h1 o' h2 => hreg.sameField o (hsub h1) o' (hsub h2), fun o h1 => hreg.fieldRange o (hsub h1), fun o h1 => hreg.raRange o (hsub h1),
    fun o h1 => hreg.near o (hsub h1)⟩

theorem Passed.nil (E : Env G W V) (c : Config.Cfg) (obs : List (Pointing.Obs W)) : Spec.Passed E c obs [] :=
  ⟨List.nil_subperm, by simp, by simp, by simp⟩

theorem Passed.mono {E : Env G W V} {c : Config.Cfg} {obs obs' : List (Pointing.Obs W)} {rows : List (Row W V)} (h : Spec.Passed E c obs rows) (hs : obs.Subperm obs') :
    Spec.Passed E c obs' rows :=
  ⟨h.once.trans (des_survivors_subperm E c hs), fun r hr => near_mono (des_survivors_subperm E c hs).subset (h.near r hr), h.moving, h.found⟩

theorem Passed.append {E : Env G W V} {c : Config.Cfg} {obs obs' : List (Pointing.Obs W)} {rows rows' : List (Row W V)} (h : Spec.Passed E c obs rows)
    (h' : Spec.Passed E c obs' rows') : Spec.Passed E c (obs ++ obs') (rows ++ rows') := by
  refine ⟨?_, ?_, ?_, ?_⟩
  · rw [des_survivors_append]
    exact h.once.append h'.once
  · rw [des_survivors_append]
    intro r hr
    rcases List.mem_append.1 hr with hr | hr
    · exact near_mono (List.subset_append_left _ _) (h.near r hr)
    · exact near_mono (List.subset_append_right _ _) (h'.near r hr)
  · intro r hr
    rcases List.mem_append.1 hr with hr | hr
    · exact h.moving r hr
    · exact h'.moving r hr
  · intro hon r hr
    rcases List.mem_append.1 hr with hr | hr
    · obtain ⟨seen, ds, e1, e2⟩ := h.found hon r hr
      exact ⟨seen, ds, e1.trans (List.sublist_append_left _ _).subperm, e2⟩
    · obtain ⟨seen, ds, e1, e2⟩ := h'.found hon r hr
      exact ⟨seen, ds, e1.trans (List.sublist_append_right _ _).subperm, e2⟩

/-- What one round outputs. -/
theorem process_passed {E : Env G W V} {c : Config.Cfg} {s s' : Pipeline.State G} {obs : List (Pointing.Obs W)} {out : List (Row W V)} (hS : Sound E c obs)
    (hL : Sensible c) (h : DesRun.process E c s obs = .ok (out, s')) : Spec.Passed E c obs out := by
  obtain ⟨reached, -, h2, -, h3, h4⟩ := DesRun.Props.C63_stages hS hL h
  have hout := DesRun.Props.out_subperm h3 h4
  refine ⟨(hout.trans (keep_sublist _ _).subperm).trans h2, ?_, ?_, ?_⟩
  · intro r hr
    exact near_mono h2.subset (mem_keep.1 (hout.subset hr)).2.1
  · intro r hr
    exact (mem_keep.1 (hout.subset hr)).2.2
  · intro hon r hr
    obtain ⟨ds, e1, e2⟩ := (h4 hon).rule r hr
    refine ⟨_, ds, ?_, ?_, e1, e2⟩
    · rcases (h4 hon).all_or_none r.objId with hp | hp
      · exact hp.symm.subperm.trans List.filter_sublist.subperm
      · have : r ∈ out.filter fun r' => r'.objId = r.objId := List.mem_filter.2 ⟨hr, by simp⟩
        rw [hp] at this
        cases this
    · intro x hx
      simpa using (List.mem_filter.1 hx).2

theorem rounds_passed {E : Env G W V} {c : Config.Cfg} (hL : Sensible c) {bs : List (List (Pointing.Obs W))} : ∀ {s : Pipeline.State G} {outs : List (List (Row W V))},
    (∀ b ∈ bs, Sound E c b) → DesRun.rounds E c s bs = .ok outs → Spec.Passed E c bs.flatten outs.flatten := by
  induction bs with
  | nil => intro s outs _ h; cases h; exact Passed.nil E c []
  | cons b bs ih =>
    intro s outs hS h
    obtain ⟨out, s1, rest, hp, hr, hflat, -⟩ := DesRun.rounds_cons_ok h
    rw [hflat, List.flatten_cons]
    exact Passed.append (process_passed (hS b (List.mem_cons_self ..)) hL hp) (ih (fun b' hb' => hS b' (List.mem_cons_of_mem _ hb')) hr)

theorem des_nonempty {E : Env G W V} {c : Config.Cfg} {bs : List (List (Pointing.Obs W))} {s : Pipeline.State G} {outs}
    (h : DesRun.rounds E c s bs = .ok outs) : outs.flatten = [] ↔ outs = [] := by
  constructor
  · intro h0
    cases outs with
    | nil => rfl
    | cons o os =>
      have := (DesRun.Props.C63_rounds h o (List.mem_cons_self ..)).1
      rw [List.flatten_cons, List.append_eq_nil_iff] at h0
      exact absurd h0.1 this
  · rintro rfl; rfl

/-- Without random features and the visits footprint, what all rounds output is what comes through of all observations at once. -/
theorem rounds_finish {E : Env G W V} {c : Config.Cfg} (hd : DesRun.Spec.Deterministic c) (hs : ∀ l, (E.base.sortIndex l).Perm l) (ht : Des.Spec.SortSound E.sortTime)
    (hL : Sensible c) {bs : List (List (Pointing.Obs W))} {s : Pipeline.State G} {outs : List (List (Row W V))} (hw : Pipeline.Spec.Whole bs)
    {obs : List (Pointing.Obs W)} (hown : ∀ id, own id bs.flatten = own id obs) (h : DesRun.rounds E c s bs = .ok outs) :
    ∃ rows, outs.flatten.Perm rows ∧ (c.linking.desDiscovery.on = false → rows = DesRun.Spec.kept c (survivors E c obs)) ∧
      (c.linking.desDiscovery.on = true → DesRun.Spec.Discoveries (DesRun.Spec.kept c (survivors E c obs)) rows) := by
  have h1 := DesRun.rounds_own hd hs ht hw h
  have hok : DesRun.Ok E c obs := DesRun.ok_of_own fun id => by rw [← hown]; exact (h1 id).1
  have hk := DesRun.Props.kept_eq hL hok.distance hok.motion
  refine ⟨DesRun.finish E c (survivors E c obs), Pipeline.perm_of_filters (fun r => r.objId) _ _ fun id => ?_, ?_, ?_⟩
  · refine (h1 id).2.trans ?_
    rw [hown, ← DesRun.survivors_own]
    exact (DesRun.finish_own E ht c id _).symm
  · intro hoff
    unfold DesRun.finish DesRun.discF
    rw [if_neg (by simp [hoff]), hk]
  · intro hon
    unfold DesRun.finish
    rw [hk]
    exact DesRun.Props.discoveries ht hon (by rw [← hk]; exact hok.place hon)

/-! ## The observations -/

/-- All observations of a run: those of the ephemeris file that belong to the objects of the orbit file; or those made for each object that is not too faint. -/
def Observes (w : World G W V) (d : Disk) (args : Cli.Args) (c : Config.Cfg) (a : Cli.CmdArgs) (orb : List (Rec Str)) (others : List (List (Rec Str)))
    (obs : List (Pointing.Obs W)) : Prop :=
  (c.input.ephemeridesType = "external" ∧ ∃ pe eph, args.er = some pe ∧ Spec.Table w.ids c.input.ephFormat d pe eph ∧ obs = Spec.observed w.parse eph orb others) ∨
  (c.input.ephemeridesType ≠ "external" ∧ Spec.EachAlone (w.ephem c a) orb ∧ obs = (Spec.bright c (w.cull c a) orb others).flatMap fun r => w.ephem c a [r])

theorem EachAlone.none {ephem : List (Rec Str) → List (Pointing.Obs W)} {orb : List (Rec Str)} (h : Spec.EachAlone ephem orb) : ephem [] = [] := by
  have h0 := h [] ⟨List.nodup_nil, fun _ h => by cases h⟩
  cases he : ephem [] with
  | nil => rfl
  | cons o os =>
    exfalso
    have h1 := h0 (o.obj ++ "x")
    rw [List.filter_nil, he] at h1
    have h2 : o ∈ (o :: os).filter fun o' => o'.obj = o.obj ++ "x" := by rw [h1]; exact List.mem_cons_self ..
    have h3 := (List.mem_filter.1 h2).2
    simp only [decide_eq_true_eq] at h3
    have := congrArg (fun s : String => s.toList.length) h3
    simp at this

theorem observed_own (parse : List Str → ℕ × ℚ × W) (eph orb : List (Rec Str)) (others : List (List (Rec Str))) (id : String) :
    own id (Spec.observed parse eph orb others) =
      if id ∈ orb.map (·.id) then own id (eph.map fun r => Pipeline.toObs parse (Readers.Spec.extend (orb :: others) r)) else [] := by
  unfold own Spec.observed
  rw [List.filter_map, List.filter_map, List.filter_filter]
  by_cases hid : id ∈ orb.map (·.id)
  · rw [if_pos hid]
    have : (eph.filter fun a => ((fun o : Pointing.Obs W => decide (o.obj = id)) ∘ fun r => Spec.obsOf parse (Readers.Spec.extend (orb :: others) r)) a &&
        decide (a.id ∈ orb.map (·.id))) = eph.filter ((fun o : Pointing.Obs W => decide (o.obj = id)) ∘ fun r => Pipeline.toObs parse (Readers.Spec.extend (orb :: others) r)) := by
      apply List.filter_congr
      intro r _
      show (decide (r.id = id) && decide (r.id ∈ orb.map (·.id))) = decide (r.id = id)
      by_cases hr : r.id = id
      · rw [hr]; simp only [hid, decide_true, Bool.and_self]
      · simp [hr]
    rw [this]
    rfl
  · rw [if_neg hid, List.map_eq_nil_iff, List.filter_eq_nil_iff]
    intro r _ hr
    simp only [Bool.and_eq_true, decide_eq_true_eq] at hr
    have h1 : r.id = id := by simpa [Spec.obsOf, Readers.Spec.extend] using hr.1
    exact hid (h1 ▸ hr.2)

theorem flatMap_own {ephem : List (Rec Str) → List (Pointing.Obs W)} (hnone : ephem [] = []) (id : String) : ∀ {objs : List (Rec Str)},
    (∀ r ∈ objs, own id (ephem [r]) = ephem ([r].filter fun x => x.id = id)) → (objs.map (·.id)).Nodup →
    own id (objs.flatMap fun r => ephem [r]) = ephem (objs.filter fun r => r.id = id) := by
  intro objs
  induction objs with
  | nil => intro _ _; exact hnone.symm
  | cons r objs ih =>
    intro h hn
    rw [List.map_cons, List.nodup_cons] at hn
    have ih' := ih (fun r' hr' => h r' (List.mem_cons_of_mem _ hr')) hn.2
    rw [List.flatMap_cons, Pipeline.own_append, h r (List.mem_cons_self ..), ih']
    by_cases hr : r.id = id
    · have h0 : (objs.filter fun x => x.id = id) = [] := by
        rw [List.filter_eq_nil_iff]
        intro x hx hxid
        simp only [decide_eq_true_eq] at hxid
        exact hn.1 (List.mem_map.2 ⟨x, hx, by rw [hxid, hr]⟩)
      rw [List.filter_cons_of_pos (by simpa using hr), h0, hnone, List.append_nil, List.filter_cons_of_pos (by simpa using hr), h0]
      rfl
    · rw [List.filter_cons_of_neg (by simpa using hr), List.filter_cons_of_neg (by simpa using hr)]
      show ephem [] ++ _ = _
      rw [hnone]
      rfl

theorem bright_own {ephem : List (Rec Str) → List (Pointing.Obs W)} (c : Config.Cfg) (cull : Rec Str → Bool) {orb : List (Rec Str)} {others : List (List (Rec Str))}
    (h : Spec.EachAlone ephem orb) (huniq : (orb.map (·.id)).Nodup) (id : String) :
    own id ((Spec.bright c cull orb others).flatMap fun r => ephem [r]) =
      if id ∈ orb.map (·.id) then ephem (Pipeline.left c cull others (orb.filter fun r => r.id = id)) else [] := by
  have hleft : Spec.bright c cull orb others = Pipeline.left c cull others orb := rfl
  have hpart := Pipeline.left_part c cull others huniq (fun r hr => hr)
  rw [hleft, flatMap_own (EachAlone.none h) id (fun r hr => h [r] ⟨by simp, ?_⟩ id) hpart.1, Pipeline.left_filter]
  · by_cases hid : id ∈ orb.map (·.id)
    · rw [if_pos hid]
    · rw [if_neg hid, Pipeline.filter_none hid]
      exact EachAlone.none h
  · intro x hx
    rw [List.mem_singleton.1 hx]
    exact hpart.2 r hr

end Sorcha.Whole
