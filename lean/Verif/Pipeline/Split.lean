import Verif.Pipeline.Chunks2

/-! # The observations of a run, cut into chunks -/

namespace Sorcha.Pipeline
open Sorcha.Pipeline.Spec

variable {G W V C : Type}

/-- The blocks of a run with an external ephemeris file and chunks of `m` objects. -/
def externalBlocks (parse : List C → ℕ × ℚ × W) (orb : List (Readers.Rec C)) (ts : List (List (Readers.Rec C))) (eph : List (Readers.Rec C)) (m : ℕ) :
    List (List (Pointing.Obs W)) :=
  (Readers.Spec.chunks orb m).map fun blk => ((eph.filter fun r => r.id ∈ Readers.Spec.idsOf blk).map (Readers.Spec.extend (orb :: ts))).map (toObs parse)

theorem runExternal_eq {E : Env G W V} {c : Config.Cfg} (s : State G) {parse : List C → ℕ × ℚ × W} {P : Readers.IdParse} {missing : List C}
    {fe fo : List (Readers.Line C)} {eph orb : List (Readers.Rec C)} {fs : List (List (Readers.Line C))} {ts : List (List (Readers.Rec C))}
    (hcons : Readers.Props.Consistent P fo orb fs ts) (he : Readers.Spec.Holds fe eph) (hse : Readers.Spec.StableIds P eph) (inp : Config.Input)
    {n : ℕ} (h1 : 1 ≤ n) {fuel : ℕ} (hf : (orb.length + n - 1) / n ≤ fuel) :
    runExternal E { c with input := { inp with chunk := n } } s parse P missing fe fo fs fuel = some (rounds E c s (externalBlocks parse orb ts eph n)) := by
  unfold runExternal externalBlocks
  simp only
  rw [Readers.Props.C15_blocks P missing fe fo eph orb fs ts hcons he hse n h1 fuel hf]
  simp only [rounds_input, List.map_map, Function.comp_def]

/-- Each object's observations are its rows of the file. -/
theorem external_split (parse : List C → ℕ × ℚ × W) {P : Readers.IdParse} {fo : List (Readers.Line C)} {orb : List (Readers.Rec C)}
    {fs : List (List (Readers.Line C))} {ts : List (List (Readers.Rec C))} (hcons : Readers.Props.Consistent P fo orb fs ts) (eph : List (Readers.Rec C)) {m : ℕ} (hm : 1 ≤ m) :
    (∀ id, own id (externalBlocks parse orb ts eph m).flatten =
      if id ∈ orb.map (·.id) then own id (eph.map fun r => toObs parse (Readers.Spec.extend (orb :: ts) r)) else []) ∧
      Whole (externalBlocks parse orb ts eph m) := by
  have hflat := (Readers.Props.C12_partition orb m hm).1
  have := own_blocks (·.id) (fun blk => ((eph.filter fun r => r.id ∈ Readers.Spec.idsOf blk).map (Readers.Spec.extend (orb :: ts))).map (toObs parse))
    (fun id => own id (eph.map fun r => toObs parse (Readers.Spec.extend (orb :: ts) r))) (Readers.Spec.chunks orb m)
    (by rw [hflat]; exact hcons.unique) (by
      intro b _ id
      simp only [List.map_map]
      exact own_filter_map (fun r => toObs parse (Readers.Spec.extend (orb :: ts) r)) (fun _ => rfl) _ eph id)
  rwa [hflat] at this

/-- The objects of a block that are left after culling, with all their columns. -/
def left (c : Config.Cfg) (cull : Readers.Rec C → Bool) (ts : List (List (Readers.Rec C))) (b : List (Readers.Rec C)) : List (Readers.Rec C) :=
  (b.map (Readers.Spec.extend ts)).filter fun r => c.expert.bruteForce || !cull r

theorem left_part (c : Config.Cfg) (cull : Readers.Rec C → Bool) (ts : List (List (Readers.Rec C))) {orb b : List (Readers.Rec C)} (hb : (b.map (·.id)).Nodup)
    (hsub : ∀ r ∈ b, r ∈ orb) : PartOf orb (left c cull ts b) := by
  have e : (b.map (Readers.Spec.extend ts)).map (·.id) = b.map (·.id) := by rw [List.map_map]; rfl
  refine ⟨List.Nodup.sublist ((List.filter_sublist (l := b.map (Readers.Spec.extend ts))).map (·.id)) (by rw [e]; exact hb), fun r hr => ?_⟩
  obtain ⟨x, hx, rfl⟩ := List.mem_map.1 (List.mem_of_mem_filter hr)
  exact List.mem_map_of_mem (f := (·.id)) (hsub x hx)

theorem left_filter (c : Config.Cfg) (cull : Readers.Rec C → Bool) (ts : List (List (Readers.Rec C))) (b : List (Readers.Rec C)) (id : String) :
    (left c cull ts b).filter (fun r => r.id = id) = left c cull ts (b.filter fun r => r.id = id) := by
  simp only [left, List.filter_map, List.filter_filter]
  congr 1
  apply List.filter_congr
  intro r _
  exact Bool.and_comm _ _

theorem filter_single {l : List (Readers.Rec C)} (hl : (l.map (·.id)).Nodup) {r : Readers.Rec C} (hr : r ∈ l) : (l.filter fun x => x.id = r.id) = [r] := by
  induction l with
  | nil => simp at hr
  | cons a l ih =>
    rw [List.map_cons, List.nodup_cons] at hl
    rcases List.mem_cons.1 hr with rfl | hr
    · rw [List.filter_cons_of_pos (by simp)]
      congr 1
      rw [List.filter_eq_nil_iff]
      intro x hx hxi
      simp only [decide_eq_true_eq] at hxi
      exact hl.1 (List.mem_map.2 ⟨x, hx, hxi⟩)
    · rw [List.filter_cons_of_neg, ih hl.2 hr]
      simp only [decide_eq_true_eq]
      intro hai
      exact hl.1 (List.mem_map.2 ⟨r, hr, hai.symm⟩)

theorem filter_none {l : List (Readers.Rec C)} {id : String} (h : id ∉ l.map (·.id)) : (l.filter fun x => x.id = id) = [] := by
  rw [List.filter_eq_nil_iff]
  intro x hx hxi
  simp only [decide_eq_true_eq] at hxi
  exact h (List.mem_map.2 ⟨x, hx, hxi⟩)

theorem runGenerated_eq {E : Env G W V} {c : Config.Cfg} (s : State G) {cull : Readers.Rec C → Bool} {ephem : List (Readers.Rec C) → List (Pointing.Obs W)}
    {P : Readers.IdParse} {missing : List C} {fo : List (Readers.Line C)} {orb : List (Readers.Rec C)} {fs : List (List (Readers.Line C))} {ts : List (List (Readers.Rec C))}
    (hcons : Readers.Props.Consistent P fo orb fs ts) (hnone : ephem [] = []) (inp : Config.Input) {n : ℕ} (h1 : 1 ≤ n) {fuel : ℕ} (hf : (orb.length + n - 1) / n ≤ fuel) :
    runGenerated E { c with input := { inp with chunk := n } } s cull ephem P missing fo fs fuel =
      some (rounds E c s ((Readers.Spec.chunks orb n).map fun b => ephem (left c cull ts b))) := by
  unfold runGenerated
  simp only
  rw [Readers.Props.C12_generated P missing fo orb fs ts hcons n h1 fuel hf]
  simp only [rounds_input, List.map_map]
  congr 3
  funext b
  simp only [Function.comp_apply, left]
  cases hb : c.expert.bruteForce with
  | true => simp
  | false =>
    simp only [Bool.false_or, Bool.false_eq_true, if_false]
    by_cases h0 : ((b.map (Readers.Spec.extend ts)).filter fun r => !cull r).length = 0
    · rw [if_pos h0, List.length_eq_zero_iff.1 h0, hnone]
    · rw [if_neg h0]

/-- Each object's observations are those made for it alone. -/
theorem generated_split (c : Config.Cfg) (cull : Readers.Rec C → Bool) {ephem : List (Readers.Rec C) → List (Pointing.Obs W)} {P : Readers.IdParse}
    {fo : List (Readers.Line C)} {orb : List (Readers.Rec C)} {fs : List (List (Readers.Line C))} {ts : List (List (Readers.Rec C))}
    (hcons : Readers.Props.Consistent P fo orb fs ts) (hnone : ephem [] = [])
    (halone : ∀ objs, PartOf orb objs → ∀ id, ((ephem objs).filter fun o => o.obj = id) = ephem (objs.filter fun r => r.id = id)) {m : ℕ} (hm : 1 ≤ m) :
    (∀ id, own id ((Readers.Spec.chunks orb m).map fun b => ephem (left c cull ts b)).flatten =
      if id ∈ orb.map (·.id) then ephem (left c cull ts (orb.filter fun r => r.id = id)) else []) ∧
      Whole ((Readers.Spec.chunks orb m).map fun b => ephem (left c cull ts b)) := by
  have hone : ∀ b : List (Readers.Rec C), (b.map (·.id)).Nodup → (∀ r ∈ b, r ∈ orb) → ∀ id,
      own id (ephem (left c cull ts b)) = if id ∈ b.map (·.id) then ephem (left c cull ts (orb.filter fun r => r.id = id)) else [] := by
    intro b hb hsub id
    have e2 : own id (ephem (left c cull ts b)) = ephem (left c cull ts (b.filter fun r => r.id = id)) := by
      unfold own; rw [halone _ (left_part c cull ts hb hsub), left_filter]
    rw [e2]
    by_cases hi : id ∈ b.map (·.id)
    · rw [if_pos hi]
      obtain ⟨r, hr1, rfl⟩ := List.mem_map.1 hi
      rw [filter_single hb hr1, filter_single hcons.unique (hsub r hr1)]
    · rw [if_neg hi, filter_none hi]
      exact hnone
  have hflat := (Readers.Props.C12_partition orb m hm).1
  have := own_blocks (·.id) (fun b => ephem (left c cull ts b)) (fun id => ephem (left c cull ts (orb.filter fun r => r.id = id))) (Readers.Spec.chunks orb m)
    (by rw [hflat]; exact hcons.unique) (by
      intro b hb id
      apply hone
      · have hu : (orb.map (·.id)).Nodup := hcons.unique
        rw [← hflat] at hu
        exact hu.sublist ((List.sublist_flatten_of_mem hb).map _)
      · intro r hr
        rw [← hflat]
        exact List.mem_flatten.2 ⟨b, hb, hr⟩)
  rwa [hflat] at this

/-- No object is observed twice at one time in the whole run if it is not when alone. -/
theorem generated_once (c : Config.Cfg) (cull : Readers.Rec C → Bool) {ephem : List (Readers.Rec C) → List (Pointing.Obs W)} {P : Readers.IdParse}
    {fo : List (Readers.Line C)} {orb : List (Readers.Rec C)} {fs : List (List (Readers.Line C))} {ts : List (List (Readers.Rec C))}
    (hcons : Readers.Props.Consistent P fo orb fs ts) (hnone : ephem [] = [])
    (halone : ∀ objs, PartOf orb objs → ∀ id, ((ephem objs).filter fun o => o.obj = id) = ephem (objs.filter fun r => r.id = id))
    (ho : ∀ objs, PartOf orb objs → OncePerTime (ephem objs)) {m : ℕ} (hm : 1 ≤ m) :
    OncePerTime ((Readers.Spec.chunks orb m).map fun b => ephem (left c cull ts b)).flatten := by
  intro o h1 o' h2 hid
  have m1 : o ∈ own o.obj _ := mem_own.2 ⟨h1, rfl⟩
  have m2 : o' ∈ own o.obj _ := mem_own.2 ⟨h2, hid.symm⟩
  rw [(generated_split c cull hcons hnone halone hm).1] at m1 m2
  by_cases hi : o.obj ∈ orb.map (·.id)
  · rw [if_pos hi] at m1 m2
    refine ho _ (left_part c cull ts ?_ fun r hr => List.mem_of_mem_filter hr) o m1 o' m2 hid
    exact List.Nodup.sublist ((List.filter_sublist (l := orb)).map (·.id)) hcons.unique
  · rw [if_neg hi] at m1; simp at m1

end Sorcha.Pipeline
