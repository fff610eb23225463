import Verif.Driver.Props
import Verif.Driver.Examples
import Verif.Pipeline.Props2

/-! # Runs with generated ephemerides (C16, C62) -/

namespace Sorcha.Driver.Props
open Sorcha.Driver.Spec Sorcha.Pipeline Sorcha.Pipeline.Spec

variable {K U R S V G C Γ : Type} [Field K] [LinearOrder K] [IsStrictOrderedRing K] [FloorRing K]

section lemmas

theorem stable_part {P : Readers.IdParse} {orb objs : List (Readers.Rec C)} (h : Readers.Spec.StableIds P orb) (hp : PartOf orb objs) : Readers.Spec.StableIds P objs := by
  refine Readers.Stable.sub h fun s hs => ?_
  obtain ⟨r, hr, rfl⟩ := List.mem_map.1 hs
  exact hp.2 r hr

theorem cellsOf_filter (objs : List (Readers.Rec C)) (id : String) :
    Readers.Spec.cellsOf (objs.filter fun r => r.id = id) id = Readers.Spec.cellsOf objs id := by
  unfold Readers.Spec.cellsOf
  rw [List.find?_filter]
  simp

theorem generate_alone {E : Env K U R S V G} (hi : Iterates E) (start : Readers.Rec C → S) (idle : S) {P : Readers.IdParse} (missing : List C) (v : Pointing.Visit V)
    (vs : List (Pointing.Visit V)) {orb : List (Readers.Rec C)} (hs : Readers.Spec.StableIds P orb) (objs : List (Readers.Rec C)) (hp : PartOf orb objs) (id : String) :
    ((generate E start idle P missing v vs objs).filter fun o => o.obj = id) = generate E start idle P missing v vs (objs.filter fun r => r.id = id) := by
  have hp' : PartOf orb (objs.filter fun r => r.id = id) :=
    ⟨List.Nodup.sublist ((List.filter_sublist (l := objs)).map (·.id)) hp.1, fun r hr => hp.2 r (List.mem_of_mem_filter hr)⟩
  rw [C61_joined hi start idle missing v vs (stable_part hs hp) hp.1, C61_joined hi start idle missing v vs (stable_part hs hp') hp'.1, List.filter_map, ← C61_alone hi]
  apply List.map_congr_left
  intro o ho
  have : o.obj = id := by simpa using (List.mem_filter.1 ho).2
  rw [this, cellsOf_filter]

theorem generate_none {E : Env K U R S V G} (hi : Iterates E) (start : Readers.Rec C → S) (idle : S) (P : Readers.IdParse) (missing : List C) (v : Pointing.Visit V)
    (vs : List (Pointing.Visit V)) : generate E start idle P missing v vs [] = [] := by
  rw [C61_joined hi start idle missing v vs (objs := []) (Readers.Stable.plain fun _ h => by cases h) List.nodup_nil]
  have : ephemeris E start idle v vs ([] : List (Readers.Rec C)) = [] := by
    rw [List.eq_nil_iff_forall_not_mem]
    intro o ho
    simpa using ephemeris_ids hi start idle v vs [] o ho
  rw [this]; rfl

theorem once_parts {ws : List (Pointing.Visit V)} {parts : List (List (Pointing.Obs G))}
    (f : List.Forall₂ (fun w part => (part.map (·.obj)).Nodup ∧ ∀ o ∈ part, o.mjd = w.mid) ws parts) (hmid : (ws.map (·.mid)).Nodup) : OncePerTime parts.flatten := by
  have hmem : ∀ {ws : List (Pointing.Visit V)} {parts : List (List (Pointing.Obs G))},
      List.Forall₂ (fun w part => (part.map (·.obj)).Nodup ∧ ∀ o ∈ part, o.mjd = w.mid) ws parts → ∀ o ∈ parts.flatten, o.mjd ∈ ws.map (·.mid) := by
    intro ws parts f
    induction f with
    | nil => intro o ho; simp at ho
    | cons h _ ih =>
      intro o ho
      rw [List.flatten_cons, List.mem_append] at ho
      rcases ho with ho | ho
      · rw [h.2 o ho]; simp
      · exact List.mem_cons_of_mem _ (ih o ho)
  induction f with
  | nil => intro o ho; simp at ho
  | @cons w part ws parts h ft ih =>
    rw [List.map_cons, List.nodup_cons] at hmid
    intro o ho o' ho' e1 e2
    rw [List.flatten_cons, List.mem_append] at ho ho'
    rcases ho with ho | ho <;> rcases ho' with ho' | ho'
    · exact List.inj_on_of_nodup_map h.1 ho ho' e1
    · exact absurd (by rw [← h.2 o ho, e2]; exact hmem ft o' ho') hmid.1
    · exact absurd (by rw [← h.2 o' ho', ← e2]; exact hmem ft o ho) hmid.1
    · exact ih hmid.2 o ho o' ho' e1 e2

theorem generate_once {E : Env K U R S V G} (hi : Iterates E) (start : Readers.Rec C → S) (idle : S) {P : Readers.IdParse} (missing : List C) (v : Pointing.Visit V)
    (vs : List (Pointing.Visit V)) (hmid : ((v :: vs).map (·.mid)).Nodup) {orb : List (Readers.Rec C)} (hs : Readers.Spec.StableIds P orb) (objs : List (Readers.Rec C))
    (hp : PartOf orb objs) : OncePerTime (generate E start idle P missing v vs objs) := by
  rw [C61_joined hi start idle missing v vs (stable_part hs hp) hp.1]
  obtain ⟨parts, e, f⟩ := C61_rows hi start idle v vs objs
  have ho : OncePerTime (ephemeris E start idle v vs objs) := by
    rw [e]
    refine once_parts (f.imp fun w part h => ⟨h.1, fun o ho => ?_⟩) hmid
    obtain ⟨r, -, st, -, -, e⟩ := h.2 o ho
    rw [e]
  intro a ha b hb e1 e2
  obtain ⟨x, hx, rfl⟩ := List.mem_map.1 ha
  obtain ⟨y, hy, rfl⟩ := List.mem_map.1 hb
  rw [ho x hx y hy e1 e2]

end lemmas

/-- C16 (runs of the generator): a run that generates its ephemerides for the visits of its database outputs the same rows for any two chunk sizes. -/
theorem C16_generator {Q : Pipeline.Env Γ (G × List C) V} {c : Config.Cfg} (hr : Regular Q c) (s s' : State Γ) {E : Env K U R S V G} (hi : Iterates E)
    (start : Readers.Rec C → S) (idle : S) {v : Pointing.Visit V} {vs : List (Pointing.Visit V)} (_hdb : Q.db = v :: vs) (hmid : ((v :: vs).map (·.mid)).Nodup)
    {cull : Readers.Rec C → Bool} {P : Readers.IdParse} {missing : List C} {fo : List (Readers.Line C)}
    {orb : List (Readers.Rec C)} {fs : List (List (Readers.Line C))} {ts : List (List (Readers.Rec C))} (hcons : Readers.Props.Consistent P fo orb fs ts)
    (n n' : ℕ) (h1 : 1 ≤ n) (h1' : 1 ≤ n') (fuel fuel' : ℕ) (hf : (orb.length + n - 1) / n ≤ fuel) (hf' : (orb.length + n' - 1) / n' ≤ fuel')
    {outs : List (List (Final (G × List C) V))}
    (h : runGenerated Q { c with input := { c.input with chunk := n } } s cull (generate E start idle P missing v vs) P missing fo fs fuel = some (.ok outs)) :
    ∃ outs', runGenerated Q { c with input := { c.input with chunk := n' } } s' cull (generate E start idle P missing v vs) P missing fo fs fuel' = some (.ok outs') ∧
      outs.flatten.Perm outs'.flatten :=
  Pipeline.Props.C16_generated hr s s' hcons (generate_none hi start idle P missing v vs) (fun objs hp id => generate_alone hi start idle missing v vs hcons.stable objs hp id)
    (fun objs hp => generate_once hi start idle missing v vs hmid hcons.stable objs hp) n n' h1 h1' fuel fuel' hf hf' h

section reuse

private theorem file_eq (render : Pointing.Obs G → List C) (f : List (Readers.Rec C) → List (Pointing.Obs G)) (hf : f [] = []) : ∀ (blocks : List (List (Readers.Rec C)))
    (file : List (Readers.Line C)), (blocks.filter fun b => b.length ≠ 0).foldl (fun file b => writeEphemeris render file (f b)) (some file) =
      some (file ++ (blocks.map f).flatten.map fun o => .data ⟨o.obj, render o⟩)
  | [], file => by simp
  | b :: bs, file => by
    by_cases hb : b.length = 0
    · rw [List.length_eq_zero_iff] at hb
      subst hb
      rw [List.filter_cons_of_neg (by simp), file_eq render f hf bs]
      simp [hf]
    · rw [List.filter_cons_of_pos (by simp; intro e; simp [e] at hb), List.foldl_cons]
      show List.foldl _ (some (file ++ (f b).map fun o => Readers.Line.data ⟨o.obj, render o⟩)) _ = _
      rw [file_eq render f hf bs]
      simp

private theorem file_holds (render : Pointing.Obs G → List C) (f : List (Readers.Rec C) → List (Pointing.Obs G)) (hf : f [] = []) : ∀ (blocks : List (List (Readers.Rec C)))
    {file : List (Readers.Line C)}, (blocks.filter fun b => b.length ≠ 0).foldl (fun file b => writeEphemeris render file (f b)) none = some file →
      file = .header :: ((blocks.map f).flatten.map fun o => (⟨o.obj, render o⟩ : Readers.Rec C)).map .data
  | [], file, h => by simp at h
  | b :: bs, file, h => by
    by_cases hb : b.length = 0
    · rw [List.length_eq_zero_iff] at hb
      subst hb
      rw [List.filter_cons_of_neg (by simp)] at h
      rw [file_holds render f hf bs h]
      simp [hf]
    · rw [List.filter_cons_of_pos (by simp; intro e; simp [e] at hb), List.foldl_cons] at h
      change List.foldl _ (some (.header :: (f b).map fun o => Readers.Line.data ⟨o.obj, render o⟩)) _ = _ at h
      rw [file_eq render f hf bs, Option.some.injEq] at h
      rw [← h]
      simp [Function.comp_def]

end reuse

/-- C62 (ephemerides can be reused): the file of ephemerides a run has written, read in a later run as external ephemerides with any chunk size, gives the same output
rows as the run that generated them. (`inp'` is the later run's INPUT section; the two runs otherwise have the same settings.) -/
theorem C62_reuse {Q : Pipeline.Env Γ (G × List C) V} {c : Config.Cfg} (hr : Regular Q c) (s s' : State Γ) {E : Env K U R S V G} (hi : Iterates E)
    (start : Readers.Rec C → S) (idle : S) {v : Pointing.Visit V} {vs : List (Pointing.Visit V)} (_hdb : Q.db = v :: vs) (hmid : ((v :: vs).map (·.mid)).Nodup)
    {cull : Readers.Rec C → Bool} {P : Readers.IdParse} {missing : List C} {fo : List (Readers.Line C)}
    {orb : List (Readers.Rec C)} {fs : List (List (Readers.Line C))} {ts : List (List (Readers.Rec C))} (hcons : Readers.Props.Consistent P fo orb fs ts)
    {render : Pointing.Obs G → List C} {parse : List C → ℕ × ℚ × (G × List C)} (hparse : ∀ o xs, parse (render o ++ xs) = (o.field, o.mjd, (o.rest, xs)))
    (n n' : ℕ) (h1 : 1 ≤ n) (h1' : 1 ≤ n') (fuel fuel' : ℕ) (hf : (orb.length + n - 1) / n ≤ fuel) (hf' : (orb.length + n' - 1) / n' ≤ fuel')
    {outs : List (List (Final (G × List C) V))} {fe : List (Readers.Line C)} (inp' : Config.Input)
    (h : runGenerated Q { c with input := { c.input with chunk := n } } s cull (generate E start idle P missing v vs) P missing fo fs fuel = some (.ok outs))
    (hfile : ephemerisFile E start idle P render v vs ((Readers.Spec.chunks orb n).map fun b =>
      (b.map (Readers.Spec.extend ts)).filter fun r => c.expert.bruteForce || !cull r) = some fe) :
    ∃ outs', runExternal Q { c with input := { inp' with chunk := n' } } s' parse P missing fe fo fs fuel' = some (.ok outs') ∧ outs.flatten.Perm outs'.flatten := by
  have hnone := generate_none hi start idle P missing v vs
  have halone := fun objs hp id => generate_alone hi start idle missing v vs hcons.stable objs hp id
  have honce := fun objs hp => generate_once hi start idle missing v vs hmid hcons.stable objs hp
  rw [runGenerated_eq s hcons hnone c.input h1 hf, Option.some.injEq] at h
  obtain ⟨a1, a2⟩ := generated_split c cull hcons hnone halone h1
  have hflat := (Readers.Props.C12_partition orb n h1).1
  have hchunk : ∀ b ∈ Readers.Spec.chunks orb n, (b.map (·.id)).Nodup ∧ ∀ r ∈ b, r ∈ orb := by
    intro b hb
    constructor
    · have hu : (orb.map (·.id)).Nodup := hcons.unique
      rw [← hflat] at hu
      exact hu.sublist ((List.sublist_flatten_of_mem hb).map _)
    · intro r hr
      rw [← hflat]
      exact List.mem_flatten.2 ⟨b, hb, hr⟩
  have hids := fun objs : List (Readers.Rec C) => ephemeris_ids hi start idle v vs objs
  -- the rows of the file
  have hempty : readBack P (ephemeris E start idle v vs ([] : List (Readers.Rec C))) = [] := by
    have : ephemeris E start idle v vs ([] : List (Readers.Rec C)) = [] := by
      rw [List.eq_nil_iff_forall_not_mem]
      intro o ho
      simpa using hids [] o ho
    rw [this]; rfl
  have hrows : ((Readers.Spec.chunks orb n).map fun b => readBack P (ephemeris E start idle v vs (left c cull ts b))) =
      (Readers.Spec.chunks orb n).map fun b => ephemeris E start idle v vs (left c cull ts b) := by
    apply List.map_congr_left
    intro b hb
    have hp := left_part c cull ts (hchunk b hb).1 (hchunk b hb).2
    apply readBack_stable
    refine Readers.Stable.sub (stable_part hcons.stable hp) fun s hs => ?_
    obtain ⟨o, ho, rfl⟩ := List.mem_map.1 hs
    exact hids _ o ho
  set rows : List (Pointing.Obs G) := ((Readers.Spec.chunks orb n).map fun b => ephemeris E start idle v vs (left c cull ts b)).flatten with hrowsdef
  set eph : List (Readers.Rec C) := rows.map fun o => ⟨o.obj, render o⟩ with heph
  have hfe : Readers.Spec.Holds fe eph := by
    refine ⟨0, by omega, ?_⟩
    have := file_holds render (fun b => readBack P (ephemeris E start idle v vs b)) hempty _ hfile
    rw [this]
    simp only [List.replicate_zero, List.nil_append, heph, hrowsdef]
    rw [← hrows]
    congr 4
    exact List.map_map
  have hrid : ∀ o ∈ rows, o.obj ∈ orb.map (·.id) := by
    intro o ho
    obtain ⟨l, hl, hol⟩ := List.mem_flatten.1 ho
    obtain ⟨b, hb, rfl⟩ := List.mem_map.1 hl
    have hp := left_part c cull ts (hchunk b hb).1 (hchunk b hb).2
    obtain ⟨r, hr, e⟩ := List.mem_map.1 (hids _ o hol)
    rw [← e]; exact hp.2 r hr
  have hse : Readers.Spec.StableIds P eph := by
    refine Readers.Stable.sub hcons.stable fun s hs => ?_
    obtain ⟨r, hr, rfl⟩ := List.mem_map.1 hs
    obtain ⟨o, ho, rfl⟩ := List.mem_map.1 hr
    exact hrid o ho
  rw [runExternal_eq s' hcons hfe hse inp' h1' hf']
  obtain ⟨b1, b2⟩ := external_split parse hcons eph h1'
  -- what an object has in the file
  have hown : ∀ r ∈ orb, rows.filter (fun o => o.obj = r.id) = ephemeris E start idle v vs (left c cull ts [r]) := by
    intro r hr
    have hf1 : ∀ b ∈ Readers.Spec.chunks orb n, ∀ id, own id (ephemeris E start idle v vs (left c cull ts b)) =
        if id ∈ b.map (·.id) then ephemeris E start idle v vs (left c cull ts (orb.filter fun r => r.id = id)) else [] := by
      intro b hb id
      unfold own
      rw [C61_alone hi, left_filter]
      by_cases hx : id ∈ b.map (·.id)
      · rw [if_pos hx]
        obtain ⟨y, hy, rfl⟩ := List.mem_map.1 hx
        rw [filter_single (hchunk b hb).1 hy, filter_single hcons.unique ((hchunk b hb).2 y hy)]
      · rw [if_neg hx, filter_none hx, List.eq_nil_iff_forall_not_mem]
        intro o ho
        simpa [left] using hids _ o ho
    have := (own_blocks (·.id) (fun b => ephemeris E start idle v vs (left c cull ts b)) (fun id => ephemeris E start idle v vs (left c cull ts (orb.filter fun r => r.id = id)))
      (Readers.Spec.chunks orb n) (by rw [hflat]; exact hcons.unique) hf1).1 r.id
    rw [hflat, if_pos (List.mem_map_of_mem hr), filter_single hcons.unique hr] at this
    exact this
  have hcells : ∀ (l : List (Readers.Rec C)), (l.map (·.id)).Nodup → ∀ r ∈ l, Readers.Spec.cellsOf l r.id = r.cells := by
    intro l hl r hr
    rw [← cellsOf_filter, filter_single hl hr]
    simp [Readers.Spec.cellsOf]
  obtain ⟨outs', e1, e2⟩ := rounds_same hr s s' a2 b2 (generated_once c cull hcons hnone halone honce h1) (fun id => by
    rw [a1, b1]
    by_cases hid : id ∈ orb.map (·.id)
    · rw [if_pos hid, if_pos hid]
      obtain ⟨r, hr, rfl⟩ := List.mem_map.1 hid
      rw [filter_single hcons.unique hr]
      have hp : PartOf orb (left c cull ts [r]) := left_part c cull ts (by simp) (by simpa using hr)
      rw [C61_joined hi start idle missing v vs (stable_part hcons.stable hp) hp.1, ← hown r hr]
      unfold own
      rw [heph, List.map_map, List.filter_map]
      have ecomp : ((fun o : Pointing.Obs (G × List C) => decide (o.obj = r.id)) ∘ ((fun r => toObs parse (Readers.Spec.extend (orb :: ts) r)) ∘
          fun o : Pointing.Obs G => (⟨o.obj, render o⟩ : Readers.Rec C))) = fun o => decide (o.obj = r.id) := rfl
      rw [ecomp]
      apply List.map_congr_left
      intro o ho
      have hoid : o.obj = r.id := by simpa using (List.mem_filter.1 ho).2
      have hmem : o ∈ ephemeris E start idle v vs (left c cull ts [r]) := by rw [← hown r hr]; exact ho
      have hl : left c cull ts [r] = [Readers.Spec.extend ts r] := by
        have := hids _ o hmem
        unfold left at this ⊢
        rw [List.map_cons, List.map_nil] at this ⊢
        by_cases hk : (c.expert.bruteForce || !cull (Readers.Spec.extend ts r)) = true
        · simp only [List.filter_cons, hk, if_true, List.filter_nil]
        · simp [List.filter_cons, hk] at this
      rw [hl]
      simp only [Function.comp_apply, toObs, Readers.Spec.extend, hparse, List.flatMap_cons]
      have e3 : Readers.Spec.cellsOf orb o.obj = r.cells := by rw [hoid]; exact hcells orb hcons.unique r hr
      have e4 : Readers.Spec.cellsOf [(⟨r.id, r.cells ++ ts.flatMap fun t => Readers.Spec.cellsOf t r.id⟩ : Readers.Rec C)] o.obj =
          r.cells ++ ts.flatMap fun t => Readers.Spec.cellsOf t r.id := by
        rw [hoid]; simp [Readers.Spec.cellsOf]
      rw [e3, e4, hoid]
    · rw [if_neg hid, if_neg hid]) h
  exact ⟨outs', by rw [e1], e2⟩

/-! ## A small instance: the objects and visits of `Examples.lean`, no linking -/

def exQ : Pipeline.Env Unit (ℚ × List ℚ) ℚ where
  db := exV :: exVs
  measure p := some ⟨.fin 21, .fin (-1/10), .fin 10, .fin 1, .fin 0, .fin 0, .fin 1, .fin 1, p.1.rest.1, 3⟩
  noise _ _ _ r := (r.trailedSourceMag, r.psfMag, r.rest.ra, r.rest.dec)
  gen := ⟨fun _ => (), fun _ => (1/2, ())⟩
  md5 := fun s => s.length
  sep _ := .fin 1
  detectors := []
  sortIndex := id
  prob _ _ _ := .fin 1
  linkSep a b c d := |a - c| + |b - d|
  sortT l := l.insertionSort fun a b => a.mjd ≤ b.mjd
  sortOut l := l.insertionSort fun a b => a.row.obs.mjd ≤ b.row.obs.mjd
  weights _ _ i := 2 ^ i
  draws _ _ := 1/2

def exC : Config.Cfg := { Pipeline.Props.exCfg with linking := { Pipeline.Props.exCfg.linking with ssp := none } }

theorem exQ_regular : Regular exQ exC where
  det := ⟨rfl, rfl, fun fill radius h => by cases h; exact .inl rfl⟩
  visits := by decide
  sortIndex l := List.Perm.refl _
  sortOut l := ⟨List.perm_insertionSort _ l, List.pairwise_insertionSort (fun a b : Linking.OutRow (Row (ℚ × List ℚ) ℚ) => a.row.obs.mjd ≤ b.row.obs.mjd) l⟩
  sortT l := ⟨List.perm_insertionSort _ l, List.pairwise_insertionSort (fun a b : Linking.Obs => a.mjd ≤ b.mjd) l⟩
  weights _ _ m := Linking.generic_two_pow m
  window ssp h := by cases h

def exRender (o : Pointing.Obs ℚ) : List ℚ := [o.field, o.mjd, o.rest]
def exParse (l : List ℚ) : ℕ × ℚ × (ℚ × List ℚ) := ((l.headD 0).num.toNat, (l.drop 1).headD 0, ((l.drop 2).headD 0, l.drop 3))
def exFile (l : List (Readers.Rec ℚ)) : List (Readers.Line ℚ) := .header :: l.map .data
def exTs : List (List (Readers.Rec ℚ)) := [[⟨"B", [7]⟩, ⟨"A", [8]⟩]]

example : exQ.db = exV :: exVs ∧ ((exV :: exVs).map (·.mid)).Nodup ∧ ∀ o xs, exParse (exRender o ++ xs) = (o.field, o.mjd, (o.rest, xs)) :=
  ⟨rfl, by decide +kernel, fun o xs => by simp [exParse, exRender]⟩

example : Readers.Props.Consistent exIds (exFile exObjs) exObjs (exTs.map exFile) exTs where
  orbit := ⟨0, by omega, rfl⟩
  stable := Readers.Stable.plain (by decide +kernel)
  unique := by decide
  some_aux := by simp [exTs]
  aux := .cons ⟨⟨0, by omega, rfl⟩, Readers.Stable.plain (by decide +kernel)⟩ .nil
  same := by
    intro t ht
    rw [List.mem_singleton.1 ht]
    decide

/-- Objects, visits and orbit columns of the output. -/
def exOut (r : Option (Except Pipeline.Err (List (List (Final (ℚ × List ℚ) ℚ))))) : Option (List (String × ℕ × List ℚ)) :=
  (r.bind (·.toOption)).map fun outs => outs.flatten.map fun f => (f.row.objId, f.row.rest.src.2.id, f.row.rest.src.1.rest.2)

example : exOut (runGenerated exQ exC ⟨⟨0, []⟩, 0, 0⟩ (fun _ => false) (generate (exE 1 (1/2)) exStart (0, 0, 0) exIds [] exV exVs) exIds [] (exFile exObjs)
    (exTs.map exFile) 2) = some [("A", 1, [10, 1, 8]), ("A", 3, [10, 1, 8]), ("B", 2, [20, -1, 7])] := by decide +kernel

/-- The file of ephemerides of the run with one object at a time, and the run that reads it. -/
def exEphFile : List (Readers.Line ℚ) := exFile [⟨"A", [1, 60000, 10]⟩, ⟨"A", [3, 60002 + 1/2, 12 + 1/2]⟩, ⟨"B", [2, 60000 + 1/2, 20 - 1/2]⟩]

example : ephemerisFile (exE 1 (1/2)) exStart (0, 0, 0) exIds exRender exV exVs ((Readers.Spec.chunks exObjs 1).map fun b =>
    (b.map (Readers.Spec.extend exTs)).filter fun _ => true) = some exEphFile := by decide +kernel

example : exOut (runExternal exQ { exC with input := { exC.input with chunk := 2 } } ⟨⟨0, []⟩, 0, 0⟩ exParse exIds [] exEphFile (exFile exObjs) (exTs.map exFile) 1) =
    some [("A", 1, [10, 1, 8]), ("A", 3, [10, 1, 8]), ("B", 2, [20, -1, 7])] := by decide +kernel

end Sorcha.Driver.Props
