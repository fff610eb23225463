import Verif.Pipeline.Split

/-! # C16: the chunk size does not matter; the value returned to a caller -/

namespace Sorcha.Pipeline.Props
open Sorcha.Pipeline.Spec Sorcha.Filters.Spec Sorcha.Filters

variable {G W V C : Type}

/-- C16 (blocks): two ways to cut the same observations into blocks, each object being in one block only, give the same output rows; if the run over the one succeeds,
so does the run over the other. -/
theorem C16_blocks {E : Env G W V} {c : Config.Cfg} (hr : Regular E c) (s s' : State G) {A B : List (List (Pointing.Obs W))} (hA : Whole A) (hB : Whole B)
    (ho : OncePerTime A.flatten) (hAB : ∀ id, (A.flatten.filter fun o => o.obj = id) = B.flatten.filter fun o => o.obj = id)
    {outs : List (List (Final W V))} (h : rounds E c s A = .ok outs) :
    ∃ outs', rounds E c s' B = .ok outs' ∧ outs.flatten.Perm outs'.flatten :=
  rounds_same hr s s' hA hB ho hAB h

/-- C16 (external ephemerides): for any two chunk sizes the run writes the same rows; if it succeeds with one it succeeds with the other. -/
theorem C16_external {E : Env G W V} {c : Config.Cfg} (hr : Regular E c) (s s' : State G) {parse : List C → ℕ × ℚ × W} {P : Readers.IdParse} {missing : List C}
    {fe fo : List (Readers.Line C)} {eph orb : List (Readers.Rec C)} {fs : List (List (Readers.Line C))} {ts : List (List (Readers.Rec C))}
    (hcons : Readers.Props.Consistent P fo orb fs ts) (he : Readers.Spec.Holds fe eph) (hse : Readers.Spec.StableIds P eph)
    (ho : OncePerTime (eph.map fun r => toObs parse (Readers.Spec.extend (orb :: ts) r)))
    (n n' : ℕ) (h1 : 1 ≤ n) (h1' : 1 ≤ n') (fuel fuel' : ℕ) (hf : (orb.length + n - 1) / n ≤ fuel) (hf' : (orb.length + n' - 1) / n' ≤ fuel')
    {outs : List (List (Final W V))}
    (h : runExternal E { c with input := { c.input with chunk := n } } s parse P missing fe fo fs fuel = some (.ok outs)) :
    ∃ outs', runExternal E { c with input := { c.input with chunk := n' } } s' parse P missing fe fo fs fuel' = some (.ok outs') ∧
      outs.flatten.Perm outs'.flatten := by
  rw [runExternal_eq s hcons he hse c.input h1 hf, Option.some.injEq] at h
  have ho' : OncePerTime (externalBlocks parse orb ts eph n).flatten := by
    have hmem : ∀ o ∈ (externalBlocks parse orb ts eph n).flatten, o ∈ eph.map fun r => toObs parse (Readers.Spec.extend (orb :: ts) r) := by
      intro o hmem
      have : o ∈ own o.obj _ := mem_own.2 ⟨hmem, rfl⟩
      rw [(external_split parse hcons eph h1).1] at this
      by_cases hi : o.obj ∈ orb.map (·.id)
      · rw [if_pos hi] at this; exact (mem_own.1 this).1
      · rw [if_neg hi] at this; simp at this
    exact fun o h1 o' h2 => ho o (hmem o h1) o' (hmem o' h2)
  obtain ⟨outs', e1, e2⟩ := rounds_same hr s s' (external_split parse hcons eph h1).2 (external_split parse hcons eph h1').2 ho'
    (fun id => by rw [(external_split parse hcons eph h1).1, (external_split parse hcons eph h1').1]) h
  exact ⟨outs', by rw [runExternal_eq s' hcons he hse c.input h1' hf', e1], e2⟩

/-- C16 (generated ephemerides): the same, if the observations generated for a set of objects are those generated for each of them alone. -/
theorem C16_generated {E : Env G W V} {c : Config.Cfg} (hr : Regular E c) (s s' : State G) {cull : Readers.Rec C → Bool}
    {ephem : List (Readers.Rec C) → List (Pointing.Obs W)} {P : Readers.IdParse} {missing : List C} {fo : List (Readers.Line C)}
    {orb : List (Readers.Rec C)} {fs : List (List (Readers.Line C))} {ts : List (List (Readers.Rec C))} (hcons : Readers.Props.Consistent P fo orb fs ts)
    (hnone : ephem [] = []) (halone : ∀ objs, PartOf orb objs → ∀ id, ((ephem objs).filter fun o => o.obj = id) = ephem (objs.filter fun r => r.id = id))
    (ho : ∀ objs, PartOf orb objs → OncePerTime (ephem objs))
    (n n' : ℕ) (h1 : 1 ≤ n) (h1' : 1 ≤ n') (fuel fuel' : ℕ) (hf : (orb.length + n - 1) / n ≤ fuel) (hf' : (orb.length + n' - 1) / n' ≤ fuel')
    {outs : List (List (Final W V))}
    (h : runGenerated E { c with input := { c.input with chunk := n } } s cull ephem P missing fo fs fuel = some (.ok outs)) :
    ∃ outs', runGenerated E { c with input := { c.input with chunk := n' } } s' cull ephem P missing fo fs fuel' = some (.ok outs') ∧
      outs.flatten.Perm outs'.flatten := by
  rw [runGenerated_eq s hcons hnone c.input h1 hf, Option.some.injEq] at h
  obtain ⟨outs', e1, e2⟩ := rounds_same hr s s' (generated_split c cull hcons hnone halone h1).2 (generated_split c cull hcons hnone halone h1').2
    (generated_once c cull hcons hnone halone ho h1) (fun id => by rw [(generated_split c cull hcons hnone halone h1).1, (generated_split c cull hcons hnone halone h1').1]) h
  exact ⟨outs', by rw [runGenerated_eq s' hcons hnone c.input h1' hf', e1], e2⟩

/-- C60: a caller that asks for the rows instead of a file gets all rows of all rounds in order, each as it would have been written, provided there are any. -/
theorem C60_returned {E : Env G W V} {c : Config.Cfg} {s : State G} {blocks : List (List (Pointing.Obs W))} {outs : List (List (Final W V))}
    (h : rounds E c s blocks = .ok outs) (hne : outs.flatten ≠ []) : returned outs = some outs.flatten := by
  unfold returned
  rw [if_neg]
  intro h0
  rw [List.length_eq_zero_iff.1 h0] at hne
  exact hne rfl

/-- C60 fails without rows: if no row survives, the call raises, although a run that writes files succeeds. -/
theorem C60_empty_fails {E : Env G W V} {c : Config.Cfg} {s : State G} {blocks : List (List (Pointing.Obs W))} {outs : List (List (Final W V))}
    (h : rounds E c s blocks = .ok outs) (hne : outs.flatten = []) : returned outs = none := by
  have : outs = [] := by
    cases outs with
    | nil => rfl
    | cons o os =>
      have h1 := (C11_rounds h o (by simp)).1
      rw [List.flatten_cons, List.append_eq_nil_iff] at hne
      exact absurd hne.1 h1
  rw [this]; rfl

/-! ## A small run -/

/-- Two visits of one night and one of the next; object A is seen twice in the first night, B once in it, C is outside the field. -/
def exDb : List (Pointing.Visit Unit) := [⟨1, "r", 60000 + 1/4, 60000 + 1/4, 30, 30, none, none, ()⟩, ⟨2, "g", 60000 + 7/25, 60000 + 7/25, 30, 30, none, none, ()⟩,
  ⟨3, "r", 60001 + 1/4, 60001 + 1/4, 30, 30, none, none, ()⟩]

def exSortOut (l : List (Linking.OutRow (Row Unit Unit))) : List (Linking.OutRow (Row Unit Unit)) :=
  l.insertionSort fun a b => a.row.obs.mjd ≤ b.row.obs.mjd

def exEnv : Env Unit Unit Unit where
  db := exDb
  measure p := some ⟨.fin (if p.1.obj = "D" then 15 else 21), .fin (-1/10), .fin 10, .fin 1, .fin 0, .fin 0, .fin 1, .fin 1, (p.1.mjd - 60000) * 10, 3⟩
  noise _ _ _ r := (r.trailedSourceMag, r.psfMag, r.rest.ra, r.rest.dec)
  gen := ⟨fun _ => (), fun _ => (1/2, ())⟩
  md5 := fun s => s.length
  sep r := .fin (if r.objId = "C" then 3 else 1)
  detectors := []
  sortIndex := id
  prob _ _ _ := .fin 1
  linkSep a b c d := |a - c| + |b - d|
  sortT l := l.insertionSort fun a b => a.mjd ≤ b.mjd
  sortOut := exSortOut
  weights _ _ i := 2 ^ i
  draws _ _ := 1/2

def exCfg : Config.Cfg where
  input := ⟨"external", "csv", 1, "csv", ""⟩
  simulation := none
  filters := ["r", "g"]
  saturation := ⟨.bool true, some [.fin 16, .fin 16]⟩
  phase := "HG"
  fov := .circle none (some (.fin 2))
  fading := .off
  linking := ⟨some ⟨.fin 1, 2, .fin 1, .fin 1, 1, 15, .fin 16⟩, true, .unset, .unset, none, .unset, none⟩
  output := ⟨"csv", .named "basic", none, none⟩
  lightcurve := none
  activity := none
  expert := ⟨some (.fin 5), none, false, false, .bool false, .bool false, .bool true⟩

def exObs : List (Pointing.Obs Unit) := [⟨"A", 1, 60000 + 1/4, ()⟩, ⟨"A", 2, 60000 + 7/25, ()⟩, ⟨"B", 1, 60000 + 1/4, ()⟩, ⟨"C", 1, 60000 + 1/4, ()⟩, ⟨"C", 2, 60000 + 7/25, ()⟩,
  ⟨"D", 1, 60000 + 1/4, ()⟩, ⟨"D", 2, 60000 + 7/25, ()⟩, ⟨"A", 3, 60001 + 1/4, ()⟩]

def exState : State Unit := ⟨⟨0, []⟩, 0, 0⟩

/-- What is looked at below: object, visit and verdict of the rows. -/
def exSummary (r : Except Err (List (List (Final Unit Unit)))) : Option (List (String × ℕ × Option ℤ)) :=
  r.toOption.map fun outs => outs.flatten.map fun f => (f.row.objId, f.row.rest.src.2.id, f.link.bind (·.2))

/-- The run over one block, over one object at a time, and with unlinked objects kept. -/
example : exSummary (rounds exEnv exCfg exState [exObs]) =
    some [("A", 1, some 59999), ("A", 2, some 59999), ("A", 3, some 59999)] := by decide +kernel

example : exSummary (rounds exEnv exCfg exState [exObs.filter fun o => o.obj = "B", exObs.filter fun o => o.obj = "A"]) =
    some [("A", 1, some 59999), ("A", 2, some 59999), ("A", 3, some 59999)] := by decide +kernel

example : exSummary (rounds exEnv { exCfg with linking := { exCfg.linking with dropUnlinked := false } } exState [exObs]) =
    some [("A", 1, some 59999), ("B", 1, none), ("A", 2, some 59999), ("A", 3, some 59999)] := by decide +kernel

theorem exEnv_sortsOut : SortsOut exEnv := fun l => ⟨List.perm_insertionSort _ l, by
  have := List.pairwise_insertionSort (fun a b : Linking.OutRow (Row Unit Unit) => a.row.obs.mjd ≤ b.row.obs.mjd) l
  exact this⟩

theorem exRegular : Regular exEnv exCfg where
  det := ⟨rfl, rfl, fun fill radius h => by cases h; exact .inl rfl⟩
  visits := by decide
  sortIndex l := List.Perm.refl _
  sortOut := exEnv_sortsOut
  sortT l := ⟨List.perm_insertionSort _ l, List.pairwise_insertionSort (fun a b : Linking.Obs => a.mjd ≤ b.mjd) l⟩
  weights _ _ m := Linking.generic_two_pow m
  window ssp h := by cases h; decide

example : Whole [exObs] ∧ Whole [exObs.filter fun o => o.obj ≠ "A", exObs.filter fun o => o.obj = "A"] ∧ OncePerTime ([exObs] : List _).flatten ∧
    ∀ id, (([exObs] : List _).flatten.filter fun o => o.obj = id) =
      ([exObs.filter fun o => o.obj ≠ "A", exObs.filter fun o => o.obj = "A"] : List _).flatten.filter fun o => o.obj = id := by
  refine ⟨by unfold Whole; decide +kernel, by unfold Whole; decide +kernel, by unfold OncePerTime; decide +kernel, ?_⟩
  intro id
  by_cases h : id = "A"
  · subst h; decide +kernel
  · have h1 : (exObs.filter fun o => decide (o.obj = id) && decide (o.obj ≠ "A")) = exObs.filter fun o => o.obj = id := by
      apply List.filter_congr
      intro o _
      by_cases ho : o.obj = id
      · simp [ho, h]
      · simp [ho]
    have h2 : (exObs.filter fun o => decide (o.obj = id) && decide (o.obj = "A")) = [] := by
      rw [List.filter_eq_nil_iff]
      intro o _
      by_cases ho : o.obj = id
      · simp [ho, h]
      · simp [ho]
    simp only [List.flatten_cons, List.flatten_nil, List.append_nil, List.filter_append, List.filter_filter]
    rw [h1, h2, List.append_nil]

/-- The hypotheses of the theorems of `Props.lean`: the sorts, efficiency one, draws below one, positive weights, and a run that succeeds. -/
example : (∀ l, (exEnv.sortIndex l).Perm l) ∧ SortsOut exEnv ∧ Linking.Spec.Sorts exEnv.sortT ∧ Linking.Spec.UnitDraws exEnv.draws ∧
    (∀ k id i, 0 < exEnv.weights k id i) ∧ (process exEnv exCfg exState exObs).toBool = true :=
  ⟨exRegular.sortIndex, exRegular.sortOut, exRegular.sortT, fun _ _ => by constructor <;> simp only [exEnv] <;> norm_num,
    fun _ _ i => by simp only [exEnv]; positivity, by decide +kernel⟩

/-- Noise that marks its columns, with and without trailing losses: the hypotheses of `C11_noise` and what the rows then hold. -/
example : ((process { exEnv with noise := fun _ n i r => (.fin (17 + i), r.psfMag, n, r.rest.dec + 1) }
      { exCfg with expert := { exCfg.expert with randomization := .bool true }, linking := { exCfg.linking with ssp := none } } exState (exObs.take 3)).toOption.map
      fun x => x.1.map fun f => (f.row.trailedSourceMag, f.row.psfMag, f.row.rest.ra, f.row.rest.dec)) =
    some [(.fin 17, .fin (209/10), 3, 4), (.fin 18, .fin (209/10), 3, 4), (.fin 19, .fin (209/10), 3, 4)] := by decide +kernel

example : ((process { exEnv with noise := fun _ n i r => (.fin (17 + i), r.psfMag, n, r.rest.dec + 1) }
      { exCfg with expert := { exCfg.expert with randomization := .bool true, trailing := .bool false }, linking := { exCfg.linking with ssp := none } } exState
      (exObs.take 2)).toOption.map fun x => x.1.map fun f => (f.row.trailedSourceMag, f.row.psfMag)) =
    some [(.fin 17, .fin 17), (.fin 18, .fin 18)] := by decide +kernel

/-- With a camera of two detectors, of which the first has all rows but those of B and the second those of A: A's rows appear for both. -/
example : exSummary (rounds { exEnv with detectors := [fun r => r.objId ≠ "B", fun r => r.objId = "A"] }
    { exCfg with fov := .footprint none none, linking := { exCfg.linking with ssp := none } } exState [exObs.take 4]) =
    some [("A", 1, none), ("A", 2, none), ("C", 1, none), ("A", 1, none), ("A", 2, none)] := by decide +kernel

/-! Files: the cells of the ephemeris file are field and time. -/

def exEph : List (Readers.Rec ℚ) := [⟨"A", [1, 60000 + 1/4]⟩, ⟨"B", [1, 60000 + 1/4]⟩, ⟨"A", [2, 60000 + 7/25]⟩]
def exOrb : List (Readers.Rec ℚ) := [⟨"A", [1]⟩, ⟨"B", [2]⟩]
def exParse (cells : List ℚ) : ℕ × ℚ × Unit := (cells.headD 0 |>.num.toNat, cells.tail.headD 0, ())
def exFile (l : List (Readers.Rec ℚ)) : List (Readers.Line ℚ) := .header :: l.map .data
def exIds : Readers.IdParse := ⟨fun _ => false, fun _ => none, fun _ => none, fun _ => none⟩

theorem exConsistent : Readers.Props.Consistent exIds (exFile exOrb) exOrb [exFile exOrb] [exOrb] where
  orbit := ⟨0, by omega, rfl⟩
  stable := Readers.Stable.plain fun _ _ => ⟨rfl, rfl, rfl, rfl⟩
  unique := by decide
  some_aux := by simp
  aux := .cons ⟨⟨0, by omega, rfl⟩, Readers.Stable.plain fun _ _ => ⟨rfl, rfl, rfl, rfl⟩⟩ .nil
  same := by intro t ht; rw [List.mem_singleton.1 ht]

example : Readers.Spec.Holds (exFile exEph) exEph ∧ Readers.Spec.StableIds exIds exEph ∧
    OncePerTime (exEph.map fun r => toObs exParse (Readers.Spec.extend [exOrb, exOrb] r)) :=
  ⟨⟨0, by omega, rfl⟩, (Readers.Stable.plain fun _ _ => ⟨rfl, rfl, rfl, rfl⟩), by unfold OncePerTime; decide +kernel⟩

/-- Chunk sizes one and two. -/
example : ((runExternal exEnv exCfg exState exParse exIds [] (exFile exEph) (exFile exOrb) [exFile exOrb] 2).bind exSummary) =
    some [("A", 1, some 59999), ("A", 2, some 59999)] := by decide +kernel

example : ((runExternal exEnv { exCfg with input := { exCfg.input with chunk := 2 } } exState exParse exIds [] (exFile exEph) (exFile exOrb) [exFile exOrb] 1).bind
    exSummary) = some [("A", 1, some 59999), ("A", 2, some 59999)] := by decide +kernel

/-- Generated: each object is seen in visits 1 and 2. -/
def exEphem (objs : List (Readers.Rec ℚ)) : List (Pointing.Obs Unit) :=
  objs.flatMap fun r => [⟨r.id, 1, 60000 + 1/4, ()⟩, ⟨r.id, 2, 60000 + 7/25, ()⟩]

example : exEphem [] = [] ∧ (∀ objs id, ((exEphem objs).filter fun o => o.obj = id) = exEphem (objs.filter fun r => r.id = id)) ∧
    ∀ objs, OncePerTime (exEphem objs) := by
  refine ⟨rfl, ?_, ?_⟩
  · intro objs id
    induction objs with
    | nil => rfl
    | cons r l ih =>
      unfold exEphem at ih ⊢
      rw [List.flatMap_cons, List.filter_append, ih]
      by_cases h : r.id = id
      · simp [h]
      · simp [h]
  · intro objs o h o' h' hid ht
    obtain ⟨r, -, hr⟩ := List.mem_flatMap.1 h
    obtain ⟨r', -, hr'⟩ := List.mem_flatMap.1 h'
    simp only [List.mem_cons, List.not_mem_nil, or_false] at hr hr'
    rcases hr with rfl | rfl <;> rcases hr' with rfl | rfl <;> simp only at hid ht <;> first | (exfalso; norm_num at ht; done) | (rw [hid])

example : ((runGenerated exEnv exCfg exState (fun r => r.id = "A") exEphem exIds [] (exFile exOrb) [exFile exOrb] 2).bind exSummary) =
    some [("B", 1, some 59999), ("B", 2, some 59999)] := by decide +kernel

/-- A run that drops everything: nothing to return. -/
example : (rounds exEnv { exCfg with expert := { exCfg.expert with snrLimit := some (.fin 50) } } exState [exObs]).toOption = some [] := by decide +kernel

end Sorcha.Pipeline.Props
