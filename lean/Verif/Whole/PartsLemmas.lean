import Verif.Whole.SpecParts
import Verif.Whole.Props6
import Verif.Whole.DesProps

/-!
# One population in several runs: lemmas
-/

namespace Sorcha.Whole.Props

open Sorcha.Csv (Str)
open Sorcha.Readers (Rec)
open Sorcha.History (Disk Chunk)
open Sorcha.Output (Cell)
open Sorcha.Pipeline (own)
open Sorcha.Whole.Spec (Run sized)

variable {G W V : Type}

/-! ## Rounds one after the other -/

theorem whole_append {A B : List (List (Pointing.Obs W))} (h : Pipeline.Spec.Whole (A ++ B)) : Pipeline.Spec.Whole A ∧ Pipeline.Spec.Whole B :=
  ⟨(List.pairwise_append.1 h).1, (List.pairwise_append.1 h).2.1⟩

theorem once_sub {l m : List (Pointing.Obs W)} (h : Pipeline.Spec.OncePerTime m) (hs : ∀ o ∈ l, o ∈ m) : Pipeline.Spec.OncePerTime l :=
  fun o h1 o' h2 => h o (hs o h1) o' (hs o' h2)

theorem rounds_cat {E : Pipeline.Env G W V} {c : Config.Cfg} (hS : Pipeline.Spec.Regular E c) {s' : Pipeline.State G} {B : List (List (Pointing.Obs W))} {outs'}
    (h' : Pipeline.rounds E c s' B = .ok outs') (hB : Pipeline.Spec.Whole B) (hoB : Pipeline.Spec.OncePerTime B.flatten) :
    ∀ (A : List (List (Pointing.Obs W))) (s : Pipeline.State G) (outs : List (List (Pipeline.Final W V))), Pipeline.rounds E c s A = .ok outs →
      ∃ z, Pipeline.rounds E c s (A ++ B) = .ok z ∧ z.flatten.Perm (outs.flatten ++ outs'.flatten) := by
  intro A
  induction A with
  | nil =>
    intro s outs h
    cases h
    obtain ⟨z, h1, h2⟩ := Pipeline.rounds_same hS s' s hB hB hoB (fun _ => rfl) h'
    exact ⟨z, h1, h2.symm⟩
  | cons b A ih =>
    intro s outs h
    rw [List.cons_append]
    simp only [Pipeline.rounds] at h ⊢
    cases hp : Pipeline.process E c s b with
    | error e => rw [hp] at h; cases h
    | ok x =>
      obtain ⟨out, s1⟩ := x
      rw [hp] at h
      cases hr : Pipeline.rounds E c s1 A with
      | error e =>
        simp only [hr, bind, Except.bind] at h
        cases h
      | ok outs1 =>
        simp only [hr, bind, Except.bind, pure, Except.pure] at h
        cases h
        obtain ⟨z, h1, h2⟩ := ih s1 outs1 hr
        simp only [h1, bind, Except.bind, pure, Except.pure]
        refine ⟨_, rfl, ?_⟩
        split_ifs
        · simp only [List.flatten_cons, List.append_assoc]
          exact h2.append_left _
        · exact h2

theorem rounds_parts {P : Type} {E : Pipeline.Env G W V} {c : Config.Cfg} (hS : Pipeline.Spec.Regular E c) (blocks : P → List (List (Pointing.Obs W)))
    (state : P → Pipeline.State G) (outs : P → List (List (Pipeline.Final W V))) (s : Pipeline.State G) : ∀ l : List P,
    (∀ p ∈ l, Pipeline.rounds E c (state p) (blocks p) = .ok (outs p)) → Pipeline.Spec.Whole (l.flatMap blocks) →
    Pipeline.Spec.OncePerTime (l.flatMap blocks).flatten → ∃ z, Pipeline.rounds E c s (l.flatMap blocks) = .ok z ∧ z.flatten.Perm (l.flatMap outs).flatten := by
  suffices H : ∀ l : List P, (∀ p ∈ l, Pipeline.rounds E c (state p) (blocks p) = .ok (outs p)) → Pipeline.Spec.Whole (l.flatMap blocks) →
      Pipeline.Spec.OncePerTime (l.flatMap blocks).flatten → ∀ s, ∃ z, Pipeline.rounds E c s (l.flatMap blocks) = .ok z ∧ z.flatten.Perm (l.flatMap outs).flatten from
    fun l h1 h2 h3 => H l h1 h2 h3 s
  intro l
  induction l with
  | nil => intro _ _ _ s; exact ⟨[], rfl, List.Perm.refl _⟩
  | cons p l ih =>
    intro h hw ho s
    simp only [List.flatMap_cons] at hw ho ⊢
    obtain ⟨hw1, hw2⟩ := whole_append hw
    have ho2 : Pipeline.Spec.OncePerTime (l.flatMap blocks).flatten := once_sub ho fun o h => by rw [List.flatten_append]; exact List.mem_append_right _ h
    have ho1 : Pipeline.Spec.OncePerTime (blocks p).flatten := once_sub ho fun o h => by rw [List.flatten_append]; exact List.mem_append_left _ h
    obtain ⟨z, h1, h2⟩ := ih (fun q hq => h q (List.mem_cons_of_mem _ hq)) hw2 ho2 s
    obtain ⟨y, g1, g2⟩ := Pipeline.rounds_same hS (state p) s hw1 hw1 ho1 (fun _ => rfl) (h p (List.mem_cons_self ..))
    obtain ⟨x, k1, k2⟩ := rounds_cat hS h1 hw2 ho2 _ s y g1
    refine ⟨x, k1, k2.trans ?_⟩
    rw [List.flatten_append]
    exact g2.symm.append h2

/-! ## Observations of the parts -/

theorem own_parts {P : Type} (ids : P → List String) (F : P → List (Pointing.Obs W)) (X : String → List (Pointing.Obs W)) (l : List P) (hn : (l.flatMap ids).Nodup)
    (hF : ∀ p ∈ l, ∀ id, own id (F p) = if id ∈ ids p then X id else []) :
    (∀ id, own id (l.flatMap F) = if id ∈ l.flatMap ids then X id else []) ∧ l.Pairwise fun p q => ∀ o ∈ F p, ∀ o' ∈ F q, o.obj ≠ o'.obj := by
  have hmem : ∀ p ∈ l, ∀ o ∈ F p, o.obj ∈ ids p := by
    intro p hp o ho
    by_contra h0
    have h1 := hF p hp o.obj
    rw [if_neg h0] at h1
    have h2 : o ∈ own o.obj (F p) := Pipeline.mem_own.2 ⟨ho, rfl⟩
    rw [h1] at h2
    cases h2
  induction l with
  | nil => exact ⟨fun id => rfl, .nil⟩
  | cons p l ih =>
    rw [List.flatMap_cons, List.nodup_append] at hn
    obtain ⟨i1, i2⟩ := ih hn.2.1 (fun q hq => hF q (List.mem_cons_of_mem _ hq)) (fun q hq => hmem q (List.mem_cons_of_mem _ hq))
    refine ⟨?_, List.pairwise_cons.2 ⟨?_, i2⟩⟩
    · intro id
      rw [List.flatMap_cons, Pipeline.own_append, hF p (List.mem_cons_self ..), i1, List.flatMap_cons]
      by_cases h1 : id ∈ ids p
      · rw [if_pos h1, if_pos (List.mem_append_left _ h1), if_neg (fun h2 => hn.2.2 _ h1 _ h2 rfl), List.append_nil]
      · rw [if_neg h1, List.nil_append]
        by_cases h2 : id ∈ l.flatMap ids
        · rw [if_pos h2, if_pos (List.mem_append_right _ h2)]
        · rw [if_neg h2, if_neg (fun h => (List.mem_append.1 h).elim h1 h2)]
    · intro q hq o ho o' ho' he
      exact hn.2.2 _ (hmem p (List.mem_cons_self ..) o ho) _ (List.mem_flatMap.2 ⟨q, hq, hmem q (List.mem_cons_of_mem _ hq) o' ho'⟩) he

theorem whole_parts {P : Type} (blocks : P → List (List (Pointing.Obs W))) (l : List P) (h : ∀ p ∈ l, Pipeline.Spec.Whole (blocks p))
    (hp : l.Pairwise fun p q => ∀ o ∈ (blocks p).flatten, ∀ o' ∈ (blocks q).flatten, o.obj ≠ o'.obj) : Pipeline.Spec.Whole (l.flatMap blocks) := by
  induction l with
  | nil => exact .nil
  | cons p l ih =>
    rw [List.flatMap_cons]
    obtain ⟨h1, h2⟩ := List.pairwise_cons.1 hp
    refine List.pairwise_append.2 ⟨h p (List.mem_cons_self ..), ih (fun q hq => h q (List.mem_cons_of_mem _ hq)) h2, ?_⟩
    intro b hb b' hb' o ho o' ho'
    obtain ⟨q, hq, hb'⟩ := List.mem_flatMap.1 hb'
    exact h1 q hq o (List.mem_flatten.2 ⟨b, hb, ho⟩) o' (List.mem_flatten.2 ⟨b', hb', ho'⟩)

/-! ## The tables of the parts -/

theorem find_sub {t t' : List (Rec Str)} (hs : ∀ x ∈ t, x ∈ t') (hn : (t'.map (·.id)).Nodup) {id : String} (hid : id ∈ t.map (·.id)) :
    (t.find? fun r => r.id = id) = t'.find? fun r => r.id = id := by
  obtain ⟨x, hx, rfl⟩ := List.mem_map.1 hid
  have key : ∀ l : List (Rec Str), (∀ y ∈ l, y ∈ t') → x ∈ l → (l.find? fun r => r.id = x.id) = some x := by
    intro l hl hxl
    cases hf : l.find? fun r => r.id = x.id with
    | none =>
      have := List.find?_eq_none.1 hf x hxl
      simp at this
    | some y =>
      have h1 : y.id = x.id := by simpa using List.find?_some hf
      rw [List.inj_on_of_nodup_map hn (hl y (List.mem_of_find?_eq_some hf)) (hs x hx) h1]
  rw [key t hs hx, key t' (fun y hy => hy) (hs x hx)]

theorem extend_sub {ts ts' : List (List (Rec Str))} (h : List.Forall₂ (fun t t' => ∀ x ∈ t, x ∈ t') ts ts') {id : String} (hn : ∀ t ∈ ts', (t.map (·.id)).Nodup)
    (hid : ∀ t ∈ ts, id ∈ t.map (·.id)) (r : Rec Str) (hr : r.id = id) : Readers.Spec.extend ts r = Readers.Spec.extend ts' r := by
  have : (ts.flatMap fun t => Readers.Spec.cellsOf t r.id) = ts'.flatMap fun t => Readers.Spec.cellsOf t r.id := by
    induction h with
    | nil => rfl
    | cons h1 _ ih =>
      rw [List.flatMap_cons, List.flatMap_cons, ih (fun t ht => hn t (List.mem_cons_of_mem _ ht)) (fun t ht => hid t (List.mem_cons_of_mem _ ht))]
      congr 1
      unfold Readers.Spec.cellsOf
      rw [hr, find_sub h1 (hn _ (List.mem_cons_self ..)) (hid _ (List.mem_cons_self ..))]
  unfold Readers.Spec.extend
  rw [this]

/-- The tables of a run have each of its objects once. -/
theorem objects_tables {P : Readers.IdParse} {d : Disk} {args : Cli.Args} {c : Config.Cfg} {orb : List (Rec Str)} {others : List (List (Rec Str))}
    (hin : Spec.Objects P d args c orb others) : ∀ t ∈ orb :: others, (t.map (·.id)).Nodup ∧ ∀ id, id ∈ t.map (·.id) ↔ id ∈ orb.map (·.id) := by
  intro t ht
  rcases List.mem_cons.1 ht with rfl | ht
  · exact ⟨hin.unique, fun _ => Iff.rfl⟩
  · exact ⟨(hin.same t ht).nodup_iff.2 hin.unique, fun id => (hin.same t ht).mem_iff⟩

/-- The given ephemerides of a part. -/
theorem external_part {parse : List Str → ℕ × ℚ × W} {P : Readers.IdParse} {d d' : Disk} {args args' : Cli.Args} {c c' : Config.Cfg} {orb orb' eph eph' : List (Rec Str)}
    {others others' : List (List (Rec Str))} (hin : Spec.Objects P d args c orb others) (hin' : Spec.Objects P d' args' c' orb' others')
    (hrows : List.Forall₂ (fun t t' => ∀ x ∈ t, x ∈ t') (orb :: others) (orb' :: others'))
    (he : ∀ id ∈ orb.map (·.id), (eph.filter fun r => r.id = id) = eph'.filter fun r => r.id = id) (id : String) :
    own id (Spec.observed parse eph orb others) = if id ∈ orb.map (·.id) then own id (Spec.observed parse eph' orb' others') else [] := by
  by_cases hid : id ∈ orb.map (·.id)
  · have hid' : id ∈ orb'.map (·.id) := by
      obtain ⟨x, hx, rfl⟩ := List.mem_map.1 hid
      exact List.mem_map.2 ⟨x, (List.forall₂_cons.1 hrows).1 x hx, rfl⟩
    rw [if_pos hid, observed_own, observed_own, if_pos hid, if_pos hid']
    have key : ∀ (eph : List (Rec Str)) (ts : List (List (Rec Str))), own id (eph.map fun r => Pipeline.toObs parse (Readers.Spec.extend ts r)) =
        (eph.filter fun r => r.id = id).map fun r => Pipeline.toObs parse (Readers.Spec.extend ts r) := by
      intro eph ts
      unfold own
      rw [List.filter_map]
      rfl
    rw [key, key, he id hid]
    refine List.map_congr_left fun r hr => ?_
    have hr' : r.id = id := by simpa using (List.mem_filter.1 hr).2
    rw [extend_sub hrows (fun t ht => (objects_tables hin' t ht).1) (fun t ht => ((objects_tables hin t ht).2 id).2 hid) r hr']
  · rw [if_neg hid, observed_own, if_neg hid]

theorem filter_sub {t t' : List (Rec Str)} (hs : ∀ x ∈ t, x ∈ t') (hn : (t.map (·.id)).Nodup) (hn' : (t'.map (·.id)).Nodup) {id : String} (hid : id ∈ t.map (·.id)) :
    (t.filter fun r => r.id = id) = t'.filter fun r => r.id = id := by
  obtain ⟨x, hx, rfl⟩ := List.mem_map.1 hid
  have key : ∀ l : List (Rec Str), (l.map (·.id)).Nodup → x ∈ l → (l.filter fun r => r.id = x.id) = [x] := by
    intro l hl hxl
    have h1 : (l.filter fun r => r.id = x.id).Nodup := (List.Nodup.of_map _ hl).filter _
    have h2 : ∀ y, y ∈ (l.filter fun r => r.id = x.id) ↔ y ∈ [x] := by
      intro y
      rw [List.mem_filter, List.mem_singleton]
      constructor
      · rintro ⟨h3, h4⟩
        exact List.inj_on_of_nodup_map hl h3 hxl (by simpa using h4)
      · rintro rfl
        exact ⟨hxl, by simp⟩
    exact List.perm_singleton.1 ((List.perm_ext_iff_of_nodup h1 (by simp)).2 h2)
  rw [key t hn hx, key t' hn' (hs x hx)]

/-- The ephemerides made for a part. -/
theorem generated_part {ephem : List (Rec Str) → List (Pointing.Obs W)} {cull : Rec Str → Bool} {P : Readers.IdParse} {d d' : Disk} {args args' : Cli.Args} {c1 c c' : Config.Cfg}
    {orb orb' : List (Rec Str)} {others others' : List (List (Rec Str))} (hin : Spec.Objects P d args c orb others) (hin' : Spec.Objects P d' args' c' orb' others')
    (hrows : List.Forall₂ (fun t t' => ∀ x ∈ t, x ∈ t') (orb :: others) (orb' :: others')) (h : Spec.EachAlone ephem orb) (h' : Spec.EachAlone ephem orb') (id : String) :
    own id ((Spec.bright c1 cull orb others).flatMap fun r => ephem [r]) =
      if id ∈ orb.map (·.id) then own id ((Spec.bright c1 cull orb' others').flatMap fun r => ephem [r]) else [] := by
  by_cases hid : id ∈ orb.map (·.id)
  · have hid' : id ∈ orb'.map (·.id) := by
      obtain ⟨x, hx, rfl⟩ := List.mem_map.1 hid
      exact List.mem_map.2 ⟨x, (List.forall₂_cons.1 hrows).1 x hx, rfl⟩
    rw [if_pos hid, bright_own c1 cull h hin.unique, bright_own c1 cull h' hin'.unique, if_pos hid, if_pos hid',
      filter_sub (List.forall₂_cons.1 hrows).1 hin.unique hin'.unique hid]
    congr 1
    unfold Pipeline.left
    congr 1
    refine List.map_congr_left fun r hr => ?_
    have hr' : r.id = id := by simpa using (List.mem_filter.1 hr).2
    exact extend_sub (List.forall₂_cons.1 hrows).2 (fun t ht => (objects_tables hin' t (List.mem_cons_of_mem _ ht)).1)
      (fun t ht => ((objects_tables hin t (List.mem_cons_of_mem _ ht)).2 id).2 hid) r hr'
  · rw [if_neg hid, bright_own c1 cull h hin.unique, if_neg hid]

end Sorcha.Whole.Props
