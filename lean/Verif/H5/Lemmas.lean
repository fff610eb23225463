import Verif.H5.Model
import Verif.H5.Spec
import Verif.Readers.Props

namespace Sorcha.H5
open Sorcha.Readers Sorcha.Readers.Spec Sorcha.H5.Spec

variable {C : Type}

/-- What a block delivers. -/
def blockOf (emptyOk : Bool) (t : List (ℕ × Rec C)) (orb : List (Rec C)) (ts : List (List (Rec C))) (blk : List (Rec C)) : Except Readers.Err (List (Rec C)) :=
  match readObjects emptyOk t (idsOf blk) with
  | .error e => .error e
  | .ok eph => if eph.all (fun r => (idsOf blk).contains r.id) then .ok (eph.map (extend (orb :: ts))) else .error .missingId

theorem readObjects_congr (emptyOk : Bool) (t : List (ℕ × Rec C)) {ids ids' : List String} (h : ∀ i, i ∈ ids ↔ i ∈ ids') :
    readObjects emptyOk t ids = readObjects emptyOk t ids' := by
  have e : (fun x : ℕ × Rec C => ids.contains x.2.id) = fun x => ids'.contains x.2.id := by
    funext x
    rw [Bool.eq_iff_iff, List.contains_iff_mem, List.contains_iff_mem, h]
  unfold readObjects h5ReadObjects
  rw [e]

theorem mem_readObjects {t : List (ℕ × Rec C)} {ids : List String} {r : Rec C} :
    r ∈ h5ReadObjects t ids ↔ ∃ x ∈ t, x.2 = r ∧ ∃ y ∈ t, y.1 = x.1 ∧ y.2.id ∈ ids := by
  unfold h5ReadObjects
  simp only [List.mem_map, List.mem_filter, List.contains_iff_mem]
  constructor
  · rintro ⟨x, ⟨hx, y, ⟨hy, hi⟩, e⟩, rfl⟩
    exact ⟨x, hx, rfl, y, hy, e, hi⟩
  · rintro ⟨x, hx, rfl, y, hy, e, hi⟩
    exact ⟨x, ⟨hx, y, ⟨hy, hi⟩, e⟩, rfl⟩

theorem apart_iff {t : List (ℕ × Rec C)} {blk : List (Rec C)} : Apart t blk ↔ ∀ r ∈ h5ReadObjects t (idsOf blk), r.id ∈ idsOf blk := by
  constructor
  · intro h r hr
    obtain ⟨x, hx, rfl, y, hy, e, hi⟩ := mem_readObjects.1 hr
    exact h y hy x hx e hi
  · intro h x hx y hy e hi
    exact h y.2 (mem_readObjects.2 ⟨y, hy, rfl, x, hx, e, hi⟩)

theorem readObjects_apart {t : List (ℕ × Rec C)} {blk : List (Rec C)} (h : Apart t blk) :
    h5ReadObjects t (idsOf blk) = (t.map (·.2)).filter fun r => r.id ∈ idsOf blk := by
  unfold h5ReadObjects
  simp only
  rw [List.filter_map]
  congr 1
  apply List.filter_congr
  intro x hx
  rw [Bool.eq_iff_iff, List.contains_iff_mem]
  simp only [List.mem_map, List.mem_filter, Function.comp_apply, decide_eq_true_eq, List.contains_iff_mem]
  constructor
  · rintro ⟨y, ⟨hy, hi⟩, e⟩
    exact h y hy x hx e hi
  · intro hi
    exact ⟨x, ⟨hx, hi⟩, rfl⟩

theorem present_iff {t : List (ℕ × Rec C)} {blk : List (Rec C)} : (t.any fun x => (idsOf blk).contains x.2.id) = true ↔ Present t blk := by
  simp [Present, List.any_eq_true]

theorem blockOf_ok {emptyOk : Bool} {t : List (ℕ × Rec C)} {orb : List (Rec C)} {ts : List (List (Rec C))} {blk : List (Rec C)}
    (hp : emptyOk = true ∨ Present t blk) (ha : Apart t blk) :
    blockOf emptyOk t orb ts blk = .ok (((t.map (·.2)).filter fun r => r.id ∈ idsOf blk).map (extend (orb :: ts))) := by
  unfold blockOf readObjects
  rw [if_pos (by rw [Bool.or_eq_true, present_iff]; exact hp.symm)]
  simp only
  rw [if_pos (by rw [List.all_eq_true]; intro r hr; exact List.contains_iff_mem.2 (apart_iff.1 ha r hr)), readObjects_apart ha]

theorem blockOf_missing {emptyOk : Bool} {t : List (ℕ × Rec C)} {orb : List (Rec C)} {ts : List (List (Rec C))} {blk : List (Rec C)}
    (ha : ¬ Apart t blk) : blockOf emptyOk t orb ts blk = .error .missingId := by
  unfold blockOf readObjects
  rw [apart_iff] at ha
  push Not at ha
  obtain ⟨r, hr, hn⟩ := ha
  rw [if_pos]
  · simp only
    rw [if_neg]
    intro h
    exact hn (List.contains_iff_mem.1 (List.all_eq_true.1 h r hr))
  · obtain ⟨x, hx, rfl, y, hy, e, hi⟩ := mem_readObjects.1 hr
    rw [Bool.or_eq_true, present_iff]
    exact .inl ⟨y, hy, hi⟩

theorem blockOf_empty {t : List (ℕ × Rec C)} {orb : List (Rec C)} {ts : List (List (Rec C))} {blk : List (Rec C)}
    (hp : ¬ Present t blk) : blockOf false t orb ts blk = .error .emptyData := by
  unfold blockOf readObjects
  rw [if_neg (by rw [Bool.or_false, present_iff]; exact hp)]

theorem readBlock_eq (emptyOk : Bool) (P : IdParse) (missing : List C) (t : List (ℕ × Rec C)) (fo : List (Line C)) (fs : List (List (Line C)))
    (orb : List (Rec C)) (tables : List (List (Rec C))) (ho : HoldsLoosely fo orb) (hso : StableIds P orb) (hno : (idsOf orb).Nodup)
    (hg : Good P fs tables) (hids : ∀ t ∈ tables, ∀ i ∈ idsOf orb, i ∈ idsOf t) (b c : ℕ) (hn : (orb.drop b).take c ≠ []) :
    readBlock emptyOk P missing t ⟨fo, false, none⟩ (fs.map fun f => ⟨f, false, none⟩) b c =
      (blockOf emptyOk t orb tables ((orb.drop b).take c)).map fun r => (some r, b + ((orb.drop b).take c).length) := by
  unfold readBlock
  rw [readRows_holds P fo orb ho hso b c]
  simp only
  generalize hblk : (orb.drop b).take c = blk
  rw [hblk] at hn
  have hsub : blk.Sublist orb := hblk ▸ block_sublist orb b c
  rw [if_neg (dedup_length_pos blk hn), readObjects_congr emptyOk t (fun i => dedup_mem_ids blk i)]
  unfold blockOf
  cases readObjects emptyOk t (idsOf blk) with
  | error e => rfl
  | ok eph =>
    simp only
    by_cases hall : (eph.all fun r => (idsOf blk).contains r.id) = true
    · have hidsin : ∀ r ∈ eph, r.id ∈ idsOf blk := fun r hr => List.contains_iff_mem.1 (List.all_eq_true.1 hall r hr)
      rw [if_pos hall, if_pos]
      · rw [join_unique missing _ blk (hno.sublist (hsub.map _)) hidsin]
        rw [joinAll_good P missing _ _ fs tables hg]
        · simp only [Except.map, List.map_map]
          congr 3
          apply List.map_congr_left
          intro r hr
          rw [Function.comp_apply, cellsOf_block orb hno blk hsub r.id (hidsin r hr), extend_cons]
        · intro a ha
          obtain ⟨r, hr, rfl⟩ := List.mem_map.1 ha
          exact (dedup_mem_ids _ _).2 (hidsin r hr)
        · intro i hi
          rw [List.mem_dedup] at hi
          obtain ⟨r, hr, rfl⟩ := List.mem_map.1 hi
          exact (dedup_mem_ids _ _).2 (hidsin r hr)
        · intro t ht i hi
          obtain ⟨r, hr, rfl⟩ := mem_idsOf.1 ((dedup_mem_ids _ _).1 hi)
          exact hids t ht _ (mem_idsOf.2 ⟨r, hsub.subset hr, rfl⟩)
      · rw [List.all_eq_true]
        intro i hi
        rw [List.mem_dedup] at hi
        obtain ⟨r, hr, rfl⟩ := List.mem_map.1 hi
        exact List.contains_iff_mem.2 (hidsin r hr)
    · rw [if_neg hall, if_neg]
      · rfl
      · intro h
        apply hall
        rw [List.all_eq_true] at h ⊢
        intro r hr
        exact h r.id (List.mem_dedup.2 (List.mem_map_of_mem hr))

theorem chunkLoop_mapM {α : Type} (read : ℕ → ℤ → Except Readers.Err (Option (List (Rec C)) × ℕ)) (l : List α) (c : ℕ) (hc : 1 ≤ c)
    (F : List α → Except Readers.Err (List (Rec C)))
    (hread : ∀ b, (l.drop b).take c ≠ [] → read b c = (F ((l.drop b).take c)).map fun r => (some r, b + ((l.drop b).take c).length)) :
    ∀ (fuel k b : ℕ), (l.length + c - 1) / c - k ≤ fuel → (k * c < l.length → b = k * c) →
      chunkLoop read l.length c fuel ((k * c : ℕ) : ℤ) ((k * c : ℕ) : ℤ) b =
        some ((List.range' k ((l.length + c - 1) / c - k)).mapM (fun j => F (chunk l c j))) := by
  intro fuel
  induction fuel with
  | zero =>
    intro k b hf hb
    have hk : ¬ k * c < l.length := fun h => by have := (lt_rounds _ _ _ hc).2 h; omega
    unfold chunkLoop
    rw [if_neg (by exact_mod_cast hk)]
    have : (l.length + c - 1) / c - k = 0 := by omega
    rw [this]; rfl
  | succ fuel ih =>
    intro k b hf hb
    unfold chunkLoop
    by_cases hk : k * c < l.length
    · rw [if_pos (by exact_mod_cast hk)]
      have hbk := hb hk
      have hlt := (lt_rounds _ _ _ hc).2 hk
      have hne : (l.drop b).take c ≠ [] := by
        intro e
        have := congrArg List.length e
        simp only [List.length_take, List.length_drop, List.length_nil] at this
        omega
      obtain ⟨m, hm⟩ : ∃ m, (l.length + c - 1) / c - k = m + 1 := ⟨(l.length + c - 1) / c - k - 1, by omega⟩
      have hm' : (l.length + c - 1) / c - (k + 1) = m := by omega
      simp only [hread b hne]
      rw [hm, List.range'_succ, List.mapM_cons]
      have e0 : chunk l c k = (l.drop b).take c := by rw [hbk]; rfl
      simp only [e0]
      cases F ((l.drop b).take c) with
      | error e => rfl
      | ok r =>
        simp only [Except.map]
        have e1 : ((k * c : ℕ) : ℤ) + (c : ℤ) = (((k + 1) * c : ℕ) : ℤ) := by push_cast; ring
        rw [e1, ih (k + 1) _ (by omega)]
        · rw [hm']
          simp only [Option.map_some, bind, Except.bind, pure, Except.pure]
        · intro h
          have h2 : k * c + c < l.length := by rw [Nat.succ_mul] at h; exact h
          simp only [List.length_take, List.length_drop, hbk, Nat.succ_mul]
          omega
    · rw [if_neg (by exact_mod_cast hk)]
      have : (l.length + c - 1) / c - k = 0 := by
        have := (lt_rounds l.length c k hc).not.2 hk; omega
      rw [this]; rfl

theorem mapM_map_eq {α β γ ε : Type} (f : α → β) (g : β → Except ε γ) (l : List α) : (l.map f).mapM g = l.mapM fun a => g (f a) := by
  induction l with
  | nil => rfl
  | cons a l ih => rw [List.map_cons, List.mapM_cons, List.mapM_cons, ih]

theorem blocks_eq (emptyOk : Bool) (P : IdParse) (missing : List C) (t : List (ℕ × Rec C)) (fo : List (Line C)) (orb : List (Rec C)) (fs : List (List (Line C)))
    (ts : List (List (Rec C))) (h : Readers.Props.Consistent P fo orb fs ts) (c : ℕ) (hc : 1 ≤ c) (fuel : ℕ) (hf : (orb.length + c - 1) / c ≤ fuel) :
    blocks emptyOk P missing t fo fs c fuel = some ((chunks orb c).mapM (blockOf emptyOk t orb ts)) := by
  unfold blocks
  rw [h.check]
  simp only
  rw [buildIdMap_holds P fo orb h.orbit h.stable]
  simp only [List.length_map]
  have := chunkLoop_mapM (readBlock emptyOk P missing t ⟨fo, false, none⟩ (fs.map fun f => ⟨f, false, none⟩)) orb c hc (blockOf emptyOk t orb ts)
    (fun b hb => readBlock_eq emptyOk P missing t fo fs orb ts (Holds.loosely h.orbit) h.stable h.unique h.good h.ids b c hb)
    fuel 0 0 (by omega) (by simp)
  rw [Nat.sub_zero, ← List.range_eq_range'] at this
  unfold chunks
  rw [mapM_map_eq]
  simpa using this

theorem mapM_ok {α β ε : Type} {F : α → Except ε β} {g : α → β} : ∀ {l : List α}, (∀ x ∈ l, F x = .ok (g x)) → l.mapM F = .ok (l.map g)
  | [], _ => rfl
  | a :: l, h => by
    rw [List.mapM_cons, h a (by simp), mapM_ok fun x hx => h x (List.mem_cons_of_mem _ hx)]; rfl

theorem mapM_mem {α β ε : Type} {F : α → Except ε β} : ∀ {l : List α} {rs : List β}, l.mapM F = .ok rs → ∀ x ∈ l, ∃ r, F x = .ok r
  | [], _, _, x, hx => by cases hx
  | a :: l, rs, h, x, hx => by
    rw [List.mapM_cons] at h
    cases ha : F a with
    | error e => rw [ha] at h; cases h
    | ok r =>
      rw [ha] at h
      cases hl : l.mapM F with
      | error e => rw [hl] at h; cases h
      | ok r' =>
        rcases List.mem_cons.1 hx with rfl | hx
        · exact ⟨r, ha⟩
        · exact mapM_mem hl x hx

theorem mapM_error {α β ε : Type} {F : α → Except ε β} {e : ε} : ∀ {l : List α}, (∀ x ∈ l, (∃ r, F x = .ok r) ∨ F x = .error e) → (∃ x ∈ l, F x = .error e) →
    l.mapM F = .error e
  | [], _, h => by obtain ⟨x, hx, _⟩ := h; cases hx
  | a :: l, hall, h => by
    rw [List.mapM_cons]
    rcases hall a (by simp) with ⟨r, hr⟩ | he
    · rw [hr]
      have : ∃ x ∈ l, F x = .error e := by
        obtain ⟨x, hx, hxe⟩ := h
        rcases List.mem_cons.1 hx with rfl | hx
        · rw [hr] at hxe; cases hxe
        · exact ⟨x, hx, hxe⟩
      have ih := mapM_error (fun x hx => hall x (List.mem_cons_of_mem _ hx)) this
      simp only [bind, Except.bind, ih]
    · rw [he]; rfl

/-- The rows a sequence of appends has stored. -/
def stored (tables : List (List (Rec C))) : List (ℕ × Rec C) := tables.flatMap fun rows => rows.zipIdx.map Prod.swap

theorem appends_some : ∀ (tables : List (List (Rec C))) (s : Store C) {st : Option (Store C)}, appends (some s) tables = .ok st →
    ∃ s', st = some s' ∧ s'.rows = s.rows ++ stored tables
  | [], s, st, h => by
    simp only [appends, Except.ok.injEq] at h
    exact ⟨s, h.symm, by simp [stored]⟩
  | rows :: more, s, st, h => by
    simp only [appends, append] at h
    by_cases h0 : rows.length = 0
    · rw [if_pos h0] at h
      obtain ⟨s', e, h'⟩ := appends_some more s h
      refine ⟨s', e, ?_⟩
      rw [List.length_eq_zero_iff] at h0
      rw [h', h0]
      simp [stored]
    · rw [if_neg h0] at h
      split_ifs at h with hw
      · obtain ⟨s', e, h'⟩ := appends_some more _ h
        refine ⟨s', e, ?_⟩
        rw [h']
        simp [stored]

theorem appends_none : ∀ (tables : List (List (Rec C))) {s : Store C}, appends none tables = .ok (some s) → s.rows = stored tables
  | [], s, h => by simp [appends] at h
  | rows :: more, s, h => by
    simp only [appends, append] at h
    by_cases h0 : rows.length = 0
    · rw [if_pos h0] at h
      rw [appends_none more h]
      rw [List.length_eq_zero_iff] at h0
      rw [h0]
      simp [stored]
    · rw [if_neg h0] at h
      obtain ⟨s', e, h'⟩ := appends_some more _ h
      rw [Option.some.injEq] at e
      subst e
      rw [h']
      simp [stored]

theorem appends_nonempty : ∀ (tables : List (List (Rec C))) {s : Store C}, appends none tables = .ok (some s) → ∃ rows ∈ tables, rows ≠ []
  | [], s, h => by simp [appends] at h
  | rows :: more, s, h => by
    by_cases h0 : rows = []
    · subst h0
      simp only [appends, append, List.length_nil, if_true] at h
      obtain ⟨x, hx, hn⟩ := appends_nonempty more h
      exact ⟨x, List.mem_cons_of_mem _ hx, hn⟩
    · exact ⟨rows, by simp, h0⟩

theorem stored_rows (tables : List (List (Rec C))) : (stored tables).map (·.2) = tables.flatten := by
  unfold stored
  rw [List.map_flatMap]
  simp only [List.map_map]
  rw [← List.flatMap_id]
  apply List.flatMap_congr
  intro rows _
  rw [show (fun x : ℕ × Rec C => x.2) ∘ Prod.swap = Prod.fst from rfl, List.zipIdx_map_fst]
  rfl

end Sorcha.H5
