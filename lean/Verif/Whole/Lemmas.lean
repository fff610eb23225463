import Verif.Whole.Model
import Verif.Whole.Spec
import Verif.Csv.TextProps
import Verif.Csv.Props
import Verif.Pipeline.Props2

/-!
# Lemmas for `sorcha run`
-/

namespace Sorcha.Whole

open Sorcha.Csv (Str)
open Sorcha.Csv.Props (asRec)
open Sorcha.Readers (Rec IdParse Line)

/-! ## Readers with the same results -/

/-- Whatever the first reader gives the second gives too. -/
structure Le (s s' : Source) : Prop where
  rows : ∀ b n x, s.rows b n = .ok x → s'.rows b n = .ok x
  ids : ∀ x, s.ids = .ok x → s'.ids = .ok x
  objects : ∀ i x, s.objects i = .ok x → s'.objects i = .ok x

/-- A reader of a file given by its lines, as C12 and C15 have it. -/
def lineSource (P : IdParse) (f : List (Line Str)) : Source where
  rows start n := (Readers.readRowsInternal f start (some n)).map (Readers.inferTable P)
  ids := Readers.buildIdMap P f
  objects ids := (Readers.readObjectsInternal P f ids).map (Readers.inferTable P)

theorem rowRec_zero (r : List Str) : rowRec 0 r = asRec r := by
  cases r <;> rfl

theorem names_objID {sep : String} {t : Str} {names : List Str} {rows : List (List Str)} (h : Csv.Spec.InputText sep t names rows) : ∃ ns, names = "ObjID".toList :: ns := by
  obtain ⟨nts, hh, ⟨ns, hns, -⟩, hk⟩ := Csv.Props.parts h
  exact ⟨ns, hns⟩

theorem process_ok (P : IdParse) (good : Csv.TextTable → Bool) {ns : List Str} {rs : List (List Str)} {x : List (Rec Str)} :
    process P good (.ok ("ObjID".toList :: ns, rs)) = .ok x ↔ good ("ObjID".toList :: ns, rs) = true ∧ x = Readers.inferTable P (rs.map asRec) := by
  simp only [process, List.findIdx?_cons, decide_true, if_true]
  split_ifs with hg
  · simp only [Except.ok.injEq, hg, true_and, show rowRec 0 = asRec from funext rowRec_zero]
    exact ⟨Eq.symm, Eq.symm⟩
  · exact ⟨fun h => (nomatch h), fun h => absurd h.1 hg⟩

/-- The text and the lines. -/
theorem source_le (P : IdParse) (good : Csv.TextTable → Bool) {sep : String} {t : Str} {names : List Str} {rows : List (List Str)} (h : Csv.Spec.InputText sep t names rows)
    {f : List (Line Str)} (hf : Readers.Spec.Holds f (rows.map asRec)) (hs : Readers.Spec.StableIds P (rows.map asRec)) : Le (source P good sep t) (lineSource P f) := by
  obtain ⟨ns, rfl⟩ := names_objID h
  obtain ⟨h1, h2⟩ := Csv.Props.C84_lines P sep t _ rows h f hf
  obtain ⟨⟨ids, h3, h4⟩, h5⟩ := h2 hs
  refine ⟨fun b n x hx => ?_, fun x hx => ?_, fun i x hx => ?_⟩
  · rcases lt_or_ge n 0 with hn | hn
    · have : process P good (Csv.rowsOf sep t b (some n)) = .ok x := hx
      unfold Csv.rowsOf at this
      cases hr : Csv.headerRow sep t with
      | error e =>
        rw [hr] at this
        cases e <;> simp [process] at this
      | ok r =>
        rw [hr] at this
        simp [hn, process] at this
    · obtain ⟨m, rfl⟩ := Int.eq_ofNat_of_zero_le hn
      obtain ⟨rs, e1, e2⟩ := h1 b m
      have hx' : process P good (Csv.rowsOf sep t b (some (m : ℤ))) = .ok x := hx
      rw [e1, process_ok] at hx'
      show (Readers.readRowsInternal f b (some (m : ℤ))).map (Readers.inferTable P) = .ok x
      rw [e2, hx'.2]
      rfl
  · have hx' : (match Csv.idsOf P sep t with | .error _ => Except.error Readers.Err.emptyData | .ok ids => .ok ids) = .ok x := hx
    rw [h3] at hx'
    show Readers.buildIdMap P f = .ok x
    rw [h4]
    exact hx'
  · obtain ⟨rs, e1, e2⟩ := h5 i
    have hx' : process P good (Csv.objectsOf P sep t i) = .ok x := hx
    rw [e1, process_ok] at hx'
    show (Readers.readObjectsInternal P f i).map (Readers.inferTable P) = .ok x
    rw [e2, hx'.2]
    rfl

/-- The lines and the text, if the checks of the columns go well. -/
theorem source_ge (P : IdParse) (good : Csv.TextTable → Bool) {sep : String} {t : Str} {names : List Str} {rows : List (List Str)} (h : Csv.Spec.InputText sep t names rows)
    {f : List (Line Str)} (hf : Readers.Spec.Holds f (rows.map asRec)) (hs : Readers.Spec.StableIds P (rows.map asRec))
    (hgood : ∀ rs, rs.Sublist rows → good (names, rs) = true) : Le (lineSource P f) (source P good sep t) := by
  obtain ⟨ns, rfl⟩ := names_objID h
  obtain ⟨h1, h2⟩ := Csv.Props.C84_lines P sep t _ rows h f hf
  obtain ⟨⟨ids, h3, h4⟩, h5⟩ := h2 hs
  refine ⟨fun b n x hx => ?_, fun x hx => ?_, fun i x hx => ?_⟩
  · have hx' : (Readers.readRowsInternal f b (some n)).map (Readers.inferTable P) = .ok x := hx
    rcases lt_or_ge n 0 with hn | hn
    · unfold Readers.readRowsInternal at hx'
      cases hr : Readers.findHeader f with
      | none => rw [hr] at hx'; simp [Except.map] at hx'
      | some r => rw [hr] at hx'; simp [hn, Except.map] at hx'
    · obtain ⟨m, rfl⟩ := Int.eq_ofNat_of_zero_le hn
      obtain ⟨rs, e1, e2⟩ := h1 b m
      rw [e2] at hx'
      show process P good (Csv.rowsOf sep t b (some (m : ℤ))) = .ok x
      have e3 := (Csv.Props.C84_rows sep t _ rows h b).2 m
      rw [e3] at e1
      have e4 := (Prod.mk.inj (Except.ok.inj e1)).2
      rw [e3, process_ok]
      refine ⟨hgood _ ((List.take_sublist _ _).trans (List.drop_sublist _ _)), ?_⟩
      rw [e4]
      exact (Except.ok.inj hx').symm
  · have hx' : Readers.buildIdMap P f = .ok x := hx
    show (match Csv.idsOf P sep t with | .error _ => Except.error Readers.Err.emptyData | .ok ids => .ok ids) = .ok x
    rw [h3]
    rw [h4] at hx'
    exact hx'
  · obtain ⟨rs, e1, e2⟩ := h5 i
    have hx' : (Readers.readObjectsInternal P f i).map (Readers.inferTable P) = .ok x := hx
    rw [e2] at hx'
    show process P good (Csv.objectsOf P sep t i) = .ok x
    have e3 := Csv.Props.C84_objects P sep t _ rows h i
    rw [e3] at e1
    have e4 := (Prod.mk.inj (Except.ok.inj e1)).2
    rw [e3, process_ok]
    refine ⟨hgood _ ?_, ?_⟩
    · have hz : ∀ (l : List (List Str)) (m : List String), ((l.zip m).map Prod.fst).Sublist l := by
        intro l
        induction l with
        | nil => intro m; simp
        | cons a l ih => intro m; cases m with
          | nil => simp
          | cons b m => simpa using ih m
      exact ((List.filter_sublist).map Prod.fst).trans (hz _ _)
    · rw [e4]
      exact (Except.ok.inj hx').symm

/-! ## The combined reader -/

theorem mapM_ids_le {ss ss' : List Source} (h : List.Forall₂ Le ss ss') : ∀ {x}, ss.mapM (·.ids) = .ok x → ss'.mapM (·.ids) = .ok x := by
  induction h with
  | nil => intro x hx; exact hx
  | @cons a b as bs hab _ ih =>
    intro x hx
    rw [List.mapM_cons] at hx ⊢
    cases hi : a.ids with
    | error e => simp [hi, bind, Except.bind] at hx
    | ok i =>
      rw [hi] at hx
      rw [hab.ids i hi]
      cases hr : as.mapM (·.ids) with
      | error e => simp [hr, bind, Except.bind] at hx
      | ok r =>
        rw [hr] at hx
        rw [ih hr]
        exact hx

theorem checkIds_le {ss ss' : List Source} (h : List.Forall₂ Le ss ss') (hx : checkIds ss = .ok ()) : checkIds ss' = .ok () := by
  unfold checkIds at *
  cases hm : ss.mapM (·.ids) with
  | error e => rw [hm] at hx; cases hx
  | ok t => rw [hm] at hx; rw [mapM_ids_le h hm]; exact hx

theorem joinAll_le (missing : List Str) (eids ids : List String) {ss ss' : List Source} (h : List.Forall₂ Le ss ss') :
    ∀ acc x, joinAll missing eids ids acc ss = .ok x → joinAll missing eids ids acc ss' = .ok x := by
  induction h with
  | nil => intro acc x hx; exact hx
  | @cons a b as bs hab _ ih =>
    intro acc x hx
    simp only [joinAll] at hx ⊢
    cases hi : a.objects ids with
    | error e => simp [hi] at hx
    | ok t =>
      rw [hi] at hx
      rw [hab.objects ids t hi]
      simp only at hx ⊢
      split_ifs at hx ⊢ with hc
      exact ih _ _ hx

theorem joinAllAux_le (missing : List Str) (ids : List String) {ss ss' : List Source} (h : List.Forall₂ Le ss ss') :
    ∀ acc x, joinAllAux missing ids acc ss = .ok x → joinAllAux missing ids acc ss' = .ok x := by
  induction h with
  | nil => intro acc x hx; exact hx
  | @cons a b as bs hab _ ih =>
    intro acc x hx
    simp only [joinAllAux] at hx ⊢
    cases hi : a.objects ids with
    | error e => simp [hi] at hx
    | ok t =>
      rw [hi] at hx
      rw [hab.objects ids t hi]
      simp only at hx ⊢
      split_ifs at hx ⊢ with hc
      exact ih _ _ hx

theorem readBlock_le (missing : List Str) {e e' o o' : Source} {ss ss' : List Source} (he : Le e e') (ho : Le o o') (h : List.Forall₂ Le ss ss') (b : ℕ) (n : ℤ) {x} 
    (hx : readBlock missing e o ss b n = .ok x) : readBlock missing e' o' ss' b n = .ok x := by
  unfold readBlock at *
  cases h1 : o.rows b n with
  | error _ => simp [h1] at hx
  | ok p =>
    rw [h1] at hx
    rw [ho.rows b n p h1]
    simp only at hx ⊢
    split_ifs at hx ⊢ with h0
    · exact hx
    · cases h2 : e.objects (p.map (·.id)).dedup with
      | error _ => simp [h2] at hx
      | ok eph =>
        rw [h2] at hx
        rw [he.objects _ _ h2]
        simp only at hx ⊢
        split_ifs at hx ⊢ with h3
        cases h4 : joinAll missing (eph.map (·.id)).dedup (p.map (·.id)).dedup (Readers.join missing eph p) ss with
        | error _ => simp [h4] at hx
        | ok t =>
          rw [h4] at hx
          rw [joinAll_le missing _ _ h _ _ h4]
          exact hx

theorem readAuxBlock_le (missing : List Str) {o o' : Source} {ss ss' : List Source} (ho : Le o o') (h : List.Forall₂ Le ss ss') (b : ℕ) (n : ℤ) {x} 
    (hx : readAuxBlock missing o ss b n = .ok x) : readAuxBlock missing o' ss' b n = .ok x := by
  unfold readAuxBlock at *
  cases h1 : o.rows b n with
  | error _ => simp [h1] at hx
  | ok p =>
    rw [h1] at hx
    rw [ho.rows b n p h1]
    simp only at hx ⊢
    split_ifs at hx ⊢ with h0
    · exact hx
    · cases h4 : joinAllAux missing (p.map (·.id)).dedup p ss with
      | error _ => simp [h4] at hx
      | ok t =>
        rw [h4] at hx
        rw [joinAllAux_le missing _ h _ _ h4]
        exact hx

/-! ## The same on lines -/

theorem checkIds_lines (P : IdParse) (fs : List (List (Line Str))) : checkIds (fs.map (lineSource P)) = Readers.checkAuxObjectIds P fs := by
  have : ∀ fs : List (List (Line Str)), (fs.map (lineSource P)).mapM (·.ids) = fs.mapM (Readers.buildIdMap P) := by
    intro fs
    induction fs with
    | nil => rfl
    | cons f fs ih => rw [List.map_cons, List.mapM_cons, List.mapM_cons, ih]; rfl
  unfold checkIds Readers.checkAuxObjectIds
  rw [this]
  cases fs.mapM (Readers.buildIdMap P) <;> rfl

theorem readObjects_lines (P : IdParse) (f : List (Line Str)) (ids : List String) :
    Readers.Reader.readObjects P ⟨f, false, none⟩ ids = ((lineSource P f).objects ids).map fun t => (t, ⟨f, false, none⟩) := by
  simp only [Readers.Reader.readObjects, lineSource]
  cases Readers.readObjectsInternal P f ids <;> rfl

theorem readRows_lines (P : IdParse) (f : List (Line Str)) (b : ℕ) (n : ℤ) :
    Readers.Reader.readRows P ⟨f, false, none⟩ b (some n) = ((lineSource P f).rows b n).map fun t => (t, ⟨f, false, none⟩) := by
  simp only [Readers.Reader.readRows, lineSource]
  cases Readers.readRowsInternal f b (some n) <;> rfl

theorem joinAll_lines (P : IdParse) (missing : List Str) (eids ids : List String) (fs : List (List (Line Str))) : ∀ acc,
    joinAll missing eids ids acc (fs.map (lineSource P)) = Readers.joinAll P missing eids ids acc (fs.map fun f => ⟨f, false, none⟩) := by
  induction fs with
  | nil => intro acc; rfl
  | cons f fs ih =>
    intro acc
    simp only [List.map_cons, joinAll, Readers.joinAll, readObjects_lines]
    cases (lineSource P f).objects ids with
    | error e => rfl
    | ok t => simp only [Except.map, ih]

theorem joinAllAux_lines (P : IdParse) (missing : List Str) (ids : List String) (fs : List (List (Line Str))) : ∀ acc,
    joinAllAux missing ids acc (fs.map (lineSource P)) = Readers.joinAllAux P missing ids acc (fs.map fun f => ⟨f, false, none⟩) := by
  induction fs with
  | nil => intro acc; rfl
  | cons f fs ih =>
    intro acc
    simp only [List.map_cons, joinAllAux, Readers.joinAllAux, readObjects_lines]
    cases (lineSource P f).objects ids with
    | error e => rfl
    | ok t => simp only [Except.map, ih]

theorem readBlock_lines (P : IdParse) (missing : List Str) (fe fo : List (Line Str)) (fs : List (List (Line Str))) (b : ℕ) (n : ℤ) :
    readBlock missing (lineSource P fe) (lineSource P fo) (fs.map (lineSource P)) b n =
      Readers.readBlock P missing ⟨fe, false, none⟩ ⟨fo, false, none⟩ (fs.map fun f => ⟨f, false, none⟩) b n := by
  unfold readBlock Readers.readBlock
  rw [readRows_lines]
  cases (lineSource P fo).rows b n with
  | error e => rfl
  | ok p =>
    simp only [Except.map, readObjects_lines, joinAll_lines]
    split_ifs with h0
    · rfl
    · cases (lineSource P fe).objects (p.map (·.id)).dedup with
      | error e => rfl
      | ok eph =>
        simp only
        split_ifs with h1
        · cases Readers.joinAll P missing (eph.map (·.id)).dedup (p.map (·.id)).dedup (Readers.join missing eph p) (fs.map fun f => ⟨f, false, none⟩) <;> rfl
        · rfl

theorem readAuxBlock_lines (P : IdParse) (missing : List Str) (fo : List (Line Str)) (fs : List (List (Line Str))) (b : ℕ) (n : ℤ) :
    readAuxBlock missing (lineSource P fo) (fs.map (lineSource P)) b n =
      Readers.readAuxBlock P missing ⟨fo, false, none⟩ (fs.map fun f => ⟨f, false, none⟩) b n := by
  unfold readAuxBlock Readers.readAuxBlock
  rw [readRows_lines]
  cases (lineSource P fo).rows b n with
  | error e => rfl
  | ok p =>
    simp only [Except.map, joinAllAux_lines]
    split_ifs with h0
    · rfl
    · cases Readers.joinAllAux P missing (p.map (·.id)).dedup p (fs.map fun f => ⟨f, false, none⟩) <;> rfl

/-! ## The loop -/

theorem blocks_loop {read read' : ℕ → ℤ → Except Readers.Err (Option (List (Rec Str)) × ℕ)} {size : ℤ} (hr : ∀ b x, read b size = .ok x → read' b size = .ok x) (lenf : ℕ) :
    ∀ (fuel : ℕ) (done : ℤ) (start : ℕ) bs, blocks read lenf size fuel done start = (bs, true) →
      Readers.chunkLoop read' lenf size fuel done done start = some (.ok bs) := by
  intro fuel
  induction fuel with
  | zero =>
    intro done start bs h
    simp only [blocks, Prod.mk.injEq, decide_eq_true_eq] at h
    unfold Readers.chunkLoop
    rw [if_neg (by omega), ← h.1]
  | succ k ih =>
    intro done start bs h
    unfold Readers.chunkLoop
    simp only [blocks] at h
    split_ifs at h ⊢ with hd
    · cases hx : read start size with
      | error e => simp [hx] at h
      | ok x =>
        rw [hx] at h
        obtain ⟨o, st⟩ := x
        cases o with
        | none => simp at h
        | some t =>
          simp only [Prod.mk.injEq] at h
          rw [hr _ _ hx]
          simp only
          rw [ih _ _ _ (Prod.ext rfl h.2), ← h.1]
          rfl
    · simp only [Prod.mk.injEq] at h
      rw [← h.1]

theorem loop_blocks {read read' : ℕ → ℤ → Except Readers.Err (Option (List (Rec Str)) × ℕ)} {size : ℤ} (hr : ∀ b x, read' b size = .ok x → read b size = .ok x) (lenf : ℕ) :
    ∀ (fuel : ℕ) (done : ℤ) (start : ℕ) bs, Readers.chunkLoop read' lenf size fuel done done start = some (.ok bs) →
      blocks read lenf size fuel done start = (bs, true) := by
  intro fuel
  induction fuel with
  | zero =>
    intro done start bs h
    unfold Readers.chunkLoop at h
    split_ifs at h with hd
    simp only [Option.some.injEq, Except.ok.injEq] at h
    simp only [blocks, ← h, Prod.mk.injEq, decide_eq_true_eq, true_and]
    omega
  | succ k ih =>
    intro done start bs h
    unfold Readers.chunkLoop at h
    simp only [blocks]
    split_ifs at h ⊢ with hd
    · cases hx : read' start size with
      | error e => simp [hx] at h
      | ok x =>
        rw [hx] at h
        obtain ⟨o, st⟩ := x
        cases o with
        | none => simp at h
        | some t =>
          simp only at h
          rw [hr _ _ hx]
          simp only
          cases hc : Readers.chunkLoop read' lenf size k (done + size) (done + size) st with
          | none => simp [hc] at h
          | some r =>
            cases r with
            | error e => simp [hc, Except.map] at h
            | ok bs' =>
              rw [hc] at h
              simp only [Option.map_some, Except.map, Option.some.injEq, Except.ok.injEq] at h
              rw [ih _ _ _ hc, ← h]
    · simp only [Option.some.injEq, Except.ok.injEq] at h
      rw [← h]

end Sorcha.Whole
