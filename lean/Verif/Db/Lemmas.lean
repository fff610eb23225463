import Verif.Db.Spec
import Mathlib.Data.List.Sort
import Mathlib.Data.String.Basic

/-!
# Lemmas on the reader of object data in a database
-/

namespace Sorcha.Db
open Sorcha.Readers Sorcha.Db.Spec

variable {C : Type}

theorem notBehind_antisymm {a b : Val} (h : NotBehind a b) (h' : NotBehind b a) : a = b := by
  cases h <;> cases h' <;> first | rfl | (congr 1; exact le_antisymm ‹_› ‹_›)

theorem notBehind_total (a b : Val) : NotBehind a b ∨ NotBehind b a := by
  cases a with
  | null => exact .inl (.null b)
  | int x =>
    cases b with
    | null => exact .inr (.null _)
    | int y => exact (le_total x y).elim (fun h => .inl (.ints h)) (fun h => .inr (.ints h))
    | text t => exact .inl (.mixed _ _)
  | text s =>
    cases b with
    | null => exact .inr (.null _)
    | int y => exact .inr (.mixed _ _)
    | text t => exact (le_total s t).elim (fun h => .inl (.texts h)) (fun h => .inr (.texts h))

theorem notBehind_trans {a b c : Val} (h : NotBehind a b) (h' : NotBehind b c) : NotBehind a c := by
  cases h with
  | null => exact .null _
  | ints h => cases h' with
    | ints h' => exact .ints (h.trans h')
    | mixed => exact .mixed _ _
  | mixed => cases h' with
    | texts => exact .mixed _ _
  | texts h => cases h' with
    | texts h' => exact .texts (h.trans h')

/-- With distinct IDs there is one listing by ID. -/
theorem byId_unique {rows l l' : List (Row C)} (hid : (rows.map (·.id)).Nodup) (h : ById rows l) (h' : ById rows l') : l = l' := by
  have hp : l.Perm l' := h.1.trans h'.1.symm
  refine hp.eq_of_pairwise (le := fun a b => NotBehind a.id b.id) ?_ h.2 h'.2
  intro a b ha hb hab hba
  have hn : (l.map (·.id)).Nodup := (h.1.map _).nodup_iff.mpr hid
  exact List.inj_on_of_nodup_map hn ha (hp.mem_iff.mpr hb) (notBehind_antisymm hab hba)

/-- The IDs of a listing by ID do not depend on the listing. -/
theorem byId_ids {rows l l' : List (Row C)} (h : ById rows l) (h' : ById rows l') : l.map (·.id) = l'.map (·.id) := by
  have hp : (l.map (·.id)).Perm (l'.map (·.id)) := (h.1.trans h'.1.symm).map _
  refine hp.eq_of_pairwise (le := NotBehind) (fun a b _ _ hab hba => notBehind_antisymm hab hba) ?_ ?_
  · exact List.pairwise_map.mpr h.2
  · exact List.pairwise_map.mpr h'.2

theorem stored_not_null {E : Engine C} {aff : Affinity} {v : Val} (h : Stored E aff v) : v.isNull = false := by
  cases aff <;> cases v <;> simp_all [Stored, Val.isNull]

/-- Without a missing ID the frame shows the rows. -/
theorem frame_shown (E : Engine C) (rows : List (Row C)) (h : ∀ r ∈ rows, r.id.isNull = false) : frame E rows = rows.map shown := by
  have hany : (rows.map (·.id)).any Val.isNull = false := by
    simp only [List.any_eq_false, List.mem_map]
    rintro v ⟨r, hr, rfl⟩
    simp [h r hr]
  unfold frame printIds
  rw [hany]
  simp only [Bool.and_false, Bool.false_and, Bool.false_eq_true, if_false, List.map_map]
  rw [List.zipWith_map, List.zipWith_self]
  apply List.map_congr_left
  intro r hr
  have := h r hr
  cases hv : r.id with
  | null => simp [hv, Val.isNull] at this
  | int z => simp [shown, name, hv]
  | text s => simp [shown, name, hv]

/-- Sqlite finds the rows whose ID is among those asked for. -/
theorem sameAs_any {E : Engine C} (hE : Keeps E) {aff : Affinity} {v : Val} (hv : Stored E aff v) (ids : List String)
    (hu : aff = .numeric → ∀ s ∈ ids, Usual E s) : (ids.any fun p => sameAs E aff v p) = decide (name v ∈ ids) := by
  rw [Bool.eq_iff_iff, List.any_eq_true, decide_eq_true_iff]
  cases aff with
  | text => cases v <;> simp_all [Stored, sameAs, name]
  | none => cases v <;> simp_all [Stored, sameAs, name]
  | numeric =>
    cases v with
    | null => simp [Stored] at hv
    | int z =>
      simp only [Stored] at hv
      constructor
      · rintro ⟨p, hp, hs⟩
        unfold sameAs at hs
        cases hr : E.readsAs p with
        | no => simp [hr] at hs
        | other => simp [hr] at hs
        | whole y =>
          simp only [hr, decide_eq_true_iff, Val.int.injEq] at hs
          subst hs
          have := hu rfl p hp z hr
          simpa [name, ← this] using hp
      · intro hm
        exact ⟨_, hm, by unfold sameAs name; simp only [hE.number z hv, decide_true]⟩
    | text s =>
      simp only [Stored] at hv
      constructor
      · rintro ⟨p, hp, hs⟩
        unfold sameAs at hs
        cases hr : E.readsAs p with
        | no =>
          simp only [hr, decide_eq_true_iff, Val.text.injEq] at hs
          subst hs; simpa [name] using hp
        | other => simp [hr] at hs
        | whole y => simp [hr] at hs
      · intro hm
        exact ⟨_, hm, by simp [sameAs, name, hv]⟩

theorem lookup_ok {t : Table C} (h : "ObjID" ∈ t.cols) : lookup (some t) = .ok t := by
  unfold lookup
  simp only
  rw [if_pos]
  simp only [List.any_eq_true, decide_eq_true_iff]
  exact ⟨_, h, rfl⟩

theorem validate_ok {missing : C → Bool} {t : Table C} (h2 : 2 ≤ t.cols.length) (hc : "ObjID" ∈ t.cols) {d : Bool} {rows : List (Row C)}
    (hs : ∀ r ∈ rows, r ∈ t.rows) (hd : d = true → ∀ r ∈ t.rows, ∀ c ∈ r.cells, missing c = false) :
    validate missing (colsOf (some t)) d (rows.map shown) = .ok () := by
  unfold validate colsOf
  simp only [Option.map_some, Option.getD_some]
  rw [if_neg (by omega), if_neg (by simpa using hc), if_neg]
  simp only [Bool.and_eq_true, List.any_eq_true, List.mem_map, not_and]
  rintro hd' ⟨x, ⟨r, hr, rfl⟩, c, hcm, hm⟩
  have := hd hd' r (hs r hr) c hcm
  rw [hm] at this
  cases this

end Sorcha.Db
