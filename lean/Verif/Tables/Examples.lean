import Verif.Tables.Props

/-!
# C71: cases that meet the hypotheses, and what does not hold
-/

namespace Sorcha.Tables.Props

open Sorcha.Tables

/-- An orbit file whose header has white space around a name is refused, although a parameter file with such a header is read: if `ps` are the
pieces of the header and one of them is not just the name, then no orbit is accepted. -/
theorem C71_orbit_blanks_fails {V : Type} (fix : List String → List String) (hf : KeepsNames fix) (sep : String) (ls ps : List (List Char)) (ns : List String)
    (h : HasHeader sep ls ps) (hn : Named ps ns) (rows : List (List V)) (hne : ps.map String.ofList ≠ ns) :
    readParams fix sep ls rows = .ok ⟨ns, rows⟩ ∧
    ∃ f, readOrbits fix sep ls rows = .ok f ∧ ∀ orbits : List Inputs.OrbRow, orbits ≠ [] → ∃ e, Inputs.checkOrbits ⟨f.names, orbits⟩ = .error e := by
  obtain ⟨h1, h2⟩ := C71_names fix hf sep ls ps ns h hn rows
  refine ⟨h1, _, h2, fun orbits ho => ?_⟩
  cases hc : Inputs.checkOrbits ⟨ps.map String.ofList, orbits⟩ with
  | error e => exact ⟨e, rfl⟩
  | ok b =>
    exfalso
    have hstrip : ∀ c ∈ ps.map String.ofList, Config.strip c = c := by
      have key : ∀ S : List String, S.Nodup → S.length = 9 → (∀ n ∈ S, Config.strip n = n) → (ps.map String.ofList).length = 9 →
          (∀ n ∈ S, n ∈ ps.map String.ofList) → ∀ c ∈ ps.map String.ofList, Config.strip c = c := by
        intro S hS h9 hst hl hsub c hcm
        have hp := (List.subperm_of_subset hS hsub).perm_of_length_le (by omega)
        exact hst c (hp.mem_iff.2 hcm)
      cases orbits with
      | nil => exact absurd rfl ho
      | cons r rs =>
        simp only [Inputs.checkOrbits] at hc
        split at hc
        · simp at hc
        rename_i hfmt
        split at hc
        · simp at hc
        rename_i hlen
        split at hc
        · simp at hc
        have hfmt' : "FORMAT" ∈ ps.map String.ofList := by simpa using hfmt
        have hlen' : (ps.map String.ofList).length = 9 := by simpa using hlen
        split at hc
        · split at hc
          · simp at hc
          rename_i hall
          simp only [Bool.not_eq_true', Bool.not_eq_false, List.all_eq_true] at hall
          refine key ("FORMAT" :: ["ObjID", "a", "e", "inc", "node", "argPeri", "ma", "epochMJD_TDB"]) (by decide) rfl (by decide +kernel) hlen' ?_
          intro n hnm
          rcases List.mem_cons.1 hnm with rfl | hnm
          · exact hfmt'
          · exact List.contains_iff_mem.1 (hall n hnm)
        · split at hc
          · split at hc
            · simp at hc
            rename_i hall
            simp only [Bool.not_eq_true', Bool.not_eq_false, List.all_eq_true] at hall
            refine key ("FORMAT" :: ["ObjID", "q", "e", "inc", "node", "argPeri", "t_p_MJD_TDB", "epochMJD_TDB"]) (by decide) rfl (by decide +kernel) hlen' ?_
            intro n hnm
            rcases List.mem_cons.1 hnm with rfl | hnm
            · exact hfmt'
            · exact List.contains_iff_mem.1 (hall n hnm)
          · split at hc
            · split at hc
              · simp at hc
              rename_i hall
              simp only [Bool.not_eq_true', Bool.not_eq_false, List.all_eq_true] at hall
              refine key ("FORMAT" :: ["ObjID", "x", "y", "z", "xdot", "ydot", "zdot", "epochMJD_TDB"]) (by decide) rfl (by decide +kernel) hlen' ?_
              intro n hnm
              rcases List.mem_cons.1 hnm with rfl | hnm
              · exact hfmt'
              · exact List.contains_iff_mem.1 (hall n hnm)
            · simp at hc
    have := named_strip hn
    rw [List.map_congr_left hstrip, List.map_id'] at this
    exact hne this

/-- White space after ObjID: the file is refused, although white space around every other name is removed. -/
theorem C71_objid_blank_fails : openFile "csv" ["ObjID ,H_r, GS\n".toList] = .error .noObjId ∧
    Named ["ObjID ".toList, "H_r".toList, " GS".toList] ["ObjID", "H_r", "GS"] := by
  refine ⟨by decide +kernel, ?_, by decide, by decide⟩
  have : (["ObjID ".toList, "H_r".toList, " GS".toList].map String.ofList).map Config.strip = ["ObjID", "H_r", "GS"] := by decide +kernel
  rw [← this, List.forall₂_map_right_iff]
  exact List.forall₂_same.2 fun x _ => (Config.strip_iff x _).1 rfl

/-- The first line that begins with ObjID is taken to be the header, even if it is a comment and the header follows. -/
theorem C71_comment_fails : openFile "csv" ["ObjIDs are unique\n".toList, "ObjID,H_r\n".toList] = .error .fewColumns ∧
    openFile "csv" ["ObjID,H_r\n".toList] = .ok 0 := by
  constructor <;> decide +kernel

section Examples

/-- pandas on names that are neither empty nor repeated. -/
abbrev keep : List String → List String := id

theorem keep_ok : KeepsNames keep := fun _ _ _ => rfl

def commaFile : List (List Char) := ["# made by hand\n".toList, "ObjID, H_r,GS\n".toList]
def blankFile : List (List Char) := ["ObjID  H_r GS\n".toList]

theorem commaHeader : HasHeader "csv" commaFile ["ObjID".toList, " H_r".toList, "GS".toList] := by
  refine ⟨["# made by hand\n".toList], "ObjID, H_r,GS".toList, [], by decide +kernel, by decide, by decide +kernel, by decide +kernel, ?_, by decide +kernel, by decide⟩
  exact (cut_iff (Or.inr (Or.inl rfl)) _ _).1 (by decide +kernel)

theorem blankHeader : HasHeader "whitespace" blankFile ["ObjID".toList, "H_r".toList, "GS".toList] := by
  refine ⟨[], "ObjID  H_r GS".toList, [], by decide +kernel, by decide, by decide +kernel, by decide +kernel, ?_, by decide +kernel, by decide⟩
  exact (cut_iff (Or.inl rfl) _ _).1 (by decide +kernel)

theorem named_of {ps : List (List Char)} {ns : List String} (h : (ps.map String.ofList).map Config.strip = ns) (h1 : ns.Nodup) (h2 : "" ∉ ns) : Named ps ns := by
  refine ⟨?_, h1, h2⟩
  rw [← h, List.forall₂_map_right_iff]
  exact List.forall₂_same.2 fun x _ => (Config.strip_iff x _).1 rfl

example : readParams keep "csv" commaFile [["a", "1", "2"]] = .ok ⟨["ObjID", "H_r", "GS"], [["a", "1", "2"]]⟩ :=
  (C71_names keep keep_ok "csv" commaFile _ _ commaHeader (named_of (by decide +kernel) (by decide) (by decide)) _).1

example : readParams keep "whitespace" blankFile [["a", "1", "2"]] = .ok ⟨["ObjID", "H_r", "GS"], [["a", "1", "2"]]⟩ :=
  (C71_names keep keep_ok "whitespace" blankFile _ _ blankHeader (named_of (by decide +kernel) (by decide) (by decide)) _).1

example : (∃ h, openFile "whitespace" blankFile = .ok h) ∧ ¬ ∃ h, openFile "csv" blankFile = .ok h := by
  have h1 : ∃ h, openFile "whitespace" blankFile = .ok h := ⟨0, by decide +kernel⟩
  refine ⟨h1, fun h2 => C71_wrong_format blankFile ?_ "csv" (Or.inl rfl) ⟨h1, h2⟩⟩
  intro l hl a b hab
  simp only [blankFile, List.mem_singleton] at hl
  subst hl
  have hcount : ("ObjID  H_r GS\n".toList).count 'O' = 1 := by decide +kernel
  have hlc : ∀ x ∈ ("ObjID  H_r GS\n".toList).tail, x ≠ 'O' := by decide +kernel
  cases a with
  | nil => rfl
  | cons x a =>
    exfalso
    have : 'O' ∈ ("ObjID  H_r GS\n".toList).tail := by
      rw [hab]
      simp [objId]
    exact hlc _ this rfl

/-- The documented columns in reverse order, and one to be ignored. -/
def reversed : List String := "ObjID" :: "V" :: (documentedEphemeris.tail).reverse

example : Acceptable reversed := by
  constructor <;> decide +kernel

example : Acceptable documentedEphemeris := by
  constructor <;> decide +kernel

theorem reversedHeader : HasHeader "csv" [[','].intercalate (reversed.map String.toList) ++ ['\n']] (reversed.map String.toList) := by
  refine ⟨[], [','].intercalate (reversed.map String.toList), [], rfl, by decide, by simp, by decide +kernel, ?_, by decide +kernel, by decide +kernel⟩
  exact (cut_iff (Or.inr (Or.inl rfl)) _ _).1 (by decide +kernel)

theorem documentedHeader : HasHeader "whitespace" [[' '].intercalate (documentedEphemeris.map String.toList) ++ ['\n']]
    (documentedEphemeris.map String.toList) := by
  refine ⟨[], [' '].intercalate (documentedEphemeris.map String.toList), [], rfl, by decide, by simp, by decide +kernel, ?_, by decide +kernel, by decide +kernel⟩
  exact (cut_iff (Or.inl rfl) _ _).1 (by decide +kernel)

/-- A file with the columns in the reverse order and the documented file are read alike. -/
example : ∃ f : Frame ℕ,
    readEphem keep "csv" [[','].intercalate (reversed.map String.toList) ++ ['\n']] [0 :: 99 :: (List.range' 1 21).reverse] = .ok f ∧
    readEphem keep "whitespace" [[' '].intercalate (documentedEphemeris.map String.toList) ++ ['\n']] [List.range 22] = .ok f := by
  refine C71_order keep keep_ok "csv" "whitespace" _ _ _ _ reversed documentedEphemeris reversedHeader documentedHeader
    (named_of (by decide +kernel) (by decide +kernel) (by decide +kernel)) (named_of (by decide +kernel) (by decide +kernel) (by decide +kernel)) _ _
    (by decide +kernel) (by decide +kernel) (by constructor <;> decide +kernel) (by constructor <;> decide +kernel) ?_
  refine .cons ?_ .nil
  intro n hn v
  have hz : ((reversed.zip (0 :: 99 :: (List.range' 1 21).reverse)).filter fun p => p.1 ≠ "V").Perm (documentedEphemeris.zip (List.range 22)) := by decide +kernel
  have hnv := (documented_ne n hn).1
  rw [at_iff, at_iff, ← hz.mem_iff, List.mem_filter]
  simp [hnv]

/-- A column too many, and a column missing. -/
example : readEphem keep "csv" ["ObjID,colour\n".toList] ([] : List (List ℕ)) = .error .badEphemeris ∧
    readEphem keep "csv" ["ObjID,FieldID\n".toList] ([] : List (List ℕ)) = .error .key := by
  constructor <;> decide +kernel

end Examples

end Sorcha.Tables.Props
