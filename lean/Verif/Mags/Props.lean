import Verif.Mags.Lemmas
import Verif.Photom.Props

/-!
# Properties C29 and C30: apparent magnitudes, colours, culling
-/

namespace Sorcha.Mags.Props
open Sorcha.Mags Sorcha.Mags.Spec Sorcha.Photom

section helpers
/-- A row after saving H and creating the zero colour. -/
noncomputable def prepRow (main : String) (r : Row) : Row :=
  { r with val := fun c => if c = main ++ "-" ++ main then 0 else if c = "H_original" then r.val ("H_" ++ main) else r.val c }

/-- A row after renaming. -/
noncomputable def finRow (main : String) (r : Row) : Row :=
  { r with
    val := fun c => if c = "H_filter" then r.val ("H_" ++ main) else if c = "H_" ++ main then r.val "H_original" else r.val c }

theorem prepare_rows (main : String) (f : Frame) : (prepare main f).rows = f.rows.map (prepRow main) := by
  unfold prepare Frame.setCol
  simp only [List.map_map]
  rfl

theorem prepare_mem (main : String) (f : Frame) (c : String) :
    c ∈ (prepare main f).cols ↔ c ∈ f.cols ∨ c = "H_original" ∨ c = main ++ "-" ++ main := by
  unfold prepare
  rw [setCol_mem, setCol_mem, or_assoc]

theorem param_lit {fn : String} {ps : List String} (h : Needs fn ps) (p : String) (hp : p ∈ ps) :
    p ≠ "" ∧ '-' ∉ p.toList ∧ p.toList.head? ≠ some 'H' ∧ p.toList.head? ≠ some 'O' ∧ p.toList.head? ≠ some 't' := by
  cases h <;> simp at hp
  · rcases hp with rfl | rfl <;> decide
  · subst hp; decide
  · subst hp; decide
  · subst hp; decide

theorem param_mem_prepare {fn : String} {ps : List String} (h : Needs fn ps) (main : String) (f : Frame) (p : String)
    (hp : p ∈ ps) : p ∈ (prepare main f).cols ↔ p ∈ f.cols := by
  obtain ⟨h1, h2, h3, -⟩ := param_lit h p hp
  rw [prepare_mem]
  constructor
  · rintro (h | rfl | rfl)
    · exact h
    · exact absurd (by decide) h3
    · exact absurd rfl (colour_ne_lit _ _ _ h2)
  · exact .inl

theorem loop_cases (main : String) (f : Frame) :
    ((∀ r ∈ f.rows, r.filt = main ∨ (r.filt ++ "-" ++ main) ∈ f.cols) ∧
      ((f.rows.map (·.filt)).dedup).foldlM (offsetStep main) (prepare main f) =
        .ok { cols := (prepare main f).cols, rows := f.rows.map fun r => shifted main (prepRow main r) }) ∨
    ((∃ r ∈ f.rows, r.filt ≠ main ∧ (r.filt ++ "-" ++ main) ∉ f.cols) ∧
      ((f.rows.map (·.filt)).dedup).foldlM (offsetStep main) (prepare main f) = .error .noColour) := by
  have hmem : ∀ b, (b ++ "-" ++ main) ∈ (prepare main f).cols ↔ b = main ∨ (b ++ "-" ++ main) ∈ f.cols := by
    intro b
    rw [prepare_mem]
    constructor
    · rintro (h | h | h)
      · exact .inr h
      · exact absurd h (colour_ne_lit _ _ _ (by decide))
      · exact .inl (colour_inj h)
    · rintro (rfl | h)
      · exact .inr (.inr rfl)
      · exact .inl h
  by_cases hall : ∀ r ∈ f.rows, r.filt = main ∨ (r.filt ++ "-" ++ main) ∈ f.cols
  · refine .inl ⟨hall, ?_⟩
    rw [loop_ok main _ (List.nodup_dedup _) _ ?_]
    · congr 2
      rw [prepare_rows, List.map_map]
      apply List.map_congr_left
      intro r hr
      simp only [Function.comp_apply]
      rw [if_pos]
      rw [List.mem_dedup]
      exact List.mem_map.2 ⟨r, hr, rfl⟩
    · intro b hb
      rw [List.mem_dedup] at hb
      obtain ⟨r, hr, rfl⟩ := List.mem_map.1 hb
      exact (hmem _).2 (hall r hr)
  · push Not at hall
    obtain ⟨r, hr, h1, h2⟩ := hall
    refine .inr ⟨⟨r, hr, h1, h2⟩, ?_⟩
    refine loop_error main _ _ r.filt (List.mem_dedup.2 (List.mem_map.2 ⟨r, hr, rfl⟩)) ?_
    rw [hmem]
    rintro (h | h)
    · exact h1 h
    · exact h2 h

theorem colour_rows {fn main : String} {obs : List String} {f g : Frame} (h : applyColourOffsets fn obs main f = .ok g) :
    ("H_" ++ main) ∈ f.cols ∧ (∀ r ∈ f.rows, r.filt = main ∨ (r.filt ++ "-" ++ main) ∈ f.cols) ∧
    ∃ ps, Needs fn ps ∧
      g.rows = f.rows.map (fun r => finRow main (pick ps (∀ p ∈ ps, p ∈ f.cols) (shifted main (prepRow main r)))) ∧
      ∃ f2 : Frame, g.cols = (finish main f2).cols ∧
        ∀ c, (∀ p ∈ ps, ∀ b ∈ obs, c ≠ p ++ b) → (c ∈ f2.cols ↔ c ∈ (prepare main f).cols ∨ c ∈ ps) := by
  unfold applyColourOffsets at h
  split_ifs at h with hH
  rcases loop_cases main f with ⟨h1, h2⟩ | ⟨h1, h2⟩
  · rw [h2] at h
    simp only [bind, Except.bind] at h
    cases hs : selectPhase fn obs main
        { cols := (prepare main f).cols, rows := f.rows.map fun r => shifted main (prepRow main r) } with
    | error e => rw [hs] at h; simp at h
    | ok f2 =>
      rw [hs] at h
      simp only [Except.ok.injEq] at h
      obtain ⟨ps, hn, hr, hc⟩ := selectPhase_ok hs ((prepare_mem main f _).2 (.inl hH))
      refine ⟨hH, h1, ps, hn, ?_, f2, by rw [← h], hc⟩
      rw [← h]
      simp only [finish]
      rw [hr, List.map_map, List.map_map]
      apply List.map_congr_left
      intro r _
      have hcm : (∀ p ∈ ps, p ∈ (prepare main f).cols) ↔ ∀ p ∈ ps, p ∈ f.cols :=
        ⟨fun h p hp => (param_mem_prepare hn main f p hp).1 (h p hp),
          fun h p hp => (param_mem_prepare hn main f p hp).2 (h p hp)⟩
      simp only [Function.comp_apply, finRow, pick, hcm]
  · rw [h2] at h
    simp [bind, Except.bind] at h

theorem fin_H {fn main : String} {ps : List String} (hn : Needs fn ps) (cm : Prop) [Decidable cm] (r : Row)
    (ho : main ≠ "original") :
    (finRow main (pick ps cm (shifted main (prepRow main r)))).val "H_filter" = absoluteInFilter main r := by
  have hps : ("H_" ++ main) ∉ ps := fun h => by
    obtain ⟨-, -, h3, -⟩ := param_lit hn _ h
    exact h3 (by simp)
  have e1 : "H_" ++ main ≠ main ++ "-" ++ main := fun h => colour_ne_H _ _ h.symm
  have e2 : "H_" ++ main ≠ "H_original" := fun h => ho (append_left_cancel (c := "H_") h)
  have e3 : r.filt ++ "-" ++ main ≠ "H_original" := colour_ne_lit _ _ _ (by decide)
  simp only [finRow, pick, shifted, prepRow, if_true, hps, false_and, if_false, e1, e2, e3]
  unfold absoluteInFilter
  by_cases hf : r.filt = main
  · rw [if_pos hf, hf, if_pos rfl, add_zero]
  · rw [if_neg hf, if_neg fun h => hf (colour_inj h)]

theorem fin_param {fn main : String} {ps : List String} (hn : Needs fn ps) (cm : Prop) [Decidable cm] (r : Row)
    (hd : '-' ∉ r.filt.toList) (p : String) (hp : p ∈ ps) :
    (finRow main (pick ps cm (shifted main (prepRow main r)))).val p = phaseValue cm p r := by
  obtain ⟨h1, h2, h3, -⟩ := param_lit hn p hp
  have a1 : p ≠ "H_filter" := by rintro rfl; exact h3 (by decide)
  have a2 : p ≠ "H_" ++ main := fun h => H_ne main p h3 h.symm
  have a3 : p ≠ main ++ "-" ++ main := fun h => colour_ne_lit main main p h2 h.symm
  have a4 : p ≠ "H_original" := by rintro rfl; exact h3 (by decide)
  have b2 : p ++ r.filt ≠ "H_" ++ main := fun h => H_ne main (p ++ r.filt) (by
    rw [String.toList_append, List.head?_append_of_ne_nil _ (by simpa using h1)]; exact h3) h.symm
  have b3 : p ++ r.filt ≠ main ++ "-" ++ main := fun h => colour_ne_lit main main (p ++ r.filt) (by
    rw [String.toList_append, List.mem_append, not_or]; exact ⟨h2, hd⟩) h.symm
  have b4 : p ++ r.filt ≠ "H_original" := head_append p r.filt "H_original" h1 (by simpa using h3)
  unfold phaseValue
  by_cases hc : cm
  · simp only [finRow, pick, shifted, prepRow, hc, not_true_eq_false, and_false, if_false, a1, a2, a3, a4, if_true]
  · simp only [finRow, pick, shifted, prepRow, hc, hp, not_false_eq_true, and_self, if_true, if_false, a1, a2, b2, b3, b4]

theorem fin_other {main : String} {ps : List String} (cm : Prop) [Decidable cm] (r : Row) (c : String)
    (h1 : c ≠ "H_filter") (h2 : c ≠ "H_" ++ main) (h3 : c ≠ "H_original") (h4 : c ≠ main ++ "-" ++ main) (h5 : c ∉ ps) :
    (finRow main (pick ps cm (shifted main (prepRow main r)))).val c = r.val c := by
  simp only [finRow, pick, shifted, prepRow, h1, h2, h3, h4, h5, false_and, if_false]
end helpers

/-! ## C30: colours, phase parameters, apparent magnitude -/

/-- C30 (colours): when colours are applied, rows keep their order and filter; each gets as `H_filter` the absolute magnitude
in the filter of its visit, keeps the absolute magnitude of the main filter, takes the phase parameters of its filter unless
common ones are given, and keeps every other column. -/
theorem C30_colours {fn main : String} {obs : List String} {f g : Frame} (h : applyColourOffsets fn obs main f = .ok g)
    (ho : main ≠ "original") (hfm : main ≠ "filter") (hd : ∀ r ∈ f.rows, '-' ∉ r.filt.toList) :
    ∃ ps, Needs fn ps ∧ List.Forall₂ (fun r r' =>
      r'.filt = r.filt ∧ r'.val "H_filter" = absoluteInFilter main r ∧ r'.val ("H_" ++ main) = r.val ("H_" ++ main) ∧
      (∀ p ∈ ps, r'.val p = phaseValue (∀ p ∈ ps, p ∈ f.cols) p r) ∧
      (∀ c, c ∉ ["H_filter", "H_" ++ main, "H_original", main ++ "-" ++ main] ++ ps → r'.val c = r.val c)) f.rows g.rows := by
  obtain ⟨-, -, ps, hn, hr, -⟩ := colour_rows h
  refine ⟨ps, hn, ?_⟩
  rw [hr, List.forall₂_map_right_iff, List.forall₂_same]
  intro r hrm
  refine ⟨rfl, fin_H hn _ r ho, ?_, fun p hp => fin_param hn _ r (hd r hrm) p hp, ?_⟩
  · have e0 : "H_" ++ main ≠ "H_filter" := fun h => hfm (append_left_cancel (c := "H_") h)
    have e1 : "H_original" ≠ "H_" ++ main := fun h => ho (append_left_cancel (c := "H_") h.symm)
    have e2 : "H_original" ≠ main ++ "-" ++ main := fun h => colour_ne_lit main main _ (by decide) h.symm
    have e3 : "H_original" ∉ ps := fun h => by
      obtain ⟨-, -, h3, -⟩ := param_lit hn _ h
      exact h3 (by decide)
    simp only [finRow, pick, shifted, prepRow, e0, e1, e2, e3, if_true, if_false, false_and]
  · intro c hc
    simp only [List.cons_append, List.nil_append, List.mem_cons, not_or] at hc
    obtain ⟨c1, c2, c3, c4, c5⟩ := hc
    exact fin_other _ r c c1 c2 c3 c4 c5

/-- C30 (abort): if some observation is in a filter other than the main one and the table has no colour for it, the run stops
with the colour error; without phase function this is the only reason to stop if H is present. -/
theorem C30_abort (fn main : String) (obs : List String) (f : Frame) (hH : ("H_" ++ main) ∈ f.cols) :
    ((∃ r ∈ f.rows, r.filt ≠ main ∧ (r.filt ++ "-" ++ main) ∉ f.cols) →
      applyColourOffsets fn obs main f = .error .noColour) ∧
    ((∃ g, applyColourOffsets "none" obs main f = .ok g) ↔
      ∀ r ∈ f.rows, r.filt = main ∨ (r.filt ++ "-" ++ main) ∈ f.cols) := by
  constructor
  · intro hex
    unfold applyColourOffsets
    rw [if_pos hH]
    rcases loop_cases main f with ⟨h1, -⟩ | ⟨-, h2⟩
    · obtain ⟨r, hr, ha, hb⟩ := hex
      exact absurd (h1 r hr) (not_or.2 ⟨ha, hb⟩)
    · rw [h2]; rfl
  · constructor
    · rintro ⟨g, hg⟩
      exact (colour_rows hg).2.1
    · intro hall
      unfold applyColourOffsets
      rw [if_pos hH]
      rcases loop_cases main f with ⟨-, h2⟩ | ⟨⟨r, hr, ha, hb⟩, -⟩
      · rw [h2]
        simp only [bind, Except.bind]
        have : selectPhase "none" obs main
            { cols := (prepare main f).cols, rows := f.rows.map fun r => shifted main (prepRow main r) } =
            .ok { cols := (prepare main f).cols, rows := f.rows.map fun r => shifted main (prepRow main r) } := by
          unfold selectPhase
          have hp : phaseParams "none" = some [] := by decide
          rw [hp]
          simp only
          rw [if_pos]
          simp
          exact (prepare_mem main f _).2 (.inl hH)
        rw [this]
        exact ⟨_, rfl⟩
      · exact absurd (hall r hr) (not_or.2 ⟨ha, hb⟩)

/-- C30 (unknown phase function): the run stops. -/
theorem C30_unknown (sbpy : String → ℝ → List ℝ → ℝ → ℝ) (add : Addons) (fn main : String) (obs : List String) (f : Frame)
    (hu : ∀ ps, ¬ Needs fn ps) (g : Frame) : calculateApparentMagnitude sbpy add fn obs main f ≠ .ok g := by
  intro h
  have hp : phaseParams fn = none := by
    cases hp : phaseParams fn with
    | none => rfl
    | some ps => exact absurd (params_cases hp) (hu ps)
  unfold calculateApparentMagnitude at h
  have e : ∀ f', apparentMagnitudeInFilter sbpy add fn f' = .error .unknownPhase := by
    intro f'; unfold apparentMagnitudeInFilter; rw [hp]
  split_ifs at h
  · simp only [bind, Except.bind, e] at h
    cases hc : applyColourOffsets fn obs main f with
    | error e => rw [hc] at h; simp at h
    | ok g => rw [hc] at h; simp at h
  · rw [e] at h; simp at h

section helpers
theorem sun_col {fn main : String} {ps obs : List String} (hn : Needs fn ps) {f f2 : Frame}
    (hc : ∀ c, (∀ p ∈ ps, ∀ b ∈ obs, c ≠ p ++ b) → (c ∈ f2.cols ↔ c ∈ (prepare main f).cols ∨ c ∈ ps)) :
    "Obj_Sun_LTC_km" ∈ (finish main f2).cols ↔ "Obj_Sun_LTC_km" ∈ f.cols := by
  have h0 : ∀ p ∈ ps, ∀ b ∈ obs, "Obj_Sun_LTC_km" ≠ p ++ b := by
    intro p hp b _ h
    obtain ⟨h1, -, -, h4, -⟩ := param_lit hn p hp
    exact head_append p b "Obj_Sun_LTC_km" h1 (by simpa using h4) h.symm
  have h1 : "Obj_Sun_LTC_km" ∈ f2.cols ↔ "Obj_Sun_LTC_km" ∈ f.cols := by
    rw [hc _ h0, prepare_mem]
    constructor
    · rintro ((h | h | h) | h)
      · exact h
      · exact absurd h (by decide)
      · exact absurd h.symm (colour_ne_lit _ _ _ (by decide))
      · obtain ⟨-, -, -, h4, -⟩ := param_lit hn _ h
        exact absurd (by decide) h4
    · exact fun h => .inl (.inl h)
  rw [← h1]
  unfold finish
  simp only [List.mem_map, List.mem_filter]
  constructor
  · rintro ⟨c, ⟨hc1, -⟩, he⟩
    split_ifs at he with i1 i2
    · exact absurd he (by decide)
    · exact absurd he (H_ne main _ (by decide))
    · rw [← he]; exact hc1
  · intro h
    refine ⟨_, ⟨h, ?_⟩, ?_⟩
    · unfold isColour
      have : "Obj_Sun_LTC_km".toList = 'O' :: 'b' :: "j_Sun_LTC_km".toList := by decide
      rw [this]
      simp
    · rw [if_neg (H_ne main _ (by decide)).symm, if_neg (by decide)]
end helpers

/-- C30 (apparent magnitude): every observation gets `5 log10(range) + 5 log10(heliocentric distance)` (in au) plus the
reduced magnitude that the phase function gives for its phase angle, the absolute magnitude in its filter and the phase
parameters of its filter; light curve and activity act on that value. With a single observing filter the main filter's
magnitude and the common parameters are used. -/
theorem C30_magnitude {sbpy : String → ℝ → List ℝ → ℝ → ℝ} {fn main : String} {obs : List String} {f g : Frame}
    (h : calculateApparentMagnitude sbpy ⟨none, none⟩ fn obs main f = .ok g) (ho : main ≠ "original")
    (hd : ∀ r ∈ f.rows, '-' ∉ r.filt.toList) (hplain : ∀ c ∈ ["Range_LTC_km", "phase_deg", "Obj_Sun_LTC_km",
      "Obj_Sun_x_LTC_km", "Obj_Sun_y_LTC_km", "Obj_Sun_z_LTC_km"], c ≠ "H_" ++ main ∧ c ≠ main ++ "-" ++ main) :
    ∃ ps, Needs fn ps ∧ List.Forall₂ (fun r r' =>
      r'.filt = r.filt ∧
      ∃ H, H = (if 1 < obs.length then absoluteInFilter main r else r.val ("H_" ++ main)) ∧
      r'.val "trailedSourceMagTrue" =
        5 * Real.logb 10 (au (r.val "Range_LTC_km")) +
        5 * Real.logb 10 (au (if "Obj_Sun_LTC_km" ∈ f.cols then r.val "Obj_Sun_LTC_km" else
          √(r.val "Obj_Sun_x_LTC_km" ^ 2 + r.val "Obj_Sun_y_LTC_km" ^ 2 + r.val "Obj_Sun_z_LTC_km" ^ 2))) +
        (if fn = "none" then H else
          sbpy fn H (ps.map fun p => phaseValue (obs.length ≤ 1 ∨ ∀ p ∈ ps, p ∈ f.cols) p r) (r.val "phase_deg")))
      f.rows g.rows := by
  have fin : ∀ f' g', apparentMagnitudeInFilter sbpy ⟨none, none⟩ fn f' = .ok g' → ∃ ps, Needs fn ps ∧
      g'.rows = f'.rows.map fun r => Row.mk r.filt (fun c =>
        if c = "trailedSourceMagTrue" then magnitude sbpy ⟨none, none⟩ fn ps f'.cols r else r.val c) := by
    intro f' g' h'
    unfold apparentMagnitudeInFilter at h'
    cases hp : phaseParams fn with
    | none => rw [hp] at h'; simp at h'
    | some ps =>
      rw [hp] at h'
      simp only at h'
      split_ifs at h'
      cases h'
      exact ⟨ps, params_cases hp, rfl⟩
  unfold calculateApparentMagnitude at h
  split_ifs at h with hl hH
  · simp only [bind, Except.bind] at h
    cases hc : applyColourOffsets fn obs main f with
    | error e => rw [hc] at h; simp at h
    | ok g1 =>
      rw [hc] at h
      obtain ⟨ps, hn, hr⟩ := fin g1 g h
      obtain ⟨-, -, ps', hn', hr', f2, hcols, hmem⟩ := colour_rows hc
      have : ps' = ps := by
        have h1 := params_of_needs hn; have h2 := params_of_needs hn'
        rw [h1] at h2; exact (Option.some.inj h2).symm
      subst this
      have hsun := sun_col (obs := obs) hn' hmem
      rw [← hcols] at hsun
      refine ⟨ps', hn, ?_⟩
      rw [hr, hr', List.map_map, List.forall₂_map_right_iff, List.forall₂_same]
      intro r hrm
      refine ⟨rfl, _, rfl, ?_⟩
      rw [if_pos hl]
      simp only [Function.comp_apply, if_true]
      have oth : ∀ c ∈ ["Range_LTC_km", "phase_deg", "Obj_Sun_LTC_km", "Obj_Sun_x_LTC_km", "Obj_Sun_y_LTC_km",
          "Obj_Sun_z_LTC_km"],
          (finRow main (pick ps' (∀ p ∈ ps', p ∈ f.cols) (shifted main (prepRow main r)))).val c = r.val c := by
        intro c hcm
        refine fin_other _ r c ?_ (hplain c hcm).1 ?_ (hplain c hcm).2 ?_
        · rintro rfl; revert hcm; decide
        · rintro rfl; revert hcm; decide
        · intro hps
          cases hn <;> simp at hps hcm <;> aesop
      unfold magnitude sunDistance
      simp only [hsun]
      rw [oth "Range_LTC_km" (by simp), oth "phase_deg" (by simp), oth "Obj_Sun_LTC_km" (by simp),
        oth "Obj_Sun_x_LTC_km" (by simp), oth "Obj_Sun_y_LTC_km" (by simp), oth "Obj_Sun_z_LTC_km" (by simp),
        fin_H hn' _ r ho]
      have hpm : (ps'.map (finRow main (pick ps' (∀ p ∈ ps', p ∈ f.cols) (shifted main (prepRow main r)))).val) =
          ps'.map fun p => phaseValue (obs.length ≤ 1 ∨ ∀ p ∈ ps', p ∈ f.cols) p r := by
        apply List.map_congr_left
        intro p hp
        rw [fin_param hn' _ r (hd r hrm) p hp]
        unfold phaseValue
        have : (obs.length ≤ 1 ∨ ∀ p ∈ ps', p ∈ f.cols) ↔ ∀ p ∈ ps', p ∈ f.cols :=
          ⟨fun h => h.resolve_left (by omega), .inr⟩
        simp only [this]
      rw [hpm]
      rfl
  · obtain ⟨ps, hn, hr⟩ := fin _ g h
    refine ⟨ps, hn, ?_⟩
    rw [hr]
    simp only [Frame.setCol, List.map_map]
    rw [List.forall₂_map_right_iff, List.forall₂_same]
    intro r hrm
    refine ⟨rfl, _, rfl, ?_⟩
    rw [if_neg hl]
    simp only [Function.comp_apply, if_true]
    have hsun : ("Obj_Sun_LTC_km" ∈ if "H_filter" ∈ f.cols then f.cols else f.cols ++ ["H_filter"]) ↔
        "Obj_Sun_LTC_km" ∈ f.cols := by
      split_ifs
      · rfl
      · simp
    unfold magnitude sunDistance
    simp only [hsun, if_true]
    have hpm : (ps.map fun c => if c = "H_filter" then r.val ("H_" ++ main) else r.val c) =
        ps.map fun p => phaseValue (obs.length ≤ 1 ∨ ∀ p ∈ ps, p ∈ f.cols) p r := by
      apply List.map_congr_left
      intro p hp
      have hne : p ≠ "H_filter" := by
        rintro rfl
        obtain ⟨-, -, h3, -⟩ := param_lit hn _ hp
        exact h3 (by decide)
      unfold phaseValue
      rw [if_neg hne, if_pos (.inl (by omega))]
    rw [hpm]
    simp only [show "Range_LTC_km" ≠ "H_filter" by decide, show "phase_deg" ≠ "H_filter" by decide,
      show "Obj_Sun_LTC_km" ≠ "H_filter" by decide, show "Obj_Sun_x_LTC_km" ≠ "H_filter" by decide,
      show "Obj_Sun_y_LTC_km" ≠ "H_filter" by decide, show "Obj_Sun_z_LTC_km" ≠ "H_filter" by decide, if_false]
    rfl

/-- C30 (light curve and activity): relative to the run without them, a light curve adds its shift to every observation's
magnitude and then the activity model replaces it, given heliocentric distance and range in au and phase angle; nothing else
changes. The models do not look at the column being written. -/
theorem C30_addons {sbpy : String → ℝ → List ℝ → ℝ → ℝ} {fn main : String} {obs : List String} {f g g' : Frame}
    (lc : Row → ℝ) (act : Row → ℝ → ℝ → ℝ → ℝ → ℝ)
    (hlc : ∀ r r' : Row, r.filt = r'.filt → (∀ c, c ≠ "trailedSourceMagTrue" → r.val c = r'.val c) → lc r = lc r')
    (hact : ∀ r r' : Row, r.filt = r'.filt → (∀ c, c ≠ "trailedSourceMagTrue" → r.val c = r'.val c) → act r = act r')
    (h : calculateApparentMagnitude sbpy ⟨none, none⟩ fn obs main f = .ok g)
    (h' : calculateApparentMagnitude sbpy ⟨some lc, some act⟩ fn obs main f = .ok g') :
    g'.cols = g.cols ∧ List.Forall₂ (fun r r' => r'.filt = r.filt ∧
      (∀ c, c ≠ "trailedSourceMagTrue" → r'.val c = r.val c) ∧
      ∃ dist, au dist = au (if "Obj_Sun_LTC_km" ∈ g.cols then r.val "Obj_Sun_LTC_km" else
          √(r.val "Obj_Sun_x_LTC_km" ^ 2 + r.val "Obj_Sun_y_LTC_km" ^ 2 + r.val "Obj_Sun_z_LTC_km" ^ 2)) ∧
        r'.val "trailedSourceMagTrue" = act r (au dist) (au (r.val "Range_LTC_km")) (r.val "phase_deg")
          (r.val "trailedSourceMagTrue" + lc r)) g.rows g'.rows := by
  have key : ∀ f' g g', apparentMagnitudeInFilter sbpy ⟨none, none⟩ fn f' = .ok g →
      apparentMagnitudeInFilter sbpy ⟨some lc, some act⟩ fn f' = .ok g' →
      g'.cols = g.cols ∧ List.Forall₂ (fun r r' => r'.filt = r.filt ∧
      (∀ c, c ≠ "trailedSourceMagTrue" → r'.val c = r.val c) ∧
      ∃ dist, au dist = au (if "Obj_Sun_LTC_km" ∈ g.cols then r.val "Obj_Sun_LTC_km" else
          √(r.val "Obj_Sun_x_LTC_km" ^ 2 + r.val "Obj_Sun_y_LTC_km" ^ 2 + r.val "Obj_Sun_z_LTC_km" ^ 2)) ∧
        r'.val "trailedSourceMagTrue" = act r (au dist) (au (r.val "Range_LTC_km")) (r.val "phase_deg")
          (r.val "trailedSourceMagTrue" + lc r)) g.rows g'.rows := by
    intro f' g g' h h'
    unfold apparentMagnitudeInFilter at h h'
    cases hp : phaseParams fn with
    | none => rw [hp] at h; simp at h
    | some ps =>
      rw [hp] at h h'
      simp only at h h'
      split_ifs at h h'
      cases h
      cases h'
      refine ⟨rfl, ?_⟩
      simp only [Frame.setCol]
      rw [List.forall₂_map_left_iff, List.forall₂_map_right_iff, List.forall₂_same]
      intro r _
      have hs : ("Obj_Sun_LTC_km" ∈ if "trailedSourceMagTrue" ∈ f'.cols then f'.cols else
          f'.cols ++ ["trailedSourceMagTrue"]) ↔ "Obj_Sun_LTC_km" ∈ f'.cols := by
        split_ifs
        · rfl
        · simp
      refine ⟨rfl, fun c hc => by simp [hc], sunDistance f'.cols r, ?_, ?_⟩
      · simp only [hs, show "Obj_Sun_LTC_km" ≠ "trailedSourceMagTrue" by decide,
          show "Obj_Sun_x_LTC_km" ≠ "trailedSourceMagTrue" by decide, show "Obj_Sun_y_LTC_km" ≠ "trailedSourceMagTrue" by decide,
          show "Obj_Sun_z_LTC_km" ≠ "trailedSourceMagTrue" by decide, if_false]
        rfl
      · simp only [if_true, show "Range_LTC_km" ≠ "trailedSourceMagTrue" by decide,
          show "phase_deg" ≠ "trailedSourceMagTrue" by decide, if_false]
        have e1 := hlc ⟨r.filt, fun c' => if c' = "trailedSourceMagTrue" then
          (magnitude sbpy ⟨none, none⟩ fn ps f'.cols r) else r.val c'⟩ r rfl (fun c hc => by simp [hc])
        have e2 := hact ⟨r.filt, fun c' => if c' = "trailedSourceMagTrue" then
          (magnitude sbpy ⟨none, none⟩ fn ps f'.cols r) else r.val c'⟩ r rfl (fun c hc => by simp [hc])
        rw [e1, e2]
        rfl
  unfold calculateApparentMagnitude at h h'
  split_ifs at h h' with hl hH
  · simp only [bind, Except.bind] at h h'
    cases hc : applyColourOffsets fn obs main f with
    | error e => rw [hc] at h; simp at h
    | ok g1 =>
      rw [hc] at h h'
      exact key g1 g g' h h'
  · exact key _ g g' h h'

/-- C30 (distance): the distance part of the magnitude grows strictly with either distance; ten times the distance is five
magnitudes. -/
theorem C30_distance (d r : ℝ) (hd : 0 < d) (hr : 0 < r) :
    (∀ d', d < d' → 5 * Real.logb 10 (au d) + 5 * Real.logb 10 (au r) < 5 * Real.logb 10 (au d') + 5 * Real.logb 10 (au r)) ∧
    (∀ r', r < r' → 5 * Real.logb 10 (au d) + 5 * Real.logb 10 (au r) < 5 * Real.logb 10 (au d) + 5 * Real.logb 10 (au r')) ∧
    5 * Real.logb 10 (au (10 * d)) = 5 * Real.logb 10 (au d) + 5 := by
  have hau : ∀ x, 0 < x → 0 < au x := fun x hx => by unfold au; positivity
  have mono : ∀ x y, 0 < x → x < y → Real.logb 10 (au x) < Real.logb 10 (au y) := by
    intro x y hx hxy
    exact Real.logb_lt_logb (by norm_num) (hau x hx) (by unfold au; gcongr)
  refine ⟨fun d' h => by linarith [mono d d' hd h], fun r' h => by linarith [mono r r' hr h], ?_⟩
  have : au (10 * d) = 10 * au d := by unfold au; ring
  rw [this, Real.logb_mul (by norm_num) (hau d hd).ne', Real.logb_self_eq_one (by norm_num)]
  ring

/-- Phase parameters given per filter are only looked up when more than one filter is observed: with a single observing
filter the same file makes the run stop. -/
theorem C30_single_filter_phase_fails (sbpy : String → ℝ → List ℝ → ℝ → ℝ) (r : Row) (hr : r.filt = "r") :
    calculateApparentMagnitude sbpy ⟨none, none⟩ "HG" ["r"] "r" ⟨["H_r", "GSr"], [r]⟩ = .error .keyError ∧
    ∃ g, calculateApparentMagnitude sbpy ⟨none, none⟩ "HG" ["r", "g"] "r" ⟨["H_r", "GSr", "GSg", "g-r"], [r]⟩ = .ok g := by
  constructor
  · simp [calculateApparentMagnitude, apparentMagnitudeInFilter, phaseParams, Frame.setCol]
  · obtain ⟨b, v⟩ := r
    simp only at hr
    subst hr
    simp [calculateApparentMagnitude, applyColourOffsets, prepare, Frame.setCol, offsetStep, selectPhase, phaseParams,
      selectParam, bind, Except.bind, pure, Except.pure, finish, isColour, apparentMagnitudeInFilter]

/-! ## C29: culling of faint objects -/

section helpers
theorem maxDepth_spec (visits : List Visit) (b : String) (d : ℝ) (h : maxDepth visits b = some d) :
    ∀ v ∈ visits, v.filt = b → v.depth ≤ d := by
  intro v hv hb
  unfold maxDepth at h
  have := (List.max?_eq_some_iff.1 h).2
  exact this _ (List.mem_filterMap.2 ⟨v, hv, by simp [hb]⟩)

theorem depths_ok {visits : List Visit} {obs : List String} {ds : List (String × ℝ)} (h : depths visits obs = .ok ds) :
    List.Forall₂ (fun b bd => bd.1 = b ∧ maxDepth visits b = some bd.2) obs ds := by
  induction obs generalizing ds with
  | nil => cases h; exact .nil
  | cons b bs ih =>
    unfold depths at h
    cases hm : maxDepth visits b with
    | none => rw [hm] at h; simp at h
    | some d =>
      rw [hm] at h
      simp only [bind, Except.bind] at h
      cases hd : depths visits bs with
      | error e => rw [hd] at h; simp at h
      | ok ds' =>
        rw [hd] at h
        cases h
        exact .cons ⟨rfl, hm⟩ (ih hd)

theorem forall2_left {α β : Type} {R : α → β → Prop} {l : List α} {m : List β} (h : List.Forall₂ R l m) {a : α}
    (ha : a ∈ l) : ∃ b ∈ m, R a b := by
  induction h with
  | nil => simp at ha
  | cons hab _ ih =>
    rcases List.mem_cons.1 ha with rfl | h
    · exact ⟨_, List.mem_cons_self, hab⟩
    · obtain ⟨b, hb, hr⟩ := ih h
      exact ⟨b, List.mem_cons_of_mem _ hb, hr⟩

theorem depths_all {visits : List Visit} {obs : List String} {ds : List (String × ℝ)} (h : depths visits obs = .ok ds)
    (P : String → ℝ → Prop) :
    (∀ bd ∈ ds, P bd.1 bd.2) ↔ ∀ b ∈ obs, ∀ d, maxDepth visits b = some d → P b d := by
  have h2 := depths_ok h
  clear h
  induction h2 with
  | nil => simp
  | cons hab _ ih =>
    rename_i b bd _ _ _
    obtain ⟨h1, hm⟩ := hab
    simp only [List.forall_mem_cons, ih]
    constructor
    · rintro ⟨p1, p2⟩
      refine ⟨fun d hd => ?_, p2⟩
      rw [hm] at hd
      cases hd
      rw [← h1]; exact p1
    · rintro ⟨p1, p2⟩
      exact ⟨by rw [h1]; exact p1 _ hm, p2⟩
end helpers

/-- Absolute magnitude of an object in a filter. -/
noncomputable def absMag (main : String) (o : Obj) (b : String) : ℝ := if b = main then o.H else o.H + o.colour b

/-- C29 (soundness): an object removed by the culling filter has perihelion at two au or more, and at every heliocentric
distance `r` not below its perihelion and every range `d` not below perihelion minus 1 au it is more than two magnitudes
fainter than the depth of every visit in every observing filter; in that filter its fading-function probability is below
`F exp(-2/w)` for every visit. -/
theorem C29_sound (main : String) (obs : List String) (visits : List Visit) (objs out : List Obj)
    (h : cull ⟨none, none⟩ main obs visits objs = .ok out) (hid : (objs.map (·.id)).Nodup) (o : Obj) (ho : o ∈ objs) (hn : o ∉ out) :
    2 ≤ o.q ∧ ∀ v ∈ visits, v.filt ∈ obs → ∀ r d, o.q ≤ r → o.q - 1 ≤ d →
      v.depth + 2 < apparent (absMag main o v.filt) r d ∧
      ∀ F w, 0 < F → 0 < w →
        calcDetectionProbability (apparent (absMag main o v.filt) r d) v.depth F w < F * Real.exp (-2 / w) := by
  unfold cull at h
  simp only [bind, Except.bind] at h
  cases hd : depths visits obs with
  | error e => rw [hd] at h; simp at h
  | ok ds =>
    rw [hd] at h
    simp only [Except.ok.injEq] at h
    rw [← h, List.mem_filter, not_and] at hn
    have hfl : flagged ⟨none, none⟩ main ds o = true := by
      have := hn ho
      simp only [decide_not, Bool.not_eq_eq_eq_not, Bool.not_true, decide_eq_false_iff_not, not_not, List.mem_map,
        List.mem_filter] at this
      obtain ⟨o', ⟨ho', hf⟩, he⟩ := this
      have : o' = o := List.inj_on_of_nodup_map hid ho' ho he
      rw [← this]; exact hf
    unfold flagged at hfl
    rw [Bool.and_eq_true, decide_eq_true_eq, List.all_eq_true] at hfl
    obtain ⟨hq, hall⟩ := hfl
    refine ⟨hq, ?_⟩
    intro v hv hvo r d hr hdd
    have hb := (depths_all hd fun b m => m + 2 < brightest ⟨none, none⟩ main o b).1
      (fun bd hbd => of_decide_eq_true (hall bd hbd)) v.filt hvo
    have hm : ∃ m, maxDepth visits v.filt = some m := by
      unfold maxDepth
      cases hmx : (visits.filterMap fun v' => if v'.filt = v.filt then some v'.depth else none).max? with
      | some m => exact ⟨m, rfl⟩
      | none =>
        rw [List.max?_eq_none_iff] at hmx
        have : v.depth ∈ visits.filterMap fun v' => if v'.filt = v.filt then some v'.depth else none :=
          List.mem_filterMap.2 ⟨v, hv, by simp⟩
        rw [hmx] at this
        simp at this
    obtain ⟨m, hm⟩ := hm
    have h1 := hb m hm
    have h2 := maxDepth_spec visits v.filt m hm v hv rfl
    have hbr : brightest ⟨none, none⟩ main o v.filt = absMag main o v.filt + 5 * log10 o.q + 5 * log10 (o.q - 1) := rfl
    have hlog : log10 o.q + log10 (o.q - 1) ≤ Real.logb 10 (r * d) := by
      rw [Real.logb_mul (by linarith) (by linarith)]
      have := log10_le (x := o.q) (by linarith) hr
      have := log10_le (x := o.q - 1) (by linarith) hdd
      unfold log10 at *
      linarith
    have hfaint : v.depth + 2 < apparent (absMag main o v.filt) r d := by
      unfold apparent
      linarith
    refine ⟨hfaint, ?_⟩
    intro F w hF hw
    unfold calcDetectionProbability
    have hlt : (2 : ℝ) / w < (apparent (absMag main o v.filt) r d - v.depth) / w := by
      gcongr
      linarith
    have he : Real.exp (2 / w) < Real.exp ((apparent (absMag main o v.filt) r d - v.depth) / w) := Real.exp_lt_exp.2 hlt
    have hp := Real.exp_pos (2 / w)
    rw [neg_div, Real.exp_neg, ← div_eq_mul_inv]
    gcongr
    linarith

/-- C29 (observer): an observer on the Earth may be up to 1.02 au from the Sun, so the range can be a little less than
perihelion minus 1 au. A removed object is then still fainter than the depth of every visit by 1.9 magnitudes. Positions are
relative to the Sun, in au. -/
theorem C29_observer (main : String) (obs : List String) (visits : List Visit) (objs out : List Obj)
    (h : cull ⟨none, none⟩ main obs visits objs = .ok out) (hid : (objs.map (·.id)).Nodup) (o : Obj) (ho : o ∈ objs) (hn : o ∉ out)
    (v : Visit) (hv : v ∈ visits) (hvo : v.filt ∈ obs) (x e : EuclideanSpace ℝ (Fin 3)) (hx : o.q ≤ ‖x‖) (he : ‖e‖ ≤ 1.02) :
    v.depth + 1.9 < apparent (absMag main o v.filt) ‖x‖ ‖x - e‖ := by
  obtain ⟨hq, hs⟩ := C29_sound main obs visits objs out h hid o ho hn
  have hs := (hs v hv hvo ‖x‖ (o.q - 1) hx (le_refl _)).1
  have htri : o.q - 1.02 ≤ ‖x - e‖ := by
    have := norm_sub_norm_le x e
    linarith
  unfold apparent at *
  have hxp : 0 < ‖x‖ := by linarith
  have hdp : 0 < ‖x - e‖ := by linarith
  rw [Real.logb_mul hxp.ne' (by linarith)] at hs
  rw [Real.logb_mul hxp.ne' hdp.ne']
  have h1 : (o.q - 1) * (98 / 100) ≤ ‖x - e‖ := by linarith
  have h2 := Real.logb_le_logb_of_le (b := 10) (by norm_num) (by nlinarith : (0 : ℝ) < (o.q - 1) * (98 / 100)) h1
  rw [Real.logb_mul (by linarith) (by norm_num)] at h2
  have h3 : (-1 / 50 : ℝ) ≤ Real.logb 10 (98 / 100) := by
    rw [Real.le_logb_iff_rpow_le (by norm_num) (by norm_num)]
    have : (10 : ℝ) ^ (-1 / 50 : ℝ) = ((10 : ℝ) ^ (1 / 50 : ℝ))⁻¹ := by
      rw [← Real.rpow_neg (by norm_num)]; norm_num
    rw [this, inv_le_comm₀ (by positivity) (by norm_num)]
    have h4 : ((98 / 100 : ℝ)⁻¹) ^ 50 ≤ 10 := by norm_num
    have h5 : ((98 / 100 : ℝ)⁻¹) = (((98 / 100 : ℝ)⁻¹) ^ (50 : ℝ)) ^ (1 / 50 : ℝ) := by
      rw [← Real.rpow_mul (by norm_num)]; norm_num
    rw [h5]
    apply Real.rpow_le_rpow (by positivity) _ (by norm_num)
    have : ((98 / 100 : ℝ)⁻¹) ^ (50 : ℝ) = ((98 / 100 : ℝ)⁻¹) ^ (50 : ℕ) := by
      rw [← Real.rpow_natCast]; norm_num
    rw [this]
    exact h4
  linarith

/-- C29 (what is kept): with unique identifiers the kept objects are, unchanged and in order, exactly those with perihelion
below 2 au or whose estimated brightest magnitude is within two magnitudes of the deepest visit in some observing filter. -/
theorem C29_kept (main : String) (obs : List String) (visits : List Visit) (objs out : List Obj)
    (h : cull ⟨none, none⟩ main obs visits objs = .ok out) (hid : (objs.map (·.id)).Nodup) :
    out.Sublist objs ∧ ∀ o ∈ objs, o ∈ out ↔ o.q < 2 ∨
      ∃ b ∈ obs, ∃ v ∈ visits, v.filt = b ∧ absMag main o b + 5 * Real.logb 10 o.q + 5 * Real.logb 10 (o.q - 1) ≤ v.depth + 2 := by
  unfold cull at h
  simp only [bind, Except.bind] at h
  cases hd : depths visits obs with
  | error e => rw [hd] at h; simp at h
  | ok ds =>
    rw [hd] at h
    simp only [Except.ok.injEq] at h
    subst h
    refine ⟨List.filter_sublist, ?_⟩
    intro o ho
    have e1 : (o ∈ objs.filter fun o => o.id ∉ (objs.filter (flagged ⟨none, none⟩ main ds)).map (·.id)) ↔
        ¬ flagged ⟨none, none⟩ main ds o = true := by
      rw [List.mem_filter]
      simp only [decide_not, Bool.not_eq_eq_eq_not, Bool.not_true, decide_eq_false_iff_not, List.mem_map, List.mem_filter]
      constructor
      · rintro ⟨-, h⟩ hf; exact h ⟨o, ⟨ho, hf⟩, rfl⟩
      · intro h
        refine ⟨ho, ?_⟩
        rintro ⟨o', ⟨ho', hf⟩, he⟩
        have : o' = o := List.inj_on_of_nodup_map hid ho' ho he
        rw [this] at hf
        exact h hf
    rw [e1]
    unfold flagged
    rw [Bool.and_eq_true, decide_eq_true_eq, List.all_eq_true, not_and_or, not_le]
    apply or_congr Iff.rfl
    have := depths_all hd fun b m => m + 2 < brightest ⟨none, none⟩ main o b
    simp only [decide_eq_true_eq]
    rw [this]
    push Not
    have hbr : ∀ b, brightest ⟨none, none⟩ main o b = absMag main o b + 5 * Real.logb 10 o.q + 5 * Real.logb 10 (o.q - 1) :=
      fun _ => rfl
    constructor
    · rintro ⟨b, hb, d, hmd, hle⟩
      rw [hbr] at hle
      have hmem := (List.max?_eq_some_iff.1 hmd).1
      obtain ⟨v, hv, he⟩ := List.mem_filterMap.1 hmem
      split_ifs at he with hf
      cases he
      exact ⟨b, hb, v, hv, hf, hle⟩
    · rintro ⟨b, hb, v, hv, hf, hle⟩
      have hfa := depths_ok hd
      obtain ⟨d, hmd⟩ : ∃ d, maxDepth visits b = some d := by
        obtain ⟨bd, -, h1, h2⟩ := forall2_left hfa hb
        exact ⟨_, h2⟩
      refine ⟨b, hb, d, hmd, ?_⟩
      rw [hbr]
      have := maxDepth_spec visits b d hmd v hv hf
      linarith

/-- C29 (light curves): if the light-curve model's `maxBrightness` never exceeds the shift it later gives to an observation of
that object, an object that is removed is still more than two magnitudes too faint with its light curve. -/
theorem C29_lightcurve (lc : Obj → ℝ) (main : String) (obs : List String) (visits : List Visit) (objs out : List Obj)
    (h : cull ⟨some lc, none⟩ main obs visits objs = .ok out) (hid : (objs.map (·.id)).Nodup) (o : Obj) (ho : o ∈ objs)
    (hn : o ∉ out) (v : Visit) (hv : v ∈ visits) (hvo : v.filt ∈ obs) (r d shift : ℝ) (hr : o.q ≤ r) (hdd : o.q - 1 ≤ d)
    (hs : lc o ≤ shift) : v.depth + 2 < apparent (absMag main o v.filt) r d + shift := by
  unfold cull at h
  simp only [bind, Except.bind] at h
  cases hd : depths visits obs with
  | error e => rw [hd] at h; simp at h
  | ok ds =>
    rw [hd] at h
    simp only [Except.ok.injEq] at h
    rw [← h, List.mem_filter, not_and] at hn
    have hfl : flagged ⟨some lc, none⟩ main ds o = true := by
      have := hn ho
      simp only [decide_not, Bool.not_eq_eq_eq_not, Bool.not_true, decide_eq_false_iff_not, not_not, List.mem_map,
        List.mem_filter] at this
      obtain ⟨o', ⟨ho', hf⟩, he⟩ := this
      have : o' = o := List.inj_on_of_nodup_map hid ho' ho he
      rw [← this]; exact hf
    unfold flagged at hfl
    rw [Bool.and_eq_true, decide_eq_true_eq, List.all_eq_true] at hfl
    obtain ⟨hq, hall⟩ := hfl
    have hb := (depths_all hd fun b m => m + 2 < brightest ⟨some lc, none⟩ main o b).1
      (fun bd hbd => of_decide_eq_true (hall bd hbd)) v.filt hvo
    obtain ⟨m, hm⟩ : ∃ d, maxDepth visits v.filt = some d := by
      obtain ⟨bd, -, h1, h2⟩ := forall2_left (depths_ok hd) hvo
      exact ⟨_, h2⟩
    have h1 := hb m hm
    have h2 := maxDepth_spec visits v.filt m hm v hv rfl
    have hbr : brightest ⟨some lc, none⟩ main o v.filt = absMag main o v.filt + 5 * log10 o.q + 5 * log10 (o.q - 1) + lc o := rfl
    have hlog : log10 o.q + log10 (o.q - 1) ≤ Real.logb 10 (r * d) := by
      rw [Real.logb_mul (by linarith) (by linarith)]
      have := log10_le (x := o.q) (by linarith) hr
      have := log10_le (x := o.q - 1) (by linarith) hdd
      unfold log10 at *
      linarith
    unfold apparent
    linarith

/-- An observing filter without a single visit in the pointing table makes the culling stop with an uncaught error, whatever
the objects are. -/
theorem C29_unused_filter_fails (boost : Boost) (main b : String) (obs : List String) (visits : List Visit) (objs : List Obj)
    (hb : b ∈ obs) (hv : ∀ v ∈ visits, v.filt ≠ b) : cull boost main obs visits objs = .error .keyError := by
  have : depths visits obs = .error .keyError := by
    induction obs with
    | nil => simp at hb
    | cons a obs ih =>
      unfold depths
      cases hm : maxDepth visits a with
      | none => rfl
      | some d =>
        simp only [bind, Except.bind]
        have hne : b ≠ a := by
          rintro rfl
          have hmem := (List.max?_eq_some_iff.1 hm).1
          obtain ⟨v, hv', he⟩ := List.mem_filterMap.1 hmem
          split_ifs at he with hf
          exact hv v hv' hf
        rw [ih ((List.mem_cons.1 hb).resolve_left hne)]
  unfold cull
  rw [this]
  rfl

/-- A bright and a very faint object with perihelion at 3 au: only the faint one is removed. -/
example : ∃ out, cull ⟨none, none⟩ "r" ["r"] [⟨"r", 24⟩] [⟨"a", 3, 10, fun _ => 0⟩, ⟨"b", 3, 30, fun _ => 0⟩] = .ok out ∧
    out.map (·.id) = ["a"] := by
  have hm : maxDepth [⟨"r", 24⟩] "r" = some 24 := by simp [maxDepth]
  have hd : depths [⟨"r", 24⟩] ["r"] = .ok [("r", 24)] := by
    simp [depths, hm, bind, Except.bind]
  refine ⟨_, by unfold cull; rw [hd]; rfl, ?_⟩
  have l3 : 0 ≤ log10 3 := by rw [← log10_one]; exact log10_le (by norm_num) (by norm_num)
  have l3' : log10 3 ≤ 1 := by
    have := log10_le (x := 3) (y := 10) (by norm_num) (by norm_num)
    unfold log10 at *
    rw [Real.logb_self_eq_one (by norm_num)] at this
    exact this
  have l2 : 0 ≤ log10 2 := by rw [← log10_one]; exact log10_le (by norm_num) (by norm_num)
  have l2' : log10 2 ≤ log10 3 := log10_le (by norm_num) (by norm_num)
  have fa : flagged ⟨none, none⟩ "r" [("r", 24)] ⟨"a", 3, 10, fun _ => 0⟩ = false := by
    simp only [flagged, brightest, List.all_cons, List.all_nil, Bool.and_true, if_true]
    norm_num
    linarith
  have fb : flagged ⟨none, none⟩ "r" [("r", 24)] ⟨"b", 3, 30, fun _ => 0⟩ = true := by
    simp only [flagged, brightest, List.all_cons, List.all_nil, Bool.and_true, if_true]
    norm_num
    linarith
  simp [fa, fb]

/-- A two-filter table: the r-band row keeps H, the g-band row gets the colour. -/
example (v : String → ℝ) (h1 : v "H_r" = 20) (h2 : v "g-r" = 0.5) :
    ∃ g, applyColourOffsets "none" ["r", "g"] "r" ⟨["H_r", "g-r"], [⟨"r", v⟩, ⟨"g", v⟩]⟩ = .ok g ∧
      g.rows.map (fun r => r.val "H_filter") = [20, 20.5] := by
  have e1 : ("H_" ++ "r") = "H_r" := by decide
  have e2 : ("g" ++ "-" ++ "r") = "g-r" := by decide
  have d1 : '-' ∉ "r".toList := by decide
  have d2 : '-' ∉ "g".toList := by decide
  have hok := ((C30_abort "none" "r" ["r", "g"] ⟨["H_r", "g-r"], [⟨"r", v⟩, ⟨"g", v⟩]⟩ (by simp [e1])).2).2 (by
    intro r hr
    simp at hr
    rcases hr with rfl | rfl
    · exact .inl rfl
    · right; simp)
  obtain ⟨⟨cs, rows⟩, hg⟩ := hok
  refine ⟨_, hg, ?_⟩
  obtain ⟨ps, -, hf⟩ := C30_colours hg (by decide) (by decide) (by
    intro r hr
    simp at hr
    rcases hr with rfl | rfl
    · exact d1
    · exact d2)
  simp only at hf ⊢
  cases hf with
  | cons ha hf =>
    cases hf with
    | cons hb hf =>
      cases hf
      simp only [List.map_cons, List.map_nil]
      rw [ha.2.1, hb.2.1]
      simp only [absoluteInFilter, if_true, e1, e2, h1, h2, show ("g" : String) ≠ "r" by decide, if_false]
      norm_num

end Sorcha.Mags.Props
