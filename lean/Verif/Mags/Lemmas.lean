import Verif.Mags.Spec
import Verif.Photom.Lemmas

/-!
# Lemmas about magnitudes
-/

namespace Sorcha.Mags
open Sorcha.Photom Sorcha.Mags.Spec

/-! ## Column names -/

theorem append_right_cancel {a b c : String} (h : a ++ c = b ++ c) : a = b := by
  have := congrArg String.toList h
  simp only [String.toList_append] at this
  exact String.toList_injective (List.append_cancel_right this)

theorem append_left_cancel {a b c : String} (h : c ++ a = c ++ b) : a = b := by
  have := congrArg String.toList h
  simp only [String.toList_append] at this
  exact String.toList_injective (List.append_cancel_left this)

theorem colour_ne_H (b main : String) : b ++ "-" ++ main ≠ "H_" ++ main := by
  intro h
  have h1 := append_right_cancel h
  have := congrArg (fun s : String => s.toList.getLast?) h1
  simp [String.toList_append] at this

theorem colour_ne_lit (b main : String) (s : String) (hs : '-' ∉ s.toList) : b ++ "-" ++ main ≠ s := by
  intro h
  apply hs
  rw [← h]
  simp

theorem colour_inj {b b' main : String} (h : b ++ "-" ++ main = b' ++ "-" ++ main) : b = b' :=
  append_right_cancel (append_right_cancel h)

theorem H_ne (main s : String) (hs : s.toList.head? ≠ some 'H') : "H_" ++ main ≠ s := by
  intro h
  apply hs
  rw [← h]
  simp

theorem head_append (p b s : String) (hp : p ≠ "") (h : p.toList.head? ≠ s.toList.head?) : p ++ b ≠ s := by
  intro he
  apply h
  rw [← he, String.toList_append, List.head?_append_of_ne_nil]
  simpa using hp

theorem setCol_mem (f : Frame) (c : String) (g : Row → ℝ) (c' : String) : c' ∈ (f.setCol c g).cols ↔ c' ∈ f.cols ∨ c' = c := by
  unfold Frame.setCol
  simp only
  split_ifs with h
  · constructor
    · exact .inl
    · rintro (h1 | rfl)
      · exact h1
      · exact h
  · simp

theorem params_cases {fn : String} {ps : List String} (h : phaseParams fn = some ps) : Needs fn ps := by
  unfold phaseParams at h
  split_ifs at h with h1 h2 h3 h4 h5 <;> cases h
  · subst h1; exact .HG1G2
  · subst h2; exact .HG
  · subst h3; exact .HG12
  · subst h4; exact .linear
  · subst h5; exact .none

theorem params_of_needs {fn : String} {ps : List String} (h : Needs fn ps) : phaseParams fn = some ps := by
  cases h <;> decide

/-! ## The loop over the filters -/

/-- A row with its own colour added. -/
noncomputable def shifted (main : String) (r : Row) : Row :=
  { r with val := fun c => if c = "H_" ++ main then r.val ("H_" ++ main) + r.val (r.filt ++ "-" ++ main) else r.val c }

theorem loop_ok (main : String) (L : List String) (hn : L.Nodup) (f : Frame) (hc : ∀ b ∈ L, (b ++ "-" ++ main) ∈ f.cols) :
    L.foldlM (offsetStep main) f = .ok { f with rows := f.rows.map fun r => if r.filt ∈ L then shifted main r else r } := by
  induction L generalizing f with
  | nil => simp [pure, Except.pure]
  | cons b L ih =>
    obtain ⟨hb, hn'⟩ := List.nodup_cons.1 hn
    rw [List.foldlM_cons]
    have e : offsetStep main f b = .ok { f with rows := f.rows.map fun r => if r.filt = b then shifted main r else r } := by
      unfold offsetStep
      rw [if_pos (hc b (by simp))]
      congr 2
      apply List.map_congr_left
      intro r _
      by_cases h : r.filt = b
      · rw [if_pos h, if_pos h]; unfold shifted; rw [h]
      · rw [if_neg h, if_neg h]
    rw [e]
    refine (ih hn' { f with rows := f.rows.map fun r => if r.filt = b then shifted main r else r }
      (fun b' hb' => hc b' (List.mem_cons_of_mem _ hb'))).trans ?_
    simp only [List.map_map]
    congr 2
    apply List.map_congr_left
    intro r _
    simp only [Function.comp_apply]
    by_cases h : r.filt = b
    · rw [if_pos h]
      have h1 : (shifted main r).filt = b := h
      rw [h1, if_neg hb, if_pos (by rw [h]; simp)]
    · rw [if_neg h]
      by_cases h2 : r.filt ∈ L
      · rw [if_pos h2, if_pos (List.mem_cons_of_mem _ h2)]
      · rw [if_neg h2, if_neg (by simp [h, h2])]

theorem loop_error (main : String) (L : List String) (f : Frame) (b : String) (hb : b ∈ L)
    (hc : (b ++ "-" ++ main) ∉ f.cols) : L.foldlM (offsetStep main) f = .error .noColour := by
  induction L generalizing f with
  | nil => simp at hb
  | cons a L ih =>
    rw [List.foldlM_cons]
    by_cases ha : (a ++ "-" ++ main) ∈ f.cols
    · have hne : b ≠ a := fun h => hc (h ▸ ha)
      unfold offsetStep
      rw [if_pos ha]
      simp only [bind, Except.bind]
      refine ih _ ?_ hc
      rcases List.mem_cons.1 hb with h | h
      · exact absurd h hne
      · exact h
    · unfold offsetStep
      rw [if_neg ha]
      rfl

/-! ## Phase parameters -/

/-- A row with the parameters of its filter. -/
noncomputable def pick (ps : List String) (common : Prop) [Decidable common] (r : Row) : Row :=
  { r with val := fun c => if c ∈ ps ∧ ¬ common then r.val (c ++ r.filt) else r.val c }

theorem selectParam_ok {f g : Frame} {p : String} (h : selectParam f p = .ok g) : g = f.setCol p fun r => r.val (p ++ r.filt) := by
  unfold selectParam at h
  split_ifs at h
  cases h; rfl

theorem selectPhase_ok {fn main : String} {obs : List String} {f g : Frame} (h : selectPhase fn obs main f = .ok g)
    (hH : ("H_" ++ main) ∈ f.cols) :
    ∃ ps, Needs fn ps ∧ g.rows = f.rows.map (pick ps (∀ p ∈ ps, p ∈ f.cols)) ∧
      ∀ c, (∀ p ∈ ps, ∀ b ∈ obs, c ≠ p ++ b) → (c ∈ g.cols ↔ c ∈ f.cols ∨ c ∈ ps) := by
  unfold selectPhase at h
  cases hp : phaseParams fn with
  | none => rw [hp] at h; simp at h
  | some ps =>
    rw [hp] at h
    simp only at h
    refine ⟨ps, params_cases hp, ?_⟩
    by_cases hall : ∀ p ∈ ps, p ∈ f.cols
    · rw [if_pos (by simp [hH]; exact hall)] at h
      cases h
      refine ⟨?_, ?_⟩
      · symm
        refine (List.map_congr_left (g := id) ?_).trans (List.map_id _)
        intro r _
        unfold pick
        simp only [not_true_eq_false, and_false, if_false, id, eq_true hall]
      · intro c _
        exact ⟨.inl, fun h => h.elim id (hall c)⟩
    · rw [if_neg (by simp [hH]; push Not at hall; exact hall)] at h
      split_ifs at h with h2
      simp only [bind, Except.bind] at h
      cases hfold : ps.foldlM selectParam f with
      | error e => rw [hfold] at h; simp at h
      | ok g0 =>
        rw [hfold] at h
        simp only [Except.ok.injEq] at h
        have key : g0.rows = f.rows.map (pick ps (∀ p ∈ ps, p ∈ f.cols)) ∧ ∀ c, c ∈ g0.cols ↔ c ∈ f.cols ∨ c ∈ ps := by
          have hpk : ∀ r, pick ps (∀ p ∈ ps, p ∈ f.cols) r =
              { r with val := fun c => if c ∈ ps then r.val (c ++ r.filt) else r.val c } := by
            intro r; unfold pick; simp only [hall, not_false_eq_true, and_true]
          have one : ∀ p, ps = [p] → g0.rows = f.rows.map (pick ps (∀ p ∈ ps, p ∈ f.cols)) ∧
              ∀ c, c ∈ g0.cols ↔ c ∈ f.cols ∨ c ∈ ps := by
            intro p hps
            rw [hps] at hfold
            have hfold' : selectParam f p = .ok g0 := by
              simp only [List.foldlM_cons, List.foldlM_nil, bind, Except.bind, pure, Except.pure] at hfold
              cases hs : selectParam f p with
              | error e => rw [hs] at hfold; simp at hfold
              | ok g1 => rw [hs] at hfold; simpa using hfold
            have := selectParam_ok hfold'
            subst this
            refine ⟨?_, ?_⟩
            · simp only [Frame.setCol]
              apply List.map_congr_left
              intro r _
              rw [hpk, hps]
              congr 1
              funext c
              by_cases hcp : c = p
              · subst hcp; simp
              · simp [hcp]
            · intro c; rw [setCol_mem, hps]; simp
          cases params_cases hp with
          | HG => exact one _ rfl
          | HG12 => exact one _ rfl
          | linear => exact one _ rfl
          | none => exact absurd (by simp) hall
          | HG1G2 =>
            simp only [List.foldlM_cons, List.foldlM_nil, bind, Except.bind, pure, Except.pure] at hfold
            cases hs : selectParam f "G1" with
            | error e => rw [hs] at hfold; simp at hfold
            | ok g1 =>
              rw [hs] at hfold
              cases hs2 : selectParam g1 "G2" with
              | error e => simp only [hs2] at hfold; simp at hfold
              | ok g2 =>
                simp only [hs2, Except.ok.injEq] at hfold
                subst hfold
                have e1 := selectParam_ok hs
                have e2 := selectParam_ok hs2
                subst e1
                subst e2
                refine ⟨?_, ?_⟩
                · simp only [Frame.setCol, List.map_map]
                  apply List.map_congr_left
                  intro r _
                  rw [hpk]
                  simp only [Function.comp_apply]
                  congr 1
                  funext c
                  have hne : ∀ b : String, "G2" ++ b ≠ "G1" := by
                    intro b he
                    have := congrArg (fun s : String => s.toList[1]?) he
                    simp at this
                  by_cases h1 : c = "G1"
                  · subst h1; simp
                  · by_cases h2 : c = "G2"
                    · subst h2; simp [hne]
                    · simp [h1, h2]
                · intro c
                  rw [setCol_mem, setCol_mem]
                  simp [or_assoc]
        rw [← h]
        refine ⟨key.1, ?_⟩
        intro c hc
        simp only [List.mem_filter, key.2 c]
        constructor
        · exact fun h => h.1
        · intro h
          refine ⟨h, ?_⟩
          rw [decide_eq_true_eq]
          simp only [List.mem_flatMap, List.mem_map, not_exists, not_and]
          intro p hp' b hb he
          exact hc p hp' b hb he.symm

end Sorcha.Mags
