import Verif.Columns.Examples
import Mathlib.Data.List.Dedup

/-!
# The columns of the magnitudes agree with the model with values
-/

namespace Sorcha.Columns.Props
open Sorcha.Columns

theorem setCol_cols (f : Mags.Frame) (p : String) (g : Mags.Row → ℝ) : (f.setCol p g).cols = put f.cols p := by
  unfold Mags.Frame.setCol put
  rfl

theorem offsets_cols (main : String) : ∀ (bs : List String) (f g : Mags.Frame), bs.foldlM (Mags.offsetStep main) f = .ok g →
    g.cols = f.cols ∧ g.rows.map (·.filt) = f.rows.map (·.filt) ∧ ∀ b ∈ bs, b ++ "-" ++ main ∈ f.cols
  | [], f, g, h => by cases h; simp
  | b :: bs, f, g, h => by
    rw [List.foldlM_cons] at h
    unfold Mags.offsetStep at h
    by_cases hb : b ++ "-" ++ main ∈ f.cols
    · rw [if_pos hb] at h
      obtain ⟨h1, h2, h3⟩ := offsets_cols main bs _ g h
      refine ⟨h1, ?_, ?_⟩
      · rw [h2, List.map_map]
        apply List.map_congr_left
        intro r _
        simp only [Function.comp]
        split_ifs <;> rfl
      · intro x hx
        rcases List.mem_cons.1 hx with rfl | hx
        · exact hb
        · exact h3 x hx
    · rw [if_neg hb] at h; cases h

theorem offsets_ok (main : String) : ∀ (bs : List String) (f : Mags.Frame), (∀ b ∈ bs, b ++ "-" ++ main ∈ f.cols) →
    ∃ g, bs.foldlM (Mags.offsetStep main) f = .ok g
  | [], f, _ => ⟨f, rfl⟩
  | b :: bs, f, h => by
    rw [List.foldlM_cons]
    unfold Mags.offsetStep
    rw [if_pos (h b (by simp))]
    exact offsets_ok main bs _ fun x hx => h x (by simp [hx])

theorem params_cols : ∀ (ps : List String) (f : Mags.Frame), f.rows ≠ [] → (∀ p ∈ ps, ∀ b ∈ f.rows.map (·.filt), p ++ b ∈ f.cols) →
    ∃ g, ps.foldlM Mags.selectParam f = .ok g ∧ g.cols = ps.foldl put f.cols
  | [], f, _, _ => ⟨f, rfl, rfl⟩
  | p :: ps, f, hne, h => by
    have hne' : f.rows.isEmpty = false := by
      cases hf : f.rows with
      | nil => exact absurd hf hne
      | cons _ _ => rfl
    have hall : (f.rows.all fun r => (p ++ r.filt) ∈ f.cols) = true := by
      rw [List.all_eq_true]; intro r hr; simpa using h p (by simp) r.filt (List.mem_map_of_mem hr)
    have hsel : Mags.selectParam f p = .ok (f.setCol p fun r => r.val (p ++ r.filt)) := by
      unfold Mags.selectParam
      rw [hne', hall]; rfl
    obtain ⟨g, g1, g2⟩ := params_cols ps (f.setCol p fun r => r.val (p ++ r.filt)) (by simpa [Mags.Frame.setCol] using hne) (by
      intro p' hp' b hb
      rw [setCol_cols, mem_put]
      left
      refine h p' (by simp [hp']) b ?_
      simpa [Mags.Frame.setCol] using hb)
    refine ⟨g, ?_, ?_⟩
    · rw [List.foldlM_cons, hsel]; exact g1
    · rw [g2, setCol_cols]; rfl

theorem params_of_ok : ∀ (ps : List String) (f g : Mags.Frame), ps.foldlM Mags.selectParam f = .ok g → ps ≠ [] → (∀ p ∈ ps, ∀ p' ∈ ps, ∀ b ∈ f.rows.map (·.filt), p ++ b ≠ p') →
    f.rows ≠ [] ∧ ∀ p ∈ ps, ∀ b ∈ f.rows.map (·.filt), p ++ b ∈ f.cols
  | [], _, _, _, h, _ => absurd rfl h
  | p :: ps, f, g, h, _, hsep => by
    rw [List.foldlM_cons] at h
    unfold Mags.selectParam at h
    have hne : f.rows ≠ [] := by
      intro hf
      rw [hf] at h; cases h
    have hne' : f.rows.isEmpty = false := by
      cases hf : f.rows with
      | nil => exact absurd hf hne
      | cons _ _ => rfl
    rw [hne'] at h
    by_cases hall : (f.rows.all fun r => (p ++ r.filt) ∈ f.cols) = true
    · rw [hall] at h
      refine ⟨hne, ?_⟩
      intro p' hp' b hb
      rcases List.mem_cons.1 hp' with rfl | hp''
      · rw [List.all_eq_true] at hall
        obtain ⟨r, hr, rfl⟩ := List.mem_map.1 hb
        simpa using hall r hr
      · have hps : ps ≠ [] := by rintro rfl; simp at hp''
        have := (params_of_ok ps (f.setCol p fun r => r.val (p ++ r.filt)) g h hps (by
          intro q hq q' hq' b hb
          exact hsep q (by simp [hq]) q' (by simp [hq']) b (by simpa [Mags.Frame.setCol] using hb))).2 p' hp'' b (by simpa [Mags.Frame.setCol] using hb)
        rw [setCol_cols, mem_put] at this
        rcases this with h | h
        · exact h
        · exact absurd h (hsep p' hp' p (by simp) b hb)
    · have : (f.rows.all fun r => decide ((p ++ r.filt) ∈ f.cols)) = false := by simpa using hall
      rw [this] at h; cases h

theorem phase_agree (c : Config.Cfg) (r : Run) (f : Mags.Frame) (hp : r.present = f.rows.map (·.filt)) (hb : ∀ b ∈ f.rows.map (·.filt), b ≠ "") (hH : "H_" ++ r.main ∈ f.cols)
    (m : Cols) : (∃ g, Mags.selectPhase c.phase c.filters r.main f = .ok g ∧ g.cols = m) ↔ phase c r f.cols = .ok m := by
  unfold Mags.selectPhase phase
  cases hps : Mags.phaseParams c.phase with
  | none => simp
  | some ps =>
    simp only []
    by_cases h1 : ((("H_" ++ r.main) :: ps).all (· ∈ f.cols)) = true
    · simp only [h1, if_true]
      constructor
      · rintro ⟨g, h, rfl⟩; cases h; rfl
      · intro h; cases h; exact ⟨f, rfl, rfl⟩
    · have hne : ps ≠ [] := by
        rintro rfl
        exact h1 (by simpa using hH)
      have hsep : ∀ p ∈ ps, ∀ p' ∈ ps, ∀ b ∈ f.rows.map (·.filt), p ++ b ≠ p' := by
        have key : ∀ p p' b : String, p.length = p'.length → b ≠ "" → p ++ b ≠ p' := by
          intro p p' b hl hb e
          have := congrArg String.length e
          rw [String.length_append] at this
          have h0 : b.length = 0 := by omega
          exact hb (by rwa [String.length_eq_zero_iff] at h0)
        intro p hp p' hp' b hbm
        refine key p p' b ?_ (hb b hbm)
        unfold Mags.phaseParams at hps
        split_ifs at hps <;> cases hps <;> simp only [List.mem_cons, List.not_mem_nil, or_false] at hp hp'
        · rcases hp with rfl | rfl <;> rcases hp' with rfl | rfl <;> decide +kernel
        all_goals rw [hp, hp']
      simp only [h1]
      by_cases h2 : ((("H_" ++ r.main) :: (ps.flatMap fun p => c.filters.map fun b => p ++ b)).all (· ∈ f.cols)) = true
      · simp only [h2, if_true, Bool.false_eq_true, if_false]
        constructor
        · rintro ⟨g, h, rfl⟩
          cases hf : ps.foldlM Mags.selectParam f with
          | error e => rw [hf] at h; cases h
          | ok g0 =>
            rw [hf] at h
            cases h
            obtain ⟨n1, n2⟩ := params_of_ok ps f g0 hf hne hsep
            obtain ⟨g1, k1, k2⟩ := params_cols ps f n1 n2
            rw [hf] at k1; cases k1
            have hpe : r.present.isEmpty = false := by
              rw [hp]
              cases hr : f.rows with
              | nil => exact absurd hr n1
              | cons _ _ => rfl
            have hn : need (ps.flatMap fun p => r.present.map fun b => p ++ b) f.cols = .ok () := need_ok (by
              intro x hx
              rw [List.mem_flatMap] at hx
              obtain ⟨p, hpp, hx⟩ := hx
              obtain ⟨b, hbb, rfl⟩ := List.mem_map.1 hx
              exact n2 p hpp b (hp ▸ hbb))
            simp only [hpe, Bool.false_eq_true, if_false, hn, bind, Except.bind, k2]
            rfl
        · intro h
          by_cases hpe : r.present.isEmpty = true
          · simp only [hpe, if_true] at h; cases h
          · simp only [hpe] at h
            simp only [bind, Except.bind] at h
            cases hn : need (ps.flatMap fun p => r.present.map fun b => p ++ b) f.cols with
            | error e => rw [hn] at h; cases h
            | ok u =>
              rw [hn] at h
              cases h
              rw [need_ok_iff] at hn
              have hrows : f.rows ≠ [] := by
                intro hr
                rw [hp, hr] at hpe
                exact hpe rfl
              obtain ⟨g1, k1, k2⟩ := params_cols ps f hrows (by
                intro p hpp b hbb
                exact hn _ (List.mem_flatMap.2 ⟨p, hpp, List.mem_map_of_mem (hp ▸ hbb)⟩))
              rw [k1]
              exact ⟨_, rfl, by simp [k2]⟩
      · simp only [h2]
        constructor
        · rintro ⟨g, h, -⟩; cases h
        · intro h; cases h

/-- The colours computed with values and those computed on names agree: one succeeds iff the other does, with the same columns. -/
theorem C64_agree (c : Config.Cfg) (r : Run) (f : Mags.Frame) (hp : r.present = f.rows.map (·.filt)) (hb : ∀ b ∈ f.rows.map (·.filt), b ≠ "") (cs : Cols) :
    (∃ g, Mags.applyColourOffsets c.phase c.filters r.main f = .ok g ∧ g.cols = cs) ↔ colours c r f.cols = .ok cs := by
  have hc0 : (Mags.prepare r.main f).cols = put (put f.cols "H_original") (r.main ++ "-" ++ r.main) := by
    unfold Mags.prepare; rw [setCol_cols, setCol_cols]
  have hf0 : (Mags.prepare r.main f).rows.map (·.filt) = f.rows.map (·.filt) := by
    simp [Mags.prepare, Mags.Frame.setCol]
  unfold Mags.applyColourOffsets colours
  by_cases hH : "H_" ++ r.main ∈ f.cols
  · rw [if_pos hH]
    simp only [bind, Except.bind]
    rw [need_ok (by simpa using hH)]
    simp only [← hc0]
    by_cases hcol : ∀ b ∈ r.present, b ++ "-" ++ r.main ∈ (Mags.prepare r.main f).cols
    · have hany : (r.present.any fun b => b ++ "-" ++ r.main ∉ (Mags.prepare r.main f).cols) = false := by
        rw [List.any_eq_false]; intro b hbb; simpa using hcol b hbb
      obtain ⟨f1, e1⟩ := offsets_ok r.main (f.rows.map (·.filt)).dedup (Mags.prepare r.main f) (by
        intro b hbb; rw [List.mem_dedup] at hbb; exact hcol b (hp ▸ hbb))
      obtain ⟨c1, c2, -⟩ := offsets_cols _ _ _ _ e1
      have hH1 : "H_" ++ r.main ∈ f1.cols := by
        rw [c1, hc0, mem_put, mem_put]; exact .inl (.inl hH)
      have hag := phase_agree c r f1 (by rw [hp, c2, hf0]) (by rw [c2, hf0]; exact hb) hH1
      simp only [hany, Bool.false_eq_true, if_false, e1]
      rw [← c1]
      constructor
      · rintro ⟨g, h, rfl⟩
        cases hs : Mags.selectPhase c.phase c.filters r.main f1 with
        | error e => rw [hs] at h; cases h
        | ok f2 =>
          rw [hs] at h
          cases h
          rw [(hag f2.cols).1 ⟨f2, hs, rfl⟩]
          rfl
      · intro h
        cases hph : phase c r f1.cols with
        | error e => rw [hph] at h; cases h
        | ok m =>
          rw [hph] at h
          cases h
          obtain ⟨f2, hs, rfl⟩ := (hag m).2 hph
          rw [hs]
          exact ⟨_, rfl, rfl⟩
    · have hany : (r.present.any fun b => b ++ "-" ++ r.main ∉ (Mags.prepare r.main f).cols) = true := by
        rw [List.any_eq_true]; push Not at hcol; obtain ⟨b, h1, h2⟩ := hcol; exact ⟨b, h1, by simpa using h2⟩
      simp only [hany, if_true]
      constructor
      · rintro ⟨g, h, -⟩
        exfalso
        cases e1 : (f.rows.map (·.filt)).dedup.foldlM (Mags.offsetStep r.main) (Mags.prepare r.main f) with
        | error e => rw [e1] at h; cases h
        | ok f1 =>
          obtain ⟨-, -, c3⟩ := offsets_cols _ _ _ _ e1
          exact hcol fun b hbb => c3 b (List.mem_dedup.2 (hp ▸ hbb))
      · intro h; cases h
  · rw [if_neg hH]
    constructor
    · rintro ⟨g, h, -⟩; cases h
    · intro h
      obtain ⟨_, e, _⟩ : ∃ u : Unit, need ["H_" ++ r.main] f.cols = .ok u ∧ True := by
        cases hn : need ["H_" ++ r.main] f.cols with
        | error e => simp only [bind, Except.bind, hn] at h; cases h
        | ok u => exact ⟨u, rfl, trivial⟩
      exact absurd (need_ok_iff.1 e _ (by simp)) hH

/-- The hypotheses are met: a chunk with observations in two filters and phase parameters for each filter; the columns change, and there are values for them. -/
example :
    let f : Mags.Frame := ⟨["H_r", "g-r", "GSr", "GSg", "airmass"], [⟨"g", fun _ => 1⟩, ⟨"r", fun _ => 1⟩, ⟨"g", fun _ => 2⟩]⟩
    let r := { exRun with present := ["g", "r", "g"] }
    r.present = f.rows.map (·.filt) ∧ (∀ b ∈ f.rows.map (·.filt), b ≠ "") ∧ colours exCfg r f.cols = .ok ["H_filter", "airmass", "H_r", "GS"] ∧
    ∃ g, Mags.applyColourOffsets exCfg.phase exCfg.filters r.main f = .ok g ∧ g.cols = ["H_filter", "airmass", "H_r", "GS"] := by
  intro f r
  have h1 : r.present = f.rows.map (·.filt) := rfl
  have h2 : ∀ b ∈ f.rows.map (·.filt), b ≠ "" := by
    rw [← h1]; decide +kernel
  have h3 : colours exCfg r f.cols = .ok ["H_filter", "airmass", "H_r", "GS"] := by
    change colours exCfg { exRun with present := ["g", "r", "g"] } ["H_r", "g-r", "GSr", "GSg", "airmass"] = _
    decide +kernel
  exact ⟨h1, h2, h3, (C64_agree exCfg r f h1 h2 _).2 h3⟩

end Sorcha.Columns.Props
