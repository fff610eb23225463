import Verif.Columns.Lemmas

/-!
# Lemmas about columns: magnitudes and the later stages
-/

namespace Sorcha.Columns

variable {c : Config.Cfg} {r : Run} {f : Files}

/-! ## Names -/

theorem phaseParams_iff {ps : List String} : Mags.phaseParams c.phase = some ps ↔ PhaseNeeds c.phase ps := by
  generalize c.phase = ph
  unfold Mags.phaseParams
  constructor
  · intro h
    split_ifs at h with h1 h2 h3 h4 h5 <;> cases h
    · rw [h1]; exact .HG1G2
    · rw [h2]; exact .HG
    · rw [h3]; exact .HG12
    · rw [h4]; exact .linear
    · rw [h5]; exact .none
  · rintro (_ | _ | _ | _ | _) <;> simp

theorem phase_unique {ps ps' : List String} (h : PhaseNeeds c.phase ps) (h' : PhaseNeeds c.phase ps') : ps = ps' := by
  have a := phaseParams_iff.2 h
  rw [phaseParams_iff.2 h'] at a
  exact (Option.some.inj a).symm

theorem phase_names {ps : List String} (h : PhaseNeeds c.phase ps) : ∀ p ∈ ps, p ∈ ["G1", "G2", "GS", "G12", "S"] := by
  generalize c.phase = ph at h
  cases h <;> decide +kernel

theorem isColour_iff {main x : String} : Mags.isColour main x = true ↔ Colour main x := by
  unfold Mags.isColour Colour
  cases h : x.toList with
  | nil => simp
  | cons a l => simp

/-- A name that is neither a colour nor a phase parameter of one filter. -/
def Plain (x : String) : Prop := x.toList[1]? ≠ some '-' ∧ (x.toList.head? ∉ [some 'G', some 'S'] ∨ x.length = 1 ∨ 4 < x.length)

instance (x : String) : Decidable (Plain x) := inferInstanceAs (Decidable (_ ∧ _))

theorem not_colour {main x : String} (h : x.toList[1]? ≠ some '-') : ¬ Colour main x := by
  rintro ⟨ch, hx⟩; rw [hx] at h; simp at h

theorem perFilter_name {ps : List String} (hps : PhaseNeeds c.phase ps) {p b : String} (hp : p ∈ ps) (hb : ∃ ch, b = String.ofList [ch]) :
    (p ++ b).toList.head? ∈ [some 'G', some 'S'] ∧ 2 ≤ (p ++ b).length ∧ (p ++ b).length ≤ 4 := by
  obtain ⟨ch, rfl⟩ := hb
  have := phase_names hps p hp
  simp only [List.mem_cons, List.not_mem_nil, or_false] at this
  have hlen : (p ++ String.ofList [ch]).length = p.length + 1 := by simp
  have hhead : (p ++ String.ofList [ch]).toList.head? = p.toList.head? := by
    rw [String.toList_append]
    rcases this with rfl | rfl | rfl | rfl | rfl <;> rfl
  rw [hlen, hhead]
  rcases this with rfl | rfl | rfl | rfl | rfl <;> decide +kernel

theorem plain_not_removed (hl : ∀ b ∈ c.filters, ∃ ch, b = String.ofList [ch]) {x : String} (h : Plain x) : ¬ Removed c r f x := by
  rintro ⟨-, h' | ⟨-, ps, hps, p, hp, b, hb, rfl⟩⟩
  · exact not_colour h.1 h'
  · obtain ⟨n1, n2, n3⟩ := perFilter_name hps hp (hl b hb)
    rcases h.2 with h | h | h
    · exact h n1
    · omega
    · omega

theorem plain_H (ch : Char) : Plain ("H_" ++ String.ofList [ch]) := by
  constructor
  · rw [String.toList_append, String.toList_ofList]
    change some '_' ≠ some '-'
    decide
  · left
    rw [String.toList_append, String.toList_ofList]
    change some 'H' ∉ _
    decide

theorem ephemeris_plain : ∀ x ∈ EphemerisNames, Plain x := by decide +kernel

theorem others_plain : ∀ x ∈ ["optFilter", "fieldJD_TDB", "q", "H_filter"], Plain x := by decide +kernel

/-! ## The columns after the match -/

theorem matchCol_computed (nc : NoClash c r f) {x : String} (h : MatchCol c f x) (hx : x ∈ Computed) : x = "fieldJD_TDB" ∨ x = "optFilter" := by
  rcases h with h | rfl | ⟨hp, hv, hn⟩
  · rcases h with h | ⟨-, rfl⟩ | ⟨-, -, rfl⟩ | ⟨a, ha, hxa⟩
    · exact absurd hx ((by decide +kernel : ∀ y ∈ EphemerisNames, y ∉ Computed) x h)
    · exact .inl rfl
    · exact absurd hx (by decide +kernel)
    · rcases nc.own a ha x hxa with rfl | ⟨-, h⟩
      · exact absurd hx (by decide +kernel)
      · exact absurd hx h
  · exact .inr rfl
  · have := (nc.visits x hp).2.2 hx
    simp only [List.mem_cons, List.not_mem_nil, or_false, not_or] at this hn
    rcases this with h | h | h
    · exact .inl h
    · exact absurd h hn.2.2.1
    · exact absurd h hn.2.2.2

theorem matchCol_given {p : String} (hp : p ∈ ["G1", "G2", "GS", "G12", "S"]) : MatchCol c f p ↔ Given c f p := by
  have h1 : ∀ y ∈ ["G1", "G2", "GS", "G12", "S"], y ∉ EphemerisNames ∧ y ≠ "fieldJD_TDB" ∧ y ≠ "q" ∧ y ≠ "optFilter" ∧ y ∉ VisitsOnly ∧
    y ∉ ["observationId", "filter", "observationStartMJD_TAI", "observationMidpointMJD_TAI"] := by decide +kernel
  obtain ⟨a1, a2, a3, a4, a5, a6⟩ := h1 p hp
  unfold MatchCol ObsCol Given
  constructor
  · rintro ((h | ⟨-, h⟩ | ⟨-, -, h⟩ | h) | h | ⟨h, -⟩)
    · exact absurd h a1
    · exact absurd h a2
    · exact absurd h a3
    · exact .inl h
    · exact absurd h a4
    · exact .inr h
  · rintro (h | h)
    · exact .inl (.inr (.inr (.inr h)))
    · exact .inr (.inr ⟨h, a5, a6⟩)

theorem mem_params (h : x ∈ f.params) : MatchCol c f x := .inl (.inr (.inr (.inr ⟨f.params, by simp [auxFiles], h⟩)))

/-- The columns after the colours have been applied. -/
def HCol (c : Config.Cfg) (r : Run) (f : Files) (x : String) : Prop :=
  (MatchCol c f x ∧ ¬ Removed c r f x) ∨ (1 < c.filters.length ∧ PerFilter c f ∧ ∃ ps, PhaseNeeds c.phase ps ∧ x ∈ ps) ∨ x = "H_filter"

/-- What `phase` gives. -/
theorem phase_ok {q : List String} (hd : Documented q c r f) {cs : Cols}
    (hcs : ∀ x, x ∈ cs ↔ MatchCol c f x ∨ x = "H_original" ∨ x = r.main ++ "-" ++ r.main) {ps : List String} (hps : PhaseNeeds c.phase ps) :
    ∃ m, phase c r cs = .ok m ∧ (∀ x, x ∈ m ↔ (x ∈ cs ∨ PerFilter c f ∧ x ∈ ps) ∧ ¬ (PerFilter c f ∧ ∃ p ∈ ps, ∃ b ∈ c.filters, x = p ++ b)) ∧
      (cs.Nodup → m.Nodup) := by
  have hnames := phase_names hps
  obtain ⟨hl, hmain, hpres⟩ := hd.letters
  obtain ⟨mc, hmc⟩ := hl _ hmain
  have hH : "H_" ++ r.main ∈ cs := (hcs _).2 (.inl (mem_params hd.main))
  have hpm : ∀ p ∈ ps, p ∈ cs ↔ Given c f p := by
    intro p hp
    rw [hcs, matchCol_given (hnames p hp)]
    constructor
    · rintro (h | h | h)
      · exact h
      · exact absurd (h ▸ hnames p hp) (by decide +kernel)
      · exfalso
        have hcol : Colour r.main p := ⟨mc, by rw [h, hmc]; simp⟩
        exact not_colour ((by decide +kernel : ∀ y ∈ ["G1", "G2", "GS", "G12", "S"], y.toList[1]? ≠ some '-') p (hnames p hp)) hcol
    · exact .inl
  unfold phase
  rw [phaseParams_iff.2 hps]
  simp only []
  by_cases hall : ∀ p ∈ ps, p ∈ cs
  · have hc1 : ((("H_" ++ r.main) :: ps).all (· ∈ cs)) = true := by
      rw [List.all_eq_true]; intro x hx
      rcases List.mem_cons.1 hx with rfl | hx
      · simpa using hH
      · simpa using hall x hx
    have hnp : ¬ PerFilter c f := by
      rintro ⟨ps', h', p, hp, hg⟩
      obtain rfl := phase_unique hps h'
      exact hg ((hpm p hp).1 (hall p hp))
    rw [if_pos hc1]
    exact ⟨cs, rfl, by simp [hnp], id⟩
  · have hc1 : ¬ ((("H_" ++ r.main) :: ps).all (· ∈ cs)) = true := by
      rw [List.all_eq_true]; intro h
      exact hall fun p hp => by simpa using h p (List.mem_cons_of_mem _ hp)
    have hP : PerFilter c f := by
      push Not at hall
      obtain ⟨p, hp, hn⟩ := hall
      exact ⟨ps, hps, p, hp, fun h => hn ((hpm p hp).2 h)⟩
    have hspec : r.present ≠ [] ∧ ∀ p ∈ ps, ∀ b ∈ c.filters, p ++ b ∈ f.params := by
      obtain ⟨ps', h', h⟩ := hd.phase
      obtain rfl := phase_unique hps h'
      rcases h with h | ⟨-, h⟩
      · exact absurd (fun p hp => (hcs p).2 (.inl (mem_params (h p hp)))) hall
      · exact h
    have hc2 : ((("H_" ++ r.main) :: (ps.flatMap fun p => c.filters.map fun b => p ++ b)).all (· ∈ cs)) = true := by
      rw [List.all_eq_true]; intro x hx
      rcases List.mem_cons.1 hx with rfl | hx
      · simpa using hH
      · rw [List.mem_flatMap] at hx
        obtain ⟨p, hp, hx⟩ := hx
        obtain ⟨b, hb, rfl⟩ := List.mem_map.1 hx
        simpa using (hcs _).2 (.inl (mem_params (hspec.2 p hp b hb)))
    have hpe : r.present.isEmpty = false := by
      cases hh : r.present with
      | nil => exact absurd hh hspec.1
      | cons _ _ => rfl
    rw [if_neg hc1, if_pos hc2, hpe]
    simp only [Bool.false_eq_true, if_false, bind, Except.bind]
    rw [need_ok (by
      intro x hx
      rw [List.mem_flatMap] at hx
      obtain ⟨p, hp, hx⟩ := hx
      obtain ⟨b, hb, rfl⟩ := List.mem_map.1 hx
      exact (hcs _).2 (.inl (mem_params (hspec.2 p hp b (hpres b hb)))))]
    refine ⟨_, rfl, ?_, fun h => (nodup_puts _ h).filter _⟩
    intro x
    rw [List.mem_filter, mem_puts]
    simp only [hP, true_and, decide_eq_true_eq, List.mem_flatMap, List.mem_map]
    have : (∃ a ∈ ps, ∃ a_1 ∈ c.filters, a ++ a_1 = x) ↔ ∃ p ∈ ps, ∃ b ∈ c.filters, x = p ++ b := by simp only [eq_comm]
    rw [this]

theorem colours_ok {q : List String} (hd : Documented q c r f) (nc : NoClash c r f) {cs : Cols} (hlen : 1 < c.filters.length)
    (hcs : ∀ x, x ∈ cs ↔ MatchCol c f x) :
    ∃ m, colours c r cs = .ok m ∧ (∀ x, x ∈ m ↔ HCol c r f x) ∧ (cs.Nodup → m.Nodup) := by
  obtain ⟨hl, hmain, hpres⟩ := hd.letters
  obtain ⟨mc, hmc⟩ := hl _ hmain
  obtain ⟨ps, hps, -⟩ := id hd.phase
  have hH : "H_" ++ r.main ∈ cs := (hcs _).2 (mem_params hd.main)
  set cs1 := put (put cs "H_original") (r.main ++ "-" ++ r.main) with hcs1
  have hm1 : ∀ x, x ∈ cs1 ↔ MatchCol c f x ∨ x = "H_original" ∨ x = r.main ++ "-" ++ r.main := by
    intro x; rw [hcs1, mem_put, mem_put, hcs, or_assoc]
  have hnc : (r.present.any fun b => b ++ "-" ++ r.main ∉ cs1) = false := by
    rw [List.any_eq_false]
    intro b hb
    simp only [decide_eq_true_eq, not_not]
    rw [hm1]
    by_cases hbm : b = r.main
    · right; right; rw [hbm]
    · exact .inl (mem_params (hd.colour b (hpres b hb) hbm))
  obtain ⟨m, p1, p2, p3⟩ := phase_ok hd hm1 hps
  have hHplain : Plain ("H_" ++ r.main) := by rw [hmc]; exact plain_H mc
  have hOrig : "H_original" ∈ Computed := by decide +kernel
  have hFilt : "H_filter" ∈ Computed := by decide +kernel
  have hnoO : ¬ MatchCol c f "H_original" := fun h => by
    rcases matchCol_computed nc h hOrig with h | h <;> exact absurd h (by decide +kernel)
  have hnoF : ¬ MatchCol c f "H_filter" := fun h => by
    rcases matchCol_computed nc h hFilt with h | h <;> exact absurd h (by decide +kernel)
  have hne : "H_" ++ r.main ≠ "H_original" := fun h => hnoO (h ▸ mem_params hd.main)
  have hne' : "H_" ++ r.main ≠ "H_filter" := fun h => hnoF (h ▸ mem_params hd.main)
  have hcol : Colour r.main (r.main ++ "-" ++ r.main) := ⟨mc, by rw [hmc]; simp⟩
  have hrem : ∀ x, Removed c r f x ↔ Colour r.main x ∨ PerFilter c f ∧ ∃ p ∈ ps, ∃ b ∈ c.filters, x = p ++ b := by
    intro x
    unfold Removed
    simp only [hlen, true_and]
    constructor
    · rintro (h | ⟨h, ps', h', h''⟩)
      · exact .inl h
      · obtain rfl := phase_unique hps h'; exact .inr ⟨h, h''⟩
    · rintro (h | ⟨h, h'⟩)
      · exact .inl h
      · exact .inr ⟨h, ps, hps, h'⟩
  have hOplain : Plain "H_original" := by decide +kernel
  have hFplain : Plain "H_filter" := by decide +kernel
  have hnotp : ∀ x ∈ ps, x ≠ "H_original" ∧ x ≠ "H_filter" ∧ x ≠ "H_" ++ r.main ∧ ¬ Colour r.main x ∧ ¬ (∃ p ∈ ps, ∃ b ∈ c.filters, x = p ++ b) := by
    intro x hx
    have hx' := phase_names hps x hx
    refine ⟨?_, ?_, ?_, ?_, ?_⟩
    · rintro rfl; exact absurd hx' (by decide +kernel)
    · rintro rfl; exact absurd hx' (by decide +kernel)
    · intro h
      have : x.toList.head? = some 'H' := by rw [h, String.toList_append]; rfl
      have hall : ∀ y ∈ ["G1", "G2", "GS", "G12", "S"], y.toList.head? ≠ some 'H' := by decide +kernel
      exact hall x hx' this
    · exact not_colour ((by decide +kernel : ∀ y ∈ ["G1", "G2", "GS", "G12", "S"], y.toList[1]? ≠ some '-') x hx')
    · rintro ⟨p, hp, b, hb, rfl⟩
      obtain ⟨ch, rfl⟩ := hl b hb
      have hlen2 : ∀ y : String, (y ++ String.ofList [ch]).length = y.length + 1 := by simp
      generalize c.phase = ph at hps
      cases hps with
      | HG1G2 =>
        simp only [List.mem_cons, List.not_mem_nil, or_false] at hx hp
        rcases hp with rfl | rfl <;> rcases hx with h | h <;> exact absurd ((hlen2 _).symm.trans (congrArg String.length h)) (by decide +kernel)
      | HG =>
        simp only [List.mem_cons, List.not_mem_nil, or_false] at hx hp
        subst hp; exact absurd ((hlen2 _).symm.trans (congrArg String.length hx)) (by decide +kernel)
      | HG12 =>
        simp only [List.mem_cons, List.not_mem_nil, or_false] at hx hp
        subst hp; exact absurd ((hlen2 _).symm.trans (congrArg String.length hx)) (by decide +kernel)
      | linear =>
        simp only [List.mem_cons, List.not_mem_nil, or_false] at hx hp
        subst hp; exact absurd ((hlen2 _).symm.trans (congrArg String.length hx)) (by decide +kernel)
      | none => simp at hp
  have hnspec : ∀ {x}, Plain x → ¬ (PerFilter c f ∧ ∃ p ∈ ps, ∃ b ∈ c.filters, x = p ++ b) := fun hx h =>
    plain_not_removed (r := r) hl hx ((hrem _).2 (.inr h))
  have hFm : "H_filter" ∉ m := by
    rw [p2, hm1]
    rintro ⟨(h | h | h) | ⟨-, h⟩, -⟩
    · exact hnoF h
    · exact absurd h (by decide +kernel)
    · exact not_colour (by decide +kernel : "H_filter".toList[1]? ≠ some '-') (h ▸ hcol)
    · exact (hnotp _ h).2.1 rfl
  refine ⟨(m.filter fun x => !Mags.isColour r.main x).map fun x =>
      if x = "H_" ++ r.main then "H_filter" else if x = "H_original" then "H_" ++ r.main else x, ?_, ?_, ?_⟩
  · unfold colours
    simp only [bind, Except.bind]
    rw [need_ok (by simpa using hH)]
    simp only [← hcs1, hnc, Bool.false_eq_true, if_false, p1]
    rfl
  · intro x
    rw [List.mem_map]
    unfold HCol
    constructor
    · rintro ⟨y, hy, rfl⟩
      rw [List.mem_filter, p2, hm1] at hy
      obtain ⟨⟨hy1, hy2⟩, hy3⟩ := hy
      have hy3 : ¬ Colour r.main y := by rw [← isColour_iff]; simpa using hy3
      by_cases e1 : y = "H_" ++ r.main
      · rw [if_pos e1]; exact .inr (.inr rfl)
      · by_cases e2 : y = "H_original"
        · rw [if_neg e1, if_pos e2]
          exact .inl ⟨mem_params hd.main, plain_not_removed hl hHplain⟩
        · rw [if_neg e1, if_neg e2]
          rcases hy1 with (h | h | h) | ⟨h, h'⟩
          · refine .inl ⟨h, fun hr => ?_⟩
            rcases (hrem y).1 hr with h | h
            · exact hy3 h
            · exact hy2 h
          · exact absurd h e2
          · exact absurd (h ▸ hcol) hy3
          · exact .inr (.inl ⟨hlen, h, ps, hps, h'⟩)
    · rintro (⟨h, hnr⟩ | ⟨-, hP, ps', h', hx⟩ | rfl)
      · by_cases e1 : x = "H_" ++ r.main
        · refine ⟨"H_original", ?_, ?_⟩
          · rw [List.mem_filter, p2, hm1]
            refine ⟨⟨.inl (.inr (.inl rfl)), hnspec hOplain⟩, ?_⟩
            have := not_colour (main := r.main) hOplain.1
            rw [← isColour_iff] at this; simpa using this
          · rw [if_neg (Ne.symm hne), if_pos rfl, e1]
        · refine ⟨x, ?_, ?_⟩
          · rw [List.mem_filter, p2, hm1]
            refine ⟨⟨.inl (.inl h), fun hh => hnr ((hrem x).2 (.inr hh))⟩, ?_⟩
            have : ¬ Colour r.main x := fun hh => hnr ((hrem x).2 (.inl hh))
            rw [← isColour_iff] at this; simpa using this
          · have : x ≠ "H_original" := fun e => hnoO (e ▸ h)
            rw [if_neg e1, if_neg this]
      · obtain rfl := phase_unique hps h'
        obtain ⟨n1, n2, n3, n4, n5⟩ := hnotp x hx
        refine ⟨x, ?_, by rw [if_neg n3, if_neg n1]⟩
        rw [List.mem_filter, p2]
        refine ⟨⟨.inr ⟨hP, hx⟩, fun hh => n5 hh.2⟩, ?_⟩
        rw [← isColour_iff] at n4; simpa using n4
      · refine ⟨"H_" ++ r.main, ?_, by rw [if_pos rfl]⟩
        rw [List.mem_filter, p2, hm1]
        refine ⟨⟨.inl (.inl (mem_params hd.main)), hnspec hHplain⟩, ?_⟩
        have := not_colour (main := r.main) hHplain.1
        rw [← isColour_iff] at this; simpa using this
  · intro hn
    refine List.Nodup.map_on ?_ ((p3 (nodup_put _ (nodup_put _ hn))).filter _)
    intro x hx y hy hxy
    have hx := (List.mem_filter.1 hx).1
    have hy := (List.mem_filter.1 hy).1
    have hxF : x ≠ "H_filter" := fun e => hFm (e ▸ hx)
    have hyF : y ≠ "H_filter" := fun e => hFm (e ▸ hy)
    by_cases a : x = "H_" ++ r.main <;> by_cases a' : y = "H_" ++ r.main <;> by_cases b : x = "H_original" <;> by_cases b' : y = "H_original" <;>
      simp only [a, a', b, b', if_true, if_false, hne, Ne.symm hne] at hxy ⊢ <;> first | exact hxy | (exfalso; first | exact hne hxy | exact hne hxy.symm | exact hne' hxy | exact hne' hxy.symm | exact hyF hxy.symm | exact hxF hxy | exact a hxy | exact a' hxy.symm | skip)

end Sorcha.Columns
