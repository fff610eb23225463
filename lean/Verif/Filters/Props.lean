import Verif.Filters.Lemmas

/-!
# C09, C10: the deterministic cuts
-/

namespace Sorcha.Filters
open Spec

variable {ρ : Type}

/-- C09: the magnitude limit keeps, unchanged and in order, exactly the rows whose (trailed-source) magnitude is a number
strictly below the limit. -/
theorem C09_magnitude (limit : Fl) (t : Table (Det ρ)) :
    (magnitudeLimit limit t).rows = keep (fun r => Below r.trailedSourceMag limit) t.rows := by
  unfold magnitudeLimit
  rw [Table.rows_resetIndex, Table.rows_mask]
  exact filter_eq_keep _ _ _ (fun r _ => lt_iff_below _ _)

/-- C09: the SNR limit keeps, unchanged and in order, exactly the rows whose SNR is a number strictly above the limit. -/
theorem C09_snr (limit : Fl) (t : Table (Det ρ)) :
    (snrLimit limit t).rows = keep (fun r => Below limit r.snr) t.rows := by
  unfold snrLimit
  rw [Table.rows_resetIndex, Table.rows_mask]
  exact filter_eq_keep _ _ _ (fun r _ => lt_iff_below _ _)

/-- C09: a single saturation limit drops exactly the rows brighter than it (a NaN magnitude is kept). -/
theorem C09_bright_single (obsFilters : List String) (limit : Fl) (t : Table (Det ρ))
    (hl : UniqueLabels t) :
    ∃ out, brightLimit obsFilters (.one limit) t = .ok out ∧
      out.rows = keep (fun r => ¬ Below r.psfMag limit) t.rows := by
  refine ⟨_, rfl, ?_⟩
  rw [Table.rows_resetIndex, Table.dropLabels_where _ _ (Table.labelsAgree_of_nodup _ _ hl), Table.rows_mask]
  apply filter_eq_keep
  intro r _
  rw [← lt_iff_below]; simp

/-- C09: per-filter saturation limits (one for each observing filter) drop exactly the rows brighter than the limit of
their own filter; a row in a filter that is not listed is kept. -/
theorem C09_bright_perFilter (obsFilters : List String) (limits : List Fl) (t : Table (Det ρ))
    (hlen : obsFilters.length ≤ limits.length) (hl : UniqueLabels t) :
    ∃ out, brightLimit obsFilters (.perFilter limits) t = .ok out ∧
      out.rows = keep (fun r => ¬ Saturated obsFilters limits r) t.rows := by
  obtain ⟨ls, h1, h2⟩ := brightLabels_ok t obsFilters limits hlen
  refine ⟨(t.dropLabels ls).resetIndex, ?_, ?_⟩
  · simp only [brightLimit, h1, bind, Except.bind, pure, Except.pure]
  · rw [Table.rows_resetIndex, dropLabels_of_mem t ls _ h2 (Table.labelsAgree_of_nodup _ _ hl), Table.rows_mask]
    apply filter_eq_keep
    intro r _
    rw [← satBool_iff]; simp

/-- C09: a list of limits shorter than the list of observing filters, or a limit of another type, aborts. -/
theorem C09_bright_rejects (obsFilters : List String) (limits : List Fl) (t : Table (Det ρ))
    (hlen : limits.length < obsFilters.length) :
    brightLimit obsFilters (.perFilter limits) t = .error .indexError ∧
      brightLimit obsFilters .other t = .error .badType := by
  constructor
  · simp only [brightLimit, brightLabels_error t _ _ hlen, bind, Except.bind]
  · rfl

/-- C09: with non-negative limits the distance cut keeps, unchanged and in order, all rows of exactly the objects that
have at least one row strictly inside the limits. -/
theorem C09_distance (upper lower : ℚ) (hu : 0 ≤ upper) (hl : 0 ≤ lower) (t : Table (Det ρ)) :
    (distanceCut (.fin upper) (.fin lower) t).rows =
      keep (fun r => ∃ r' ∈ t.rows, r'.objId = r.objId ∧ DistanceInside lower upper r') t.rows := by
  unfold distanceCut
  rw [Table.rows_mask]
  apply filter_eq_keep
  intro r _
  rw [List.contains_iff_mem, List.mem_dedup, List.mem_map, Table.rows_mask]
  constructor
  · rintro ⟨r', hr', he⟩
    rw [List.mem_filter] at hr'
    exact ⟨r', hr'.1, he, (distanceSq_inside _ _ hl hu _).1 hr'.2⟩
  · rintro ⟨r', hm, he, hin⟩
    exact ⟨r', List.mem_filter.2 ⟨hm, (distanceSq_inside _ _ hl hu _).2 hin⟩, he⟩

/-- C09: with non-negative limits the motion cut keeps, unchanged and in order, exactly the rows whose motion is strictly
inside the limits. -/
theorem C09_motion (upper lower : ℚ) (hu : 0 ≤ upper) (hl : 0 ≤ lower) (t : Table (Det ρ)) (hlab : UniqueLabels t) :
    (motionCut (.fin upper) (.fin lower) t).rows = keep (fun r => MotionInside lower upper r) t.rows := by
  unfold motionCut
  rw [Table.dropLabels_where _ _ (Table.labelsAgree_of_nodup _ _ hlab), Table.rows_mask]
  apply filter_eq_keep
  intro r _
  rw [Bool.not_not, motionSq_inside _ _ hl hu]

/-- A small table used to show that hypotheses are met and for witnesses. -/
def exDet (id f : String) (m s x v : ℚ) : Det Unit :=
  ⟨id, f, .fin m, .fin m, .fin s, .fin x, .fin 0, .fin 0, .fin v, .fin 0, ()⟩

def exTable : Table (Det Unit) :=
  [(0, exDet "a" "r" 20 10 5 1), (1, exDet "a" "g" 15 30 50 2), (2, exDet "b" "r" 24 4 70 3),
   (3, { exDet "b" "g" 24 4 70 3 with psfMag := .nan, trailedSourceMag := .nan })]

/-- C09 does not extend to negative limits, which validation accepts: with `motion_cut_lower = -2` a row moving at 1 deg/day
(above the limit, below `upper = 3`) is dropped, because the limits are squared. -/
theorem C09_motion_negative_fails :
    ¬ ∀ (upper lower : ℚ) (t : Table (Det Unit)), UniqueLabels t →
      (motionCut (.fin upper) (.fin lower) t).rows = keep (fun r => MotionInside lower upper r) t.rows := by
  intro h
  have := h 3 (-2) [(0, exDet "a" "r" 20 10 5 1)] (by simp [UniqueLabels])
  have h1 : motionCut (.fin 3) (.fin (-2)) [(0, exDet "a" "r" 20 10 5 1)] = [] := by
    decide +kernel
  rw [h1] at this
  have hin : MotionInside (-2) 3 (exDet "a" "r" 20 10 5 1) :=
    ⟨1, 0, rfl, rfl, by simp [length2]; norm_num, by simp [length2]⟩
  simp [Table.rows, keep, hin] at this

example : UniqueLabels exTable := by simp [UniqueLabels, exTable]
-- NaN magnitude: dropped by the magnitude limit, kept by the saturation limit.
example : ((magnitudeLimit (.fin 30) exTable).rows.map (·.objId)) = ["a", "a", "b"] := by decide +kernel
example : (brightLimit ["r", "g"] (.perFilter [.fin 16, .fin 16]) exTable).map (fun t => t.rows.map (·.objId))
    = .ok ["a", "b", "b"] := by decide +kernel
-- object "a" is kept whole although only its first row is within 10 of the Sun
example : (distanceCut (.fin 10) (.fin 0) exTable).rows.map (·.objId) = ["a", "a"] := by decide +kernel
example : (motionCut (.fin 3) (.fin 1) exTable).rows.map (·.optFilter) = ["g"] := by decide +kernel

/-! ## C10 -/

/-- The three row cuts of a Rubin run. -/
inductive Cut
  | magnitude (limit : Fl)
  | snr (limit : Fl)
  | saturation (obsFilters : List String) (limits : List Fl)

/-- Apply one cut (saturation limits may abort). -/
def Cut.apply : Cut → Table (Det ρ) → Except BrightErr (Table (Det ρ))
  | .magnitude l, t => .ok (magnitudeLimit l t)
  | .snr l, t => .ok (snrLimit l t)
  | .saturation fs xs, t => brightLimit fs (.perFilter xs) t

/-- A cut whose limit list is long enough (guaranteed by configuration validation). -/
def Cut.Valid : Cut → Prop
  | .saturation fs xs => fs.length ≤ xs.length
  | _ => True

/-- Apply several cuts in turn. -/
def applyAll : List Cut → Table (Det ρ) → Except BrightErr (Table (Det ρ))
  | [], t => .ok t
  | c :: cs, t => do applyAll cs (← c.apply t)

/-- A row survives a cut. -/
def Cut.Passes (r : Det ρ) : Cut → Prop
  | .magnitude l => Below r.trailedSourceMag l
  | .snr l => Below l r.snr
  | .saturation fs xs => ¬ Saturated fs xs r

theorem apply_ok (c : Cut) (hc : c.Valid) (t : Table (Det ρ)) (hl : UniqueLabels t) :
    ∃ out, c.apply t = .ok out ∧ UniqueLabels out ∧ out.rows = keep (fun r => c.Passes r) t.rows := by
  cases c with
  | magnitude l => exact ⟨_, rfl, Table.resetIndex_nodup _, C09_magnitude l t⟩
  | snr l => exact ⟨_, rfl, Table.resetIndex_nodup _, C09_snr l t⟩
  | saturation fs xs =>
    obtain ⟨ls, h1, h2⟩ := brightLabels_ok t fs xs hc
    obtain ⟨out, ho, hr⟩ := C09_bright_perFilter fs xs t hc hl
    refine ⟨out, ho, ?_, hr⟩
    simp only [brightLimit, h1, bind, Except.bind, pure, Except.pure] at ho
    cases ho
    exact Table.resetIndex_nodup _

/-- C10 (general form): any sequence of valid cuts keeps exactly the rows passing every one of them, in their original
order. -/
theorem C10_cuts (cs : List Cut) (hv : ∀ c ∈ cs, c.Valid) (t : Table (Det ρ)) (hl : UniqueLabels t) :
    ∃ out, applyAll cs t = .ok out ∧ out.rows = keep (fun r => ∀ c ∈ cs, c.Passes r) t.rows := by
  induction cs generalizing t with
  | nil => exact ⟨t, rfl, by simp [keep_true]⟩
  | cons c cs ih =>
    obtain ⟨o, h1, h2, h3⟩ := apply_ok c (hv c (by simp)) t hl
    obtain ⟨out, h4, h5⟩ := ih (fun c hc => hv c (by simp [hc])) o h2
    refine ⟨out, by simp only [applyAll, h1, bind, Except.bind, h4], ?_⟩
    rw [h5, h3, keep_keep]
    apply keep_congr
    intro r _
    simp only [List.mem_cons, forall_eq_or_imp]

/-- C10: applying the cuts in another order, or some of them several times, gives the same rows: only the set of cuts
matters. -/
theorem C10_order_and_repetition (cs ds : List Cut) (hv : ∀ c ∈ cs, c.Valid) (heq : ∀ c, c ∈ cs ↔ c ∈ ds)
    (t : Table (Det ρ)) (hl : UniqueLabels t) :
    ∃ o₁ o₂, applyAll cs t = .ok o₁ ∧ applyAll ds t = .ok o₂ ∧ o₁.rows = o₂.rows := by
  obtain ⟨o₁, h1, h2⟩ := C10_cuts cs hv t hl
  obtain ⟨o₂, h3, h4⟩ := C10_cuts ds (fun c hc => hv c ((heq c).2 hc)) t hl
  refine ⟨o₁, o₂, h1, h3, ?_⟩
  rw [h2, h4]
  apply keep_congr
  intro r _
  simp only [heq]

/-- C10: the distance cut is idempotent. -/
theorem C10_distance_idempotent (upper lower : Fl) (t : Table (Det ρ)) :
    distanceCut upper lower (distanceCut upper lower t) = distanceCut upper lower t := by
  apply List.filter_eq_self.2
  rintro ⟨l, r⟩ hr
  have hr0 := hr
  rw [List.contains_iff_mem, List.mem_dedup, List.mem_map]
  simp only [distanceCut, Table.mask, List.mem_filter] at hr
  obtain ⟨hm, hc⟩ := hr
  rw [List.contains_iff_mem, List.mem_dedup, List.mem_map] at hc
  obtain ⟨r', hr', he⟩ := hc
  obtain ⟨l', hl'⟩ := rows_mem.1 hr'
  rw [List.mem_filter] at hl'
  refine ⟨r', rows_mem.2 ⟨l', List.mem_filter.2 ⟨?_, hl'.2⟩⟩, he⟩
  simp only [distanceCut, Table.mask, List.mem_filter]
  refine ⟨hl'.1, ?_⟩
  rw [List.contains_iff_mem, List.mem_dedup, List.mem_map]
  exact ⟨r', hr', rfl⟩

/-- C10: the distance cut does not commute with row cuts: a row that makes its object pass may be removed first. -/
theorem C10_distance_not_commuting :
    (distanceCut (.fin 10) (.fin 0) (magnitudeLimit (.fin 19) exTable)).rows ≠
      (magnitudeLimit (.fin 19) (distanceCut (.fin 10) (.fin 0) exTable)).rows := by decide +kernel

example : ∀ c ∈ [Cut.snr (.fin 5), .magnitude (.fin 24), .saturation ["r", "g"] [.fin 16, .fin 16]], c.Valid := by
  simp [Cut.Valid]

end Sorcha.Filters
