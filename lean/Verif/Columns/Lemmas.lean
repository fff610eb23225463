import Verif.Columns.Spec
import Mathlib.Data.List.Nodup
import Mathlib.Data.List.Perm.Basic
import Mathlib.Tactic.Tauto

/-!
# Lemmas about columns: the operations and the input
-/

namespace Sorcha.Columns

theorem need_ok {names : List String} {cs : Cols} (h : ∀ x ∈ names, x ∈ cs) : need names cs = .ok () := by
  unfold need
  have : (names.find? fun c => c ∉ cs) = none := by
    rw [List.find?_eq_none]; intro x hx; simpa using h x hx
  rw [this]

theorem need_ok_iff {names : List String} {cs : Cols} : need names cs = .ok () ↔ ∀ x ∈ names, x ∈ cs := by
  refine ⟨fun h x hx => ?_, need_ok⟩
  unfold need at h
  split at h
  · cases h
  · next hf => simpa using (List.find?_eq_none.1 hf) x hx

@[simp] theorem mem_put {cs : Cols} {c x : String} : x ∈ put cs c ↔ x ∈ cs ∨ x = c := by
  unfold put
  split_ifs with h
  · constructor
    · exact Or.inl
    · rintro (h' | rfl)
      · exact h'
      · exact h
  · simp

theorem nodup_put {cs : Cols} (c : String) (h : cs.Nodup) : (put cs c).Nodup := by
  unfold put
  split_ifs with hc
  · exact h
  · exact h.append (by simp) (by simpa using hc)

@[simp] theorem mem_puts {ws : List String} : ∀ {cs : Cols} {x : String}, x ∈ ws.foldl put cs ↔ x ∈ cs ∨ x ∈ ws := by
  induction ws with
  | nil => simp
  | cons w ws ih => intro cs x; rw [List.foldl_cons, ih, mem_put, List.mem_cons]; tauto

theorem nodup_puts : ∀ (ws : List String) {cs : Cols}, cs.Nodup → (ws.foldl put cs).Nodup
  | [], _, h => h
  | w :: ws, _, h => nodup_puts ws (nodup_put w h)

theorem step_ok {reads writes : List String} {cs : Cols} (h : ∀ x ∈ reads, x ∈ cs) :
    step reads writes cs = .ok (writes.foldl put cs) := by
  unfold step; rw [need_ok h]; rfl

/-! ## Joins -/

theorem join_ok {l r : Cols} (hr : "ObjID" ∈ r) (hl : "ObjID" ∈ l) (hd : ∀ x ∈ r, x ∈ l → x = "ObjID") :
    join l r = .ok (l ++ r.filter fun c => c ≠ "ObjID") := by
  unfold join
  rw [need_ok (by simpa using hr), need_ok (by simpa using hl)]
  have : ((r.filter fun c => c ≠ "ObjID").any fun c => c ∈ l) = false := by
    rw [List.any_eq_false]
    intro x hx
    rw [List.mem_filter] at hx
    simp only [decide_eq_true_eq] at hx ⊢
    intro hxl
    exact hx.2 (hd x hx.1 hxl)
  simp only [bind, Except.bind, this, Bool.false_eq_true, if_false]

theorem mem_join {l r : Cols} {x : String} (hl : "ObjID" ∈ l) : x ∈ l ++ (r.filter fun c => c ≠ "ObjID") ↔ x ∈ l ∨ x ∈ r := by
  simp only [List.mem_append, List.mem_filter, decide_eq_true_eq]
  by_cases h : x = "ObjID"
  · subst h; simp [hl]
  · simp [h]

theorem nodup_join {l r : Cols} (hl : l.Nodup) (hr : r.Nodup) (hd : ∀ x ∈ r, x ∈ l → x = "ObjID") :
    (l ++ r.filter fun c => c ≠ "ObjID").Nodup := by
  refine hl.append (hr.filter _) ?_
  intro x hx hx'
  rw [List.mem_filter] at hx'
  simp only [decide_eq_true_eq] at hx'
  exact hx'.2 (hd x hx'.1 hx)

/-- Joining a list of tables. -/
theorem joins_ok : ∀ (rs : List Cols) (l : Cols), "ObjID" ∈ l → (∀ r ∈ rs, "ObjID" ∈ r) → (∀ r ∈ rs, ∀ x ∈ r, x ∈ l → x = "ObjID") →
    (rs.Pairwise fun a b => ∀ x ∈ a, x ∈ b → x = "ObjID") →
    ∃ t, rs.foldlM join l = .ok t ∧ (∀ x, x ∈ t ↔ x ∈ l ∨ ∃ r ∈ rs, x ∈ r) ∧ (l.Nodup → (∀ r ∈ rs, r.Nodup) → t.Nodup)
  | [], l, _, _, _, _ => ⟨l, rfl, by simp, fun h _ => h⟩
  | r :: rs, l, hl, hid, hd, hp => by
    rw [List.pairwise_cons] at hp
    have hj := join_ok (hid r (by simp)) hl (hd r (by simp))
    obtain ⟨t, h1, h2, h3⟩ := joins_ok rs (l ++ r.filter fun c => c ≠ "ObjID") ((mem_join hl).2 (.inl hl)) (fun s hs => hid s (by simp [hs]))
      (fun s hs x hx hx' => by
        rcases (mem_join hl).1 hx' with h | h
        · exact hd s (by simp [hs]) x hx h
        · exact hp.1 s hs x h hx) hp.2
    refine ⟨t, ?_, ?_, ?_⟩
    · rw [List.foldlM_cons, hj]; exact h1
    · intro x
      rw [h2, mem_join hl]
      simp only [List.mem_cons, exists_eq_or_imp]
      tauto
    · intro hn hns
      exact h3 (nodup_join hn (hns r (by simp)) (hd r (by simp))) (fun s hs => hns s (by simp [hs]))

theorem merge_ok {key : String} {l r : Cols} (h : ∀ x ∈ l, x ∈ r → x = key) : merge key l r = l ++ r.filter fun c => c ≠ key := by
  unfold merge
  congr 1
  · conv_rhs => rw [← List.map_id l]
    apply List.map_congr_left
    intro x hx
    have : ¬ (x ≠ key ∧ x ∈ r) := fun hh => hh.1 (h x hx hh.2)
    rw [if_neg this]; rfl
  · conv_rhs => rw [← List.map_id (r.filter fun c => c ≠ key)]
    apply List.map_congr_left
    intro x hx
    rw [List.mem_filter] at hx
    simp only [decide_eq_true_eq] at hx
    have : x ∉ l := fun hl => hx.2 (h x hl hx.1)
    rw [if_neg this]; rfl

theorem mem_merged {key x : String} {l r : Cols} (hl : key ∈ l) : x ∈ l ++ (r.filter fun c => c ≠ key) ↔ x ∈ l ∨ x ∈ r := by
  simp only [List.mem_append, List.mem_filter, decide_eq_true_eq]
  by_cases h : x = key
  · subst h; simp [hl]
  · simp [h]

theorem nodup_merged {key : String} {l r : Cols} (hl : l.Nodup) (hr : r.Nodup) (hd : ∀ x ∈ l, x ∈ r → x = key) :
    (l ++ r.filter fun c => c ≠ key).Nodup := by
  refine hl.append (hr.filter _) ?_
  intro x hx hx'
  rw [List.mem_filter] at hx'
  simp only [decide_eq_true_eq] at hx'
  exact hx'.2 (hd x hx hx'.1)

/-! ## Constants -/

theorem ephemCols_eq : ephemCols = EphemerisNames := by decide +kernel

theorem notMerged_eq : notMerged = VisitsOnly := by decide +kernel

theorem mem_generated {x : String} : x ∈ generatedCols ↔ x ∈ EphemerisNames ∨ x = "fieldJD_TDB" := by
  have : generatedCols.Perm ("fieldJD_TDB" :: EphemerisNames) := by decide +kernel
  rw [this.mem_iff, List.mem_cons]; tauto

/-! ## Visits -/

/-- The columns added for the generation of ephemerides. -/
def precomputed : List String :=
  ["visit_vector_x", "visit_vector_y", "visit_vector_z", "fieldJD_TDB", "r_obs_x", "r_obs_y", "r_obs_z", "v_obs_x", "v_obs_y", "v_obs_z", "r_sun_x", "r_sun_y", "r_sun_z",
      "v_sun_x", "v_sun_y", "v_sun_z"]

/-- The columns of the visits before the match. -/
def VisitCol (f : Files) (x : String) : Prop :=
  (x ∈ f.pointing ∧ x ≠ "observationId" ∧ x ≠ "filter") ∨ x ∈ ["FieldID", "optFilter", "observationId_", "observationStartMJD_TAI", "observationMidpointMJD_TAI"] ∨
    f.ephemeris = none ∧ x ∈ precomputed

/-- The query of the survey. -/
def queryOf (des : Bool) : List String := if des then DesQuery else RubinQuery

/-- The columns of the pointing answer after the renaming. -/
def renamed (cs : Cols) : Cols := (put cs "observationId_").map fun c => if c = "observationId" then "FieldID" else if c = "filter" then "optFilter" else c

theorem mem_renamed {cs : Cols} (h1 : "observationId" ∈ cs) (h2 : "filter" ∈ cs) {x : String} :
    x ∈ renamed cs ↔ (x ∈ cs ∧ x ≠ "observationId" ∧ x ≠ "filter") ∨ x = "FieldID" ∨ x = "optFilter" ∨ x = "observationId_" := by
  unfold renamed
  rw [List.mem_map]
  constructor
  · rintro ⟨y, hy, rfl⟩
    rw [mem_put] at hy
    by_cases a : y = "observationId"
    · simp [a]
    · by_cases b : y = "filter"
      · subst b; simp
      · simp only [a, b, if_false]
        rcases hy with hy | hy
        · exact .inl ⟨hy, a, b⟩
        · exact .inr (.inr (.inr hy))
  · rintro (⟨hx, a, b⟩ | rfl | rfl | rfl)
    · exact ⟨x, by simp [hx], by simp [a, b]⟩
    · exact ⟨"observationId", by simp [h1], by simp⟩
    · exact ⟨"filter", by simp [h2], by simp⟩
    · exact ⟨"observationId_", by simp, by simp⟩

theorem nodup_renamed {cs : Cols} (hf : "FieldID" ∉ cs) (ho : "optFilter" ∉ cs) (hn : cs.Nodup) : (renamed cs).Nodup := by
  unfold renamed
  refine List.Nodup.map_on ?_ (nodup_put _ hn)
  intro x hx y hy hxy
  rw [mem_put] at hx hy
  have hx1 : x ≠ "FieldID" := by rintro rfl; rcases hx with h | h; exacts [hf h, by simp at h]
  have hx2 : x ≠ "optFilter" := by rintro rfl; rcases hx with h | h; exacts [ho h, by simp at h]
  have hy1 : y ≠ "FieldID" := by rintro rfl; rcases hy with h | h; exacts [hf h, by simp at h]
  have hy2 : y ≠ "optFilter" := by rintro rfl; rcases hy with h | h; exacts [ho h, by simp at h]
  by_cases a : x = "observationId" <;> by_cases a' : y = "observationId" <;> by_cases b : x = "filter" <;> by_cases b' : y = "filter" <;>
    simp_all [eq_comm]

variable {c : Config.Cfg} {r : Run} {f : Files}

theorem readPointing_ok (des fading : Bool) (hq : ∀ x ∈ queryOf des, x ∈ f.pointing) (hv : ∀ x ∈ f.pointing, x ≠ "FieldID" ∧ x ≠ "optFilter") :
    ∃ p, readPointing des fading f.pointing = .ok p ∧
      (∀ x, x ∈ p ↔ (x ∈ f.pointing ∧ x ≠ "observationId" ∧ x ≠ "filter") ∨
        x ∈ ["FieldID", "optFilter", "observationId_", "observationStartMJD_TAI", "observationMidpointMJD_TAI"]) ∧ (f.pointing.Nodup → p.Nodup) := by
  have q1 : "observationId" ∈ f.pointing := hq _ (by cases des <;> decide +kernel)
  have q2 : "filter" ∈ f.pointing := hq _ (by cases des <;> decide +kernel)
  have hm := fun x => @mem_renamed f.pointing q1 q2 x
  have hn : f.pointing.Nodup → (renamed f.pointing).Nodup := nodup_renamed (fun h => (hv _ h).1 rfl) (fun h => (hv _ h).2 rfl)
  have hneed : need ["observationId", "filter"] f.pointing = .ok () := need_ok (by simp [q1, q2])
  have hmem : ∀ x ∈ queryOf des, x ≠ "observationId" → x ≠ "filter" → x ∈ renamed f.pointing := fun x hx a b => (hm x).2 (.inl ⟨hq x hx, a, b⟩)
  cases des
  · refine ⟨["observationMidpointMJD_TAI"].foldl put (renamed f.pointing), ?_, ?_, fun h => nodup_puts _ (hn h)⟩
    · unfold readPointing
      rw [hneed]
      have : step ["observationStartMJD_TAI", "visitTime"] ["observationMidpointMJD_TAI"] (renamed f.pointing) = _ := step_ok (by
        intro x hx
        simp only [List.mem_cons, List.not_mem_nil, or_false] at hx
        rcases hx with rfl | rfl <;> exact hmem _ (by decide +kernel) (by decide +kernel) (by decide +kernel))
      exact this
    · intro x
      rw [mem_puts, hm]
      have : x = "observationStartMJD_TAI" → x ∈ f.pointing ∧ x ≠ "observationId" ∧ x ≠ "filter" := by
        rintro rfl; exact ⟨hq _ (by decide +kernel), by decide +kernel, by decide +kernel⟩
      simp only [List.mem_cons, List.not_mem_nil, or_false]
      tauto
  · have hstep : step ["observationMidpointMJD_TAI", "visitExposureTime"] ["observationStartMJD_TAI"] (renamed f.pointing) = _ := step_ok (by
        intro x hx
        simp only [List.mem_cons, List.not_mem_nil, or_false] at hx
        rcases hx with rfl | rfl <;> exact hmem _ (by decide +kernel) (by decide +kernel) (by decide +kernel))
    refine ⟨["observationStartMJD_TAI"].foldl put (renamed f.pointing), ?_, ?_, fun h => nodup_puts _ (hn h)⟩
    · unfold readPointing
      rw [hneed]
      have hck : need ["c", "k"] (["observationStartMJD_TAI"].foldl put (renamed f.pointing)) = .ok () := need_ok (by
        intro x hx
        simp only [List.mem_cons, List.not_mem_nil, or_false] at hx
        rw [mem_puts]
        left
        rcases hx with rfl | rfl <;> exact hmem _ (by decide +kernel) (by decide +kernel) (by decide +kernel))
      have hck' : need (if fading then ["c", "k"] else []) (["observationStartMJD_TAI"].foldl put (renamed f.pointing)) = .ok () := by
        cases fading
        · exact need_ok (by simp)
        · exact hck
      change ((step ["observationMidpointMJD_TAI", "visitExposureTime"] ["observationStartMJD_TAI"] (renamed f.pointing)).bind fun cs =>
        (need (if fading then ["c", "k"] else []) cs).bind fun _ => .ok cs) = _
      rw [hstep]
      simp only [Except.bind, hck']
    · intro x
      rw [mem_puts, hm]
      have : x = "observationMidpointMJD_TAI" → x ∈ f.pointing ∧ x ≠ "observationId" ∧ x ≠ "filter" := by
        rintro rfl; exact ⟨hq _ (by decide +kernel), by decide +kernel, by decide +kernel⟩
      simp only [List.mem_cons, List.not_mem_nil, or_false]
      tauto

theorem visits_ok (des : Bool) (hq : ∀ x ∈ queryOf des, x ∈ f.pointing) (nc : NoClash c r f) :
    ∃ db, visits des c f = .ok db ∧ (∀ x, x ∈ db ↔ VisitCol f x) ∧ (f.pointing.Nodup → db.Nodup) := by
  have hv : ∀ x ∈ f.pointing, x ≠ "FieldID" ∧ x ≠ "optFilter" := by
    intro x hx
    obtain ⟨-, h1, h2⟩ := nc.visits x hx
    refine ⟨?_, ?_⟩
    · rintro rfl; exact h1 (by decide +kernel)
    · rintro rfl; exact absurd (h2 (by decide +kernel)) (by decide +kernel)
  obtain ⟨p, h1, h2, h3⟩ := readPointing_ok des (des && c.fading ≠ .off) hq hv
  unfold visits
  simp only [bind, Except.bind, h1]
  cases he : f.ephemeris with
  | some e =>
    refine ⟨p, rfl, ?_, h3⟩
    intro x; rw [h2]; unfold VisitCol; rw [he]; simp
  | none =>
    have hp : precompute p = .ok (precomputed.foldl put p) := step_ok (by
      intro x hx
      simp only [List.mem_cons, List.not_mem_nil, or_false] at hx
      rw [h2]
      rcases hx with rfl | rfl | rfl
      · exact .inl ⟨hq _ (by cases des <;> decide +kernel), by decide +kernel, by decide +kernel⟩
      · exact .inl ⟨hq _ (by cases des <;> decide +kernel), by decide +kernel, by decide +kernel⟩
      · exact .inr (by decide +kernel))
    refine ⟨_, hp, ?_, fun h => nodup_puts _ (h3 h)⟩
    intro x
    rw [mem_puts, h2]; unfold VisitCol; rw [he]; simp only [true_and, or_assoc]

/-! ## Observations -/

theorem readBlock_eq (eph : Cols) : readBlock c f eph = (auxFiles c f).foldlM join eph := by
  unfold readBlock auxFiles useComplex
  by_cases h : c.activity.isSome ∨ c.lightcurve.isSome
  · have h' : (c.activity.isSome || c.lightcurve.isSome) = true := by simpa using h
    simp only [h, h', if_true, List.cons_append, List.nil_append, List.foldlM_cons, List.foldlM_nil, bind_pure]
  · have h' : (c.activity.isSome || c.lightcurve.isSome) = false := by simpa using h
    simp only [h, h', Bool.false_eq_true, if_false, List.append_nil, List.foldlM_cons, List.foldlM_nil]
    rfl

theorem readAux_eq : readAux c f = (auxFiles c f).tail.foldlM join f.orbits := by
  unfold readAux auxFiles useComplex
  by_cases h : c.activity.isSome ∨ c.lightcurve.isSome
  · have h' : (c.activity.isSome || c.lightcurve.isSome) = true := by simpa using h
    simp only [h, h', if_true, List.cons_append, List.nil_append, List.tail_cons, List.foldlM_cons, List.foldlM_nil, bind_pure]
  · have h' : (c.activity.isSome || c.lightcurve.isSome) = false := by simpa using h
    simp only [h, h', Bool.false_eq_true, if_false, List.append_nil, List.tail_cons, List.foldlM_cons, List.foldlM_nil]
    rfl

theorem aux_cons : auxFiles c f = f.orbits :: (auxFiles c f).tail := rfl

/-- The columns of the observations before the match. -/
def ObsCol (c : Config.Cfg) (f : Files) (x : String) : Prop :=
  x ∈ EphemerisNames ∨ (f.ephemeris = none ∧ x = "fieldJD_TDB") ∨ (f.ephemeris = none ∧ c.expert.bruteForce = false ∧ x = "q") ∨ ∃ a ∈ auxFiles c f, x ∈ a

theorem readEphemeris_ok {e : Cols} (h1 : ∀ x ∈ EphemerisNames, x ∈ e) (h2 : ∀ x ∈ e, x ∈ EphemerisNames ∨ x ∈ ["fieldJD_TDB", "V", "V(H=0)"]) :
    readEphemeris e = .ok EphemerisNames := by
  unfold readEphemeris
  have ha : ((e.filter fun c => c ∉ ["V", "V(H=0)"]).any fun c => c ∉ ephemCols ∧ c ∉ ["fieldJD_TDB"]) = false := by
    rw [List.any_eq_false]
    intro x hx
    rw [List.mem_filter] at hx
    rw [ephemCols_eq]
    have := h2 x hx.1
    simp only [List.mem_cons, List.not_mem_nil, or_false, decide_eq_true_eq, not_or] at *
    tauto
  have hn : need ephemCols (e.filter fun c => c ∉ ["V", "V(H=0)"]) = .ok () := need_ok (by
    intro x hx
    rw [ephemCols_eq] at hx
    rw [List.mem_filter]
    refine ⟨h1 x hx, ?_⟩
    simp only [decide_eq_true_eq]
    have hd : ∀ y ∈ EphemerisNames, y ∉ ["V", "V(H=0)"] := by decide +kernel
    exact hd x hx)
  simp only [ha, Bool.false_eq_true, if_false, hn, bind, Except.bind, pure, Except.pure]
  rw [ephemCols_eq]

theorem observations_ok {q : List String} (hd : Documented q c r f) (nc : NoClash c r f) {db : Cols} (hopt : "optFilter" ∈ db) (hdep : "fieldFiveSigmaDepth_mag" ∈ db) :
    ∃ cs, observations c r f db = .ok cs ∧ (∀ x, x ∈ cs ↔ ObsCol c f x) ∧ ((∀ a ∈ auxFiles c f, a.Nodup) → cs.Nodup) := by
  have hid : "ObjID" ∈ EphemerisNames := by decide +kernel
  have hidJD : "ObjID" ≠ "fieldJD_TDB" := by decide +kernel
  have hJ : "fieldJD_TDB" ∈ Computed := by decide +kernel
  have hqE : "q" ∉ EphemerisNames := by decide +kernel
  unfold observations
  cases he : f.ephemeris with
  | some e =>
    obtain ⟨e1, e2⟩ := hd.ephemeris e he
    simp only [readEphemeris_ok e1 e2, bind, Except.bind]
    rw [readBlock_eq]
    obtain ⟨t, t1, t2, t3⟩ := joins_ok (auxFiles c f) EphemerisNames hid hd.ids (by
      intro a ha x hx hxe
      rcases nc.own a ha x hx with h | ⟨h, -⟩
      · exact h
      · exact absurd hxe h) nc.files
    refine ⟨t, t1, ?_, fun h => t3 (by decide +kernel) h⟩
    intro x; rw [t2]; unfold ObsCol; rw [he]; simp
  | none =>
    rw [readAux_eq]
    have hfiles := nc.files
    have hids := hd.ids
    rw [aux_cons, List.pairwise_cons] at hfiles
    obtain ⟨t, t1, t2, t3⟩ := joins_ok (auxFiles c f).tail f.orbits (hids _ (by rw [aux_cons]; simp)) (fun a ha => hids a (List.mem_of_mem_tail ha))
      (fun a ha x hx hxo => hfiles.1 a ha x hxo hx) hfiles.2
    have t2' : ∀ x, x ∈ t ↔ ∃ a ∈ auxFiles c f, x ∈ a := by
      intro x; rw [t2, aux_cons]; simp
    have hcull : c.expert.bruteForce = false → cull c r db t = .ok (put t "q") := by
      intro _
      unfold cull
      rw [need_ok (by simp [hopt, hdep])]
      have hO : "ObjID" ∈ put t "q" := by rw [mem_put, t2']; exact .inl ⟨_, List.mem_of_mem_head? rfl, hids _ (List.mem_of_mem_head? rfl)⟩
      have hparams : f.params ∈ auxFiles c f := by simp [auxFiles]
      simp only [bind, Except.bind, pure, Except.pure]
      rw [need_ok (by simpa using hO)]
      simp only []
      rw [need_ok (by
        intro x hx
        rw [List.mem_flatMap] at hx
        obtain ⟨b, hb, hx⟩ := hx
        rw [mem_put, t2']
        left
        refine ⟨f.params, hparams, ?_⟩
        by_cases hbm : b = r.main
        · rw [if_pos hbm] at hx
          simp only [List.mem_cons, List.not_mem_nil, or_false] at hx
          rw [hx]; exact hd.main
        · rw [if_neg hbm] at hx
          simp only [List.mem_cons, List.not_mem_nil, or_false] at hx
          rcases hx with rfl | rfl
          · exact hd.main
          · exact hd.colour b hb hbm)]
    have hOt : "ObjID" ∈ t := (t2' _).2 ⟨_, List.mem_of_mem_head? rfl, hids _ (List.mem_of_mem_head? rfl)⟩
    have hclash : ∀ x, (x ∈ t ∨ x = "q") → x ∈ generatedCols → x = "ObjID" := by
      intro x hx hg
      rw [mem_generated] at hg
      rcases hx with hx | rfl
      · obtain ⟨a, ha, hxa⟩ := (t2' x).1 hx
        rcases nc.own a ha x hxa with h | ⟨h, h'⟩
        · exact h
        · rcases hg with hg | rfl
          · exact absurd hg h
          · exact absurd hJ h'
      · rcases hg with hg | hg
        · exact absurd hg hqE
        · exact absurd hg (by decide +kernel)
    have hOg : "ObjID" ∈ generatedCols := by decide +kernel
    have hng : generatedCols.Nodup := by decide +kernel
    simp only [t1, bind, Except.bind]
    by_cases hb : c.expert.bruteForce = true
    · simp only [hb, if_true]
      refine ⟨_, join_ok hOt hOg (fun x hx hg => hclash x (.inl hx) hg), ?_, ?_⟩
      · intro x
        rw [mem_join hOg, mem_generated, t2']
        unfold ObsCol
        rw [he, hb]; simp only [true_and, Bool.true_eq_false, false_and, false_or]
        tauto
      · intro hn
        exact nodup_join hng (t3 (hn _ (List.mem_of_mem_head? rfl)) (fun a ha => hn a (List.mem_of_mem_tail ha))) (fun x hx hg => hclash x (.inl hx) hg)
    · have hb' : c.expert.bruteForce = false := by simpa using hb
      simp only [hb', Bool.false_eq_true, if_false, hcull hb']
      refine ⟨_, join_ok (by simp [hOt]) hOg (fun x hx hg => hclash x (by simpa using hx) hg), ?_, ?_⟩
      · intro x
        rw [mem_join hOg, mem_generated, mem_put, t2']
        unfold ObsCol
        rw [he]; simp only [true_and, hb']
        exact ⟨by rintro ((h | h) | (h | h)) <;> simp [h], by rintro (h | h | h | h) <;> simp [h]⟩
      · intro hn
        exact nodup_join hng (nodup_put _ (t3 (hn _ (List.mem_of_mem_head? rfl)) (fun a ha => hn a (List.mem_of_mem_tail ha))))
          (fun x hx hg => hclash x (by simpa using hx) hg)

/-! ## Match -/

/-- The columns after the match. -/
def MatchCol (c : Config.Cfg) (f : Files) (x : String) : Prop :=
  ObsCol c f x ∨ x = "optFilter" ∨
    x ∈ f.pointing ∧ x ∉ VisitsOnly ∧ x ∉ ["observationId", "filter", "observationStartMJD_TAI", "observationMidpointMJD_TAI"]

theorem matchVisits_ok (nc : NoClash c r f) {db cs : Cols} (hdb : ∀ x, x ∈ db ↔ VisitCol f x) (hcs : ∀ x, x ∈ cs ↔ ObsCol c f x) :
    ∃ m, matchVisits db cs = .ok m ∧ (∀ x, x ∈ m ↔ MatchCol c f x) ∧ (db.Nodup → cs.Nodup → m.Nodup) := by
  set db' := db.filter fun c => c ∉ notMerged with hdb'
  have hm' : ∀ x, x ∈ db' ↔ VisitCol f x ∧ x ∉ VisitsOnly := by
    intro x; rw [hdb', List.mem_filter, hdb, notMerged_eq]; simp
  have hF : "FieldID" ∈ cs := (hcs _).2 (.inl (by decide +kernel))
  have hF' : "FieldID" ∈ db' := (hm' _).2 ⟨.inr (.inl (by decide +kernel)), by decide +kernel⟩
  have hclash : ∀ x ∈ cs, x ∈ db' → x = "FieldID" := by
    intro x hx hx'
    rw [hcs] at hx
    obtain ⟨hv, hnv⟩ := (hm' x).1 hx'
    have hJ : "fieldJD_TDB" ∈ VisitsOnly := by decide +kernel
    have hpre : ∀ y ∈ precomputed, y ∈ VisitsOnly := by decide +kernel
    have hnew : ∀ y ∈ ["FieldID", "optFilter", "observationId_", "observationStartMJD_TAI", "observationMidpointMJD_TAI"], y ≠ "FieldID" →
      y ∉ EphemerisNames ∧ y ∈ Computed ∧ y ≠ "q" := by decide +kernel
    have hObj : "ObjID" ∉ ["FieldID", "optFilter", "observationId_", "observationStartMJD_TAI", "observationMidpointMJD_TAI"] := by decide +kernel
    have hObjE : "ObjID" ∈ EphemerisNames := by decide +kernel
    by_contra hne
    rcases hv with ⟨hp, -, -⟩ | hn | ⟨-, hp⟩
    · obtain ⟨v1, v2, v3⟩ := nc.visits x hp
      rcases hx with hx | ⟨-, rfl⟩ | ⟨-, -, rfl⟩ | ⟨a, ha, hxa⟩
      · exact v2 hx
      · exact hnv hJ
      · exact v1 rfl
      · exact hnv (nc.apart a ha x hxa hp)
    · obtain ⟨n1, n2, n3⟩ := hnew x hn hne
      rcases hx with hx | ⟨-, rfl⟩ | ⟨-, -, rfl⟩ | ⟨a, ha, hxa⟩
      · exact n1 hx
      · exact hnv hJ
      · exact n3 rfl
      · rcases nc.own a ha x hxa with rfl | ⟨-, h⟩
        · exact hObj hn
        · exact h n2
    · exact hnv (hpre x hp)
  have hmerge := merge_ok hclash
  have hmm : ∀ x, x ∈ cs ++ (db'.filter fun c => c ≠ "FieldID") ↔ x ∈ cs ∨ x ∈ db' := fun x => mem_merged hF
  have hneeds : ∀ x ∈ ["optFilter", "observationStartMJD_TAI", "fieldMJD_TAI", "observationId_", "observationMidpointMJD_TAI"],
      x ∈ cs ++ (db'.filter fun c => c ≠ "FieldID") := by
    have hin : ∀ y ∈ ["optFilter", "observationStartMJD_TAI", "fieldMJD_TAI", "observationId_", "observationMidpointMJD_TAI"], y ≠ "fieldMJD_TAI" →
        y ∈ ["FieldID", "optFilter", "observationId_", "observationStartMJD_TAI", "observationMidpointMJD_TAI"] ∧ y ∉ VisitsOnly := by decide +kernel
    intro x hx
    rw [hmm]
    by_cases h : x = "fieldMJD_TAI"
    · left; rw [hcs, h]; exact .inl (by decide +kernel)
    · obtain ⟨h1, h2⟩ := hin x hx h
      right; rw [hm']
      exact ⟨.inr (.inl h1), h2⟩
  refine ⟨(cs ++ db'.filter fun c => c ≠ "FieldID").filter fun c => c ∉ ["observationStartMJD_TAI", "observationId_", "observationMidpointMJD_TAI"], ?_, ?_, ?_⟩
  · unfold matchVisits
    simp only [bind, Except.bind]
    rw [need_ok (by simpa using hF)]
    simp only [← hdb']
    rw [need_ok (by simpa using hF')]
    simp only [hmerge]
    rw [need_ok hneeds]
    rfl
  · intro x
    rw [List.mem_filter, hmm, hcs, hm']
    simp only [decide_eq_true_eq]
    have hthree : ∀ y ∈ ["observationStartMJD_TAI", "observationId_", "observationMidpointMJD_TAI"], y ∉ EphemerisNames ∧ y ∈ Computed ∧ y ≠ "q" ∧ y ≠ "fieldJD_TDB" ∧
      y ≠ "ObjID" ∧ y ≠ "optFilter" := by decide +kernel
    have hobs : ObsCol c f x → x ∉ ["observationStartMJD_TAI", "observationId_", "observationMidpointMJD_TAI"] := by
      intro ho hm
      obtain ⟨a1, a2, a3, a4, a5, -⟩ := hthree x hm
      rcases ho with hx | ⟨-, rfl⟩ | ⟨-, -, rfl⟩ | ⟨a, ha, hxa⟩
      · exact a1 hx
      · exact a4 rfl
      · exact a3 rfl
      · rcases nc.own a ha x hxa with rfl | ⟨-, h⟩
        · exact a5 rfl
        · exact h a2
    have hpre : ∀ y ∈ precomputed, y ∈ VisitsOnly := by decide +kernel
    have hopt : "optFilter" ∉ VisitsOnly ∧ "optFilter" ∉ ["observationStartMJD_TAI", "observationId_", "observationMidpointMJD_TAI"] := by decide +kernel
    have hid_ : x ∈ f.pointing → x ≠ "observationId_" := by
      rintro hx rfl
      exact absurd ((nc.visits _ hx).2.2 (by decide +kernel)) (by decide +kernel)
    have hFE : ObsCol c f "FieldID" := .inl (by decide +kernel)
    unfold MatchCol
    constructor
    · rintro ⟨ho | ⟨hv, hnv⟩, h3⟩
      · exact .inl ho
      · rcases hv with ⟨hp, b1, b2⟩ | hn | ⟨-, hp⟩
        · right; right
          refine ⟨hp, hnv, ?_⟩
          simp only [List.mem_cons, List.not_mem_nil, or_false] at h3 ⊢
          tauto
        · simp only [List.mem_cons, List.not_mem_nil, or_false] at hn h3
          rcases hn with rfl | rfl | rfl | rfl | rfl
          · exact .inl hFE
          · exact .inr (.inl rfl)
          all_goals exact absurd h3 (by simp)
        · exact absurd (hpre x hp) hnv
    · rintro (ho | rfl | ⟨hp, hnv, h4⟩)
      · exact ⟨.inl ho, hobs ho⟩
      · exact ⟨.inr ⟨.inr (.inl (by decide +kernel)), hopt.1⟩, hopt.2⟩
      · have := hid_ hp
        simp only [List.mem_cons, List.not_mem_nil, or_false, not_or] at h4 ⊢
        exact ⟨.inr ⟨.inl ⟨hp, h4.1, h4.2.1⟩, hnv⟩, h4.2.2.1, this, h4.2.2.2⟩
  · intro h1 h2
    exact (nodup_merged h2 (h1.filter _) hclash).filter _

end Sorcha.Columns
