import Verif.Pipeline.Spec
import Verif.Filters.Props
import Verif.Rng.Props
import Verif.Pointing.Props
import Mathlib.Data.List.Perm.Subperm

/-! # Lemmas about the stages of a run -/

namespace Sorcha.Pipeline
open Sorcha.Pipeline.Spec Sorcha.Filters.Spec Sorcha.Filters

variable {G W V : Type}

theorem mapM_some {α β : Type} (f : α → Option β) (l : List α) : ∀ r : List β, l.mapM f = some r →
    r = l.filterMap f ∧ ∀ a ∈ l, (f a).isSome := by
  induction l with
  | nil => intro r h; simp at h; subst h; simp
  | cons a l ih =>
    intro r h
    rw [List.mapM_cons] at h
    cases hfa : f a with
    | none => simp [hfa] at h
    | some b =>
      cases hl : l.mapM f with
      | none => simp [hfa, hl] at h
      | some bs =>
        simp [hfa, hl] at h
        obtain ⟨h1, h2⟩ := ih bs hl
        subst h
        refine ⟨by simp [hfa, h1], ?_⟩
        intro x hx
        rcases List.mem_cons.1 hx with rfl | hx
        · simp [hfa]
        · exact h2 x hx

theorem mapM_isSome {α β : Type} (f : α → Option β) (l : List α) (h : ∀ a ∈ l, (f a).isSome) : l.mapM f = some (l.filterMap f) := by
  induction l with
  | nil => rfl
  | cons a l ih =>
    obtain ⟨b, hb⟩ := Option.isSome_iff_exists.1 (h a (by simp))
    rw [List.mapM_cons, ih fun x hx => h x (by simp [hx])]
    simp [hb]

/-- Labels 0, 1, ... -/
def Numbered {ρ : Type} (t : Table ρ) : Prop := t.map (·.1) = List.range t.length

/-- Rows with the same label are the same up to the detector. -/
def Agreeing (t : Table (Row W V)) : Prop := ∀ a ∈ t, ∀ b ∈ t, a.1 = b.1 → bare a.2 = bare b.2

theorem ofRows_rows {ρ : Type} (l : List ρ) : (ofRows l).rows = l := by
  apply List.ext_getElem?
  intro i
  simp [ofRows, Table.rows, Option.map_map, Function.comp_def]

theorem ofRows_numbered {ρ : Type} (l : List ρ) : Numbered (ofRows l) := by
  unfold Numbered ofRows
  apply List.ext_getElem?
  intro i
  by_cases h : i < l.length
  · simp [List.getElem?_eq_getElem h, List.getElem?_range h]
  · have h' : l.length ≤ i := Nat.le_of_not_lt h
    simp [List.getElem?_eq_none h', List.getElem?_eq_none (show (List.range l.length).length ≤ i by simpa using h')]

theorem resetIndex_numbered {ρ : Type} (t : Table ρ) : Numbered (Table.resetIndex t) := by
  unfold Numbered
  rw [Table.labels_resetIndex]
  congr 1
  simp [Table.resetIndex]

theorem Numbered.nodup {ρ : Type} {t : Table ρ} (h : Numbered t) : (t.map (·.1)).Nodup := by
  rw [show t.map (·.1) = _ from h]; exact List.nodup_range

theorem Numbered.agreeing {t : Table (Row W V)} (h : Numbered t) : Agreeing t := by
  intro a ha b hb hab
  have hi : ∀ (t : Table (Row W V)), (t.map (·.1)).Nodup → ∀ a ∈ t, ∀ b ∈ t, a.1 = b.1 → a = b := by
    intro t
    induction t with
    | nil => intro _ a ha; simp at ha
    | cons x t ih =>
      intro hn a ha b hb hab
      simp only [List.map_cons, List.nodup_cons] at hn
      rcases List.mem_cons.1 ha with rfl | ha' <;> rcases List.mem_cons.1 hb with rfl | hb'
      · rfl
      · exact absurd (List.mem_map.2 ⟨b, hb', hab.symm⟩) hn.1
      · exact absurd (List.mem_map.2 ⟨a, ha', hab⟩) hn.1
      · exact ih hn.2 a ha' b hb' hab
  rw [hi t h.nodup a ha b hb hab]

theorem mkRow_eq (c : Config.Cfg) (p : Pointing.Obs W × Pointing.Visit V) (m : Meas) : mkRow c p m = rowOf c p m := rfl

/-! ## Matching and calculations -/

/-- All observations with their visits. -/
def pairs (E : Env G W V) (obs : List (Pointing.Obs W)) : List (Pointing.Obs W × Pointing.Visit V) :=
  obs.flatMap fun o => (E.db.filter fun v => v.id = o.field).map fun v => (o, v)

theorem mem_pairs {E : Env G W V} {obs : List (Pointing.Obs W)} {p : Pointing.Obs W × Pointing.Visit V} :
    p ∈ pairs E obs ↔ p.1 ∈ obs ∧ p.2 ∈ E.db ∧ p.2.id = p.1.field := by
  unfold pairs
  rw [List.mem_flatMap]
  constructor
  · rintro ⟨o, ho, h⟩
    obtain ⟨v, hv, rfl⟩ := List.mem_map.1 h
    obtain ⟨h1, h2⟩ := List.mem_filter.1 hv
    exact ⟨ho, h1, by simpa using h2⟩
  · rintro ⟨h1, h2, h3⟩
    exact ⟨p.1, h1, List.mem_map.2 ⟨p.2, List.mem_filter.2 ⟨h2, by simpa using h3⟩, rfl⟩⟩

theorem measured_ok {E : Env G W V} {c : Config.Cfg} {obs : List (Pointing.Obs W)} {t : Table (Row W V)} (h : measured E c obs = .ok t) :
    Numbered t ∧ t.rows = (pairs E obs).filterMap (fun p => (E.measure p).map (rowOf c p)) ∧
      ∀ p ∈ pairs E obs, Pointing.Spec.Agree p.2.start p.1.mjd ∧ (E.measure p).isSome := by
  unfold measured at h
  cases hp : Pointing.matchPointing obs E.db with
  | error e => simp [hp, bind, Except.bind, Except.mapError] at h
  | ok ps =>
    simp only [hp, bind, Except.bind, Except.mapError] at h
    obtain ⟨h1, h2⟩ := Pointing.Props.C40_match hp
    have hps : ps = pairs E obs := by rw [h1]; rfl
    subst hps
    cases hm : (pairs E obs).mapM fun p => (E.measure p).map (mkRow c p) with
    | none => simp [hm] at h
    | some rs =>
      simp only [hm] at h
      rw [← Except.ok.inj h]
      obtain ⟨e1, e2⟩ := mapM_some _ _ _ hm
      refine ⟨ofRows_numbered _, by rw [ofRows_rows, e1]; rfl, fun p hp => ⟨h2 p hp, ?_⟩⟩
      simpa using e2 p hp

theorem measured_good {E : Env G W V} {c : Config.Cfg} {obs : List (Pointing.Obs W)}
    (h : ∀ p ∈ pairs E obs, Pointing.Spec.Agree p.2.start p.1.mjd ∧ (E.measure p).isSome) :
    ∃ t, measured E c obs = .ok t := by
  unfold measured
  have hm : Pointing.matchPointing obs E.db = .ok (pairs E obs) := by
    unfold Pointing.matchPointing
    simp only [Pointing.Props.merge_filterMap]
    rw [if_pos]
    · rfl
    · rw [List.all_eq_true]
      intro p hp
      exact (Pointing.Props.isclose_iff _ _).2 (h p hp).1
  have hs := mapM_isSome (fun p => (E.measure p).map (mkRow c p)) (pairs E obs) (fun p hp => by simpa using (h p hp).2)
  simp only [hm, bind, Except.bind, Except.mapError, hs]
  exact ⟨_, rfl⟩

/-! ## Noise -/

theorem randomize_off (E : Env G W V) (c : Config.Cfg) (s : State G) (t : Table (Row W V)) (h : c.expert.randomization.on = false) :
    randomize E c s t = (t, s) := by
  unfold randomize; rw [h]; rfl

/-- What randomisation does not change. -/
def SameSource (r r' : Row W V) : Prop :=
  r.rest.src = r'.rest.src ∧ r.rest.detector = r'.rest.detector ∧ r.objId = r'.objId ∧ r.optFilter = r'.optFilter ∧ r.snr = r'.snr

theorem mapIdx_rows {ρ : Type} (t : Table ρ) (f : ℕ → ρ → ρ) : (t.mapIdx fun i r => (r.1, f i r.2)).map (·.1) = t.map (·.1) ∧
    Table.rows (t.mapIdx fun i r => (r.1, f i r.2)) = t.rows.mapIdx f := by
  constructor
  · apply List.ext_getElem?; intro i; simp [Option.map_map, Function.comp_def]
  · apply List.ext_getElem?; intro i; simp [Table.rows, Option.map_map, Function.comp_def]

theorem forall₂_mapIdx {α : Type} (R : α → α → Prop) (l : List α) : ∀ (f : ℕ → α → α), (∀ i a, R (f i a) a) → List.Forall₂ R (l.mapIdx f) l := by
  induction l with
  | nil => intro f _; simp
  | cons a l ih =>
    intro f h
    rw [List.mapIdx_cons]
    exact .cons (h 0 a) (ih _ fun i a => h (i + 1) a)

/-- The SNR cut before the randomisation. -/
def LowCut (c : Config.Cfg) (r : Row W V) : Prop := c.expert.randomization.on = true → c.expert.defaultSnrCut = true → Below (.fin 2) r.snr

theorem randomize_spec (E : Env G W V) (c : Config.Cfg) (s : State G) (t : Table (Row W V)) (hn : Numbered t) :
    Numbered (randomize E c s t).1 ∧ List.Forall₂ SameSource (randomize E c s t).1.rows (keep (LowCut c) t.rows) := by
  unfold randomize LowCut
  by_cases hr : c.expert.randomization.on = true
  · rw [if_pos hr]
    have key : ∀ t' : Table (Row W V), Numbered t' →
        Numbered (t'.mapIdx fun i r => (r.1, addNoise c (E.noise s.pos t'.length i r.2) r.2)) ∧
        List.Forall₂ SameSource (Table.rows (t'.mapIdx fun i r => (r.1, addNoise c (E.noise s.pos t'.length i r.2) r.2))) t'.rows := by
      intro t' hn'
      obtain ⟨h1, h2⟩ := mapIdx_rows t' (fun i r => addNoise c (E.noise s.pos t'.length i r) r)
      constructor
      · unfold Numbered; rw [h1, hn']; simp
      · rw [h2]; exact forall₂_mapIdx _ _ _ fun i a => ⟨rfl, rfl, rfl, rfl, rfl⟩
    by_cases hd : c.expert.defaultSnrCut = true
    · rw [if_pos hd]
      have := key (Filters.snrLimit (.fin 2) t) (resetIndex_numbered _)
      refine ⟨this.1, ?_⟩
      have e : (Filters.snrLimit (.fin 2) t).rows = keep (fun r => c.expert.randomization.on = true → c.expert.defaultSnrCut = true → Below (.fin 2) r.snr) t.rows := by
        rw [C09_snr]; apply keep_congr; intro r _; simp [hr, hd]
      rw [← e]; exact this.2
    · rw [if_neg hd]
      have := key t hn
      refine ⟨this.1, ?_⟩
      have e : keep (fun r : Row W V => c.expert.randomization.on = true → c.expert.defaultSnrCut = true → Below (.fin 2) r.snr) t.rows = t.rows := by
        rw [← keep_true t.rows, keep_keep]; apply keep_congr; intro r _; simp [hd]
      rw [e]; exact this.2
  · rw [if_neg hr]
    refine ⟨hn, ?_⟩
    have e : keep (fun r : Row W V => c.expert.randomization.on = true → c.expert.defaultSnrCut = true → Below (.fin 2) r.snr) t.rows = t.rows := by
      rw [← keep_true t.rows, keep_keep]; apply keep_congr; intro r _; simp [hr]
    rw [e]
    exact List.forall₂_same.2 fun r _ => ⟨rfl, rfl, rfl, rfl, rfl⟩

/-! ## Field of view -/

theorem flatMap_swap {α β γ : Type} (l : List α) (m : List β) (g : α → β → List γ) :
    (l.flatMap fun a => m.flatMap fun b => g a b).Perm (m.flatMap fun b => l.flatMap fun a => g a b) := by
  induction l with
  | nil => simp
  | cons a l ih =>
    simp only [List.flatMap_cons]
    exact (List.Perm.append_left _ ih).trans (List.flatMap_append_perm m (fun b => g a b) fun b => l.flatMap fun a => g a b)

theorem keep_flatMap {α β : Type} (P : β → Prop) (l : List α) (f : α → List β) : keep P (l.flatMap f) = l.flatMap fun a => keep P (f a) := by
  induction l with
  | nil => rfl
  | cons a l ih => rw [List.flatMap_cons, keep_append, ih, List.flatMap_cons]

theorem keep_perm {α : Type} (P : α → Prop) {l m : List α} (h : l.Perm m) : (keep P l).Perm (keep P m) := h.filter _

theorem keep_subperm {α : Type} (P : α → Prop) {l m : List α} (h : l.Subperm m) : (keep P l).Subperm (keep P m) := h.filter _

theorem zip_filter_sublist {α β : Type} (p : α × β → Bool) (l : List α) : ∀ us : List β, (((l.zip us).filter p).map (·.1)).Sublist l := by
  induction l with
  | nil => intro us; simp
  | cons a l ih =>
    intro us
    cases us with
    | nil => simp
    | cons u us =>
      rw [List.zip_cons_cons, List.filter_cons]
      split
      · exact (ih us).cons₂ a
      · exact (ih us).cons a

theorem truthy_iff (x : Fl) : Rng.truthy (some x) = true ↔ num x ≠ some 0 := by
  cases x with
  | fin q => simp [Rng.truthy, Fl.eq, num]
  | _ => simp [Rng.truthy, Fl.eq, num]

/-- The row with a detector number. -/
def onDet (r : Row W V) (i : ℕ) : Row W V := { r with rest := { r.rest with detector := some i } }

theorem bare_onDet (r : Row W V) (i : ℕ) (h : r.rest.detector = none) : bare (onDet r i) = r := by
  obtain ⟨a, b, c, d, e, f, g, h', i', j, k, ⟨l, m, n, o⟩⟩ := r
  simp only at h
  subst h
  rfl

theorem bare_self (r : Row W V) (h : r.rest.detector = none) : bare r = r := by
  obtain ⟨a, b, c, d, e, f, g, h', i', j, k, ⟨l, m, n, o⟩⟩ := r
  simp only at h
  subst h
  rfl

theorem footprint_one (dets : List (Row W V → Bool)) (r : Row W V) (P : Row W V → Prop) (j : ℕ)
    (hP : ∀ i d, dets[i]? = some d → (P (onDet r (i + j)) ↔ d r = true)) :
    keep P ((List.range' j dets.length).map (onDet r)) = (dets.zipIdx j).flatMap fun d => if d.1 r then [onDet r d.2] else [] := by
  induction dets generalizing j with
  | nil => rfl
  | cons d dets ih =>
    have h0 := hP 0 d (by simp)
    rw [Nat.zero_add] at h0
    rw [List.zipIdx_cons, List.flatMap_cons, List.length_cons, List.range'_succ, List.map_cons]
    have hr : keep P ((List.range' (j + 1) dets.length).map (onDet r)) = _ := ih (j + 1) (fun i d' hd => by
      have := hP (i + 1) d' (by simpa using hd)
      rw [show i + 1 + j = i + (j + 1) by omega] at this; exact this)
    by_cases hd : d r = true
    · rw [keep_cons_pos (h0.2 hd), hr]; simp [hd]
    · rw [keep_cons_neg (fun h => hd (h0.1 h)), hr]; simp [hd]

theorem rows_flatMap {α ρ : Type} (l : List α) (f : α → Table ρ) : Table.rows (l.flatMap f) = l.flatMap fun a => (f a).rows := by
  simp [Table.rows, List.map_flatMap]

theorem filter_map_flatMap {α β : Type} (l : List α) (p : α → Bool) (f : α → β) : (l.filter p).map f = l.flatMap fun a => if p a then [f a] else [] := by
  induction l with
  | nil => rfl
  | cons a l ih => by_cases h : p a <;> simp [h, ih]

theorem views_footprint (E : Env G W V) (c : Config.Cfg) (p e) (hc : c.fov = .footprint p e) (r : Row W V) :
    views E c r = (List.range E.detectors.length).map (onDet r) := by
  unfold views; rw [hc]; rfl

theorem views_other (E : Env G W V) (c : Config.Cfg) (hc : ∀ p e, c.fov ≠ .footprint p e) (r : Row W V) : views E c r = [r] := by
  unfold views
  split
  · rename_i p e h; exact absurd h (hc p e)
  · rfl

theorem onDetectors_perm (E : Env G W V) (c : Config.Cfg) (p e) (hc : c.fov = .footprint p e) (t : Table (Row W V))
    (hb : ∀ r ∈ t.rows, r.rest.detector = none) :
    (onDetectors E.detectors t).rows.Perm (keep (InView E c) (t.rows.flatMap (views E c))) := by
  unfold onDetectors
  rw [rows_flatMap, keep_flatMap]
  have e1 : (E.detectors.zipIdx.flatMap fun d => Table.rows ((t.filter fun r => d.1 r.2).map
      fun r => (r.1, { r.2 with rest := { r.2.rest with detector := some d.2 } }))) =
      E.detectors.zipIdx.flatMap fun d => t.rows.flatMap fun r => if d.1 r then [onDet r d.2] else [] := by
    congr 1
    funext d
    rw [← filter_map_flatMap]
    simp only [Table.rows, List.filter_map, List.map_map]
    rfl
  rw [e1]
  refine (flatMap_swap _ _ _).trans ?_
  have e2 : (t.rows.flatMap fun a => E.detectors.zipIdx.flatMap fun d => if d.1 a then [onDet a d.2] else []) =
      t.rows.flatMap fun a => keep (InView E c) (views E c a) := by
    apply List.flatMap_congr
    intro r hr
    rw [views_footprint E c p e hc, List.range_eq_range', footprint_one E.detectors r (InView E c) 0]
    intro i d hd
    unfold InView
    rw [hc]
    simp only [Nat.add_zero]
    constructor
    · rintro ⟨i', d', h1, h2, h3⟩
      have : i = i' := by simpa [onDet] using h1
      subst this
      rw [hd] at h2
      rw [Option.some.inj h2]
      rwa [bare_onDet r i (hb r hr)] at h3
    · intro h
      exact ⟨i, d, rfl, hd, by rwa [bare_onDet r i (hb r hr)]⟩
  rw [e2]

theorem onDetectors_agreeing (dets : List (Row W V → Bool)) (t : Table (Row W V)) (hn : Numbered t) : Agreeing (onDetectors dets t) := by
  have key : ∀ a ∈ onDetectors dets t, ∃ r ∈ t, a.1 = r.1 ∧ bare a.2 = bare r.2 := by
    intro a ha
    obtain ⟨d, _, ha⟩ := List.mem_flatMap.1 ha
    obtain ⟨r, hr, rfl⟩ := List.mem_map.1 ha
    exact ⟨r, List.mem_of_mem_filter hr, rfl, rfl⟩
  intro a ha b hb hab
  obtain ⟨r, hr, e1, e2⟩ := key a ha
  obtain ⟨r', hr', e1', e2'⟩ := key b hb
  rw [e2, e2']
  exact hn.agreeing r hr r' hr' (by rw [← e1, ← e1', hab])

theorem circleFootprint_rows {ρ : Type} (sep : ρ → Fl) (radius : Fl) (t : Table ρ) :
    (Rng.circleFootprint sep radius t).rows = keep (fun r => Below (sep r) radius) t.rows := by
  unfold Rng.circleFootprint
  rw [Table.rows_resetIndex, Table.rows_mask]
  exact filter_eq_keep _ _ _ fun r _ => Filters.lt_iff_below _ _

theorem keep_all {α : Type} {P : α → Prop} {l : List α} (h : ∀ a ∈ l, P a) : keep P l = l := by
  rw [show keep P l = keep (fun _ => True) l from keep_congr fun a ha => by simp [h a ha], keep_true]

theorem applyCircle_spec (E : Env G W V) (s : Rng.Rngs G) (radius fill : Option Fl) (t : Table (Row W V)) (hn : Numbered t) :
    Numbered (Rng.applyCircle E.gen E.md5 E.sep radius fill s t).1 ∧
    (Rng.applyCircle E.gen E.md5 E.sep radius fill s t).1.rows.Sublist
      (keep (fun r => ∀ ρ, radius = some ρ → num ρ ≠ some 0 → Below (E.sep r) ρ) t.rows) ∧
    ((fill = none ∨ fill = some (.fin 0)) → (Rng.applyCircle E.gen E.md5 E.sep radius fill s t).1.rows =
      keep (fun r => ∀ ρ, radius = some ρ → num ρ ≠ some 0 → Below (E.sep r) ρ) t.rows ∧
      (Rng.applyCircle E.gen E.md5 E.sep radius fill s t).2 = s) := by
  have h1 : ∃ t₁ : Table (Row W V), (if Rng.truthy radius = true then Rng.circleFootprint E.sep (radius.getD .nan) t else t) = t₁ ∧ Numbered t₁ ∧
      t₁.rows = keep (fun r => ∀ ρ, radius = some ρ → num ρ ≠ some 0 → Below (E.sep r) ρ) t.rows := by
    refine ⟨_, rfl, ?_⟩
    by_cases ht : Rng.truthy radius = true
    · rw [if_pos ht]
      refine ⟨resetIndex_numbered _, ?_⟩
      cases radius with
      | none => simp [Rng.truthy] at ht
      | some ρ =>
        rw [circleFootprint_rows]
        apply keep_congr
        intro r _
        have := (truthy_iff ρ).1 ht
        simp [this]
    · rw [if_neg ht]
      refine ⟨hn, (keep_all ?_).symm⟩
      intro r _ ρ hρ h0
      subst hρ
      exact absurd ((truthy_iff ρ).2 h0) ht
  obtain ⟨t₁, e, hn₁, hr₁⟩ := h1
  unfold Rng.applyCircle
  simp only [e]
  by_cases hf : Rng.truthy fill = true
  · rw [if_pos hf]
    refine ⟨resetIndex_numbered _, ?_, ?_⟩
    · rw [Rng.simpleSensorArea_rows _ _ _ _ _ hn₁, ← hr₁]
      exact zip_filter_sublist _ _ _
    · rintro (rfl | rfl) <;> simp [Rng.truthy, Fl.eq] at hf
  · rw [if_neg hf]
    exact ⟨hn₁, by rw [← hr₁], fun _ => ⟨hr₁, rfl⟩⟩

theorem flatMap_single {α : Type} (l : List α) : (l.flatMap fun a => [a]) = l := by simp

theorem fieldOfView_spec (E : Env G W V) (c : Config.Cfg) (s s' : State G) (t t' : Table (Row W V)) (hn : Numbered t)
    (hb : ∀ r ∈ t.rows, r.rest.detector = none) (hsort : ∀ l, (E.sortIndex l).Perm l) (h : fieldOfView E c s t = .ok (t', s')) :
    Agreeing t' ∧ t'.rows.Subperm (keep (InView E c) (t.rows.flatMap (views E c))) ∧ s'.round = s.round ∧
    (Deterministic c → t'.rows.Perm (keep (InView E c) (t.rows.flatMap (views E c)))) := by
  unfold fieldOfView at h
  split at h
  · rename_i hc
    obtain ⟨rfl, rfl⟩ := Prod.mk.inj (Except.ok.inj h)
    have e : keep (InView E c) (t.rows.flatMap (views E c)) = t.rows := by
      rw [show t.rows.flatMap (views E c) = t.rows from by
        rw [List.flatMap_congr (g := fun r => [r]) fun r _ => views_other E c (by simp [hc]) r, flatMap_single]]
      exact keep_all fun r _ => by unfold InView; rw [hc]; trivial
    rw [e]
    exact ⟨hn.agreeing, List.Subperm.refl _, rfl, fun _ => List.Perm.refl _⟩
  · cases h
  · rename_i p e hc
    by_cases hl : t.length > 0
    · rw [if_pos hl] at h
      obtain ⟨rfl, rfl⟩ := Prod.mk.inj (Except.ok.inj h)
      have hp : (E.sortIndex (onDetectors E.detectors t)).rows.Perm (keep (InView E c) (t.rows.flatMap (views E c))) :=
        ((hsort _).map _).trans (onDetectors_perm E c p e hc t hb)
      refine ⟨?_, hp.subperm, rfl, fun _ => hp⟩
      intro a ha b hb'
      exact onDetectors_agreeing E.detectors t hn a ((hsort _).mem_iff.1 ha) b ((hsort _).mem_iff.1 hb')
    · rw [if_neg hl] at h
      obtain ⟨rfl, rfl⟩ := Prod.mk.inj (Except.ok.inj h)
      have : t = [] := by simpa using hl
      subst this
      exact ⟨hn.agreeing, List.Subperm.refl _, rfl, fun _ => List.Perm.refl _⟩
  · rename_i fill radius hc
    have e : keep (InView E c) (t.rows.flatMap (views E c)) =
        keep (fun r => ∀ ρ, radius = some ρ → num ρ ≠ some 0 → Below (E.sep r) ρ) t.rows := by
      rw [show t.rows.flatMap (views E c) = t.rows from by
        rw [List.flatMap_congr (g := fun r => [r]) fun r _ => views_other E c (by simp [hc]) r, flatMap_single]]
      apply keep_congr
      intro r _
      unfold InView
      rw [hc]
    rw [e]
    by_cases hl : t.length > 0
    · rw [if_pos hl] at h
      obtain ⟨rfl, rfl⟩ := Prod.mk.inj (Except.ok.inj h)
      obtain ⟨h1, h2, h3⟩ := applyCircle_spec E s.rngs radius fill t hn
      refine ⟨h1.agreeing, h2.subperm, rfl, fun hd => ?_⟩
      exact List.Perm.of_eq (h3 (hd.2.2 fill radius hc)).1
    · rw [if_neg hl] at h
      obtain ⟨rfl, rfl⟩ := Prod.mk.inj (Except.ok.inj h)
      have : t = [] := by simpa using hl
      subst this
      exact ⟨hn.agreeing, List.Subperm.refl _, rfl, fun _ => List.Perm.refl _⟩

/-! ## The cuts -/

theorem nil_of_length {ρ : Type} {t : Table ρ} (h : ¬ t.length > 0) : t = [] := by simpa using h

theorem snrCut_rows (c : Config.Cfg) (t : Table (Row W V)) : (snrCut c t).rows = keep (fun r => ∀ l, c.expert.snrLimit = some l → Below l r.snr) t.rows := by
  unfold snrCut
  cases h : c.expert.snrLimit with
  | none => exact (keep_all fun r _ l hl => by cases hl).symm
  | some l =>
    simp only
    by_cases hl : t.length > 0
    · rw [if_pos hl, C09_snr]; apply keep_congr; intro r _; simp
    · rw [if_neg hl, nil_of_length hl]; rfl

theorem magCut_rows (c : Config.Cfg) (t : Table (Row W V)) :
    (magCut c t).rows = keep (fun r => ∀ l, c.expert.magLimit = some l → Below r.trailedSourceMag l) t.rows := by
  unfold magCut
  cases h : c.expert.magLimit with
  | none => exact (keep_all fun r _ l hl => by cases hl).symm
  | some l =>
    simp only
    by_cases hl : t.length > 0
    · rw [if_pos hl, C09_magnitude]; apply keep_congr; intro r _; simp
    · rw [if_neg hl, nil_of_length hl]; rfl

theorem snrCut_agreeing (c : Config.Cfg) (t : Table (Row W V)) (h : Agreeing t) : Agreeing (snrCut c t) := by
  unfold snrCut
  cases c.expert.snrLimit with
  | none => exact h
  | some l =>
    simp only
    split
    · exact (resetIndex_numbered _).agreeing
    · exact h

theorem magCut_agreeing (c : Config.Cfg) (t : Table (Row W V)) (h : Agreeing t) : Agreeing (magCut c t) := by
  unfold magCut
  cases c.expert.magLimit with
  | none => exact h
  | some l =>
    simp only
    split
    · exact (resetIndex_numbered _).agreeing
    · exact h

theorem fade_spec (E : Env G W V) (c : Config.Cfg) (s s' : State G) (t t' : Table (Row W V)) (ha : Agreeing t) (h : fade E c s t = .ok (t', s')) :
    Agreeing t' ∧ t'.rows.Sublist t.rows ∧ s'.round = s.round ∧ (Deterministic c → t' = t) := by
  unfold fade at h
  split at h
  · obtain ⟨rfl, rfl⟩ := Prod.mk.inj (Except.ok.inj h)
    exact ⟨ha, List.Sublist.refl _, rfl, fun _ => rfl⟩
  · cases h
  · rename_i w p hc
    by_cases hl : t.length > 0
    · rw [if_pos hl] at h
      obtain ⟨rfl, rfl⟩ := Prod.mk.inj (Except.ok.inj h)
      refine ⟨(resetIndex_numbered _).agreeing, ?_, rfl, fun hd => ?_⟩
      · rw [Table.rows_resetIndex, Rng.rows_keepBy]
        exact zip_filter_sublist _ _ _
      · rw [hd.2.1] at hc; cases hc
    · rw [if_neg hl] at h
      obtain ⟨rfl, rfl⟩ := Prod.mk.inj (Except.ok.inj h)
      exact ⟨ha, List.Sublist.refl _, rfl, fun _ => rfl⟩

theorem satBool_bare (fs : List String) (xs : List Fl) (r : Row W V) : Filters.satBool fs xs r = Filters.satBool fs xs (bare r) := by
  induction fs generalizing xs with
  | nil => rfl
  | cons f fs ih =>
    cases xs with
    | nil => rfl
    | cons x xs => simp only [Filters.satBool, ih]; rfl

/-- Not too bright. -/
def Dim (c : Config.Cfg) (r : Row W V) : Prop := c.saturation.on.on = true → ∃ ls, c.saturation.limits = some ls ∧ ¬ Saturated c.filters ls r

/-- The saturation limits are usable. -/
def LimitsFit (c : Config.Cfg) : Prop := c.saturation.on.on = true → ∃ ls, c.saturation.limits = some ls ∧ c.filters.length ≤ ls.length

theorem brightCut_good (c : Config.Cfg) (t : Table (Row W V)) (ha : Agreeing t) (hf : t ≠ [] → LimitsFit c) :
    ∃ t', brightCut c t = .ok t' ∧ t'.rows = keep (Dim c) t.rows := by
  unfold brightCut
  by_cases hon : c.saturation.on.on = true
  · by_cases hl : t.length > 0
    · rw [if_pos (by simp [hon, hl])]
      obtain ⟨ls, h1, h2⟩ := hf (by rintro rfl; simp at hl) hon
      obtain ⟨lab, h3, h4⟩ := brightLabels_ok t c.filters ls h2
      rw [h1]
      simp only [brightLimit, h3, bind, Except.bind, pure, Except.pure, Except.mapError]
      refine ⟨_, rfl, ?_⟩
      have hag : t.LabelsAgree (satBool c.filters ls) := by
        intro a ha' b hb' hab
        rw [satBool_bare, satBool_bare (r := b.2), ha a ha' b hb' hab]
      rw [Table.rows_resetIndex, dropLabels_of_mem t lab _ h4 hag, Table.rows_mask]
      apply filter_eq_keep
      intro r _
      unfold Dim
      rw [Bool.not_eq_true', ← Bool.not_eq_true, satBool_iff]
      simp [hon, h1]
    · rw [if_neg (by simp [hl]), nil_of_length hl]
      exact ⟨_, rfl, rfl⟩
  · rw [if_neg (by simp [hon])]
    exact ⟨_, rfl, (keep_all fun r _ h => absurd h hon).symm⟩

theorem brightCut_ok (c : Config.Cfg) (t t' : Table (Row W V)) (h : brightCut c t = .ok t') : t ≠ [] → LimitsFit c := by
  intro hne hon
  have hl : t.length > 0 := List.length_pos_iff.2 hne
  unfold brightCut at h
  rw [if_pos (by simp [hon, hl])] at h
  cases hls : c.saturation.limits with
  | none => rw [hls] at h; simp [brightLimit, Except.mapError] at h
  | some ls =>
    refine ⟨ls, rfl, ?_⟩
    by_contra hlt
    rw [hls] at h
    simp [(C09_bright_rejects c.filters ls t (by omega)).1, Except.mapError] at h

end Sorcha.Pipeline
