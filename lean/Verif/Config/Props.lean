import Verif.Config.Lemmas
import Verif.Filters.Props

/-!
# Properties of the configuration (C38, C50)

Each section is accepted exactly if it satisfies the requirements of `Spec.lean`, with the meaning given there.
-/

namespace Sorcha.Config.Props

open Sorcha.Config Spec

/-! ## C50: truth values -/

/-- **C50** A string is read as true, or as false, exactly if it is one of the words, up to surrounding white space; otherwise the run stops. -/
theorem C50_bool (v key : String) :
    (castBool v key = .ok true ↔ ∃ pre w post, v.toList = pre ++ w.toList ++ post ∧ (∀ c ∈ pre, Space c) ∧ (∀ c ∈ post, Space c) ∧ TrueWord w) ∧
    (castBool v key = .ok false ↔ ∃ pre w post, v.toList = pre ++ w.toList ++ post ∧ (∀ c ∈ pre, Space c) ∧ (∀ c ∈ post, Space c) ∧ FalseWord w) ∧
    ((∀ b, castBool v key ≠ .ok b) → castBool v key = .error (.notBool key)) := by
  refine ⟨?_, ?_, ?_⟩
  · rw [castBool_ok]
    constructor
    · rintro ⟨t, ⟨pre, post, h1, h2, h3, -, -⟩, hw⟩
      exact ⟨pre, t, post, h1, h2, h3, hw⟩
    · rintro ⟨pre, w, post, h1, h2, h3, hw⟩
      refine ⟨w, ⟨pre, post, h1, h2, h3, ?_, ?_⟩, hw⟩ <;> · intro c hc; cases hw <;> · revert hc; revert c; simp [Space]
  · rw [castBool_ok]
    constructor
    · rintro ⟨t, ⟨pre, post, h1, h2, h3, -, -⟩, hw⟩
      exact ⟨pre, t, post, h1, h2, h3, hw⟩
    · rintro ⟨pre, w, post, h1, h2, h3, hw⟩
      refine ⟨w, ⟨pre, post, h1, h2, h3, ?_, ?_⟩, hw⟩ <;> · intro c hc; cases hw <;> · revert hc; revert c; simp [Space]
  · intro h
    unfold castBool at h ⊢
    split
    · exact absurd rfl (by rename_i hc; rw [if_pos hc] at h; exact h true)
    · split
      · exact absurd rfl (by rename_i h1 hc; rw [if_neg h1, if_pos hc] at h; exact h false)
      · rfl

/-- **C50** A missing flag takes its default, a given one is read. -/
theorem C50_default (s : Sect) (h : (s.map Prod.fst).Nodup) (key : String) (dflt b : Bool) :
    castBoolOr (get s key) key dflt = .ok b ↔ (Absent s key ∧ b = dflt) ∨ ∃ v, (key, v) ∈ s ∧ Reads v b := castBoolOr_ok h key key dflt b

/-- **C50 fails** for flags that the validation leaves as text: any text but the empty one counts as on, "False" too. Here `bright_limit_on`. -/
theorem C50_text_fails (py : Py) : saturation py (some ["r"]) [("bright_limit_on", "False")] = .ok ⟨.text "False", none⟩ ∧
    (Flag.text "False").on = true := by
  refine ⟨?_, by decide⟩
  simp [saturation, get, Flag.ofRaw, Flag.on]

example : castBool "  yes\t" "drop_unlinked" = .ok true ∧ castBool "False\n" "drop_unlinked" = .ok false ∧
    castBool "TRUE" "drop_unlinked" = .error (.notBool "drop_unlinked") := by decide +kernel

/-! ## C38: sections -/

/-- **C38** INPUT. -/
theorem C38_input (py : Py) (s : Sect) (h : (s.map Prod.fst).Nodup) (c : Input) : input py s = .ok c ↔ InputOk py s c := by
  obtain ⟨t, f, n, a, q⟩ := c
  simp only [input, bind_ok, need_ok, oneOf_ok, castInt_ok, pure_ok, get_some h, Input.mk.injEq]
  constructor
  · rintro ⟨t', ht, f', hf, v, hv, a', ha, q', hq, -, ht', -, hf', -, ha', i, hi, rfl, rfl, rfl, rfl, rfl⟩
    exact ⟨⟨ht, by simpa using ht'⟩, ⟨hf, by simpa using hf'⟩, ⟨ha, by simp at ha'; tauto⟩, hq, ⟨v, hv, hi⟩⟩
  · rintro ⟨⟨ht, ht'⟩, ⟨hf, hf'⟩, ⟨ha, ha'⟩, hq, ⟨v, hv, hi⟩⟩
    refine ⟨t, ht, f, hf, v, hv, a, ha, q, hq, (), by simpa using ht', (), by simpa using hf', (), ?_, n, hi, rfl, rfl, rfl, rfl, rfl⟩
    simp only at ha'
    simp only [List.mem_cons, List.not_mem_nil, or_false]
    tauto

/-- **C38** SIMULATION. -/
theorem C38_simulation (py : Py) (t : String) (s : Sect) (h : (s.map Prod.fst).Nodup) (c : Option SimAR) :
    simulation py (some t) s = .ok c ↔ SimulationOk py s t c := by
  simp only [simulation, bind_ok, need_ok, oneOf_ok]
  constructor
  · rintro ⟨t', ht, -, hl, hr⟩
    cases ht
    by_cases har : t = "ar"
    · subst har
      simp only [if_true, bind_ok, need_ok, castFloat_ok, castInt_ok, pure_ok, get_some h, castInt?_ok h] at hr
      obtain ⟨a, ha, b, hb, p, hp, o, ho, d, hd, a', ha', b', hb', p', hp', d', hd', n, hn, rfl⟩ := hr
      refine .ar _ ⟨a, ha, ha'⟩ ⟨b, hb, hb'⟩ ⟨p, hp, hp'⟩ ho ⟨d, hd, hd'⟩ ?_
      cases n with
      | none => exact .inr ⟨hn, rfl⟩
      | some n => exact .inl hn
    · rw [if_neg har] at hr
      simp only [bind_ok, forbid_ok, pure_ok, get_none h] at hr
      obtain ⟨-, h1, -, h2, -, h3, -, h4, -, h5, rfl⟩ := hr
      simp only [List.mem_cons, List.not_mem_nil, or_false, har, false_or] at hl
      subst hl
      refine .external ?_
      simp only [List.mem_cons, List.not_mem_nil, or_false]
      rintro k (rfl | rfl | rfl | rfl | rfl) <;> assumption
  · intro hs
    cases hs with
    | ar c hf hb hp ho hh hn =>
      obtain ⟨a, ha, ha'⟩ := hf
      obtain ⟨b, hb, hb'⟩ := hb
      obtain ⟨p, hp, hp'⟩ := hp
      obtain ⟨d, hd, hd'⟩ := hh
      refine ⟨"ar", rfl, (), by simp, ?_⟩
      simp only [if_true, bind_ok, need_ok, castFloat_ok, castInt_ok, pure_ok, get_some h, castInt?_ok h]
      rcases hn with hn | ⟨hn, hn'⟩
      · exact ⟨a, ha, b, hb, p, hp, _, ho, d, hd, _, ha', _, hb', _, hp', _, hd', some c.nSub, hn, rfl⟩
      · exact ⟨a, ha, b, hb, p, hp, _, ho, d, hd, _, ha', _, hb', _, hp', _, hd', none, hn, by simp [← hn']⟩
    | external hx =>
      refine ⟨"external", rfl, (), by simp, ?_⟩
      rw [if_neg (by decide)]
      simp only [bind_ok, forbid_ok, pure_ok, get_none h]
      exact ⟨(), hx _ (by simp), (), hx _ (by simp), (), hx _ (by simp), (), hx _ (by simp), (), hx _ (by simp), trivial⟩

theorem rubin_mem (v : String) : ["rubin_sim", "RUBIN_SIM", "LSST", "lsst"].contains v = true ↔ IsRubin v := by
  simp only [List.contains_eq_mem, List.mem_cons, List.not_mem_nil, or_false, decide_eq_true_eq, IsRubin]
  tauto

theorem des_mem (v : String) : ["DES", "des"].contains v = true ↔ IsDes v := by
  simp only [List.contains_eq_mem, List.mem_cons, List.not_mem_nil, or_false, decide_eq_true_eq, IsDes]

/-- **C38** FILTERS. -/
theorem C38_filters (survey : String) (s : Sect) (h : (s.map Prod.fst).Nodup) (fs : List String) :
    filters (some survey) s = .ok fs ↔ FiltersOk survey s fs := by
  simp only [filters, bind_ok, need_ok, stopIf_ok, pure_ok, get_some h, FiltersOk, Option.some.injEq]
  have key : ∀ l : List String, ∀ c : Bool, ∀ P : Prop, (c = true ↔ P) → ∀ gs : List String,
      ((c && !gs.all (l.contains ·)) = false ↔ (P → ∀ f ∈ gs, f ∈ l)) := by
    intro l c P hP gs
    cases c <;> simp_all
  constructor
  · rintro ⟨v, hv, w, rfl, -, h1, -, h2, h3⟩
    refine ⟨⟨v, hv, (items_iff v fs).1 h3⟩, ?_, ?_⟩
    · intro hr f hf
      have := (key _ _ _ (rubin_mem _) _).1 h1 hr f (by rw [h3]; exact hf)
      simpa using this
    · intro hr f hf
      have := (key _ _ _ (des_mem _) _).1 h2 hr f (by rw [h3]; exact hf)
      simpa using this
  · rintro ⟨⟨v, hv, hi⟩, h1, h2⟩
    have hi' := (items_iff v fs).2 hi
    refine ⟨v, hv, survey, rfl, (), ?_, (), ?_, hi'⟩
    · rw [hi']
      exact (key _ _ _ (rubin_mem _) _).2 fun hr f hf => by simpa using h1 hr f hf
    · rw [hi']
      exact (key _ _ _ (des_mem _) _).2 fun hr f hf => by simpa using h2 hr f hf

theorem raw_iff {s : Sect} (h : (s.map Prod.fst).Nodup) (k : String) (fl : Flag) : Flag.ofRaw (get s k) = fl ↔ Raw s k fl := by
  cases hg : get s k with
  | none =>
    have ha := (get_none h k).1 hg
    cases fl with
    | unset => simp [Flag.ofRaw, Raw, ha]
    | bool b => simp [Flag.ofRaw, Raw]
    | text v => simp [Flag.ofRaw, Raw, ha v]
  | some w =>
    have hw := (get_some h k w).1 hg
    cases fl with
    | unset =>
      simp only [Flag.ofRaw, Raw, reduceCtorEq, false_iff]
      exact fun ha => ha w hw
    | bool b => simp [Flag.ofRaw, Raw]
    | text v =>
      simp only [Flag.ofRaw, Raw, Flag.text.injEq]
      constructor
      · rintro rfl; exact hw
      · intro hv
        rw [(get_some h k v).2 hv] at hg
        cases hg; rfl

theorem on_raw {s : Sect} (k : String) (fl : Flag) (hr : Raw s k fl) :
    fl.on = false ↔ fl = .unset ∨ fl = .text "" := by
  cases fl with
  | unset => simp [Flag.on]
  | bool b => exact absurd hr (by simp [Raw])
  | text v => simp [Flag.on]

/-- **C38** SATURATION. -/
theorem C38_saturation (py : Py) (obs : Option (List String)) (s : Sect) (h : (s.map Prod.fst).Nodup) (c : Saturation) :
    saturation py obs s = .ok c ↔ SaturationOk py s obs c := by
  unfold saturation
  cases hb : get s "bright_limit" with
  | none =>
    have ha := (get_none h _).1 hb
    have hr := (raw_iff h "bright_limit_on" _).1 rfl
    simp only
    constructor
    · intro hc
      split at hc
      · exact absurd hc (by simp)
      · rename_i hn
        simp only [Except.ok.injEq] at hc
        subst hc
        refine .noLimits obs _ ha hr ?_
        simp only [Bool.and_eq_true, not_and, Option.isNone_iff_eq_none] at hn
        cases ho : (Flag.ofRaw (get s "bright_limit_on")).on with
        | false => rcases (on_raw _ _ hr).1 ho with h1 | h1 <;> simp [h1]
        | true => exact .inr (.inr (hn ho))
    · intro hc
      cases hc with
      | limits fs v xs hv _ => exact absurd hv (ha v)
      | noLimits _ on _ hr' ho =>
        have := (raw_iff h _ _).2 hr'
        rw [this]
        rw [if_neg]
        simp only [Bool.and_eq_true, not_and, Option.isNone_iff_eq_none]
        intro hon
        rcases ho with rfl | rfl | ho
        · simp [Flag.on] at hon
        · simp [Flag.on] at hon
        · exact ho
  | some v =>
    have hv := (get_some h _ _).1 hb
    simp only
    cases obs with
    | none =>
      simp only [reduceCtorEq, false_iff]
      intro hc
      cases hc with
      | noLimits _ _ ha _ _ => exact ha v hv
    | some fs =>
      constructor
      · intro hc
        simp only at hc
        split at hc
        · exact absurd hc (by simp)
        · rename_i x hx
          simp only [Except.ok.injEq] at hc
          subst hc
          exact .limits fs v _ hv ⟨_, [x], (items_iff v _).1 rfl, (allFloats_iff py _ _).1 hx,
            .inr ⟨x, rfl, by simp, fun y hy => (List.mem_replicate.1 hy).2⟩⟩
        · rename_i xs _ hx
          split at hc
          · rename_i hl
            simp only [Except.ok.injEq] at hc
            subst hc
            exact .limits fs v _ hv ⟨_, xs, (items_iff v _).1 rfl, (allFloats_iff py _ _).1 hx, .inl ⟨hl, rfl⟩⟩
          · exact absurd hc (by simp)
      · intro hc
        cases hc with
        | noLimits _ _ ha _ _ => exact absurd hv (ha v)
        | limits _ v' xs hv' hl =>
          have : v' = v := by
            have := (get_some h _ _).2 hv'
            rw [hb] at this
            exact (Option.some.inj this).symm
          subst this
          obtain ⟨items, ys, hi, hf, hx⟩ := hl
          simp only
          rw [(items_iff v' items).2 hi, (allFloats_iff py items ys).2 hf]
          rcases hx with ⟨hlen, rfl⟩ | ⟨x, rfl, hlen, hall⟩
          · match xs, hlen with
            | [], hlen => simp [hlen]
            | [x], hlen =>
              simp only [← hlen]; rfl
            | x :: y :: zs, hlen => simp [hlen]
          · simp only
            rw [List.eq_replicate_iff.2 ⟨hlen, hall⟩]

/-- **C38** What is accepted makes the saturation filter well-defined: with the limits that the validation returns, it works on every table. -/
theorem C38_saturation_safe {ρ : Type} (py : Py) (fs : List String) (s : Sect) (h : (s.map Prod.fst).Nodup) (on : Flag) (xs : List Fl)
    (hc : saturation py (some fs) s = .ok ⟨on, some xs⟩) (t : Table (Filters.Det ρ)) (hd : Filters.Spec.UniqueLabels t) :
    ∃ out, Filters.brightLimit fs (.perFilter xs) t = .ok out := by
  have hlen : fs.length ≤ xs.length := by
    have := (C38_saturation py (some fs) s h _).1 hc
    cases this with
    | limits _ v _ hv hl =>
      obtain ⟨items, ys, _, _, hx⟩ := hl
      rcases hx with ⟨h1, rfl⟩ | ⟨x, _, h1, _⟩ <;> omega
  obtain ⟨out, ho, -⟩ := Filters.C09_bright_perFilter fs xs t hlen hd
  exact ⟨out, ho⟩

theorem num_of_get {py : Py} {s : Sect} (h : (s.map Prod.fst).Nodup) {k v : String} (hv : get s k = some v) (x : Fl) :
    py.toFloat v = some x ↔ Num py s k x := by
  constructor
  · exact fun hx => ⟨v, (get_some h _ _).1 hv, hx⟩
  · rintro ⟨w, hw, hx⟩
    rw [(get_some h k w).2 hw] at hv
    cases hv
    exact hx

theorem whole_of_get {py : Py} {s : Sect} (h : (s.map Prod.fst).Nodup) {k v : String} (hv : get s k = some v) (x : Int) :
    py.toInt v = some x ↔ Whole py s k x := by
  constructor
  · exact fun hx => ⟨v, (get_some h _ _).1 hv, hx⟩
  · rintro ⟨w, hw, hx⟩
    rw [(get_some h k w).2 hw] at hv
    cases hv
    exact hx

/-- **C38** FOV. -/
theorem C38_fov (py : Py) (survey : String) (s : Sect) (h : (s.map Prod.fst).Nodup) (c : Fov) :
    fov py survey s = .ok c ↔ FovOk py survey s c := by
  simp only [fov, bind_ok, need_ok, oneOf_ok, get_some h]
  have uniq : ∀ m m', ("camera_model", m) ∈ s → ("camera_model", m') ∈ s → m = m' := by
    intro m m' h1 h2
    have := (get_some h _ _).2 h1
    rw [(get_some h _ _).2 h2] at this
    exact (Option.some.inj this).symm
  constructor
  · rintro ⟨m, hm, -, hl, hr⟩
    split at hr
    · rename_i he
      subst he
      simp only [fovFootprint, bind_ok, castFloat?_ok h, forbid_ok, get_none h, pure_ok] at hr
      obtain ⟨_, hp, e, he, -, h1, -, h2, -, h3, rfl⟩ := hr
      refine .footprint _ _ hm ?_ he h1 h2 h3
      cases hg : get s "footprint_path" with
      | none =>
        rw [hg] at hp
        simp only [fovPath, stopIf_ok] at hp
        exact .inr ⟨rfl, (get_none h _).1 hg, by simp at hp; tauto⟩
      | some f =>
        rw [hg] at hp
        simp only [fovPath, stopIf_ok] at hp
        exact .inl ⟨f, rfl, (get_some h _ _).1 hg, by simpa using hp⟩
    · split at hr
      · rename_i he
        subst he
        simp only [fovVisits, bind_ok, need_ok, oneOf_ok, forbid_ok, get_none h, get_some h, pure_ok] at hr
        obtain ⟨-, hd, q, hq, -, h1, -, h2, -, h3, rfl⟩ := hr
        exact .visits q hm (by simpa using hd) hq h1 h2 h3
      · split at hr
        · rename_i he
          subst he
          simp only [fovCircle, bind_ok, castFloat?_ok h, stopIf_ok, forbid_ok, get_none h, pure_ok] at hr
          obtain ⟨f, hf, -, bf, r, hr, -, br, -, one, -, he, rfl⟩ := hr
          refine .circle f r hm hf hr ?_ ((any_lt_zero r).1 br) ?_ he
          · rintro x rfl
            exact (range_false 0 1 x).1 (by simpa using bf)
          · cases f <;> cases r <;> simp_all
        · simp only [pure_ok] at hr
          subst hr
          simp only [List.mem_cons, List.not_mem_nil, or_false] at hl
          have : m = "none" := by tauto
          subst this
          exact .none hm
  · intro hc
    cases hc with
    | footprint p e hm hp he hv hf hr =>
      refine ⟨_, hm, (), by simp, ?_⟩
      simp only [if_true, fovFootprint, bind_ok, castFloat?_ok h, forbid_ok, get_none h, pure_ok]
      rcases hp with ⟨f, rfl, hfp, hfile⟩ | ⟨rfl, ha, hl⟩
      · refine ⟨(), ?_, e, he, (), hv, (), hf, (), hr, ?_⟩
        · rw [(get_some h _ _).2 hfp]
          simp [fovPath, stopIf_ok, hfile]
        · rw [(get_some h _ _).2 hfp]
      · refine ⟨(), ?_, e, he, (), hv, (), hf, (), hr, ?_⟩
        · rw [(get_none h _).2 ha]
          simp [fovPath, stopIf_ok]; tauto
        · rw [(get_none h _).2 ha]
    | visits q hm hd hq he hf hr =>
      refine ⟨_, hm, (), by simp, ?_⟩
      rw [if_neg (by decide), if_pos rfl]
      simp only [fovVisits, bind_ok, need_ok, oneOf_ok, forbid_ok, get_none h, get_some h, pure_ok]
      exact ⟨(), by simp [hd], q, hq, (), he, (), hf, (), hr, rfl⟩
    | circle f r hm hf hr bf br one he =>
      refine ⟨_, hm, (), by simp, ?_⟩
      rw [if_neg (by decide), if_neg (by decide), if_pos rfl]
      simp only [fovCircle, bind_ok, castFloat?_ok h, stopIf_ok, forbid_ok, get_none h, pure_ok]
      refine ⟨f, hf, (), ?_, r, hr, (), (any_lt_zero r).2 br, (), ?_, (), he, rfl⟩
      · cases f with
        | none => rfl
        | some x => exact (range_false 0 1 x).2 (bf x rfl)
      · cases f <;> cases r <;> simp_all
    | none hm =>
      refine ⟨_, hm, (), by simp, ?_⟩
      rw [if_neg (by decide), if_neg (by decide), if_neg (by decide)]
      rfl

/-- **C38** FADINGFUNCTION. -/
theorem C38_fading (py : Py) (survey : String) (s : Sect) (h : (s.map Prod.fst).Nodup) (c : Fading) :
    fading py survey s = .ok c ↔ FadingOk py survey s c := by
  unfold fading
  by_cases hd : IsDes survey
  · rw [if_pos ((des_mem survey).2 hd)]
    simp only [fadingDes, bind_ok, need_ok, castBool_ok, forbid_ok, get_none h, get_some h, pure_ok]
    constructor
    · rintro ⟨v, hv, b, hb, r, hr, -, h1, -, h2, rfl⟩
      cases b with
      | false =>
        simp only [Bool.false_eq_true, if_false, pure_ok] at hr
        subst hr
        exact .desOff v hd hv hb h2 h1
      | true =>
        simp only [if_true, map_ok, castFloat?_ok h] at hr
        obtain ⟨t, ht, rfl⟩ := hr
        refine .desOn v _ hd hv hb ?_ h2 h1
        cases t with
        | none => exact .inr ⟨ht, rfl⟩
        | some t => exact .inl ht
    · intro hc
      cases hc with
      | off hs => exact absurd hd hs
      | on _ _ hs => exact absurd hd hs
      | desOff v hs hv hb hw hp => exact ⟨v, hv, false, hb, .off, by simp [pure_ok], (), hp, (), hw, rfl⟩
      | desOn v t hs hv hb ht hw hp =>
        refine ⟨v, hv, true, hb, .des t, ?_, (), hp, (), hw, rfl⟩
        simp only [if_true, map_ok, castFloat?_ok h]
        rcases ht with ht | ⟨ht, rfl⟩
        · exact ⟨some t, ht, rfl⟩
        · exact ⟨none, ht, rfl⟩
  · rw [if_neg (fun hx => hd ((des_mem survey).1 hx))]
    unfold fadingOther
    cases hw : get s "fading_function_width" with
    | none =>
      have haw := (get_none h _).1 hw
      cases hp : get s "fading_function_peak_efficiency" with
      | none =>
        have hap := (get_none h _).1 hp
        simp only [Except.ok.injEq]
        constructor
        · rintro rfl; exact .off hd haw hap
        · intro hc
          cases hc with
          | off => rfl
          | on w p _ hnw => obtain ⟨v, hv, -⟩ := hnw; exact absurd hv (haw v)
          | desOff _ hs => exact absurd hs hd
          | desOn _ _ hs => exact absurd hs hd
      | some p =>
        have hvp := (get_some h _ _).1 hp
        simp only [reduceCtorEq, false_iff]
        intro hc
        cases hc with
        | off _ _ hap => exact hap p hvp
        | on w p _ hnw => obtain ⟨v, hv, -⟩ := hnw; exact absurd hv (haw v)
        | desOff _ hs => exact absurd hs hd
        | desOn _ _ hs => exact absurd hs hd
    | some w =>
      have hvw := (get_some h _ _).1 hw
      cases hp : get s "fading_function_peak_efficiency" with
      | none =>
        have hap := (get_none h _).1 hp
        simp only [reduceCtorEq, false_iff]
        intro hc
        cases hc with
        | off _ haw _ => exact haw w hvw
        | on w p _ _ hnp => obtain ⟨v, hv, -⟩ := hnp; exact absurd hv (hap v)
        | desOff _ hs => exact absurd hs hd
        | desOn _ _ hs => exact absurd hs hd
      | some p =>
        simp only [bind_ok, castFloat_ok, stopIf_ok, pure_ok, num_of_get h hw, num_of_get h hp, range_false_le, range_false]
        constructor
        · rintro ⟨x, hx, y, hy, -, bx, -, by', rfl⟩
          exact .on x y hd hx hy bx by'
        · intro hc
          cases hc with
          | off _ haw _ => exact absurd hvw (haw w)
          | on x y _ hx hy bx by' => exact ⟨x, hx, y, hy, (), bx, (), by', rfl⟩
          | desOff _ hs => exact absurd hs hd
          | desOn _ _ hs => exact absurd hs hd

theorem map_of_forall₂ (f : String → String) (l r : List String) (h : List.Forall₂ (fun a b => f a = b) l r) : l.map f = r := by
  induction h with
  | nil => rfl
  | cons h _ ih => simp [h, ih]

/-- **C38** OUTPUT. -/
theorem C38_output (py : Py) (s : Sect) (h : (s.map Prod.fst).Nodup) (c : Output) : output py s = .ok c ↔ OutputOk py s c := by
  obtain ⟨f, cols, p, m⟩ := c
  have neg : ∀ x : Option Int, (x.any (· < 0)) = false ↔ ∀ i, x = some i → 0 ≤ i := by
    intro x; cases x <;> simp
  have comma : ∀ v : String, v.toList.contains ',' = true ↔ ∃ ps, Pieces v ps ∧ 2 ≤ ps.length := by
    intro v
    constructor
    · intro hc
      have hp := (splitComma_iff v _).1 rfl
      refine ⟨_, hp, ?_⟩
      by_contra hlt
      obtain ⟨h1, h2, h3⟩ := hp
      match hs : splitComma v with
      | [] => exact h1 hs
      | [x] =>
        rw [hs] at h3 h2
        have : v.toList = x.toList := by simpa [List.intercalate] using h3
        rw [this] at hc
        exact h2 x (by simp) (by simpa using hc)
      | x :: y :: zs => rw [hs] at hlt; simp at hlt
    · rintro ⟨ps, ⟨h1, h2, h3⟩, hl⟩
      match ps, hl with
      | x :: y :: zs, _ =>
        rw [h3]
        simp [List.intercalate]
  simp only [output, bind_ok, need_ok, oneOf_ok, castInt?_ok h, stopIf_ok, pure_ok, get_some h, neg, Output.mk.injEq]
  constructor
  · rintro ⟨f', hf, v, hv, -, hf', cols', hc, p', hp, m', hm, -, bp, -, bm, rfl, rfl, rfl, rfl⟩
    refine ⟨⟨hf, by simpa using hf'⟩, ⟨v, hv, ?_⟩, hp, bp, hm, bm⟩
    split at hc
    · rename_i hcm
      simp only [Except.ok.injEq] at hc
      obtain ⟨ps, hps, hl⟩ := (comma v).1 hcm
      refine .inr ⟨_, ps, hc.symm, hps, hl, ?_⟩
      rw [(splitComma_iff v ps).2 hps, List.forall₂_map_right_iff]
      exact List.forall₂_same.2 fun x _ => (stripBlank_iff x _).1 rfl
    · simp only [map_ok, oneOf_ok] at hc
      obtain ⟨-, hl, rfl⟩ := hc
      exact .inl ⟨rfl, by simpa using hl⟩
  · rintro ⟨⟨hf, hf'⟩, ⟨v, hv, hc⟩, hp, bp, hm, bm⟩
    refine ⟨f, hf, v, hv, (), by simpa using hf', cols, ?_, p, hp, m, hm, (), bp, (), bm, rfl, rfl, rfl, rfl⟩
    rcases hc with ⟨rfl, hl⟩ | ⟨l, ps, rfl, hps, hlen, hst⟩
    · have : ¬v.toList.contains ',' = true := by rcases hl with rfl | rfl <;> decide +kernel
      rw [if_neg this]
      simp only [map_ok, oneOf_ok]
      exact ⟨(), by simpa using hl, trivial⟩
    · rw [if_pos ((comma v).2 ⟨ps, hps, hlen⟩), (splitComma_iff v ps).2 hps]
      congr 2
      exact map_of_forall₂ _ _ _ (hst.imp fun a b h => (stripBlank_iff a b).2 h)

/-- **C38** LIGHTCURVE, ACTIVITY. -/
theorem C38_model (methods : List String) (key : String) (s : Sect) (h : (s.map Prod.fst).Nodup) (c : Option String) :
    model methods key s = .ok c ↔ ModelOk methods key s c := by
  unfold model
  cases hg : get s key with
  | none =>
    have ha := (get_none h _).1 hg
    simp only [Except.ok.injEq]
    constructor
    · rintro rfl; exact .off (.inl ha)
    · intro hc
      cases hc with
      | off => rfl
      | on m hm => exact absurd hm (ha m)
  | some v =>
    have hv := (get_some h _ _).1 hg
    have uniq : ∀ w, (key, w) ∈ s → w = v := by
      intro w hw
      rw [(get_some h _ _).2 hw] at hg
      exact Option.some.inj hg
    simp only
    constructor
    · intro hc
      split at hc
      · rename_i he
        subst he
        simp only [Except.ok.injEq] at hc
        subst hc
        exact .off (.inr hv)
      · split at hc
        · rename_i hn hm
          simp only [Except.ok.injEq] at hc
          subst hc
          exact .on v hv hn (by simpa using hm)
        · exact absurd hc (by simp)
    · intro hc
      cases hc with
      | off ho =>
        rcases ho with ho | ho
        · exact absurd hv (ho v)
        · rw [← uniq _ ho, if_pos rfl]
      | on m hm hn hmm =>
        rw [uniq _ hm] at hn hmm
        rw [if_neg hn, if_pos (by simpa using hmm), uniq _ hm]

/-- **C38** PHASECURVES. -/
theorem C38_phase (s : Sect) (h : (s.map Prod.fst).Nodup) (f : String) : phasecurves s = .ok f ↔
    ("phase_function", f) ∈ s ∧ (f = "HG" ∨ f = "HG1G2" ∨ f = "HG12" ∨ f = "linear" ∨ f = "none") := by
  simp only [phasecurves, bind_ok, need_ok, oneOf_ok, pure_ok, get_some h]
  constructor
  · rintro ⟨g, hg, -, hl, rfl⟩
    exact ⟨hg, by simpa using hl⟩
  · rintro ⟨hg, hl⟩
    exact ⟨f, hg, (), by simpa using hl, rfl⟩

theorem stopIf_bool (a b c : Bool) : (a || b || c) = false ↔ a = false ∧ b = false ∧ c = false := by
  cases a <;> cases b <;> cases c <;> simp

/-- **C38** EXPERT: the limits and, by survey, the three effects. (The camera model does not matter, except the visit-specific one for surveys
other than DES.) -/
theorem C38_expert (py : Py) (survey : String) (camera : Option String) (s : Sect) (h : (s.map Prod.fst).Nodup)
    (hcam : ¬IsDes survey → camera ≠ some "visits_footprint") (c : Expert) :
    expert py survey camera s = .ok c ↔ LimitOk py s c ∧
      ((IsRubin survey ∧ RubinOk s c) ∨ (IsDes survey ∧ DesOk s c) ∨ (¬IsRubin survey ∧ ¬IsDes survey ∧ OtherOk s c)) := by
  obtain ⟨sn, mg, dc, bf, r, v, t⟩ := c
  have hnd : IsRubin survey → ¬IsDes survey := by
    rintro (rfl | rfl | rfl | rfl) <;> simp [IsDes]
  have heff : effects survey camera s = .ok (r, v, t) ↔
      ((IsRubin survey ∧ RubinOk s ⟨sn, mg, dc, bf, r, v, t⟩) ∨ (IsDes survey ∧ DesOk s ⟨sn, mg, dc, bf, r, v, t⟩) ∨
        (¬IsRubin survey ∧ ¬IsDes survey ∧ OtherOk s ⟨sn, mg, dc, bf, r, v, t⟩)) := by
    unfold effects surveyOf
    by_cases hr : IsRubin survey
    · have hd := hnd hr
      have hcam' := hcam hd
      simp only [(rubin_mem survey).2 hr, if_true, hr, hd, true_and, false_and, not_true_eq_false, or_false, bind_ok, castBoolOr_ok h,
        stopIf_ok, pure_ok, RubinOk, hcam', decide_false, Bool.false_and, Prod.mk.injEq, exists_const, not_false_eq_true]
      constructor
      · rintro ⟨a, ha, b, hb, d, hd, rfl, rfl, rfl⟩; exact ⟨a, b, d, rfl, rfl, rfl, ha, hb, hd⟩
      · rintro ⟨a, b, d, rfl, rfl, rfl, ha, hb, hd⟩; exact ⟨a, ha, b, hb, d, hd, rfl, rfl, rfl⟩
    · have hr' : ¬["rubin_sim", "RUBIN_SIM", "LSST", "lsst"].contains survey = true := fun hx => hr ((rubin_mem survey).1 hx)
      rw [if_neg hr']
      by_cases hd : IsDes survey
      · simp only [(des_mem survey).2 hd, if_true, hr, hd, true_and, false_and, not_true_eq_false, and_false, or_false, false_or, bind_ok,
          castBoolOr_ok h, stopIf_ok, pure_ok, DesOk, Prod.mk.injEq, stopIf_bool]
        constructor
        · rintro ⟨a, ha, b, hb, d, hd, -, ⟨rfl, rfl, rfl⟩, rfl, rfl, rfl⟩; exact ⟨rfl, rfl, rfl, ha, hb, hd⟩
        · rintro ⟨rfl, rfl, rfl, ha, hb, hd⟩; exact ⟨false, ha, false, hb, false, hd, (), ⟨rfl, rfl, rfl⟩, rfl, rfl, rfl⟩
      · have hd' : ¬["DES", "des"].contains survey = true := fun hx => hd ((des_mem survey).1 hx)
        rw [if_neg hd']
        simp only [hr, hd, false_and, not_false_eq_true, true_and, false_or, if_neg (hcam hd), OtherOk, Except.ok.injEq, Prod.mk.injEq,
          raw_iff h]
  simp only [expert, bind_ok, castFloat?_ok h, stopIf_ok, castBoolOr_ok h, pure_ok, any_lt_zero]
  constructor
  · rintro ⟨a, ha, -, ba, b, hb, -, bb, -, hab, d, hd, e, he, ⟨r', v', t'⟩, hrvt, heq⟩
    simp only [Expert.mk.injEq] at heq
    obtain ⟨rfl, rfl, rfl, rfl, rfl, rfl, rfl⟩ := heq
    refine ⟨⟨ha, ba, hb, bb, ?_, hd, he⟩, heff.1 hrvt⟩
    cases a <;> cases b <;> simp_all
  · rintro ⟨⟨ha, ba, hb, bb, hab, hd, he⟩, hx⟩
    refine ⟨sn, ha, (), ba, mg, hb, (), bb, (), ?_, dc, hd, bf, he, (r, v, t), heff.2 hx, rfl⟩
    simp only at hab
    rcases hab with rfl | rfl <;> simp

theorem sspVars_some (s : Sect) : (sspVars s).all (·.isSome) = true → ∀ k, SspKey k → ∃ v, get s k = some v := by
  intro ha k hk
  simp only [sspVars, List.all_cons, List.all_nil, Bool.and_true, Bool.and_eq_true, Option.isSome_iff_exists] at ha
  obtain ⟨h1, h2, h3, h4, h5, h6, h7⟩ := ha
  rcases hk with rfl | rfl | rfl | rfl | rfl | rfl | rfl <;> assumption

theorem sspVars_none (s : Sect) (h : (s.map Prod.fst).Nodup) : (sspVars s).all (·.isNone) = true ↔ ∀ k, SspKey k → Absent s k := by
  simp only [sspVars, List.all_cons, List.all_nil, Bool.and_true, Bool.and_eq_true, Option.isNone_iff_eq_none, get_none h]
  constructor
  · rintro ⟨h1, h2, h3, h4, h5, h6, h7⟩ k hk
    rcases hk with rfl | rfl | rfl | rfl | rfl | rfl | rfl <;> assumption
  · intro hk
    refine ⟨hk _ ?_, hk _ ?_, hk _ ?_, hk _ ?_, hk _ ?_, hk _ ?_, hk _ ?_⟩ <;> simp [SspKey]

theorem ssp_ok (py : Py) (s : Sect) (h : (s.map Prod.fst).Nodup) (ha : ∀ k, SspKey k → ∃ v, get s k = some v) (c : Ssp) :
    ssp py s = .ok c ↔ SspOk py s c := by
  obtain ⟨e, he⟩ := ha "ssp_detection_efficiency" (by simp [SspKey])
  obtain ⟨n, hn⟩ := ha "ssp_number_observations" (by simp [SspKey])
  obtain ⟨d, hd⟩ := ha "ssp_separation_threshold" (by simp [SspKey])
  obtain ⟨m, hm⟩ := ha "ssp_maximum_time" (by simp [SspKey])
  obtain ⟨k, hk⟩ := ha "ssp_number_tracklets" (by simp [SspKey])
  obtain ⟨w, hw⟩ := ha "ssp_track_window" (by simp [SspKey])
  obtain ⟨u, hu⟩ := ha "ssp_night_start_utc" (by simp [SspKey])
  have hzero : ∀ (n : Int) (d : Fl), (decide (n > 1) && d.eq (.fin 0)) = false ↔ (1 < n → d ≠ .fin 0) := by
    intro n d
    cases d <;> simp [Fl.eq]
  have hlt : ∀ n : Int, decide (n < 1) = false ↔ 1 ≤ n := by intro n; simp
  have hle : ∀ n : Int, decide (n ≤ 0) = false ↔ 0 < n := by intro n; simp
  simp only [ssp, he, hn, hd, hm, hk, hw, hu, Option.getD_some, bind_ok, castFloat_ok, castInt_ok, stopIf_ok, pure_ok, num_of_get h he,
    num_of_get h hd, num_of_get h hm, num_of_get h hu, whole_of_get h hn, whole_of_get h hk, whole_of_get h hw, hzero, lt_zero_false,
    range_false', hlt, hle]
  constructor
  · rintro ⟨e', h1, n', h2, d', h3, m', h4, k', h5, w', h6, u', h7, -, b2, -, b3', -, b3, -, b5, -, b6, -, b1, -, b4, -, b7, rfl⟩
    exact ⟨h1, b1, h2, b2, h3, b3, b3', h4, b4, h5, b5, h6, b6, h7, b7⟩
  · rintro ⟨h1, b1, h2, b2, h3, b3, b3', h4, b4, h5, b5, h6, b6, h7, b7⟩
    exact ⟨_, h1, _, h2, _, h3, _, h4, _, h5, _, h6, _, h7, (), b2, (), b3', (), b3, (), b5, (), b6, (), b1, (), b4, (), b7, rfl⟩

theorem cut_ok (py : Py) (s : Sect) (h : (s.map Prod.fst).Nodup) (hi lo onKey : String) (lim : Option (Fl × Fl)) (on : Flag) :
    (cut py (get s hi) (get s lo) hi lo = .ok lim ∧ (if lim.isSome then Flag.bool true else Flag.ofRaw (get s onKey)) = on) ↔
      PairOk py s hi lo onKey on lim := by
  unfold cut
  cases lim with
  | none =>
    simp only [PairOk, Option.isSome_none, Bool.false_eq_true, if_false, raw_iff h]
    constructor
    · rintro ⟨hc, hr⟩
      split at hc
      · simp only [bind_ok, pure_ok] at hc
        obtain ⟨_, _, _, _, _, _, _, _, hx⟩ := hc
        exact absurd hx (by simp)
      · rename_i hn
        simp only [Bool.or_eq_true, not_or, Bool.not_eq_true, Option.isSome_eq_false_iff, Option.isNone_iff_eq_none, get_none h] at hn
        exact ⟨hn.1, hn.2, hr⟩
    · rintro ⟨h1, h2, hr⟩
      refine ⟨?_, hr⟩
      rw [(get_none h _).2 h1, (get_none h _).2 h2]
      rfl
  | some p =>
    obtain ⟨a, b⟩ := p
    simp only [PairOk, Option.isSome_some, if_true]
    constructor
    · rintro ⟨hc, rfl⟩
      split at hc
      · simp only [bind_ok, pure_ok, need_ok, castFloat_ok, get_some h, Option.some.injEq, Prod.mk.injEq] at hc
        obtain ⟨x, hx, y, hy, x', hx', y', hy', rfl, rfl⟩ := hc
        exact ⟨⟨x, hx, hx'⟩, ⟨y, hy, hy'⟩, rfl⟩
      · exact absurd hc (by simp)
    · rintro ⟨⟨x, hx, hx'⟩, ⟨y, hy, hy'⟩, rfl⟩
      refine ⟨?_, rfl⟩
      rw [(get_some h _ _).2 hx, (get_some h _ _).2 hy]
      simp only [Option.isSome_some, Bool.or_true, if_true, bind_ok, need_ok, castFloat_ok, pure_ok]
      exact ⟨x, rfl, y, rfl, a, hx', b, hy', rfl⟩

/-- **C38** LINKINGFILTER. -/
theorem C38_linking (py : Py) (survey : String) (s : Sect) (h : (s.map Prod.fst).Nodup) (c : Linking) :
    linking py survey s = .ok c ↔ LinkingOk py survey s c := by
  obtain ⟨l, drop, disc, dOn, d, mOn, m⟩ := c
  have hssp : ∀ l : Option Ssp, (if (sspVars s).all (·.isSome) && py.lower survey ≠ "des" then (ssp py s).map some
      else if (sspVars s).all (·.isNone) then .ok none else .error .some) = .ok l ↔
      ((∃ k, l = some k ∧ SspOk py s k ∧ py.lower survey ≠ "des") ∨ (l = none ∧ ∀ k, SspKey k → Absent s k)) := by
    intro l
    have hall : ∀ k, SspOk py s k → (sspVars s).all (·.isSome) = true := by
      intro k hk
      obtain ⟨⟨v1, h1, -⟩, -, ⟨v2, h2, -⟩, -, ⟨v3, h3, -⟩, -, -, ⟨v4, h4, -⟩, -, ⟨v5, h5, -⟩, -, ⟨v6, h6, -⟩, -, ⟨v7, h7, -⟩, -⟩ := hk
      simp [sspVars, (get_some h _ _).2 h1, (get_some h _ _).2 h2, (get_some h _ _).2 h3, (get_some h _ _).2 h4, (get_some h _ _).2 h5,
        (get_some h _ _).2 h6, (get_some h _ _).2 h7]
    by_cases h1 : (sspVars s).all (·.isSome) = true ∧ py.lower survey ≠ "des"
    · rw [if_pos (by simpa using h1)]
      have hk := sspVars_some s h1.1
      simp only [map_ok, ssp_ok py s h hk]
      constructor
      · rintro ⟨a, ha, rfl⟩
        exact .inl ⟨a, rfl, ha, h1.2⟩
      · rintro (⟨k, rfl, hk', -⟩ | ⟨-, hn⟩)
        · exact ⟨k, hk', rfl⟩
        · obtain ⟨v, hv⟩ := hk "ssp_track_window" (by simp [SspKey])
          exact absurd ((get_some h _ _).1 hv) (hn _ (by simp [SspKey]) v)
    · rw [if_neg (by simpa using h1)]
      constructor
      · intro hc
        split at hc
        · rename_i hn
          simp only [Except.ok.injEq] at hc
          exact .inr ⟨hc.symm, (sspVars_none s h).1 hn⟩
        · exact absurd hc (by simp)
      · rintro (⟨k, rfl, hk', hd⟩ | ⟨rfl, hn⟩)
        · exact absurd ⟨hall k hk', hd⟩ h1
        · rw [if_pos ((sspVars_none s h).2 hn)]
  have hraw := (raw_iff h "des_discovery_on" _).1 rfl
  have hdisc : ∀ x : Flag, (if (Flag.ofRaw (get s "des_discovery_on")).on && py.lower survey = "des" then
      (castBoolOr (get s "des_discovery_on") "des_discovery_on" false).map Flag.bool
      else .ok (Flag.ofRaw (get s "des_discovery_on"))) = .ok x ↔
      ((py.lower survey = "des" ∧ ∃ v b, ("des_discovery_on", v) ∈ s ∧ v ≠ "" ∧ Reads v b ∧ x = .bool b) ∨
        ((py.lower survey = "des" → ∀ v, ("des_discovery_on", v) ∈ s → v = "") ∧ Raw s "des_discovery_on" x)) := by
    intro x
    have huniq : ∀ v w, ("des_discovery_on", v) ∈ s → ("des_discovery_on", w) ∈ s → v = w := by
      intro v w h1 h2
      have := (get_some h _ _).2 h1
      rw [(get_some h _ _).2 h2] at this
      exact (Option.some.inj this).symm
    by_cases hd : py.lower survey = "des"
    · cases hg : get s "des_discovery_on" with
      | none =>
        have ha := (get_none h _).1 hg
        simp only [Flag.ofRaw, Flag.on, Bool.false_and, Bool.false_eq_true, if_false, Except.ok.injEq, hd, true_and]
        constructor
        · rintro rfl; exact .inr ⟨fun _ v hv => absurd hv (ha v), ha⟩
        · rintro (⟨v, _, hv, -⟩ | ⟨-, hr⟩)
          · exact absurd hv (ha v)
          · rw [← (raw_iff h _ _).2 hr, hg]; rfl
      | some v =>
        have hv := (get_some h _ _).1 hg
        by_cases hv0 : v = ""
        · subst hv0
          simp only [Flag.ofRaw, Flag.on, ne_eq, not_true_eq_false, decide_false, Bool.false_and, Bool.false_eq_true, if_false,
            Except.ok.injEq, hd, true_and]
          constructor
          · rintro rfl
            exact .inr ⟨fun _ w hw => huniq w "" hw hv, hv⟩
          · rintro (⟨w, _, hw, hw0, -⟩ | ⟨-, hr⟩)
            · exact absurd (huniq w "" hw hv) hw0
            · rw [← (raw_iff h _ _).2 hr, hg]; rfl
        · simp only [Flag.ofRaw, Flag.on, ne_eq, hv0, not_false_eq_true, decide_true, hd, Bool.and_self, if_true, true_and, castBoolOr,
            map_ok, castBool_ok]
          constructor
          · rintro ⟨b, hb, rfl⟩
            exact .inl ⟨v, b, hv, hv0, hb, rfl⟩
          · rintro (⟨w, b, hw, -, hb, rfl⟩ | ⟨hall, -⟩)
            · exact ⟨b, by rw [huniq v w hv hw]; exact hb, rfl⟩
            · exact absurd (hall trivial v hv) hv0
    · simp only [hd, decide_false, Bool.and_false, Bool.false_eq_true, if_false, Except.ok.injEq, false_and, false_or, false_imp_iff,
        true_and]
      exact raw_iff h _ _
  have hoff : ∀ (hi lo onKey : String) (on : Flag) (lim : Option (Fl × Fl)), PairOk py s hi lo onKey on lim →
      (on.on = false ↔ (on = .unset ∨ on = .text "")) := by
    intro hi lo onKey on lim hp
    cases lim with
    | none => exact on_raw _ _ hp.2.2
    | some p =>
      obtain ⟨a, b⟩ := p
      rw [hp.2.2]; simp [Flag.on]
  simp only [linking, bind_ok, hssp, hdisc, castBoolOr_ok h, stopIf_ok, pure_ok, Linking.mk.injEq]
  have hstop : ∀ a b c : Bool, ((a || b) && c) = false ↔ (c = true → a = false ∧ b = false) := by
    intro a b c; cases a <;> cases b <;> cases c <;> simp
  constructor
  · rintro ⟨l', hl, b, hb, x, hx, d', hd, m', hm, -, hs, rfl, rfl, rfl, rfl, rfl, rfl, rfl⟩
    have hD := (cut_ok py s h _ _ "distance_cut_on" d' _).1 ⟨hd, rfl⟩
    have hM := (cut_ok py s h _ _ "motion_cut_on" m' _).1 ⟨hm, rfl⟩
    refine ⟨hl, hb, hx, hD, hM, ?_⟩
    intro hne
    have := (hstop _ _ _).1 hs (by simpa using hne)
    exact ⟨(hoff _ _ _ _ _ hD).1 this.1, (hoff _ _ _ _ _ hM).1 this.2⟩
  · rintro ⟨hl, hb, hx, hD, hM, hne⟩
    obtain ⟨hd, hdOn⟩ := (cut_ok py s h _ _ _ _ _).2 hD
    obtain ⟨hm, hmOn⟩ := (cut_ok py s h _ _ _ _ _).2 hM
    refine ⟨l, hl, drop, hb, disc, hx, d, hd, m, hm, (), ?_, rfl, rfl, rfl, hdOn, rfl, hmOn, rfl⟩
    rw [hdOn, hmOn]
    refine (hstop _ _ _).2 fun hc => ?_
    have := hne (by simpa using hc)
    exact ⟨(hoff _ _ _ _ _ hD).2 this.1, (hoff _ _ _ _ _ hM).2 this.2⟩

/-! ## C38: the whole file -/

theorem sect_some {f : File} (h : (f.map Prod.fst).Nodup) (k : String) (v : Sect) : sect f k = some v ↔ (k, v) ∈ f := by
  induction f with
  | nil => simp [sect]
  | cons a s ih =>
    obtain ⟨k', v'⟩ := a
    have hn : k' ∉ s.map Prod.fst := (List.nodup_cons.1 h).1
    have hs : (s.map Prod.fst).Nodup := (List.nodup_cons.1 h).2
    unfold sect at ih ⊢
    by_cases hk : k' = k
    · subst hk
      have hno : ∀ v, (k', v) ∉ s := fun v hv => hn (List.mem_map.2 ⟨_, hv, rfl⟩)
      simp only [List.find?_cons, decide_true, Option.map_some, Option.some.injEq, List.mem_cons, Prod.mk.injEq, true_and, hno, or_false]
      exact eq_comm
    · simp only [List.find?_cons, hk, decide_false, List.mem_cons, Prod.mk.injEq]
      rw [ih hs]
      simp [Ne.symm hk]

theorem sect_none {f : File} (h : (f.map Prod.fst).Nodup) (k : String) : sect f k = none ↔ ∀ v, (k, v) ∉ f := by
  constructor
  · intro hn v hv
    rw [(sect_some h k v).2 hv] at hn
    exact absurd hn (by simp)
  · intro ha
    cases hg : sect f k with
    | none => rfl
    | some v => exact absurd ((sect_some h k v).1 hg) (ha v)

theorem section_iff {f : File} (h : (f.map Prod.fst).Nodup) (n : String) (P : Sect → Prop) :
    (∃ s, SectionIs f n s ∧ P s) ↔ P ((sect f n).getD []) := by
  unfold SectionIs
  cases hg : sect f n with
  | none =>
    have ha := (sect_none h n).1 hg
    simp only [Option.getD_none]
    constructor
    · rintro ⟨s, hs | ⟨-, rfl⟩, hp⟩
      · exact absurd hs (ha s)
      · exact hp
    · exact fun hp => ⟨[], .inr ⟨ha, rfl⟩, hp⟩
  | some s =>
    have hs := (sect_some h n s).1 hg
    simp only [Option.getD_some]
    constructor
    · rintro ⟨t, ht | ⟨ha, -⟩, hp⟩
      · have := (sect_some h n t).2 ht
        rw [hg] at this
        cases this
        exact hp
      · exact absurd hs (ha s)
    · exact fun hp => ⟨s, .inl hs, hp⟩

theorem sect_nodup {f : File} (h : WellFormed f) (n : String) : (((sect f n).getD []).map Prod.fst).Nodup := by
  cases hg : sect f n with
  | none => simp
  | some s => exact h.2 n s ((sect_some h.1 n s).1 hg)

theorem construct_ok (fields extra : List String) (s : Sect) (u : Unit) :
    construct fields extra s = .ok u ↔ Only s (fields.filter (fun k => !extra.contains k)) := by
  unfold construct Only
  constructor
  · intro h k v hk
    split at h
    · rename_i ha
      have := List.all_eq_true.1 ha (k, v) hk
      simp only [Bool.and_eq_true] at this
      rw [List.mem_filter]
      exact ⟨by simpa using this.1, this.2⟩
    · exact absurd h (by simp)
  · intro h
    rw [if_pos]
    rw [List.all_eq_true]
    rintro ⟨k, v⟩ hk
    have := h k v hk
    rw [List.mem_filter] at this
    simp only [Bool.and_eq_true]
    exact ⟨by simpa using this.1, this.2⟩

/-- **C38** The whole file: it is accepted exactly if all the settings are valid, each in its section, with the values and the texts of the file,
and no section has an unknown key. -/
theorem C38_file (py : Py) (lcMethods caMethods : List String) (survey : String) (f : File) (h : WellFormed f)
    (hsurvey : IsRubin survey ∨ IsDes survey) (hlower : IsRubin survey → py.lower survey ≠ "des") (c : Cfg) :
    readConfig py lcMethods caMethods survey f = .ok c ↔ FileOk py lcMethods caMethods survey f c := by
  have hnd : IsRubin survey → ¬IsDes survey := by
    rintro (rfl | rfl | rfl | rfl) <;> simp [IsDes]
  have hn := sect_nodup h
  have hcam : ∀ x, fov py survey ((sect f "FOV").getD []) = .ok x → ¬IsDes survey →
      (if (sect f "EXPERT").isSome then get ((sect f "FOV").getD []) "camera_model" else none) ≠ some "visits_footprint" := by
    intro x hx hd
    have hl := hlower (hsurvey.resolve_right hd)
    split
    · intro hg
      have hm := (get_some (hn "FOV") _ _).1 hg
      have := (C38_fov py survey _ (hn "FOV") x).1 hx
      cases this with
      | footprint _ _ hm' => exact absurd (((get_some (hn "FOV") _ _).2 hm').symm.trans hg) (by simp)
      | visits _ _ hd' => exact hl hd'
      | circle _ _ hm' => exact absurd (((get_some (hn "FOV") _ _).2 hm').symm.trans hg) (by simp)
      | none hm' => exact absurd (((get_some (hn "FOV") _ _).2 hm').symm.trans hg) (by simp)
    · simp
  obtain ⟨inp, sim, fs, sat, ph, fv, fd, lk, ou, lc, ac, ex⟩ := c
  simp only [readConfig, bind_ok, construct_ok, pure_ok, Cfg.mk.injEq]
  have hexp : fov py survey ((sect f "FOV").getD []) = .ok fv →
      (expert py survey (if (sect f "EXPERT").isSome then get ((sect f "FOV").getD []) "camera_model" else none) ((sect f "EXPERT").getD [])
        = .ok ex ↔ LimitOk py ((sect f "EXPERT").getD []) ex ∧
        ((IsRubin survey ∧ RubinOk ((sect f "EXPERT").getD []) ex) ∨ (IsDes survey ∧ DesOk ((sect f "EXPERT").getD []) ex))) := by
    intro hx
    rw [C38_expert py survey _ _ (hn "EXPERT") (hcam _ hx)]
    constructor
    · rintro ⟨h1, h2 | h2 | ⟨h2, h3, -⟩⟩
      · exact ⟨h1, .inl h2⟩
      · exact ⟨h1, .inr h2⟩
      · tauto
    · rintro ⟨h1, h2 | h2⟩
      · exact ⟨h1, .inl h2⟩
      · exact ⟨h1, .inr (.inl h2)⟩
  have hexpOnly : Only ((sect f "EXPERT").getD []) (fieldsExpert.filter (fun k =>
        !(if (sect f "EXPERT").isSome then ["survey_name", "camera_model"] else ["survey_name"]).contains k)) ↔
      Only ((sect f "EXPERT").getD []) ["snr_limit", "snr_limit_on", "mag_limit", "mag_limit_on", "trailing_losses_on", "default_snr_cut",
        "randomization_on", "vignetting_on", "brute_force"] := by
    cases hg : sect f "EXPERT" with
    | none => simp [Only]
    | some s => simp only [Option.isSome_some, if_true]; rfl
  have hsim : (Only ((sect f "SIMULATION").getD []) (fieldsSimulation.filter (fun k =>
        !(if (sect f "SIMULATION").isSome then ["_ephemerides_type"] else []).contains k)) ∧
      simulation py (if (sect f "SIMULATION").isSome then some inp.ephemeridesType else none) ((sect f "SIMULATION").getD []) = .ok sim) ↔
      ∃ s, ("SIMULATION", s) ∈ f ∧ SimulationOk py s inp.ephemeridesType sim ∧
        Only s ["ar_ang_fov", "ar_fov_buffer", "ar_picket", "ar_obs_code", "ar_healpix_order", "ar_n_sub_intervals"] := by
    cases hg : sect f "SIMULATION" with
    | none =>
      have ha := (sect_none h.1 _).1 hg
      simp only [Option.isSome_none, Bool.false_eq_true, if_false]
      constructor
      · rintro ⟨-, hs⟩
        simp [simulation, need, bind, Except.bind] at hs
      · rintro ⟨s, hs, -⟩
        exact absurd hs (ha s)
    | some s =>
      have hs := (sect_some h.1 _ _).1 hg
      simp only [Option.isSome_some, if_true, Option.getD_some]
      rw [C38_simulation py _ s (h.2 _ _ hs)]
      constructor
      · rintro ⟨h1, h2⟩
        exact ⟨s, hs, h2, h1⟩
      · rintro ⟨t, ht, h2, h1⟩
        have := (sect_some h.1 _ _).2 ht
        rw [hg] at this
        cases this
        exact ⟨h1, h2⟩
  have hsat : (Only ((sect f "SATURATION").getD []) (fieldsSaturation.filter (fun k =>
        !(if (sect f "SATURATION").isSome then ["_observing_filters"] else []).contains k)) ∧
      saturation py (if (sect f "SATURATION").isSome then some fs else none) ((sect f "SATURATION").getD []) = .ok sat) ↔
      ((∃ s, ("SATURATION", s) ∈ f ∧ SaturationOk py s (some fs) sat ∧ Only s ["bright_limit_on", "bright_limit"]) ∨
        ((∀ t, ("SATURATION", t) ∉ f) ∧ sat = ⟨.unset, none⟩)) := by
    cases hg : sect f "SATURATION" with
    | none =>
      have ha := (sect_none h.1 _).1 hg
      have h0 : saturation py none [] = .ok ⟨.unset, none⟩ := by simp [saturation, get, Flag.ofRaw, Flag.on]
      simp only [Option.isSome_none, Bool.false_eq_true, if_false, Option.getD_none, h0, Except.ok.injEq]
      constructor
      · rintro ⟨-, hs⟩
        exact .inr ⟨ha, hs.symm⟩
      · rintro (⟨s, hs, -⟩ | ⟨-, hs⟩)
        · exact absurd hs (ha s)
        · exact ⟨by simp [Only], hs.symm⟩
    | some s =>
      have hs := (sect_some h.1 _ _).1 hg
      simp only [Option.isSome_some, if_true, Option.getD_some]
      rw [C38_saturation py _ s (h.2 _ _ hs)]
      constructor
      · rintro ⟨h1, h2⟩
        exact .inl ⟨s, hs, h2, h1⟩
      · rintro (⟨t, ht, h2, h1⟩ | ⟨ha, -⟩)
        · have := (sect_some h.1 _ _).2 ht
          rw [hg] at this
          cases this
          exact ⟨h1, h2⟩
        · exact absurd hs (ha s)
  constructor
  · rintro ⟨_, i1, inp', i2, _, s1, sim', s2, _, f1, fs', f2, _, t1, sat', t2, _, p1, ph', p2, _, v1, fv', v2, _, d1, fd', d2, _, l1, lk', l2, _, o1,
      ou', o2, _, c1, lc', c2, _, a1, ac', a2, _, e1, ex', e2, rfl, rfl, rfl, rfl, rfl, rfl, rfl, rfl, rfl, rfl, rfl, rfl⟩
    have e2' := (hexp v2).1 e2
    refine ⟨(section_iff h.1 _ _).2 ⟨(C38_input py _ (hn _) _).1 i2, i1⟩, hsim.1 ⟨s1, s2⟩,
      (section_iff h.1 _ _).2 ⟨(C38_filters survey _ (hn _) _).1 f2, f1⟩, hsat.1 ⟨t1, t2⟩, (section_iff h.1 _ _).2 ?_,
      (section_iff h.1 _ _).2 ⟨(C38_fov py survey _ (hn _) _).1 v2, v1⟩, (section_iff h.1 _ _).2 ⟨(C38_fading py survey _ (hn _) _).1 d2, d1⟩,
      (section_iff h.1 _ _).2 ⟨(C38_linking py survey _ (hn _) _).1 l2, l1⟩, (section_iff h.1 _ _).2 ⟨(C38_output py _ (hn _) _).1 o2, o1⟩,
      (section_iff h.1 _ _).2 ⟨(C38_model _ _ _ (hn _) _).1 c2, c1⟩, (section_iff h.1 _ _).2 ⟨(C38_model _ _ _ (hn _) _).1 a2, a1⟩,
      (section_iff h.1 _ _).2 ⟨e2'.1, e2'.2, hexpOnly.1 e1⟩⟩
    have := (C38_phase _ (hn _) _).1 p2
    exact ⟨this.1, this.2, p1⟩
  · rintro ⟨i, s, fl, t, p, v, d, l, o, lc', ac', e⟩
    simp only [section_iff h.1] at i fl p v d l o lc' ac' e
    have s' := hsim.2 s
    have t' := hsat.2 t
    have v' := (C38_fov py survey _ (hn _) _).2 v.1
    exact ⟨(), i.2, inp, (C38_input py _ (hn _) _).2 i.1, (), s'.1, sim, s'.2, (), fl.2, fs, (C38_filters survey _ (hn _) _).2 fl.1, (), t'.1, sat, t'.2,
      (), p.2.2, ph, (C38_phase _ (hn _) _).2 ⟨p.1, p.2.1⟩, (), v.2, fv, v', (), d.2, fd, (C38_fading py survey _ (hn _) _).2 d.1, (), l.2, lk,
      (C38_linking py survey _ (hn _) _).2 l.1, (), o.2, ou, (C38_output py _ (hn _) _).2 o.1, (), lc'.2, lc, (C38_model _ _ _ (hn _) _).2 lc'.1,
      (), ac'.2, ac, (C38_model _ _ _ (hn _) _).2 ac'.1, (), hexpOnly.2 e.2.2, ex, (hexp v').2 ⟨e.1, e.2.1⟩, rfl, rfl, rfl, rfl, rfl, rfl, rfl, rfl,
      rfl, rfl, rfl, rfl⟩

/-! ## C38: values that are accepted although they should not be -/

/-- **C38 fails** for NaN: the bounds are tested by comparisons, which NaN passes. A NaN fading width, fill factor, SNR limit is accepted, and with
such an SNR limit no row of any table is left. -/
theorem C38_nan_fails (py : Py) (hpy : py.toFloat "nan" = some .nan) (hpy' : py.toFloat "1" = some (.fin 1)) :
    fading py "rubin_sim" [("fading_function_width", "nan"), ("fading_function_peak_efficiency", "1")] = .ok (.on .nan (.fin 1)) ∧
    fov py "rubin_sim" [("camera_model", "circle"), ("fill_factor", "nan")] = .ok (.circle (some .nan) none) ∧
    (∃ c, expert py "rubin_sim" none [("snr_limit", "nan")] = .ok c ∧ c.snrLimit = some .nan) ∧
    ∀ (ρ : Type) (t : Table (Filters.Det ρ)), (Filters.snrLimit .nan t).rows = [] := by
  have e1 : ∀ k : String, Num py [("fading_function_width", "nan"), ("fading_function_peak_efficiency", "1")] k .nan ↔ k = "fading_function_width" := by
    intro k
    constructor
    · rintro ⟨v, hv, hx⟩
      simp only [List.mem_cons, Prod.mk.injEq, List.not_mem_nil, or_false] at hv
      rcases hv with ⟨h1, -⟩ | ⟨-, rfl⟩
      · exact h1
      · rw [hpy'] at hx; exact absurd hx (by simp)
    · rintro rfl; exact ⟨"nan", by simp, hpy⟩
  refine ⟨(C38_fading py _ _ (by simp) _).2 (.on _ _ (by simp [IsDes]) ((e1 _).2 rfl) ⟨"1", by simp, hpy'⟩ (.inl rfl) (.inr ⟨1, rfl, by norm_num⟩)),
    (C38_fov py _ _ (by simp) _).2 (.circle _ _ (by simp) ⟨"nan", by simp, hpy⟩ (by simp [NumOpt, Absent]) ?_ (by simp) (by simp) (by simp [Absent])),
    ⟨⟨some .nan, none, true, true, .bool true, .bool true, .bool true⟩, ?_, rfl⟩, ?_⟩
  · rintro x hx; cases hx; exact .inl rfl
  · refine (C38_expert py _ _ _ (by simp) (by simp) _).2 ⟨⟨⟨"nan", by simp, hpy⟩, ?_, by simp [NumOpt, Absent], by simp, .inr rfl,
      .inl ⟨by simp [Absent], rfl⟩, .inl ⟨by simp [Absent], rfl⟩⟩, .inl ⟨by simp [IsRubin], true, true, true, rfl, rfl, rfl,
      .inl ⟨by simp [Absent], rfl⟩, .inl ⟨by simp [Absent], rfl⟩, .inl ⟨by simp [Absent], rfl⟩⟩⟩
    rintro x hx; cases hx; exact .inl rfl
  · intro ρ t
    rw [Filters.C09_snr]
    refine List.eq_nil_iff_forall_not_mem.2 fun r hr => ?_
    obtain ⟨a, b, ha, -⟩ := (mem_keep.1 hr).2
    simp [Filters.Spec.num] at ha

/-- **C38 fails** for the chunk size: zero and negative numbers are accepted. -/
theorem C38_chunk_fails (py : Py) (n : Int) (hpy : py.toInt "chunk" = some n) :
    input py [("ephemerides_type", "ar"), ("eph_format", "csv"), ("size_serial_chunk", "chunk"), ("aux_format", "csv"),
      ("pointing_sql_query", "SELECT")] = .ok ⟨"ar", "csv", n, "csv", "SELECT"⟩ :=
  (C38_input py _ (by simp) _).2 ⟨by simp, by simp, by simp, by simp, ⟨"chunk", by simp, hpy⟩⟩

/-- **C38 fails** for the switch of the fading function: outside DES it is ignored. -/
theorem C38_fading_switch_fails (py : Py) (w p : Fl) (hw : NumberOrNan (fun q => 0 < q ∧ q ≤ 1 / 2) w)
    (hp : NumberOrNan (fun q => 0 ≤ q ∧ q ≤ 1) p) (hpy : py.toFloat "w" = some w) (hpy' : py.toFloat "p" = some p) :
    fading py "rubin_sim" [("fading_function_on", "False"), ("fading_function_width", "w"), ("fading_function_peak_efficiency", "p")] =
      .ok (.on w p) :=
  (C38_fading py _ _ (by simp) _).2 (.on _ _ (by simp [IsDes]) ⟨"w", by simp, hpy⟩ ⟨"p", by simp, hpy'⟩ hw hp)

/-- **C38 fails** for files without the SIMULATION section: they are rejected even if the ephemerides are read from a file and no setting of the
section is needed. -/
theorem C38_external_fails (py : Py) (lcMethods caMethods : List String) (survey : String) (f : File) (h : WellFormed f)
    (hno : ∀ s, ("SIMULATION", s) ∉ f) (c : Cfg) : readConfig py lcMethods caMethods survey f ≠ .ok c := by
  simp only [readConfig, ne_eq, bind_ok, not_exists, not_and]
  intro _ _ inp _ _ _ sim hs
  exfalso
  rw [(sect_none h.1 _).2 hno] at hs
  simp [simulation, need, bind, Except.bind] at hs

/-- **C38 fails** for DES with an effect turned on: the run does stop, but with a `TypeError`, not with the message. -/
theorem C38_des_message_fails : effects "DES" none [("vignetting_on", "True")] = .error .typeError := by decide +kernel

/-- **C38 fails** for an unknown survey name, such as "Rubin": the switches stay texts, and "False" turns the randomization on. -/
theorem C38_unknown_survey_fails : effects "Rubin" (some "circle") [("randomization_on", "False")] = .ok (.text "False", .unset, .unset) ∧
    (Flag.text "False").on = true := by decide +kernel

/-! ## A file -/

/-- Built-ins for the numbers of the example. -/
def exPy : Py where
  toFloat s := if s = "0.1" then some (.fin (1 / 10)) else if s = "1" then some (.fin 1) else if s = "16.0" then some (.fin 16)
    else if s = "0.5" then some (.fin (1 / 2)) else if s = "0.95" then some (.fin (95 / 100)) else if s = "0.0625" then some (.fin (1 / 16))
    else if s = "16" then some (.fin 16) else if s = "1.8" then some (.fin (9 / 5)) else if s = "0.2" then some (.fin (1 / 5)) else none
  toInt s := if s = "1" then some 1 else if s = "2" then some 2 else if s = "3" then some 3 else if s = "15" then some 15
    else if s = "6" then some 6 else if s = "10" then some 10 else none
  lower s := if s = "DES" then "des" else if s = "LSST" then "lsst" else if s = "RUBIN_SIM" then "rubin_sim" else s
  isFile _ := false

/-- A Rubin configuration with all filters. -/
def exFile : File :=
  [("INPUT", [("ephemerides_type", "ar"), ("eph_format", "csv"), ("size_serial_chunk", "10"), ("aux_format", "whitespace"),
      ("pointing_sql_query", "SELECT observationId FROM observations")]),
   ("SIMULATION", [("ar_ang_fov", "1.8"), ("ar_fov_buffer", "0.2"), ("ar_picket", "1"), ("ar_obs_code", "X05"), ("ar_healpix_order", "6")]),
   ("FILTERS", [("observing_filters", "r, g ,i")]),
   ("SATURATION", [("bright_limit", "16.0")]),
   ("PHASECURVES", [("phase_function", "HG")]),
   ("FOV", [("camera_model", "footprint")]),
   ("FADINGFUNCTION", [("fading_function_width", "0.1"), ("fading_function_peak_efficiency", "1")]),
   ("LINKINGFILTER", [("ssp_detection_efficiency", "0.95"), ("ssp_number_observations", "2"), ("ssp_separation_threshold", "0.5"),
      ("ssp_maximum_time", "0.0625"), ("ssp_number_tracklets", "3"), ("ssp_track_window", "15"), ("ssp_night_start_utc", "16"),
      ("drop_unlinked", " no ")]),
   ("OUTPUT", [("output_format", "csv"), ("output_columns", "ObjID, FieldID,trailedSourceMag")]),
   ("EXPERT", [("snr_limit", "1"), ("vignetting_on", "n")])]

/-- The file is accepted and read as intended. -/
theorem ex_accepted : readConfig exPy [] [] "rubin_sim" exFile = .ok
    { input := ⟨"ar", "csv", 10, "whitespace", "SELECT observationId FROM observations"⟩
      simulation := some ⟨.fin (9 / 5), .fin (1 / 5), 1, "X05", 6, 101⟩
      filters := ["r", "g", "i"]
      saturation := ⟨.bool true, some [.fin 16, .fin 16, .fin 16]⟩
      phase := "HG"
      fov := .footprint none none
      fading := .on (.fin (1 / 10)) (.fin 1)
      linking := ⟨some ⟨.fin (95 / 100), 2, .fin (1 / 2), .fin (1 / 16), 3, 15, .fin 16⟩, false, .unset, .unset, none, .unset, none⟩
      output := ⟨"csv", .listed ["ObjID", "FieldID", "trailedSourceMag"], none, none⟩
      lightcurve := none
      activity := none
      expert := ⟨some (.fin 1), none, true, true, .bool true, .bool false, .bool true⟩ } := by decide +kernel

/-- `C38_file` applies to it. -/
example : WellFormed exFile ∧ IsRubin "rubin_sim" ∧ exPy.lower "rubin_sim" ≠ "des" := by
  refine ⟨⟨by decide +kernel, ?_⟩, by simp [IsRubin], by decide +kernel⟩
  have : ∀ p ∈ exFile, (p.2.map Prod.fst).Nodup := by decide +kernel
  exact fun n s hs => this (n, s) hs

/-- Two saturation limits for three filters are rejected. -/
example : saturation exPy (some ["r", "g", "i"]) [("bright_limit", "16.0, 16")] = .error .badSaturation := by decide +kernel

/-- An incomplete set of linking settings is rejected, and so is a complete one for DES. -/
example : linking exPy "rubin_sim" [("ssp_track_window", "15")] = .error .some ∧
    linking exPy "DES" [("ssp_detection_efficiency", "0.95"), ("ssp_number_observations", "2"), ("ssp_separation_threshold", "0.5"),
      ("ssp_maximum_time", "0.0625"), ("ssp_number_tracklets", "3"), ("ssp_track_window", "15"), ("ssp_night_start_utc", "16")] =
      .error .some := by decide +kernel

end Sorcha.Config.Props
