import Verif.Addons.Spec

/-!
# C72: the light curve or activity model that is used is the one of the configured name
-/

namespace Sorcha.Addons.Props

open Sorcha.Addons

variable {M : Type}

theorem has_append (r s : Registry M) (n : String) : has (r ++ s) n = (has r n || has s n) := by simp [has]

theorem get_append (r s : Registry M) (n : String) : get (r ++ s) n = if has r n then get r n else get s n := by
  induction r with
  | nil => simp [has]
  | cons p r ih =>
    by_cases h : p.1 = n
    · simp [get, has, h]
    · have h1 : get (p :: r ++ s) n = get (r ++ s) n := by simp [get, h]
      have h2 : get (p :: r) n = get r n := by simp [get, h]
      have h3 : has (p :: r) n = has r n := by simp [has, h]
      rw [h1, ih, h2, h3]

theorem has_iff_get (r : Registry M) (n : String) : has r n = (get r n).isSome := by
  induction r with
  | nil => rfl
  | cons p r ih =>
    by_cases h : p.1 = n
    · simp [get, has, h]
    · have h2 : get (p :: r) n = get r n := by simp [get, h]
      have h3 : has (p :: r) n = has r n := by simp [has, h]
      rw [h2, h3, ih]

/-- The first class of this name. -/
def first (cs : List (Cls M)) (n : String) : Option (Cls M) := (subclasses cs).find? fun c => c.name = n

theorem updateLoop_get (cs : List (Cls M)) (n : String) : ∀ r : Registry M,
    get (updateLoop r cs) n = if has r n then get r n else cs.find? fun c => c.name = n := by
  induction cs with
  | nil =>
    intro r
    simp only [updateLoop, List.find?_nil]
    split
    · rfl
    · rename_i h
      rw [has_iff_get] at h
      simpa using h
  | cons c cs ih =>
    intro r
    simp only [updateLoop]
    rw [ih]
    by_cases hc : has r c.name = true
    · simp only [hc, if_true]
      by_cases hn : has r n = true
      · simp [hn]
      · have hne : c.name ≠ n := by rintro rfl; exact hn hc
        simp [hn, hne]
    · simp only [hc, Bool.false_eq_true, if_false]
      by_cases hne : c.name = n
      · subst hne
        have h1 : has [(c.name, c)] c.name = true := by simp [has]
        have h2 : get [(c.name, c)] c.name = some c := by simp [get]
        simp [has_append, get_append, hc, h1, h2]
      · by_cases hn : has r n = true
        · simp [has_append, get_append, hn]
        · have h1 : has [(c.name, c)] n = false := by simp [has, hne]
          simp [has_append, hn, h1, hne]

theorem registerLoop_eq (cs : List (Cls M)) : ∀ r s : Registry M, registerLoop r cs = some s → s = updateLoop r cs := by
  induction cs with
  | nil => intro r s h; simpa [registerLoop, updateLoop] using h.symm
  | cons c cs ih =>
    intro r s h
    simp only [registerLoop] at h
    split at h
    · simp at h
    · rename_i hc
      simp only [updateLoop, hc, Bool.false_eq_true, if_false]
      exact ih _ _ h

theorem registerLoop_some (cs : List (Cls M)) : ∀ r : Registry M, (∃ s, registerLoop r cs = some s) ↔
    (∀ c ∈ cs, has r c.name = false) ∧ cs.Pairwise fun c d => c.name ≠ d.name := by
  induction cs with
  | nil => intro r; simp [registerLoop]
  | cons c cs ih =>
    intro r
    simp only [registerLoop]
    by_cases hc : has r c.name = true
    · simp [hc]
    · simp only [hc, Bool.false_eq_true, if_false]
      rw [ih]
      simp only [has_append, Bool.or_eq_false_iff, List.mem_cons, forall_eq_or_imp, List.pairwise_cons]
      have h1 : ∀ d : Cls M, has [(c.name, c)] d.name = false ↔ c.name ≠ d.name := by intro d; simp [has]
      have hc' : has r c.name = false := by simpa using hc
      simp only [h1]
      constructor
      · rintro ⟨h2, h3⟩
        exact ⟨⟨hc', fun d hd => (h2 d hd).1⟩, fun d hd => (h2 d hd).2, h3⟩
      · rintro ⟨⟨_, h2⟩, h3, h4⟩
        exact ⟨fun d hd => ⟨h2 d hd, h3 d hd⟩, h4⟩

/-- What is registered is, for each name, the first class of that name. -/
def Good (s : Session M) : Prop := ∀ n c, get s.registry n = some c → first s.classes n = some c

theorem first_append (cs ds : List (Cls M)) (n : String) (c : Cls M) (h : first cs n = some c) : first (cs ++ ds) n = some c := by
  simp only [first, subclasses, List.filter_append, List.find?_append] at h ⊢
  rw [h]
  rfl

theorem good_step (s : Session M) (h : Good s) (e : Event M) : Good (s.step e) := by
  cases e with
  | define c => exact fun n d hd => first_append _ _ _ _ (h n d hd)
  | update =>
    intro n c hc
    simp only [Session.step, Addons.update] at hc ⊢
    rw [updateLoop_get] at hc
    split at hc
    · exact h n c hc
    · exact hc

theorem good_after (es : List (Event M)) : ∀ s : Session M, Good s → Good (s.after es) := by
  induction es with
  | nil => exact fun s h => h
  | cons e es ih => exact fun s h => ih _ (good_step s h e)

theorem good_start {cs : List (Cls M)} {s : Session M} (h : start cs = some s) : Good s ∧ s.classes = cs := by
  simp only [start, Option.map_eq_some_iff] at h
  obtain ⟨r, hr, rfl⟩ := h
  refine ⟨fun n c hc => ?_, rfl⟩
  simp only [register] at hr
  rw [registerLoop_eq _ _ _ hr, updateLoop_get] at hc
  simpa [has, first] using hc

theorem after_classes (es : List (Event M)) : ∀ s : Session M, (s.after es).classes = s.classes ++ defined es := by
  induction es with
  | nil => intro s; simp [Session.after, defined]
  | cons e es ih =>
    intro s
    have : s.after (e :: es) = (s.step e).after es := rfl
    rw [this, ih]
    cases e <;> simp [Session.step, defined]

theorem after_update (s : Session M) (es : List (Event M)) (hs : Good s) (n : String) :
    get (s.after (es ++ [.update])).registry n = first (s.classes ++ defined es) n := by
  have h1 : s.after (es ++ [.update]) = (s.after es).step .update := by simp [Session.after]
  have hg := good_after es s hs
  rw [h1]
  simp only [Session.step, Addons.update]
  rw [updateLoop_get, ← after_classes es s]
  split
  · rename_i h
    rw [has_iff_get, Option.isSome_iff_exists] at h
    obtain ⟨c, hc⟩ := h
    rw [hc, hg n c hc]
  · rfl

theorem first_iff (cs : List (Cls M)) (n : String) (c : Cls M) : first cs n = some c ↔ FirstNamed cs n c := by
  induction cs with
  | nil => simp [first, subclasses, FirstNamed]
  | cons d cs ih =>
    have hcons : FirstNamed (d :: cs) n c ↔ (d = c ∧ c.name = n ∧ c.direct = true) ∨ ((d.direct = true → d.name ≠ n) ∧ FirstNamed cs n c) := by
      constructor
      · rintro ⟨a, b, hab, h1, h2, h3⟩
        cases a with
        | nil =>
          simp only [List.nil_append, List.cons.injEq] at hab
          exact Or.inl ⟨hab.1, h1, h2⟩
        | cons x a =>
          simp only [List.cons_append, List.cons.injEq] at hab
          obtain ⟨rfl, hab⟩ := hab
          exact Or.inr ⟨h3 d (by simp), a, b, hab, h1, h2, fun y hy => h3 y (by simp [hy])⟩
      · rintro (⟨rfl, h1, h2⟩ | ⟨h0, a, b, hab, h1, h2, h3⟩)
        · exact ⟨[], cs, rfl, h1, h2, by simp⟩
        · refine ⟨d :: a, b, by rw [hab]; rfl, h1, h2, ?_⟩
          intro y hy
          rcases List.mem_cons.1 hy with rfl | hy
          exacts [h0, h3 y hy]
    rw [hcons, ← ih]
    by_cases hd : d.direct = true
    · by_cases hn : d.name = n
      · simp only [first, subclasses, List.filter_cons, hd, if_true, List.find?_cons, hn, decide_true]
        constructor
        · rintro h
          obtain rfl : d = c := by simpa using h
          exact Or.inl ⟨rfl, hn, hd⟩
        · rintro (⟨rfl, _⟩ | ⟨h, _⟩)
          · rfl
          · exact absurd rfl (h trivial)
      · have : first (d :: cs) n = first cs n := by simp [first, subclasses, hd, hn]
        rw [this]
        constructor
        · exact fun h => Or.inr ⟨fun _ => hn, h⟩
        · rintro (⟨rfl, h, _⟩ | ⟨_, h⟩)
          · exact absurd h hn
          · exact h
    · have : first (d :: cs) n = first cs n := by simp [first, subclasses, hd]
      rw [this]
      constructor
      · exact fun h => Or.inr ⟨fun h' => absurd h' hd, h⟩
      · rintro (⟨rfl, _, h⟩ | ⟨_, h⟩)
        · exact absurd h hd
        · exact h

/-- The import of Sorcha succeeds exactly if no two classes defined so far have the same name. -/
theorem C72_import (cs : List (Cls M)) : (∃ s, start cs = some s) ↔ Distinct cs := by
  have h1 : (∃ s, start cs = some s) ↔ ∃ r, registerLoop [] (subclasses cs) = some r := by
    constructor
    · rintro ⟨s, hs⟩
      simp only [start, Option.map_eq_some_iff] at hs
      obtain ⟨r, hr, _⟩ := hs
      exact ⟨r, hr⟩
    · rintro ⟨r, hr⟩
      exact ⟨⟨cs, r⟩, by simp [start, register, hr]⟩
  rw [h1, registerLoop_some]
  simp only [has, List.any_nil, implies_true, true_and, subclasses, Distinct]
  rw [List.pairwise_filter]

/-- A run, which updates the registry first, accepts a name other than "none" exactly if a class of that name that derives directly from the base
class has been defined, at any time before. -/
theorem C72_accepted (cs : List (Cls M)) (s : Session M) (hs : start cs = some s) (es : List (Event M)) (n : String) (hn : n ≠ "none") :
    choose (s.after (es ++ [.update])).registry (some n) =
      some (some n) ↔ ∃ c ∈ cs ++ defined es, c.direct = true ∧ c.name = n := by
  obtain ⟨hg, hc⟩ := good_start hs
  have hne : ¬ (some n = some "none") := by simpa using hn
  have h1 : choose (s.after (es ++ [.update])).registry (some n) = if has (s.after (es ++ [.update])).registry n then some (some n) else none := by
    simp only [choose, hne, if_false]
  rw [h1, has_iff_get, after_update s es hg, hc]
  cases hf : first (cs ++ defined es) n with
  | none =>
    simp only [Option.isSome_none, Bool.false_eq_true, if_false, reduceCtorEq, false_iff]
    rintro ⟨c, hm, hd, hcn⟩
    simp only [first, subclasses, List.find?_eq_none, List.mem_filter, decide_eq_true_eq] at hf
    exact hf c ⟨hm, hd⟩ hcn
  | some c =>
    simp only [Option.isSome_some, if_true, true_iff]
    obtain ⟨a, b, hab, h2, h3, _⟩ := (first_iff _ _ _).1 hf
    exact ⟨c, by rw [hab]; simp, h3, h2⟩

/-- No name, or "none", is accepted and no model is used. -/
theorem C72_none (r : Registry M) (v : Option String) (hv : v = none ∨ v = some "none") : choose r v = some none ∧
    useLightCurve r none = .ok none ∧ useActivity r none = .ok none ∧ (∀ k, useInCulling k r none = .ok none) := by
  rcases hv with rfl | rfl <;> simp [choose, useLightCurve, useActivity, useInCulling]

/-- The model that is used for an accepted name, both for the magnitudes and in the culling of faint objects, is the first class defined with that
name; it is called if it has the methods that Sorcha calls. -/
theorem C72_used (cs : List (Cls M)) (s : Session M) (hs : start cs = some s) (es : List (Event M)) (n : String) (hn : n ≠ "none") (h0 : n ≠ "")
    (choice : Option String) (hch : choose (s.after (es ++ [.update])).registry (some n) = some choice) :
    ∃ c, FirstNamed (cs ++ defined es) n c ∧
      (LightCurve c → useLightCurve (s.after (es ++ [.update])).registry choice = .ok (some c.code) ∧
        useInCulling 1 (s.after (es ++ [.update])).registry choice = .ok (some c.code)) ∧
      (Activity c → useActivity (s.after (es ++ [.update])).registry choice = .ok (some c.code) ∧
        useInCulling 5 (s.after (es ++ [.update])).registry choice = .ok (some c.code)) := by
  obtain ⟨hg, hc⟩ := good_start hs
  have hne : ¬ (some n = some "none") := by simpa using hn
  simp only [choose, hne, if_false] at hch
  split at hch
  · rename_i hhas
    obtain rfl : some n = choice := by simpa using hch
    rw [has_iff_get, Option.isSome_iff_exists] at hhas
    obtain ⟨c, hget⟩ := hhas
    have hf := hget
    rw [after_update s es hg, hc] at hf
    refine ⟨c, (first_iff _ _ _).1 hf, ?_, ?_⟩
    · rintro ⟨h1, h2⟩
      simp [useLightCurve, useInCulling, h0, hget, h1, h2]
    · rintro ⟨h1, h2⟩
      simp [useActivity, useInCulling, h0, hget, h1, h2]
  · simp at hch

/-- If all names are distinct, every class that derives directly from the base class can be chosen by its name, and is then the one that is used. -/
theorem C72_each (cs : List (Cls M)) (s : Session M) (hs : start cs = some s) (es : List (Event M)) (hd : Distinct (cs ++ defined es)) (c : Cls M)
    (hc : c ∈ cs ++ defined es) (hdir : c.direct = true) (hn : c.name ≠ "none") (h0 : c.name ≠ "") :
    choose (s.after (es ++ [.update])).registry (some c.name) = some (some c.name) ∧
      (LightCurve c → useLightCurve (s.after (es ++ [.update])).registry (some c.name) = .ok (some c.code) ∧
        useInCulling 1 (s.after (es ++ [.update])).registry (some c.name) = .ok (some c.code)) ∧
      (Activity c → useActivity (s.after (es ++ [.update])).registry (some c.name) = .ok (some c.code) ∧
        useInCulling 5 (s.after (es ++ [.update])).registry (some c.name) = .ok (some c.code)) := by
  have hch := (C72_accepted cs s hs es c.name hn).2 ⟨c, hc, hdir, rfl⟩
  obtain ⟨d, ⟨a, b, hab, h1, h2, h3⟩, h4⟩ := C72_used cs s hs es c.name hn h0 _ hch
  have hdc : d = c := by
    rw [hab] at hc hd
    rcases List.mem_append.1 hc with h | h
    · exact absurd rfl (h3 c h hdir)
    · rcases List.mem_cons.1 h with h | h
      · exact h.symm
      · exact absurd h1 ((List.pairwise_cons.1 (List.pairwise_append.1 hd).2.1).1 c h h2 hdir)
  subst hdc
  exact ⟨hch, h4⟩

/-- A class already registered is not affected by classes defined later. -/
theorem C72_stable (cs : List (Cls M)) (s : Session M) (hs : start cs = some s) (es fs : List (Event M)) (n : String) (c : Cls M)
    (h : get (s.after (es ++ [.update])).registry n = some c) : get (s.after (es ++ [.update] ++ fs ++ [.update])).registry n = some c := by
  obtain ⟨hg, hc⟩ := good_start hs
  rw [after_update s es hg] at h
  rw [after_update s _ hg]
  have : defined (es ++ [.update] ++ fs) = defined es ++ defined fs := by
    have happ : ∀ a b : List (Event M), defined (a ++ b) = defined a ++ defined b := by
      intro a b
      induction a with
      | nil => rfl
      | cons e a ih => cases e <;> simp [defined, ih]
    simp [happ, defined]
  rw [this, ← List.append_assoc]
  exact first_append _ _ _ _ h

/-! ## What does not hold, and examples -/

/-- A second class with the name of an existing one is ignored without a message: the first is used. At import the same classes raise an error. -/
theorem C72_shadowed_fails : ∃ (c d : Cls ℕ) (s : Session ℕ), c.name = d.name ∧ c.code ≠ d.code ∧ start [c] = some s ∧
    choose (s.after [.define d, .update]).registry (some d.name) = some (some d.name) ∧
    useLightCurve (s.after [.define d, .update]).registry (some d.name) = .ok (some c.code) ∧ ¬ ∃ s', start [c, d] = some s' := by
  refine ⟨⟨"sine", true, 1, some 1, 1⟩, ⟨"sine", true, 1, some 1, 2⟩, _, rfl, by decide, rfl, by decide, by decide, ?_⟩
  rw [C72_import]
  unfold Distinct
  decide

/-- A class derived from another model is never registered. -/
theorem C72_derived_fails : ∃ (c d : Cls ℕ) (s : Session ℕ), d.direct = false ∧ LightCurve d ∧ start [c] = some s ∧
    choose (s.after [.define d, .update]).registry (some d.name) = none :=
  ⟨⟨"sine", true, 1, some 1, 1⟩, ⟨"sine2", false, 1, some 1, 2⟩, _, rfl, ⟨rfl, rfl⟩, rfl, by decide⟩

/-- The name "identity" is accepted in both sections, but as an activity model it ends in an exception, and as a light curve it does so in the
culling of faint objects. -/
theorem C72_identity_fails (m : M) : ∃ s, start [identityActivity m] = some s ∧ choose s.registry (some "identity") = some (some "identity") ∧
    useActivity s.registry (some "identity") = .error .arguments ∧ useInCulling 1 s.registry (some "identity") = .error .method ∧
    useLightCurve s.registry (some "identity") = .ok (some m) := by
  refine ⟨⟨[identityActivity m], [("identity", identityActivity m)]⟩, ?_, ?_, ?_, ?_, ?_⟩ <;>
    simp [start, register, registerLoop, subclasses, identityActivity, has, choose, useActivity, useInCulling, useLightCurve, get]

example : ∃ s : Session ℕ, start [identityLightCurve 0] = some s ∧
    choose (s.after [.define ⟨"sine", true, 1, some 1, 1⟩, .update, .define ⟨"ramp", true, 1, some 1, 2⟩, .update]).registry (some "ramp") = some (some "ramp") ∧
    useLightCurve (s.after [.define ⟨"sine", true, 1, some 1, 1⟩, .update, .define ⟨"ramp", true, 1, some 1, 2⟩, .update]).registry (some "ramp") = .ok (some 2) := by
  obtain ⟨s, hs⟩ := (C72_import [identityLightCurve 0]).2 (by unfold Distinct; decide)
  have h := C72_each [identityLightCurve 0] s hs [.define ⟨"sine", true, 1, some 1, 1⟩, .update, .define ⟨"ramp", true, 1, some 1, 2⟩]
    (by unfold Distinct; decide) ⟨"ramp", true, 1, some 1, 2⟩ (by simp [defined]) rfl (by decide) (by decide)
  exact ⟨s, hs, h.1, (h.2.1 ⟨rfl, rfl⟩).1⟩

example : ∃ s : Session ℕ, start [identityLightCurve 0] = some s ∧ choose (s.after [.update]).registry (some "sine") ≠ some (some "sine") := by
  obtain ⟨s, hs⟩ := (C72_import [identityLightCurve 0]).2 (by unfold Distinct; decide)
  refine ⟨s, hs, fun h => ?_⟩
  have := (C72_accepted [identityLightCurve 0] s hs [] "sine" (by decide)).1 h
  simp [defined, identityLightCurve] at this

end Sorcha.Addons.Props
