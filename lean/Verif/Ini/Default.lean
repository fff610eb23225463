import Verif.Ini.Accept

/-!
# C74: a section `[DEFAULT]`

`configparser` gives the keys of a section `[DEFAULT]` to all other sections. The program passes every key of a section on to the class of the
section, which takes only its own keys.
-/

namespace Sorcha.Ini.Props

open Sorcha.Ini.Spec
open Sorcha.Config (isSpace stripChars)

/-- The section `DEFAULT` is the first one kept, with at least the keys `ks`. -/
def Dflt (ks : List String) (secs : List (String × List Opt)) : Prop :=
  ∃ os rest, secs = ("DEFAULT", os) :: rest ∧ ∀ k ∈ ks, k ∈ os.map Prod.fst

theorem dflt_modify (ks : List String) (secs : List (String × List Opt)) (n : String) (f : List Opt → List Opt) (h : Dflt ks secs)
    (hf : ∀ os : List Opt, ∀ k ∈ os.map Prod.fst, k ∈ (f os).map Prod.fst) : Dflt ks (modify secs n f) := by
  obtain ⟨os, rest, rfl, hk⟩ := h
  by_cases hn : "DEFAULT" = n
  · refine ⟨f os, modify rest n f, ?_, fun k h => hf os k (hk k h)⟩
    simp [modify, hn]
  · refine ⟨os, modify rest n f, ?_, hk⟩
    simp [modify, hn]

theorem dflt_append (ks : List String) (secs : List (String × List Opt)) (n key : String) (v : Line) (h : Dflt ks secs) :
    Dflt ks (appendTo secs n key v) := by
  refine dflt_modify ks secs n _ h fun os k hk => ?_
  have : (os.map fun o => if o.1 = key then (o.1, o.2 ++ [v]) else o).map Prod.fst = os.map Prod.fst := by
    rw [List.map_map]
    refine List.map_congr_left fun o _ => ?_
    by_cases ho : o.1 = key <;> simp [ho]
  rw [this]
  exact hk

theorem dflt_heading (lower : String → String) (ks : List String) (st st' : St) (v : Line) (h : Dflt ks st.secs)
    (hs : heading lower st v = .ok st') : Dflt ks st'.secs := by
  unfold heading at hs
  split at hs
  · split at hs
    · cases hs; exact h
    · split at hs
      · cases hs
      · cases hs
        obtain ⟨os, rest, e, hk⟩ := h
        exact ⟨os, rest ++ [_], by rw [e]; rfl, hk⟩
  · split at hs
    · cases hs
    · split at hs
      · cases hs
      · split at hs
        · cases hs
        · split at hs
          · cases hs
          · cases hs
            dsimp only
            refine dflt_modify ks _ _ _ h fun os k hk => ?_
            show k ∈ (os ++ _).map Prod.fst
            rw [List.map_append]
            exact List.mem_append_left _ hk

theorem dflt_step (lower : String → String) (ks : List String) (st st' : St) (l : Line) (h : Dflt ks st.secs) (hs : step lower st l = .ok st') :
    Dflt ks st'.secs := by
  unfold step at hs
  split at hs
  · split at hs
    · cases hs; exact dflt_append _ _ _ _ _ h
    · cases hs; exact h
  · split at hs
    · cases hs; exact h
    · split at hs
      · cases hs; exact dflt_append _ _ _ _ _ h
      · refine dflt_heading lower ks _ st' _ ?_ hs
        exact h

theorem dflt_parse (lower : String → String) (ks : List String) (lines : List Line) : ∀ st st' : St, Dflt ks st.secs →
    parse lower st lines = .ok st' → Dflt ks st'.secs := by
  induction lines with
  | nil => intro st st' h hp; cases hp; exact h
  | cons l ls ih =>
    intro st st' h hp
    rw [parse] at hp
    split at hp
    · cases hp
    · rename_i s hs
      exact ih s st' (dflt_step lower ks st s l h hs) hp

theorem parse_append (lower : String → String) (a b : List Line) : ∀ st st' : St, parse lower st (a ++ b) = .ok st' →
    ∃ m, parse lower st a = .ok m ∧ parse lower m b = .ok st' := by
  induction a with
  | nil => intro st st' h; exact ⟨st, rfl, h⟩
  | cons l ls ih =>
    intro st st' h
    rw [List.cons_append, parse] at h
    split at h
    · cases h
    · rename_i s hs
      obtain ⟨m, h1, h2⟩ := ih s st' h
      exact ⟨m, by rw [parse, hs]; exact h1, h2⟩

theorem step_default (lower : String → String) (st : St) (l : Line) (h : Header "DEFAULT".toList l) :
    step lower st l = .ok ⟨st.secs, some "DEFAULT", none, 0⟩ := by
  obtain ⟨post, rfl, hp, hne, hb⟩ := h
  have ht : Trimmed ('[' :: ("DEFAULT".toList ++ [']'])) := by
    refine ⟨?_, ?_⟩
    · intro c hc
      simp only [List.head?_cons, Option.some.injEq] at hc
      subst hc
      rw [not_space]; decide
    · intro c hc
      have : (('[' :: "DEFAULT".toList) ++ [']']).getLast? = some ']' := by rw [List.getLast?_append]; simp
      rw [← List.cons_append, this] at hc
      cases hc
      rw [not_space]; decide
  have e : '[' :: "DEFAULT".toList ++ ']' :: post = '[' :: ("DEFAULT".toList ++ [']']) ++ post := by simp
  rw [e, step_heading lower st '[' _ post hp ht (by decide) (by decide)]
  have hh : header ('[' :: ("DEFAULT".toList ++ [']'])) = some "DEFAULT".toList := header_some _ hne
  unfold heading
  rw [hh]
  simp

/-- A setting in any section that is kept. -/
theorem step_key (lower : String → String) (st : St) (n : String) (hc : st.cur = some n) (k text l : Line) (h : Setting k text l) :
    step lower st l = if hasKey st.secs n (lower (String.ofList k)) then .error .keyTwice
      else .ok ⟨modify st.secs n (· ++ [(lower (String.ofList k), [text])]), some n, some (lower (String.ofList k)), 0⟩ := by
  obtain ⟨w₁, d, w₂, w₃, rfl, h1, h2, h3, hd, hk, ht⟩ := h
  obtain ⟨c, hkc, c1, c2, c3⟩ := hk.head
  obtain ⟨r, rfl⟩ : ∃ r, k = c :: r := by
    cases k with
    | nil => simp at hkc
    | cons a as => exact ⟨as, by simpa using hkc⟩
  have hcs : ¬Config.Spec.Space c := hk.trimmed.1 c rfl
  have hds : ¬Config.Spec.Space d := by rw [not_space]; rcases hd with rfl | rfl <;> decide
  obtain ⟨core, post, he, hpost, hcore, hopt⟩ : ∃ core post, (c :: r) ++ w₁ ++ d :: w₂ ++ text ++ w₃ = c :: core ++ post ∧ Spaces post ∧
      Trimmed (c :: core) ∧ option (c :: core) = some (c :: r, text) := by
    by_cases hte : text = []
    · subst hte
      refine ⟨r ++ w₁ ++ [d], w₂ ++ w₃, by simp, ?_, ⟨?_, ?_⟩, ?_⟩
      · intro x hx
        rcases List.mem_append.1 hx with hx | hx
        · exact h2 x hx
        · exact h3 x hx
      · intro x hx
        simp only [List.head?_cons, Option.some.injEq] at hx
        exact hx ▸ hcs
      · intro x hx
        have : (c :: (r ++ w₁ ++ [d])).getLast? = some d := by rw [← List.cons_append, List.getLast?_append]; simp
        rw [this] at hx
        cases hx
        exact hds
      · have := option_some (c :: r) w₁ [] [] d h1 (by simp [Spaces]) hd hk ht
        simpa using this
    · refine ⟨r ++ w₁ ++ d :: w₂ ++ text, w₃, by simp, h3, ⟨?_, ?_⟩, ?_⟩
      · intro x hx
        simp only [List.head?_cons, Option.some.injEq] at hx
        exact hx ▸ hcs
      · intro x hx
        have : (c :: (r ++ w₁ ++ d :: w₂ ++ text)).getLast? = text.getLast? := by
          rw [← List.cons_append, List.getLast?_append]
          cases hl : text.getLast? with
          | none => exact absurd (List.getLast?_eq_none_iff.1 hl) hte
          | some y => simp
        rw [this] at hx
        exact ht.2 x hx
      · have := option_some (c :: r) w₁ w₂ text d h1 h2 hd hk ht
        simpa using this
  rw [he, step_heading lower st c core post hpost hcore c1 c2]
  have hh : header (c :: core) = none := by
    unfold header
    split
    · rename_i r' heq
      exact absurd (List.cons.inj heq).1 c3
    · rfl
  unfold heading
  rw [hh]
  simp only [hc, hopt]
  rw [if_neg (by simp)]

/-- Every section the program sees has the keys of `DEFAULT`. -/
theorem dicts_default (lower : String → String) (secs : List (String × List Opt)) (ks : List String) (h : Dflt ks secs) : ∀ ns : List String, ∀ f,
    dicts lower secs ns = .ok f → ∀ n s, (n, s) ∈ f → ∀ k ∈ ks, k ∈ s.map Prod.fst := by
  intro ns
  induction ns with
  | nil => intro f hf; cases hf; simp
  | cons a as ih =>
    intro f hf
    rw [dicts] at hf
    split at hf
    · simp only [bind, Except.bind] at hf
      split at hf
      · cases hf
      · rename_i d hd
        split at hf
        · cases hf
        · rename_i ds hds
          cases hf
          intro n s hm k hk
          rcases List.mem_cons.1 hm with e | hm
          · cases e
            unfold dict at hd
            rw [dictGo_keys lower _ _ _ hd]
            obtain ⟨os, rest, rfl, hks⟩ := h
            obtain ⟨o, ho, rfl⟩ := List.mem_map.1 (hks k hk)
            have hdf : ((("DEFAULT", os) :: rest).find? (·.1 = "DEFAULT")).map (·.2) = some os := by simp
            unfold rawDict
            simp only [hdf, Option.getD_some, List.map_map, List.map_append, List.mem_append]
            generalize (((("DEFAULT", os) :: rest).find? (·.1 = a)).map (·.2)).getD [] = own
            by_cases hown : own.any (·.1 = o.1) = true
            · left
              obtain ⟨p, hp, e⟩ := List.any_eq_true.1 hown
              exact List.mem_map.2 ⟨p, hp, by simpa using e⟩
            · right
              refine List.mem_map.2 ⟨o, List.mem_filter.2 ⟨ho, ?_⟩, rfl⟩
              rw [Bool.not_eq_true] at hown
              simp only [hown, Bool.not_false]
          · exact ih ds hds n s hm k hk
    · exact ih f hf

theorem construct_keys {fields extra : List String} {s : Config.Sect} {u : Unit} (h : Config.construct fields extra s = .ok u) :
    ∀ k ∈ s.map Prod.fst, k ∈ fields := by
  unfold Config.construct at h
  split at h
  · rename_i ha
    intro k hk
    obtain ⟨o, ho, rfl⟩ := List.mem_map.1 hk
    have := List.all_eq_true.1 ha o ho
    simp only [Bool.and_eq_true] at this
    exact List.contains_iff_mem.1 this.1
  · cases h

theorem sect_mem {f : Config.File} {n : String} {s : Config.Sect} (h : Config.sect f n = some s) : (n, s) ∈ f := by
  unfold Config.sect at h
  cases hf : f.find? (·.1 = n) with
  | none => rw [hf] at h; cases h
  | some p =>
    rw [hf] at h
    cases h
    have h1 := List.find?_some hf
    have h2 := List.mem_of_find?_eq_some hf
    simp only [decide_eq_true_eq] at h1
    subst h1
    exact h2

/-- What an accepted configuration says about two of its sections. -/
theorem accepted_sections (py : Config.Py) (lc ca : List String) (survey : String) (f : Config.File) (c : Config.Cfg)
    (h : Config.readConfig py lc ca survey f = .ok c) :
    ∃ i o, Config.sect f "INPUT" = some i ∧ Config.sect f "OUTPUT" = some o ∧ (∀ k ∈ i.map Prod.fst, k ∈ Config.fieldsInput) ∧
      ∀ k ∈ o.map Prod.fst, k ∈ Config.fieldsOutput := by
  unfold Config.readConfig at h
  simp only [bind, Except.bind] at h
  split at h
  · cases h
  rename_i h1
  split at h
  · cases h
  rename_i h2
  iterate 14 (split at h; · cases h)
  split at h
  · cases h
  rename_i h3
  split at h
  · cases h
  rename_i h4
  have hi : ∃ i, Config.sect f "INPUT" = some i := by
    cases hs : Config.sect f "INPUT" with
    | some i => exact ⟨i, rfl⟩
    | none => rw [hs] at h2; exact absurd h2 (by simp [Config.input, Config.get, Config.need, bind, Except.bind])
  have ho : ∃ o, Config.sect f "OUTPUT" = some o := by
    cases hs : Config.sect f "OUTPUT" with
    | some i => exact ⟨i, rfl⟩
    | none => rw [hs] at h4; exact absurd h4 (by simp [Config.output, Config.get, Config.need, bind, Except.bind])
  obtain ⟨i, hi⟩ := hi
  obtain ⟨o, ho⟩ := ho
  rw [hi] at h1
  rw [ho] at h3
  exact ⟨i, o, hi, ho, construct_keys h1, construct_keys h3⟩

/-- **C74 fails** for the section `[DEFAULT]`, with which configuration files can give a setting for all sections: no file in which this section has a
setting, at the top or further down, is accepted, whatever else is in it. -/
theorem C74_default_fails (py : Config.Py) (lc ca : List String) (survey : String) (before noise after : List Line) (hd s k text : Line)
    (hh : Header "DEFAULT".toList hd) (hn : ∀ x ∈ noise, Noise x) (hs : Setting k text s) :
    ¬∃ r, configure py lc ca survey (before ++ hd :: (noise ++ s :: after)) = .ok r := by
  rintro ⟨r, h⟩
  unfold configure at h
  cases hl : load py.lower (before ++ hd :: (noise ++ s :: after)) with
  | error e => rw [hl] at h; cases h
  | ok f =>
    rw [hl] at h
    dsimp only at h
    cases hr : Config.readConfig py lc ca survey f with
    | error e => rw [hr] at h; cases h
    | ok c =>
      obtain ⟨i, o, hi, ho, ki, ko⟩ := accepted_sections py lc ca survey f c hr
      unfold load at hl
      split at hl
      · cases hl
      rename_i st hst
      obtain ⟨m, hm, hrest⟩ := parse_append py.lower before _ _ _ hst
      have d0 : Dflt [] m.secs := dflt_parse py.lower [] before _ _ ⟨[], [], rfl, by simp⟩ hm
      rw [parse, step_default py.lower m hd hh] at hrest
      dsimp only at hrest
      rw [parse_noise py.lower _ rfl noise _ hn, parse, step_key py.lower _ "DEFAULT" rfl k text s hs] at hrest
      split at hrest
      · cases hrest
      · rename_i st2 hst2
        split at hst2
        · cases hst2
        · cases hst2
          have d1 : Dflt [py.lower (String.ofList k)] (modify m.secs "DEFAULT" (· ++ [(py.lower (String.ofList k), [text])])) := by
            obtain ⟨os, rest, e, _⟩ := d0
            rw [e]
            refine ⟨os ++ [(py.lower (String.ofList k), [text])], modify rest "DEFAULT" (· ++ [(py.lower (String.ofList k), [text])]), by simp [modify], ?_⟩
            intro x hx
            rw [List.mem_singleton.1 hx, List.map_append]
            simp
          have d2 := dflt_parse py.lower _ after _ _ d1 hrest
          have hall := dicts_default py.lower st.secs _ d2 sectionList f hl
          have a1 := ki _ (hall _ _ (sect_mem hi) _ (List.mem_singleton.2 rfl))
          have a2 := ko _ (hall _ _ (sect_mem ho) _ (List.mem_singleton.2 rfl))
          simp only [Config.fieldsInput, Config.fieldsOutput, List.mem_cons, List.not_mem_nil, or_false] at a1 a2
          rcases a1 with e | e | e | e | e <;> rw [e] at a2 <;> revert a2 <;> decide

/-- A file with such a section: the hypotheses of the theorem are met by it with any lines before and after. -/
example : Header "DEFAULT".toList (chars! "[DEFAULT]") ∧ Noise (chars! "# for all sections") ∧
    Setting (chars! "survey_name") (chars! "rubin_sim") (chars! "survey_name = rubin_sim") := by
  refine ⟨⟨[], by decide, by simp [Spaces], by decide, by decide⟩, Or.inr ⟨[], '#', _, rfl, by simp [Spaces], Or.inl rfl⟩, ?_⟩
  refine ⟨chars! " ", '=', chars! " ", [], by decide, spaces_of _ (by decide), spaces_of _ (by decide), by simp [Spaces], Or.inl rfl,
    ⟨trimmed_of _ (by decide +kernel), by decide, ⟨'s', by decide, by decide, by decide, by decide⟩⟩, trimmed_of _ (by decide +kernel)⟩

end Sorcha.Ini.Props
