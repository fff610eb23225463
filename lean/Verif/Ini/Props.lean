import Verif.Ini.Lemmas

/-!
# C74: the text of the configuration file
-/

namespace Sorcha.Ini.Props

open Spec Sorcha.Ini
open Sorcha.Config (isSpace stripChars)

/-! ## Lemmas: the dictionaries -/

theorem sectionList_known (n : String) : n ∈ sectionList ↔ Known n := by
  constructor
  · intro h
    simp only [sectionList, List.mem_cons, List.not_mem_nil, or_false] at h
    rcases h with rfl | rfl | rfl | rfl | rfl | rfl | rfl | rfl | rfl | rfl | rfl | rfl | rfl <;> constructor
  · intro h
    cases h <;> decide

theorem default_not_known {n : String} (h : n ∈ sectionList) : n ≠ "DEFAULT" := by
  rintro rfl
  exact absurd h (by decide)

theorem dicts_ok (lower : String → String) (secs : List (String × List Opt)) (D : String → Config.Sect) :
    ∀ ns : List String, ns.Nodup → (∀ n ∈ ns, n ∈ secs.map Prod.fst → dict lower secs n = .ok (D n)) →
      ∃ f, dicts lower secs ns = .ok f ∧ (f.map Prod.fst).Nodup ∧
        ∀ n s, (n, s) ∈ f ↔ n ∈ ns ∧ n ∈ secs.map Prod.fst ∧ s = D n := by
  intro ns
  induction ns with
  | nil => intro _ _; exact ⟨[], rfl, by simp, by simp⟩
  | cons a as ih =>
    intro hnd h
    obtain ⟨f, h1, h2, h3⟩ := ih (List.nodup_cons.1 hnd).2 fun n hn => h n (by simp [hn])
    have ha := (List.nodup_cons.1 hnd).1
    by_cases hm : a ∈ secs.map Prod.fst
    · refine ⟨(a, D a) :: f, ?_, ?_, ?_⟩
      · rw [dicts, if_pos (by simpa using hm), h a (by simp) hm, h1]
        rfl
      · rw [List.map_cons, List.nodup_cons]
        refine ⟨fun hx => ?_, h2⟩
        obtain ⟨⟨n, s⟩, hs, rfl⟩ := List.mem_map.1 hx
        exact ha ((h3 n s).1 hs).1
      · intro n s
        simp only [List.mem_cons, Prod.mk.injEq, h3]
        constructor
        · rintro (⟨rfl, rfl⟩ | ⟨h4, h5, h6⟩)
          · exact ⟨.inl rfl, hm, rfl⟩
          · exact ⟨.inr h4, h5, h6⟩
        · rintro ⟨rfl | h4, h5, h6⟩
          · exact .inl ⟨rfl, h6⟩
          · exact .inr ⟨h4, h5, h6⟩
    · refine ⟨f, ?_, h2, ?_⟩
      · rw [dicts, if_neg (by simpa using hm), h1]
      · intro n s
        rw [h3]
        simp only [List.mem_cons]
        constructor
        · rintro ⟨h4, h5, h6⟩
          exact ⟨.inr h4, h5, h6⟩
        · rintro ⟨rfl | h4, h5, h6⟩
          · exact absurd h5 hm
          · exact ⟨h4, h5, h6⟩

theorem find_of_nodup (secs : List (String × List Opt)) (h : (secs.map Prod.fst).Nodup) (n : String) (os : List Opt) (hm : (n, os) ∈ secs) :
    secs.find? (·.1 = n) = some (n, os) := by
  induction secs with
  | nil => simp at hm
  | cons a as ih =>
    have h1 := List.nodup_cons.1 (by simpa using h : (a.1 :: as.map Prod.fst).Nodup)
    by_cases ha : a.1 = n
    · rw [List.find?_cons_of_pos (by simpa using ha)]
      rcases List.mem_cons.1 hm with rfl | hm
      · rfl
      · exact absurd (List.mem_map.2 ⟨_, hm, rfl⟩) (ha ▸ h1.1)
    · rw [List.find?_cons_of_neg (by simpa using ha)]
      rcases List.mem_cons.1 hm with rfl | hm
      · exact absurd rfl ha
      · exact ih h1.2 hm

theorem forall₂_left {α β : Type} {R : α → β → Prop} {l : List α} {m : List β} (h : List.Forall₂ R l m) :
    ∀ b ∈ m, ∃ a ∈ l, R a b := by
  induction h with
  | nil => simp
  | @cons a b l m hr _ ih =>
    intro x hx
    rcases List.mem_cons.1 hx with rfl | hx
    · exact ⟨a, by simp, hr⟩
    · obtain ⟨y, hy, h⟩ := ih x hx
      exact ⟨y, by simp [hy], h⟩

theorem forall₂_right {α β : Type} {R : α → β → Prop} {l : List α} {m : List β} (h : List.Forall₂ R l m) :
    ∀ a ∈ l, ∃ b ∈ m, R a b := by
  induction h with
  | nil => simp
  | @cons a b l m hr _ ih =>
    intro x hx
    rcases List.mem_cons.1 hx with rfl | hx
    · exact ⟨b, by simp, hr⟩
    · obtain ⟨y, hy, h⟩ := ih x hx
      exact ⟨y, by simp [hy], h⟩

theorem forall₂_names {lower : String → String} {ss : List (Spec.Line × List (Spec.Line × Spec.Line))} {qs : List (String × List Opt)}
    (h : List.Forall₂ (fun s q => q.1 = String.ofList s.1 ∧ List.Forall₂ (Kept lower) s.2 q.2) ss qs) :
    qs.map Prod.fst = ss.map fun s => String.ofList s.1 := by
  induction h with
  | nil => rfl
  | cons h1 _ ih => simp [h1.1, ih]

theorem ofList_inj {a b : Line} (h : String.ofList a = String.ofList b) : a = b := by
  have := congrArg String.toList h
  simpa using this

/-- Distinct names, as characters or as strings; none of them is `DEFAULT`. -/
theorem names_nodup (ss : List (Spec.Line × List (Spec.Line × Spec.Line))) (hd : ∀ s ∈ ss, s.1 ≠ "DEFAULT".toList) :
    ((St.init.secs.map Prod.fst) ++ ss.map fun s => String.ofList s.1).Nodup ↔ (ss.map Prod.fst).Nodup := by
  have e : (ss.map fun s => String.ofList s.1) = (ss.map Prod.fst).map String.ofList := by simp
  rw [e]
  simp only [St.init, List.map_cons, List.map_nil, List.singleton_append, List.nodup_cons]
  constructor
  · rintro ⟨-, h⟩
    exact h.of_map
  · intro h
    refine ⟨?_, h.map fun a b => ofList_inj⟩
    intro hm
    simp only [List.map_map, List.mem_map, Function.comp] at hm
    obtain ⟨s, hs, he⟩ := hm
    apply hd s hs
    rw [← he, String.toList_ofList]

/-! ## C74 -/

/-- C74 (reading): if the text has certain sections with certain settings, none of them twice, the program sees exactly those settings in the
sections it knows: the key in lower case, the value without surrounding white space, with `%%` for a per cent sign. Comments and empty lines do not matter. -/
theorem C74_reads (lower : String → String) (hlow : ∀ s, s ≠ "" → lower s ≠ "") (lines : List Line)
    (ss : List (Spec.Line × List (Spec.Line × Spec.Line))) (h : Text lines ss) (hd : Distinct lower ss) :
    ∃ f, load lower lines = .ok f ∧ ∀ n s, (n, s) ∈ f ↔
      Known n ∧ ∃ os, (n.toList, os) ∈ ss ∧ s = os.map fun o => (lower (String.ofList o.1), String.ofList o.2) := by
  obtain ⟨⟨noise, rest, rfl, hn, hs⟩, hdef⟩ := h
  have key := parse_sections lower hlow hs hdef St.init (by simp [St.init])
  rw [if_pos ⟨(names_nodup ss hdef).2 hd.1, hd.2⟩] at key
  obtain ⟨st', qs, k1, k2, k3⟩ := key
  have hnames := forall₂_names k1
  have hnd : (st'.secs.map Prod.fst).Nodup := by
    rw [k2, List.map_append, hnames]
    exact (names_nodup ss hdef).2 hd.1
  have hpar : parse lower St.init (noise ++ rest) = .ok st' := by
    rw [parse_noise lower St.init rfl noise rest hn, k3]
  have hdflt : st'.secs.find? (·.1 = "DEFAULT") = some ("DEFAULT", []) := by
    rw [k2]
    rfl
  have hraw : ∀ n ps, (n, ps) ∈ qs → rawDict st'.secs n = ps.map fun o => (o.1, join o.2) := by
    intro n ps hm
    have hf := find_of_nodup st'.secs hnd n ps (by rw [k2]; simp [hm])
    unfold rawDict
    rw [hf, hdflt]
    simp
  have hdict : ∀ n ps os, (n, ps) ∈ qs → List.Forall₂ (Kept lower) os ps →
      dict lower st'.secs n = .ok (os.map fun o => (lower (String.ofList o.1), String.ofList o.2)) := by
    intro n ps os hm hk
    unfold dict
    rw [hraw n ps hm]
    exact dictGo_meaning lower _ hk
  -- the settings of a section as a function of its name
  obtain ⟨f, f1, f2, f3⟩ := dicts_ok lower st'.secs
    (fun n => (dict lower st'.secs n).toOption.getD []) sectionList (by decide) (by
      intro n hn hm
      rw [k2, List.map_append] at hm
      rcases List.mem_append.1 hm with hm | hm
      · simp only [St.init, List.map_cons, List.map_nil, List.mem_singleton] at hm
        exact absurd hm (default_not_known hn)
      · obtain ⟨⟨n', ps⟩, hq, rfl⟩ := List.mem_map.1 hm
        obtain ⟨s, -, -, hs⟩ := forall₂_left k1 _ hq
        rw [hdict n' ps s.2 hq hs]
        rfl)
  refine ⟨f, ?_, ?_⟩
  · unfold load
    rw [hpar]
    exact f1
  · intro n s
    rw [f3, sectionList_known]
    constructor
    · rintro ⟨hk, hm, rfl⟩
      refine ⟨hk, ?_⟩
      rw [k2, List.map_append] at hm
      rcases List.mem_append.1 hm with hm | hm
      · simp only [St.init, List.map_cons, List.map_nil, List.mem_singleton] at hm
        exact absurd hm (default_not_known ((sectionList_known n).2 hk))
      · obtain ⟨⟨n', ps⟩, hq, rfl⟩ := List.mem_map.1 hm
        obtain ⟨⟨name, os⟩, hs, hn', hks⟩ := forall₂_left k1 _ hq
        simp only at hn'
        refine ⟨os, ?_, ?_⟩
        · rw [hn', String.toList_ofList]; exact hs
        · rw [hdict n' ps os hq hks]
          rfl
    · rintro ⟨hk, os, hos, rfl⟩
      obtain ⟨⟨n', ps⟩, hq, hn', hks⟩ := forall₂_right k1 _ hos
      have hn'' : n' = n := by
        rw [show n' = String.ofList n.toList from hn', String.ofList_toList]
      subst hn''
      refine ⟨hk, ?_, ?_⟩
      · rw [k2, List.map_append]
        exact List.mem_append_right _ (List.mem_map.2 ⟨_, hq, rfl⟩)
      · rw [hdict n' ps os hq hks]
        rfl

/-- C74 (twice): a text in which a section occurs twice, or a key twice in a section (in whatever case), is rejected. -/
theorem C74_twice (lower : String → String) (hlow : ∀ s, s ≠ "" → lower s ≠ "") (lines : List Line)
    (ss : List (Spec.Line × List (Spec.Line × Spec.Line))) (h : Text lines ss) (hd : ¬Distinct lower ss) :
    ∃ e, load lower lines = .error e := by
  obtain ⟨⟨noise, rest, rfl, hn, hs⟩, hdef⟩ := h
  have key := parse_sections lower hlow hs hdef St.init (by simp [St.init])
  rw [if_neg fun hc => hd ⟨(names_nodup ss hdef).1 hc.1, hc.2⟩] at key
  obtain ⟨e, he⟩ := key
  refine ⟨e, ?_⟩
  unfold load
  rw [parse_noise lower St.init rfl noise rest hn, he]

/-! ### Whatever the text is -/

/-- No section and no key of a section occurs twice. -/
def Inv (secs : List (String × List Opt)) : Prop := (secs.map Prod.fst).Nodup ∧ ∀ s ∈ secs, (s.2.map Prod.fst).Nodup

theorem modify_names (secs : List (String × List Opt)) (n : String) (f : List Opt → List Opt) :
    (modify secs n f).map Prod.fst = secs.map Prod.fst := by
  unfold modify
  rw [List.map_map]
  refine List.map_congr_left fun s _ => ?_
  by_cases h : s.1 = n <;> simp [h]

theorem inv_modify (secs : List (String × List Opt)) (n : String) (f : List Opt → List Opt) (h : Inv secs)
    (hf : ∀ s ∈ secs, s.1 = n → ((f s.2).map Prod.fst).Nodup) : Inv (modify secs n f) := by
  refine ⟨by rw [modify_names]; exact h.1, ?_⟩
  intro s hs
  unfold modify at hs
  obtain ⟨r, hr, rfl⟩ := List.mem_map.1 hs
  by_cases hn : r.1 = n
  · simpa [hn] using hf r hr hn
  · simpa [hn] using h.2 r hr

theorem inv_append (secs : List (String × List Opt)) (n k : String) (v : Line) (h : Inv secs) : Inv (appendTo secs n k v) := by
  refine inv_modify secs n _ h fun s hs _ => ?_
  have : (s.2.map fun o => if o.1 = k then (o.1, o.2 ++ [v]) else o).map Prod.fst = s.2.map Prod.fst := by
    rw [List.map_map]
    refine List.map_congr_left fun o _ => ?_
    by_cases ho : o.1 = k <;> simp [ho]
  rw [this]
  exact h.2 s hs

theorem inv_heading (lower : String → String) (st st' : St) (v : Line) (h : Inv st.secs) (hs : heading lower st v = .ok st') :
    Inv st'.secs := by
  unfold heading at hs
  split at hs
  · rename_i hd _
    split at hs
    · cases hs; exact h
    · split at hs
      · cases hs
      · rename_i hno
        cases hs
        refine ⟨?_, ?_⟩
        · rw [List.map_append, List.nodup_append]
          refine ⟨h.1, by simp, ?_⟩
          rintro a ha b hb rfl
          simp only [List.map_cons, List.map_nil, List.mem_singleton] at hb
          apply hno
          rw [List.contains_iff_mem]
          exact hb ▸ ha
        · intro s hs
          rcases List.mem_append.1 hs with hs | hs
          · exact h.2 s hs
          · simp only [List.mem_singleton] at hs
            subst hs
            simp
  · split at hs
    · cases hs
    · rename_i n _
      split at hs
      · cases hs
      · rename_i k x _
        split at hs
        · cases hs
        · split at hs
          · cases hs
          · rename_i hno
            cases hs
            dsimp only
            refine inv_modify _ _ _ h fun s hs hn => ?_
            rw [List.map_append, List.nodup_append]
            refine ⟨h.2 s hs, by simp, ?_⟩
            rintro a ha b hb rfl
            simp only [List.map_cons, List.map_nil, List.mem_singleton] at hb
            apply hno
            obtain ⟨o, ho, rfl⟩ := List.mem_map.1 ha
            unfold hasKey
            simp only [List.any_eq_true, Bool.and_eq_true, decide_eq_true_eq]
            exact ⟨s, hs, hn, o, ho, hb⟩

theorem inv_step (lower : String → String) (st st' : St) (l : Line) (h : Inv st.secs) (hs : step lower st l = .ok st') : Inv st'.secs := by
  unfold step at hs
  split at hs
  · split at hs
    · cases hs; exact inv_append _ _ _ _ h
    · cases hs; exact h
  · split at hs
    · cases hs; exact h
    · split at hs
      · cases hs; exact inv_append _ _ _ _ h
      · refine inv_heading lower _ st' _ ?_ hs
        exact h

theorem inv_parse (lower : String → String) (lines : List Line) : ∀ st st' : St, Inv st.secs → parse lower st lines = .ok st' → Inv st'.secs := by
  induction lines with
  | nil => intro st st' h hp; cases hp; exact h
  | cons l ls ih =>
    intro st st' h hp
    rw [parse] at hp
    split at hp
    · cases hp
    · rename_i s hs
      exact ih s st' (inv_step lower st s l h hs) hp

theorem dictGo_keys (lower : String → String) (raw os : List (String × Line)) : ∀ s, dictGo lower raw os = .ok s → s.map Prod.fst = os.map Prod.fst := by
  induction os with
  | nil => intro s h; cases h; rfl
  | cons a as ih =>
    intro s h
    obtain ⟨k, v⟩ := a
    simp only [dictGo, bind, Except.bind] at h
    split at h
    · cases h
    · split at h
      · cases h
      · rename_i x hx
        cases h
        simp [ih _ hx]

theorem rawDict_nodup (secs : List (String × List Opt)) (h : Inv secs) (n : String) : ((rawDict secs n).map Prod.fst).Nodup := by
  have hfind : ∀ m, (((((secs.find? (·.1 = m)).map (·.2)).getD []) : List Opt).map Prod.fst).Nodup := by
    intro m
    cases hf : secs.find? (·.1 = m) with
    | none => simp
    | some s => exact h.2 s (List.mem_of_find?_eq_some hf)
  unfold rawDict
  simp only
  generalize hown : (((secs.find? (·.1 = n)).map (·.2)).getD [] : List Opt) = own
  generalize hd : (((secs.find? (·.1 = "DEFAULT")).map (·.2)).getD [] : List Opt) = dflt
  have h1 : (own.map Prod.fst).Nodup := hown ▸ hfind n
  have h2 : (dflt.map Prod.fst).Nodup := hd ▸ hfind "DEFAULT"
  rw [List.map_map]
  have e : (Prod.fst ∘ fun o : Opt => (o.1, join o.2)) = Prod.fst := by funext o; rfl
  rw [e, List.map_append, List.nodup_append]
  refine ⟨h1, (List.filter_sublist.map Prod.fst).nodup h2, ?_⟩
  rintro a ha b hb rfl
  obtain ⟨o, ho, ho'⟩ := List.mem_map.1 ha
  obtain ⟨d, hd', hd''⟩ := List.mem_map.1 hb
  have := (List.mem_filter.1 hd').2
  simp only [Bool.not_eq_true', List.any_eq_false, decide_eq_true_eq] at this
  exact this o ho (ho'.trans hd''.symm)

theorem dicts_names (lower : String → String) (secs : List (String × List Opt)) (h : Inv secs) : ∀ ns : List String, ∀ f,
    dicts lower secs ns = .ok f → (f.map Prod.fst).Sublist ns ∧ ∀ n s, (n, s) ∈ f → (s.map Prod.fst).Nodup := by
  intro ns
  induction ns with
  | nil => intro f hf; cases hf; exact ⟨.slnil, by simp⟩
  | cons a as ih =>
    intro f hf
    rw [dicts] at hf
    split at hf
    · simp only [bind, Except.bind] at hf
      split at hf
      · cases hf
      · rename_i d hd
        split at hf
        · cases hf
        · rename_i ds hds
          cases hf
          obtain ⟨i1, i2⟩ := ih ds hds
          refine ⟨by simpa using i1.cons_cons a, ?_⟩
          intro n s hm
          rcases List.mem_cons.1 hm with e | hm
          · cases e
            unfold dict at hd
            rw [dictGo_keys lower _ _ _ hd]
            exact rawDict_nodup secs h a
          · exact i2 n s hm
    · obtain ⟨i1, i2⟩ := ih f hf
      exact ⟨i1.cons a, i2⟩

/-- C74 (well-formed): whatever the text of the file, if it can be read at all, what the program sees has no section twice and no key twice in a section,
and only sections it knows. This is what the theorems about the validation (C38) take for granted. -/
theorem C74_wellformed (lower : String → String) (lines : List Line) (f : Config.File) (h : load lower lines = .ok f) :
    Config.Spec.WellFormed f ∧ ∀ n s, (n, s) ∈ f → Known n := by
  unfold load at h
  split at h
  · cases h
  · rename_i st hst
    have hi : Inv st.secs := inv_parse lower lines St.init st ⟨by simp [St.init], by simp [St.init]⟩ hst
    obtain ⟨h1, h2⟩ := dicts_names lower st.secs hi sectionList f h
    refine ⟨⟨h1.nodup (by decide), h2⟩, ?_⟩
    intro n s hm
    exact (sectionList_known n).1 (h1.subset (List.mem_map.2 ⟨_, hm, rfl⟩))

end Sorcha.Ini.Props
