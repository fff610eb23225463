import Verif.Argv.Read

/-!
# Lemmas: the loop of the parser over the arguments of `sorcha run`
-/

namespace Sorcha.Argv
open Spec

variable {D : Type} {T : Table D}

/-- What an action stores. -/
def gives : Act D × Str → Option (D × Str)
  | (.help, _) => none
  | (.value d, v) => some (d, v)
  | (.flag d, _) => some (d, [])

theorem perform_ok {acts : List (Act D × Str)} {st st' : St D} :
    perform acts st = .ok st' ↔ (∀ x ∈ acts, x.1 ≠ .help) ∧ st' = ⟨st.given ++ acts.filterMap gives, st.extras⟩ := by
  induction acts generalizing st with
  | nil =>
    simp only [perform, Except.ok.injEq, List.not_mem_nil, false_imp_iff, implies_true, List.filterMap_nil, List.append_nil, true_and]
    exact eq_comm
  | cons x acts ih =>
    obtain ⟨a, v⟩ := x
    cases a with
    | help => simp [perform]
    | value d => simp [perform, ih, gives]
    | flag d => simp [perform, ih, gives]

theorem go_extras {ks : List (Str × Kind D)} {st st' : St D} (h : go T ks st = .ok st') (he : st.extras = true) : st'.extras = true := by
  induction hn : ks.length using Nat.strong_induction_on generalizing ks st with
  | _ n ih =>
    match ks with
    | [] => simp only [go, Except.ok.injEq] at h; rw [← h]; exact he
    | (s, k) :: rest =>
      have step : ∀ st1 : St D, st1.extras = true → go T rest st1 = .ok st' → st'.extras = true := fun st1 h1 h2 => ih rest.length (by rw [← hn]; simp) h2 h1 rfl
      cases k with
      | arg => simp only [go] at h; exact step _ rfl h
      | dashes => simp only [go] at h; exact step _ rfl h
      | unknown => simp only [go] at h; exact step _ rfl h
      | option a short e =>
        simp only [go] at h
        split at h
        · cases h
        · split at h
          · cases h
          · rename_i st1 hp
            have h1 : st1.extras = true := by rw [(perform_ok.1 hp).2]; simp [he]
            split at h
            · cases rest with
              | nil => cases h
              | cons r rest' => exact ih rest'.length (by rw [← hn]; simp only [List.length_cons]; omega) h h1 rfl
            · exact step _ h1 h

/-! ## The letters -/

theorem explicit_takes {a : Act D} (h : a.takes = true) (short sep : Bool) (x : Str) : explicitArg T a short sep x = .ok ⟨[(a, x)], none, false⟩ := by
  unfold explicitArg
  simp [h]

/-- The letters that are switches. -/
def Flags (T : Table D) : Str → List D → Prop := List.Forall₂ fun c d => T.lookup ['-', c] = some (.flag d)

/-- The ways in which the letters behind a switch can be read. -/
inductive Rest (T : Table D) (x : Str) : List D → List (Act D × Str) → Option (Act D) → Prop
  | eq {cs fs c d v} : Flags T cs fs → T.lookup ['-', c] = some (.value d) → x = cs ++ c :: '=' :: v → Rest T x fs [(.value d, v)] none
  | glued {cs fs c d v} : Flags T cs fs → T.lookup ['-', c] = some (.value d) → v ≠ [] → v.head? ≠ some '=' → x = cs ++ c :: v → Rest T x fs [(.value d, v)] none
  | last {cs fs c a} : Flags T cs fs → T.lookup ['-', c] = some a → x = cs ++ [c] → Rest T x fs [] (some a)

theorem Rest.cons {c : Char} {d : D} {x : Str} {fs : List D} {tl : List (Act D × Str)} {l : Option (Act D)} (hl : T.lookup ['-', c] = some (.flag d))
    (h : Rest T x fs tl l) : Rest T (c :: x) (d :: fs) tl l := by
  cases h with
  | eq h1 h2 h3 => exact .eq (.cons hl h1) h2 (by rw [h3]; rfl)
  | glued h1 h2 h3 h4 h5 => exact .glued (.cons hl h1) h2 h3 h4 (by rw [h5]; rfl)
  | last h1 h2 h3 => exact .last (.cons hl h1) h2 (by rw [h3]; rfl)

theorem takes_value {a : Act D} (h : a.takes = true) : ∃ d, a = .value d := by cases a <;> simp [Act.takes] at h ⊢

theorem explicit_sound {a : Act D} {short sep : Bool} {x : Str} {t : Taken D} (ha : a.takes = false) (h : explicitArg T a short sep x = .ok t) (he : t.extra = false)
    (hh : ∀ y ∈ t.acts, y.1 ≠ .help) :
    short = true ∧ sep = false ∧ ∃ fs tl, Rest T x fs tl t.last ∧ t.acts = (a, []) :: fs.map (fun d => (.flag d, [])) ++ tl := by
  induction hn : x.length using Nat.strong_induction_on generalizing a short sep x t with
  | _ n ih =>
    unfold explicitArg at h
    simp only [ha, Bool.false_eq_true, if_false] at h
    cases x with
    | nil => cases h
    | cons c cs =>
      simp only at h
      cases short
      · simp at h
      cases sep
      swap
      · simp at h
      refine ⟨rfl, rfl, ?_⟩
      simp only [Bool.not_true, Bool.false_eq_true, if_false, Bool.false_or, decide_eq_true_eq] at h
      split at h
      · cases h
      cases hl : T.lookup ['-', c] with
      | none => rw [hl] at h; simp only [Except.ok.injEq] at h; rw [← h] at he; cases he
      | some a' =>
        rw [hl] at h
        simp only at h
        split at h
        · simp only [Except.ok.injEq] at h
          subst h
          exact ⟨[], [], .last .nil hl rfl, rfl⟩
        · rename_i v
          cases h' : explicitArg T a' true true v with
          | error e => rw [h'] at h; cases h
          | ok t' =>
            rw [h'] at h
            simp only [Except.map, Except.ok.injEq] at h
            subst h
            cases hta : a'.takes
            · have := ih v.length (by rw [← hn]; simp only [List.length_cons]; omega) hta h' he (fun y hy => hh y (List.mem_cons_of_mem _ hy)) rfl
              cases this.2.1
            · obtain ⟨d, rfl⟩ := takes_value hta
              rw [explicit_takes hta] at h'
              simp only [Except.ok.injEq] at h'
              subst h'
              exact ⟨[], [(.value d, v)], .eq .nil hl rfl, rfl⟩
        · rename_i c' v hc'
          cases h' : explicitArg T a' true false (c' :: v) with
          | error e => rw [h'] at h; cases h
          | ok t' =>
            rw [h'] at h
            simp only [Except.map, Except.ok.injEq] at h
            subst h
            cases hta : a'.takes
            · obtain ⟨_, _, fs, tl, hr, hacts⟩ := ih (c' :: v).length (by rw [← hn]; simp) hta h' he (fun y hy => hh y (List.mem_cons_of_mem _ hy)) rfl
              simp only at hh
              have hne : a' ≠ .help := by
                have := hh (a', []) (List.mem_cons_of_mem _ (by rw [hacts]; simp))
                exact this
              obtain ⟨d, rfl⟩ : ∃ d, a' = .flag d := by cases a' <;> simp [Act.takes] at hta hne ⊢
              exact ⟨d :: fs, tl, hr.cons hl, by simp only [hacts]; rfl⟩
            · obtain ⟨d, rfl⟩ := takes_value hta
              rw [explicit_takes hta] at h'
              simp only [Except.ok.injEq] at h'
              subst h'
              refine ⟨[], [(.value d, c' :: v)], .glued .nil hl (by simp) ?_ rfl, rfl⟩
              intro hq
              simp at hq
              exact hc' hq

theorem letter_ne (hT : Good T) {c : Char} {a : Act D} (h : T.lookup ['-', c] = some a) : c ≠ '-' ∧ c ≠ '=' := by
  have hm := lookup_mem h
  constructor
  · rintro rfl
    rcases hT.form _ hm with ⟨c, hc, h'⟩ | ⟨r, hr, h'⟩
    · simp at h'; exact hc h'.symm
    · simp at h'; exact hr h'
  · rintro rfl
    exact hT.noEq _ hm (by simp)

theorem explicit_complete (hT : Good T) {d : D} {x : Str} {fs : List D} {tl : List (Act D × Str)} {l : Option (Act D)} (h : Rest T x fs tl l) :
    explicitArg T (.flag d) true false x = .ok ⟨(.flag d, []) :: fs.map (fun d => (.flag d, [])) ++ tl, l, false⟩ := by
  -- one letter
  have stepFlag : ∀ (d d' : D) (c : Char) (y : Str), T.lookup ['-', c] = some (.flag d') → y ≠ [] → y.head? ≠ some '=' →
      explicitArg T (.flag d) true false (c :: y) = (explicitArg T (.flag d') true false y).map fun t => { t with acts := (.flag d, []) :: t.acts } := by
    intro d d' c y hl hy hq
    have hc := (letter_ne hT hl).1
    rw [explicitArg]
    simp only [Act.takes, Bool.false_eq_true, if_false, Bool.not_true, Bool.false_or, decide_eq_true_eq, hc, hl]
    split
    · exact absurd rfl hy
    · exact absurd rfl hq
    · rfl
  have key : ∀ (cs : Str) (fs : List D), Flags T cs fs → ∀ (d : D) (tail : Str) (tl : List (Act D × Str)) (l : Option (Act D)), tail ≠ [] → tail.head? ≠ some '=' →
      (∀ d, explicitArg T (.flag d) true false tail = .ok ⟨(.flag d, []) :: tl, l, false⟩) →
      explicitArg T (.flag d) true false (cs ++ tail) = .ok ⟨(.flag d, []) :: fs.map (fun d => (.flag d, [])) ++ tl, l, false⟩ := by
    intro cs fs hf
    induction hf with
    | nil => intro d tail tl l _ _ h; simpa using h d
    | cons hl hf ih =>
      rename_i c d' cs fs
      intro d tail tl l h1 h2 h
      rw [List.cons_append, stepFlag d d' c (cs ++ tail) hl (by simp [h1]) ?_, ih d' tail tl l h1 h2 h]
      · rfl
      · cases hf with
        | nil => simpa using h2
        | cons hl' _ => simpa using (letter_ne hT hl').2
  cases h with
  | eq hf hl hx =>
    rename_i cs c d' v
    have hc := letter_ne hT hl
    subst hx
    refine key _ _ hf d _ _ _ (by simp) (by simpa using hc.2) fun d => ?_
    rw [explicitArg]
    simp only [Act.takes, Bool.false_eq_true, if_false, Bool.not_true, Bool.false_or, decide_eq_true_eq, hc.1, hl]
    rw [explicit_takes rfl]
    rfl
  | glued hf hl hv hq hx =>
    rename_i cs c d' v
    have hc := letter_ne hT hl
    subst hx
    refine key _ _ hf d _ _ _ (by simp) (by simpa using hc.2) fun d => ?_
    rw [explicitArg]
    simp only [Act.takes, Bool.false_eq_true, if_false, Bool.not_true, Bool.false_or, decide_eq_true_eq, hc.1, hl]
    split
    · exact absurd rfl hv
    · exact absurd rfl hq
    · rw [explicit_takes rfl]; rfl
  | last hf hl hx =>
    rename_i cs c a
    have hc := letter_ne hT hl
    subst hx
    refine key _ _ hf d _ _ _ (by simp) (by simpa using hc.2) fun d => ?_
    rw [explicitArg]
    simp only [Act.takes, Bool.false_eq_true, if_false, Bool.not_true, Bool.false_or, decide_eq_true_eq, hc.1, hl]

end Sorcha.Argv
