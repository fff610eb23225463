import Verif.Argv.Run

/-!
# Lemmas: arguments are read as `Spec.lean` says
-/

namespace Sorcha.Argv
open Spec (SaysIn MeansIn LetterIn allNamesOf Value)

variable {S D : Type}

/-- What the option of a setting does. -/
noncomputable def actOf (Switch : S → Prop) (dest : S → D) (s : S) : Act D := open Classical in if Switch s then .flag (dest s) else .value (dest s)

/-- The options are those of the settings and the help. -/
class Fits {D : Type} (T : Table D) {S : outParam Type} (names : outParam (List (String × S))) (Switch : outParam (S → Prop)) (dest : outParam (S → D)) : Prop where
  table : T = ("-h".toList, .help) :: ("--help".toList, .help) :: names.map fun e => (e.1.toList, actOf Switch dest e.2)
  inj : Function.Injective dest
  good : Good T
  dashes : classify T ['-', '-'] = .error .usage

variable {T : Table D} {names : List (String × S)} {Switch : S → Prop} {dest : S → D}

local notation "act" => actOf Switch dest
theorem act_switch {s : S} (h : Switch s) : act s = .flag (dest s) := if_pos h

theorem act_value {s : S} (h : ¬ Switch s) : act s = .value (dest s) := if_neg h

theorem act_takes (s : S) : (act s).takes = true ↔ ¬ Switch s := by
  by_cases h : Switch s
  · simp [act_switch h, h, Act.takes]
  · simp [act_value h, h, Act.takes]

theorem act_help (s : S) : act s ≠ .help := by
  by_cases h : Switch s
  · simp [act_switch h]
  · simp [act_value h]

/-- A setting as it is stored. -/
def storeOf (dest : S → D) (g : S × Str) : D × Str := (dest g.1, g.2)

local notation "store" => storeOf dest

theorem gives_switch {s : S} (h : Switch s) (v : Str) : gives (act s, v) = some (dest s, []) := by rw [act_switch h]; rfl

theorem gives_value {s : S} (h : ¬ Switch s) (v : Str) : gives (act s, v) = some (dest s, v) := by rw [act_value h]; rfl

theorem gives_switches {s : S} (h : Switch s) (v : Str) : [(act s, v)].filterMap gives = [(dest s, [])] := by
  rw [List.filterMap_cons, gives_switch h]; rfl

theorem gives_values {s : S} (h : ¬ Switch s) (v : Str) : [(act s, v)].filterMap gives = [(dest s, v)] := by
  rw [List.filterMap_cons, gives_value h]; rfl

theorem gives_flags (fs : List D) : (fs.map fun d => ((Act.flag d, []) : Act D × Str)).filterMap gives = fs.map fun d => (d, []) := by
  induction fs with
  | nil => rfl
  | cons d fs ih => simp only [List.map_cons, List.filterMap_cons, gives, ih]

theorem store_flags (ss : List S) : (ss.map dest).map (fun d => (d, ([] : Str))) = (ss.map fun s => (s, [])).map store := by
  simp [storeOf]

section fits
variable [F : Fits T names Switch dest]
include F

theorem run_good : Good T := F.good

theorem table_names : T = ("-h".toList, .help) :: ("--help".toList, .help) :: names.map fun e => (e.1.toList, act e.2) := F.table

theorem table_all : T.map Prod.fst = (allNamesOf names).map String.toList := by
  rw [F.table]; simp [allNamesOf]

theorem act_inj {s t : S} (h : act s = act t) : s = t := by
  refine F.inj ?_
  by_cases h1 : Switch s <;> by_cases h2 : Switch t
  · rw [act_switch h1, act_switch h2] at h; injection h
  · rw [act_switch h1, act_value h2] at h; cases h
  · rw [act_value h1, act_switch h2] at h; cases h
  · rw [act_value h1, act_value h2] at h; injection h

theorem mem_table {n : Str} {s : S} : (n, act s) ∈ T ↔ ∃ m, (m, s) ∈ names ∧ n = m.toList := by
  rw [table_names (T := T)]
  constructor
  · intro h
    rcases List.mem_cons.1 h with h | h
    · exact absurd (congrArg Prod.snd h) (act_help s)
    · rcases List.mem_cons.1 h with h | h
      · exact absurd (congrArg Prod.snd h) (act_help s)
      · obtain ⟨⟨m, s'⟩, hm, he⟩ := List.mem_map.1 h
        injection he with h1 h2
        rw [← act_inj (T := T) h2]
        exact ⟨m, hm, h1.symm⟩
  · rintro ⟨m, hm, rfl⟩
    exact List.mem_cons_of_mem _ (List.mem_cons_of_mem _ (List.mem_map.2 ⟨_, hm, rfl⟩))

theorem table_act {n : Str} {a : Act D} (h : (n, a) ∈ T) (ha : a ≠ .help) : ∃ s, a = act s := by
  rw [table_names (T := T)] at h
  rcases List.mem_cons.1 h with h | h
  · exact absurd (congrArg Prod.snd h) ha
  · rcases List.mem_cons.1 h with h | h
    · exact absurd (congrArg Prod.snd h) ha
    · obtain ⟨⟨m, s'⟩, hm, he⟩ := List.mem_map.1 h
      injection he with h1 h2
      exact ⟨s', h2.symm⟩

theorem denotes_iff {n : Str} {s : S} : Denotes T n (act s) ↔ MeansIn names n s := by
  constructor
  · rintro (h | ⟨_, h1, h2, m, hm, hp, hu⟩)
    · obtain ⟨m, hm, rfl⟩ := mem_table.1 (lookup_mem h)
      exact .inl ⟨m, hm, rfl⟩
    · obtain ⟨m, hm', rfl⟩ := mem_table.1 hm
      refine .inr ⟨m, hm', h1, h2, hp, fun m' hm' hp' => ?_⟩
      have : m'.toList ∈ T.map Prod.fst := by rw [table_all]; exact List.mem_map.2 ⟨m', hm', rfl⟩
      obtain ⟨e, he, heq⟩ := List.mem_map.1 this
      have := hu e he (by rw [heq]; exact hp')
      rw [heq] at this
      exact String.toList_injective this
  · rintro (⟨m, hm, rfl⟩ | ⟨m, hm, h1, h2, hp, hu⟩)
    · exact .inl (mem_lookup run_good.nodup (mem_table.2 ⟨m, hm, rfl⟩))
    · have hm' := (mem_table (T := T)).2 ⟨m, hm, rfl⟩
      have hu' : ∀ e ∈ T, n <+: e.1 → e.1 = m.toList := by
        intro e he hpe
        have : e.1 ∈ (allNamesOf names).map String.toList := by rw [← table_all (T := T)]; exact List.mem_map.2 ⟨e, he, rfl⟩
        obtain ⟨m', hm', heq⟩ := List.mem_map.1 this
        rw [← heq] at hpe ⊢
        rw [hu m' hm' hpe]
      cases hl : T.lookup n with
      | some a =>
        have := hu' _ (lookup_mem hl) (List.prefix_refl _)
        simp only at this
        left
        rw [this]
        exact mem_lookup run_good.nodup hm'
      | none => exact .inr ⟨hl, h1, h2, m.toList, hm', hp, hu'⟩

theorem letter_iff {c : Char} {s : S} : LetterIn names c s ↔ T.lookup ['-', c] = some (act s) := by
  constructor
  · intro h
    exact mem_lookup run_good.nodup (mem_table.2 ⟨_, h, by simp⟩)
  · intro h
    obtain ⟨m, hm, he⟩ := mem_table.1 (lookup_mem h)
    unfold LetterIn
    rw [he, String.ofList_toList]
    exact hm

theorem denotes_act {n : Str} {a : Act D} (h : Denotes T n a) (ha : a ≠ .help) : ∃ s, a = act s ∧ MeansIn names n s := by
  have : ∃ m, (m, a) ∈ T := by
    rcases h with h | ⟨_, _, _, m, hm, _⟩
    · exact ⟨n, lookup_mem h⟩
    · exact ⟨m, hm⟩
  obtain ⟨m, hm⟩ := this
  obtain ⟨s, rfl⟩ := table_act hm ha
  exact ⟨s, rfl, denotes_iff.1 h⟩

theorem letter_act {c : Char} {a : Act D} (h : T.lookup ['-', c] = some a) (ha : a ≠ .help) : ∃ s, a = act s ∧ LetterIn names c s := by
  obtain ⟨s, rfl⟩ := table_act (lookup_mem h) ha
  exact ⟨s, rfl, letter_iff.2 h⟩

theorem letter_value {c : Char} {d : D} (h : T.lookup ['-', c] = some (.value d)) : ∃ s, LetterIn names c s ∧ ¬ Switch s ∧ dest s = d := by
  obtain ⟨s, hs, hl⟩ := letter_act h (by simp)
  have hsw : ¬ Switch s := by rw [← act_takes, ← hs]; rfl
  rw [act_value hsw] at hs
  injection hs with hs
  exact ⟨s, hl, hsw, hs.symm⟩

theorem letter_flag {c : Char} {d : D} (h : T.lookup ['-', c] = some (.flag d)) : ∃ s, LetterIn names c s ∧ Switch s ∧ dest s = d := by
  obtain ⟨s, hs, hl⟩ := letter_act h (by simp)
  have hsw : Switch s := by
    by_contra hn
    rw [act_value hn] at hs
    cases hs
  rw [act_switch hsw] at hs
  injection hs with hs
  exact ⟨s, hl, hsw, hs.symm⟩

theorem flags_letters {cs : Str} {fs : List D} (h : Flags T cs fs) : ∃ ss, List.Forall₂ (LetterIn names) cs ss ∧ (∀ s ∈ ss, Switch s) ∧ fs = ss.map dest := by
  induction h with
  | nil => exact ⟨[], .nil, by simp, rfl⟩
  | cons hl _ ih =>
    obtain ⟨ss, h1, h2, h3⟩ := ih
    obtain ⟨s, hs, hsw, hd⟩ := letter_flag hl
    refine ⟨s :: ss, .cons hs h1, ?_, by rw [h3, ← hd]; rfl⟩
    intro s' hs'
    rcases List.mem_cons.1 hs' with rfl | hs'
    · exact hsw
    · exact h2 s' hs'

theorem letters_flags {cs : Str} {ss : List S} (h : List.Forall₂ (LetterIn names) cs ss) (hs : ∀ s ∈ ss, Switch s) : Flags T cs (ss.map dest) := by
  induction h with
  | nil => exact .nil
  | cons hl _ ih =>
    rename_i c s cs ss _
    refine .cons ?_ (ih fun s hs' => hs s (List.mem_cons_of_mem _ hs'))
    rw [letter_iff.1 hl, act_switch (hs s (by simp))]

/-! ## One argument -/

omit F in
theorem consume_ok {a : Act D} {short : Bool} {e : Option (Bool × Str)} {next : Option (Str × Kind D)} {acts : List (Act D × Str)} {used extra : Bool}
    (h : consume T a short e next = .ok (acts, used, extra)) : ∃ t, first T a short e = .ok t ∧ t.extra = extra ∧
      ((t.last = none ∧ acts = t.acts ∧ used = false) ∨
       (∃ a', t.last = some a' ∧ a'.takes = true ∧ ∃ v, next = some (v, .arg) ∧ acts = t.acts ++ [(a', v)] ∧ used = true) ∨
       (∃ a', t.last = some a' ∧ a'.takes = false ∧ acts = t.acts ++ [(a', [])] ∧ used = false)) := by
  unfold consume at h
  cases hf : first T a short e with
  | error x => rw [hf] at h; cases h
  | ok t =>
    rw [hf] at h
    simp only at h
    cases hl : t.last with
    | none =>
      rw [hl] at h
      simp only [Except.ok.injEq, Prod.mk.injEq] at h
      exact ⟨t, rfl, h.2.2, .inl ⟨hl, h.1.symm, h.2.1.symm⟩⟩
    | some a' =>
      rw [hl] at h
      simp only at h
      cases ht : a'.takes
      · rw [ht] at h
        simp only [Bool.false_eq_true, if_false, Except.ok.injEq, Prod.mk.injEq] at h
        exact ⟨t, rfl, h.2.2, .inr (.inr ⟨a', hl, ht, h.1.symm, h.2.1.symm⟩)⟩
      · rw [ht] at h
        simp only [if_true] at h
        split at h
        · rename_i v
          simp only [Except.ok.injEq, Prod.mk.injEq] at h
          exact ⟨t, rfl, h.2.2, .inr (.inl ⟨a', hl, ht, v, rfl, h.1.symm, h.2.1.symm⟩)⟩
        · cases h

theorem one_sound {s : Str} {a : Act D} {short : Bool} {e : Option (Bool × Str)} {next : Option (Str × Kind D)} {acts : List (Act D × Str)} {used : Bool}
    (hk : classify T s = .ok (.option a short e)) (hc : consume T a short e next = .ok (acts, used, false)) (hh : ∀ x ∈ acts, x.1 ≠ .help) :
    ∃ gs1, acts.filterMap gives = gs1.map store ∧
      ((used = false ∧ ∀ rest gs, SaysIn names Switch rest gs → SaysIn names Switch (s :: rest) (gs1 ++ gs)) ∨
       (used = true ∧ ∃ v, next = some (v, .arg) ∧ ∀ rest gs, Value (allNamesOf names) v → SaysIn names Switch rest gs → SaysIn names Switch (s :: v :: rest) (gs1 ++ gs))) := by
  obtain ⟨t, hf, hx, hacts⟩ := consume_ok hc
  rcases classify_option run_good hk with ⟨n, hn, _, ⟨rfl, rfl⟩ | ⟨v, rfl, rfl⟩⟩ | ⟨c, rest, rfl, hcd, hr, hq, hl, rfl, rfl⟩
  · simp only [first, Except.ok.injEq] at hf
    subst hf
    simp only [List.nil_append] at hacts
    rcases hacts with ⟨h, _⟩ | ⟨a', ha', ht, v, hv, rfl, rfl⟩ | ⟨a', ha', ht, rfl, rfl⟩
    · cases h
    · injection ha' with ha'
      subst ha'
      obtain ⟨st, rfl, hm⟩ := denotes_act hn (hh (a, v) (by simp))
      have hsw := (act_takes st).1 ht
      exact ⟨[(st, v)], by simp [gives_value hsw, storeOf], .inr ⟨rfl, v, hv, fun rest gs h1 h2 => .next hm hsw h1 h2⟩⟩
    · injection ha' with ha'
      subst ha'
      obtain ⟨st, rfl, hm⟩ := denotes_act hn (hh (a, []) (by simp))
      have hsw : Switch st := by
        by_contra hsw
        rw [(act_takes st).2 hsw] at ht
        cases ht
      exact ⟨[(st, [])], by simp [gives_switch hsw, storeOf], .inl ⟨rfl, fun rest gs h => .switch hm hsw h⟩⟩
  · simp only [first] at hf
    cases hta : a.takes
    · have hh' : ∀ y ∈ t.acts, y.1 ≠ .help := by
        intro y hy
        apply hh y
        rcases hacts with ⟨_, rfl, _⟩ | ⟨_, _, _, _, _, rfl, _⟩ | ⟨_, _, _, rfl, _⟩ <;> simp [hy]
      exact absurd (explicit_sound hta hf hx hh').2.1 (by simp)
    · rw [explicit_takes hta] at hf
      simp only [Except.ok.injEq] at hf
      subst hf
      rcases hacts with ⟨_, rfl, rfl⟩ | ⟨a', ha', _⟩ | ⟨a', ha', _⟩
      · obtain ⟨st, rfl, hm⟩ := denotes_act hn (hh (a, v) (by simp))
        have hsw := (act_takes st).1 hta
        exact ⟨[(st, v)], by simp [gives_value hsw, storeOf], .inl ⟨rfl, fun rest gs h => .equal hm hsw h⟩⟩
      · cases ha'
      · cases ha'
  · simp only [first] at hf
    cases hta : a.takes
    · have hh' : ∀ y ∈ t.acts, y.1 ≠ .help := by
        intro y hy
        apply hh y
        rcases hacts with ⟨_, rfl, _⟩ | ⟨_, _, _, _, _, rfl, _⟩ | ⟨_, _, _, rfl, _⟩ <;> simp [hy]
      obtain ⟨_, _, fs, tl, hrest, hta'⟩ := explicit_sound hta hf hx hh'
      have ha0 : a ≠ .help := hh' (a, []) (by rw [hta']; simp)
      obtain ⟨s0, rfl, hs0⟩ := letter_act hl ha0
      have hsw0 : Switch s0 := by
        by_contra hsw
        rw [(act_takes s0).2 hsw] at hta
        cases hta
      have mk : ∀ {cs : Str} {fs : List D}, Flags T cs fs → ∃ ss, List.Forall₂ (LetterIn names) (c :: cs) ss ∧ (∀ s ∈ ss, Switch s) ∧
          (((act s0, []) :: fs.map (fun d => (Act.flag d, [])) : List (Act D × Str)).filterMap gives = (ss.map fun s => (s, [])).map store) := by
        intro cs fs hfl
        obtain ⟨ss, h1, h2, rfl⟩ := flags_letters hfl
        refine ⟨s0 :: ss, .cons hs0 h1, ?_, ?_⟩
        · intro s' hs'
          rcases List.mem_cons.1 hs' with rfl | hs'
          · exact hsw0
          · exact h2 s' hs'
        · rw [List.filterMap_cons, gives_switch hsw0, gives_flags, store_flags]
          rfl
      generalize hlast : t.last = l at hrest hacts
      cases hrest with
      | eq hfl hv hxe =>
        rename_i cs c' d v
        obtain ⟨ss, h1, h2, h3⟩ := mk hfl
        obtain ⟨sv, hlv, hsv, rfl⟩ := letter_value hv
        rcases hacts with ⟨_, rfl, rfl⟩ | ⟨a', ha', _⟩ | ⟨a', ha', _⟩
        · refine ⟨ss.map (fun s => (s, [])) ++ [(sv, v)], ?_, .inl ⟨rfl, fun rest gs h => ?_⟩⟩
          · rw [hta', List.filterMap_append, h3, List.map_append]; rfl
          · rw [hxe, List.append_assoc]
            exact .lettersEqual h1 h2 hlv hsv h
        · cases ha'
        · cases ha'
      | glued hfl hv hv0 hvq hxe =>
        rename_i cs c' d v
        obtain ⟨ss, h1, h2, h3⟩ := mk hfl
        obtain ⟨sv, hlv, hsv, rfl⟩ := letter_value hv
        rcases hacts with ⟨_, rfl, rfl⟩ | ⟨a', ha', _⟩ | ⟨a', ha', _⟩
        · refine ⟨ss.map (fun s => (s, [])) ++ [(sv, v)], ?_, .inl ⟨rfl, fun rest gs h => ?_⟩⟩
          · rw [hta', List.filterMap_append, h3, List.map_append]; rfl
          · rw [hxe, List.append_assoc]
            exact .lettersGlued h1 h2 hlv hsv hv0 hvq h
        · cases ha'
        · cases ha'
      | last hfl hv hxe =>
        rename_i cs c' al
        obtain ⟨ss, h1, h2, h3⟩ := mk hfl
        rcases hacts with ⟨h, _⟩ | ⟨a', ha', ht, v, hnv, rfl, rfl⟩ | ⟨a', ha', ht, rfl, rfl⟩
        · cases h
        · injection ha' with ha'
          subst ha'
          obtain ⟨d, rfl⟩ := takes_value ht
          obtain ⟨sv, hlv, hsv, rfl⟩ := letter_value hv
          refine ⟨ss.map (fun s => (s, [])) ++ [(sv, v)], ?_, .inr ⟨rfl, v, hnv, fun rest gs h h' => ?_⟩⟩
          · rw [hta', List.append_nil, List.filterMap_append, h3, List.map_append]; rfl
          · rw [hxe, List.append_assoc]
            exact .lettersNext h1 h2 hlv hsv h h'
        · injection ha' with ha'
          subst ha'
          obtain ⟨sl, rfl, hll⟩ := letter_act hv (hh (al, []) (by simp))
          have hsl : Switch sl := by
            by_contra hsw
            rw [(act_takes sl).2 hsw] at ht
            cases ht
          refine ⟨(ss ++ [sl]).map (fun s => (s, [])), ?_, .inl ⟨rfl, fun rest gs h => ?_⟩⟩
          · rw [hta', List.append_nil, List.filterMap_append, h3, List.map_append, List.map_append]
            simp [gives_switch hsl, storeOf]
          · rw [hxe]
            refine .letters (cs := c :: cs ++ [c']) ?_ ?_ (by simp) h
            · exact List.rel_append h1 (.cons hll .nil)
            · intro s' hs'
              rcases List.mem_append.1 hs' with hs' | hs'
              · exact h2 s' hs'
              · simp at hs'; rw [hs']; exact hsl
    · rw [explicit_takes hta] at hf
      simp only [Except.ok.injEq] at hf
      subst hf
      rcases hacts with ⟨_, rfl, rfl⟩ | ⟨a', ha', _⟩ | ⟨a', ha', _⟩
      · obtain ⟨st, rfl, hm⟩ := letter_act hl (hh (a, rest) (by simp))
        have hsw := (act_takes st).1 hta
        exact ⟨[(st, rest)], by simp [gives_value hsw, storeOf], .inl ⟨rfl, fun rest' gs h => .lettersGlued (cs := []) (ss := []) .nil (by simp) hm hsw hr hq h⟩⟩
      · cases ha'
      · cases ha'

/-! ## All arguments -/

theorem go_sound {argv : List Str} {ks : List (Str × Kind D)} {st st' : St D} (hk : kinds T argv = .ok ks) (hg : go T ks st = .ok st')
    (he : st'.extras = false) : ∃ gs, SaysIn names Switch argv gs ∧ st' = ⟨st.given ++ gs.map store, false⟩ := by
  induction hn : argv.length using Nat.strong_induction_on generalizing argv ks st with
  | _ n ih =>
    match argv with
    | [] =>
      simp only [kinds, Except.ok.injEq] at hk
      subst hk
      simp only [go, Except.ok.injEq] at hg
      subst hg
      exact ⟨[], .nil, by cases st; simp_all⟩
    | s :: rest =>
      simp only [kinds] at hk
      have dead : ∀ {ks' : List (Str × Kind D)} {st1 : St D}, go T ks' { st1 with extras := true } = .ok st' → False := by
        intro ks' st1 h
        rw [go_extras h rfl] at he
        cases he
      split at hk
      · simp only [Except.ok.injEq] at hk
        subst hk
        simp only [go] at hg
        exact (dead hg).elim
      · cases hcl : classify T s with
        | error x => rw [hcl] at hk; cases hk
        | ok k =>
          rw [hcl] at hk
          simp only at hk
          cases hkr : kinds T rest with
          | error x => rw [hkr] at hk; cases hk
          | ok kr =>
            rw [hkr] at hk
            simp only [Except.ok.injEq] at hk
            subst hk
            cases k with
            | arg => simp only [go] at hg; exact (dead hg).elim
            | dashes => simp only [go] at hg; exact (dead hg).elim
            | unknown => simp only [go] at hg; exact (dead hg).elim
            | option a short e =>
              simp only [go] at hg
              split at hg
              · cases hg
              · rename_i acts used extra hco
                split at hg
                · cases hg
                · rename_i st1 hp
                  obtain ⟨hh, hst1⟩ := perform_ok.1 hp
                  have hex : st.extras = false ∧ extra = false := by
                    by_contra hcon
                    have h1 : st1.extras = true := by
                      rw [hst1]
                      simp only [Bool.or_eq_true]
                      by_contra h2
                      push Not at h2
                      simp only [Bool.not_eq_true] at h2
                      exact hcon h2
                    have : st'.extras = true := by
                      split at hg
                      · split at hg
                        · cases hg
                        · exact go_extras hg h1
                      · exact go_extras hg h1
                    rw [this] at he
                    cases he
                  obtain ⟨hex1, rfl⟩ := hex
                  obtain ⟨gs1, hgs, ⟨rfl, hsay⟩ | ⟨rfl, v, hv, hsay⟩⟩ := one_sound hcl hco hh
                  · simp only [Bool.false_eq_true, if_false] at hg
                    obtain ⟨gs, hs, rfl⟩ := ih rest.length (by rw [← hn]; simp) hkr hg rfl
                    refine ⟨gs1 ++ gs, hsay rest gs hs, ?_⟩
                    rw [hst1, hgs]; simp
                  · simp only [if_true] at hg
                    cases kr with
                    | nil => cases hg
                    | cons y kr =>
                      simp only [List.head?_cons, Option.some.injEq] at hv
                      subst hv
                      simp only at hg
                      -- the next argument is the value
                      cases rest with
                      | nil => simp [kinds] at hkr
                      | cons r rest =>
                        simp only [kinds] at hkr
                        split at hkr
                        · simp at hkr
                        · cases hcr : classify T r with
                          | error x => rw [hcr] at hkr; cases hkr
                          | ok k =>
                            rw [hcr] at hkr
                            simp only at hkr
                            cases hkr' : kinds T rest with
                            | error x => rw [hkr'] at hkr; cases hkr
                            | ok kr' =>
                              rw [hkr'] at hkr
                              simp only [Except.ok.injEq, List.cons.injEq, Prod.mk.injEq] at hkr
                              obtain ⟨⟨rfl, rfl⟩, rfl⟩ := hkr
                              obtain ⟨gs, hs, rfl⟩ := ih rest.length (by rw [← hn]; simp only [List.length_cons]; omega) hkr' hg rfl
                              refine ⟨gs1 ++ gs, hsay rest gs ((value_iff run_good table_all).2 hcr) hs, ?_⟩
                              rw [hst1, hgs]; simp

theorem dashes_usage : classify T ['-', '-'] = .error .usage := F.dashes

theorem kinds_cons {s : Str} {k : Kind D} {rest : List Str} {ks : List (Str × Kind D)} (h1 : classify T s = .ok k) (h2 : kinds T rest = .ok ks) :
    kinds T (s :: rest) = .ok ((s, k) :: ks) := by
  have : s ≠ ['-', '-'] := by
    rintro rfl
    rw [dashes_usage] at h1
    cases h1
  simp only [kinds, this, if_false, h1, h2]

omit F in
theorem go_one {s : Str} {a : Act D} {short : Bool} {e : Option (Bool × Str)} {ks : List (Str × Kind D)} {acts : List (Act D × Str)} {gs1 gs : List (S × Str)}
    (hc : consume T a short e ks.head? = .ok (acts, false, false)) (hh : ∀ x ∈ acts, x.1 ≠ .help) (hgs : acts.filterMap gives = gs1.map store)
    (h : ∀ st, go T ks st = .ok ⟨st.given ++ gs.map store, st.extras⟩) (st : St D) :
    go T ((s, .option a short e) :: ks) st = .ok ⟨st.given ++ (gs1 ++ gs).map store, st.extras⟩ := by
  simp only [go, hc]
  rw [perform_ok.2 ⟨hh, rfl⟩]
  simp only [Bool.false_eq_true, if_false, h, hgs, Bool.or_false, List.map_append, List.append_assoc]

omit F in
theorem go_two {s v : Str} {a : Act D} {short : Bool} {e : Option (Bool × Str)} {ks : List (Str × Kind D)} {acts : List (Act D × Str)} {gs1 gs : List (S × Str)}
    (hc : consume T a short e (some (v, .arg)) = .ok (acts, true, false)) (hh : ∀ x ∈ acts, x.1 ≠ .help) (hgs : acts.filterMap gives = gs1.map store)
    (h : ∀ st, go T ks st = .ok ⟨st.given ++ gs.map store, st.extras⟩) (st : St D) :
    go T ((s, .option a short e) :: (v, .arg) :: ks) st = .ok ⟨st.given ++ (gs1 ++ gs).map store, st.extras⟩ := by
  simp only [go, List.head?_cons, hc]
  rw [perform_ok.2 ⟨hh, rfl⟩]
  simp only [if_true, h, hgs, Bool.or_false, List.map_append, List.append_assoc]

/-- Letters that are all switches. -/
theorem rest_last {cs : Str} {ss : List S} (h : List.Forall₂ (LetterIn names) cs ss) (hs : ∀ s ∈ ss, Switch s) (hne : cs ≠ []) :
    ∃ ss0 sl, ss = ss0 ++ [sl] ∧ Switch sl ∧ Rest T cs (ss0.map dest) [] (some (act sl)) := by
  induction h with
  | nil => exact absurd rfl hne
  | cons hl h ih =>
    rename_i c s cs ss
    cases h with
    | nil => exact ⟨[], s, rfl, hs s (by simp), .last .nil (letter_iff.1 hl) rfl⟩
    | cons hl' h' =>
      obtain ⟨ss0, sl, he, hsl, hr⟩ := ih (fun s hs' => hs s (List.mem_cons_of_mem _ hs')) (by simp)
      refine ⟨s :: ss0, sl, by rw [he]; rfl, hsl, ?_⟩
      refine hr.cons ?_
      rw [letter_iff.1 hl, act_switch (hs s (by simp))]

theorem letters_head {cs : Str} {ss : List S} (h : List.Forall₂ (LetterIn names) cs ss) {tail : Str} (ht : tail.head? ≠ some '=') : (cs ++ tail).head? ≠ some '=' := by
  cases h with
  | nil => simpa using ht
  | cons hl _ => simpa using (letter_ne (T := T) run_good (letter_iff.1 hl)).2

theorem letter_name {c : Char} {s : S} (h : LetterIn names c s) : Denotes T ['-', c] (act s) := .inl (letter_iff.1 h)

omit F in
theorem flags_help (fs : List D) : ∀ x ∈ (fs.map fun d => ((Act.flag d, []) : Act D × Str)), x.1 ≠ .help := by
  intro x hx
  obtain ⟨d, _, rfl⟩ := List.mem_map.1 hx
  simp

theorem go_complete {argv : List Str} {gs : List (S × Str)} (h : SaysIn names Switch argv gs) :
    ∃ ks, kinds T argv = .ok ks ∧ ∀ st, go T ks st = .ok ⟨st.given ++ gs.map store, st.extras⟩ := by
  induction h with
  | nil => exact ⟨[], rfl, fun st => by simp [go]⟩
  | switch hm hsw _ ih =>
    obtain ⟨ks, hk, hg⟩ := ih
    refine ⟨_, kinds_cons ((classify_option_of run_good (denotes_iff.2 hm)).1 rfl) hk, ?_⟩
    rw [act_switch hsw]
    exact go_one (gs1 := [(_, [])]) rfl (by simp) rfl hg
  | next hm hsw hv _ ih =>
    obtain ⟨ks, hk, hg⟩ := ih
    refine ⟨_, kinds_cons ((classify_option_of run_good (denotes_iff.2 hm)).1 rfl) (kinds_cons ((value_iff run_good table_all).1 hv) hk), ?_⟩
    rw [act_value hsw]
    exact go_two (gs1 := [(_, _)]) rfl (by simp) rfl hg
  | equal hm hsw _ ih =>
    obtain ⟨ks, hk, hg⟩ := ih
    refine ⟨_, kinds_cons ((classify_option_of run_good (denotes_iff.2 hm)).2 _ rfl) hk, ?_⟩
    rw [act_value hsw]
    refine go_one (gs1 := [(_, _)]) (acts := [(.value _, _)]) ?_ (by simp) rfl hg
    simp only [consume, first, explicit_takes (T := T) (a := .value _) rfl]
  | letters hl hs hne _ ih =>
    rename_i cs ss rest gs _
    obtain ⟨ks, hk, hg⟩ := ih
    cases hl with
    | nil => exact absurd rfl hne
    | cons hl0 hl =>
      rename_i c s0 cs ss
      have hs0 := hs s0 (by simp)
      cases cs with
      | nil =>
        cases hl
        refine ⟨_, kinds_cons ((classify_option_of run_good (letter_name hl0)).1 rfl) hk, ?_⟩
        rw [act_switch hs0]
        exact go_one (gs1 := [(_, [])]) rfl (by simp) rfl hg
      | cons c1 cs =>
        obtain ⟨ss0, sl, rfl, hsl, hr⟩ := rest_last (T := T) hl (fun s hs' => hs s (List.mem_cons_of_mem _ hs')) (by simp)
        have hq := letters_head (T := T) hl (tail := []) (by simp)
        rw [List.append_nil] at hq
        refine ⟨_, kinds_cons (classify_letter_of run_good (by simp) hq (letter_iff.1 hl0)) hk, ?_⟩
        rw [act_switch hs0]
        refine go_one (gs1 := (s0 :: (ss0 ++ [sl])).map fun s => (s, [])) (acts := (.flag (dest s0), []) :: ((ss0.map dest).map fun d => (.flag d, [])) ++ [(act sl, [])]) ?_ ?_ ?_ hg
        · simp only [consume, first, explicit_complete run_good hr, act_switch hsl, Act.takes, List.append_nil]
          rfl
        · intro x hx
          simp only [List.cons_append, List.mem_cons, List.mem_append, List.not_mem_nil, or_false] at hx
          rcases hx with rfl | hx | rfl
          · simp
          · exact flags_help _ x hx
          · exact act_help sl
        · rw [List.cons_append, List.filterMap_cons, List.filterMap_append, gives_flags, store_flags]
          simp [gives, gives_switches hsl, storeOf]
  | lettersNext hl hs hc hsw hv _ ih =>
    rename_i cs ss c s v rest gs _
    obtain ⟨ks, hk, hg⟩ := ih
    have hkv := kinds_cons ((value_iff run_good table_all).1 hv) hk
    cases hl with
    | nil =>
      refine ⟨_, kinds_cons ((classify_option_of run_good (letter_name hc)).1 rfl) hkv, ?_⟩
      rw [act_value hsw]
      exact go_two (gs1 := [(_, _)]) rfl (by simp) rfl hg
    | cons hl0 hl =>
      rename_i c0 s0 cs ss
      have hs0 := hs s0 (by simp)
      have hr : Rest T (cs ++ [c]) (ss.map dest) [] (some (act s)) :=
        .last (letters_flags hl fun s hs' => hs s (List.mem_cons_of_mem _ hs')) (letter_iff.1 hc) rfl
      refine ⟨_, kinds_cons (classify_letter_of run_good (by simp) (letters_head (T := T) hl (by simpa using (letter_ne (T := T) run_good (letter_iff.1 hc)).2)) (letter_iff.1 hl0)) hkv, ?_⟩
      rw [act_switch hs0]
      have := go_two (s := '-' :: c0 :: (cs ++ [c])) (v := v) (short := true) (e := some (false, cs ++ [c])) (gs1 := (s0 :: ss).map (fun s => (s, [])) ++ [(s, v)])
        (acts := (.flag (dest s0), []) :: ((ss.map dest).map fun d => (.flag d, [])) ++ [(act s, v)]) (a := .flag (dest s0)) ?_ ?_ ?_ hg
      · simpa using this
      · simp only [consume, first, explicit_complete run_good hr, act_value hsw, Act.takes, List.append_nil]
        rfl
      · intro x hx
        simp only [List.cons_append, List.mem_cons, List.mem_append, List.not_mem_nil, or_false] at hx
        rcases hx with rfl | hx | rfl
        · simp
        · exact flags_help _ x hx
        · exact act_help s
      · rw [List.cons_append, List.filterMap_cons, List.filterMap_append, gives_flags, store_flags]
        simp [gives, gives_values hsw, storeOf]
  | lettersEqual hl hs hc hsw _ ih =>
    rename_i cs ss c s v rest gs _
    obtain ⟨ks, hk, hg⟩ := ih
    cases hl with
    | nil =>
      refine ⟨_, kinds_cons ((classify_option_of run_good (letter_name hc)).2 v rfl) hk, ?_⟩
      rw [act_value hsw]
      refine go_one (gs1 := [(_, _)]) (acts := [(.value _, _)]) ?_ (by simp) rfl hg
      simp only [consume, first, explicit_takes (T := T) (a := .value _) rfl]
    | cons hl0 hl =>
      rename_i c0 s0 cs ss
      have hs0 := hs s0 (by simp)
      have hr : Rest T (cs ++ c :: '=' :: v) (ss.map dest) [(.value (dest s), v)] none :=
        .eq (letters_flags hl fun s hs' => hs s (List.mem_cons_of_mem _ hs')) (by rw [letter_iff.1 hc, act_value hsw]) rfl
      refine ⟨_, kinds_cons (classify_letter_of run_good (by simp) (letters_head (T := T) hl (by simpa using (letter_ne (T := T) run_good (letter_iff.1 hc)).2)) (letter_iff.1 hl0)) hk, ?_⟩
      rw [act_switch hs0]
      have := go_one (s := '-' :: c0 :: (cs ++ c :: '=' :: v)) (short := true) (e := some (false, cs ++ c :: '=' :: v)) (gs1 := (s0 :: ss).map (fun s => (s, [])) ++ [(s, v)])
        (acts := (.flag (dest s0), []) :: ((ss.map dest).map fun d => (.flag d, [])) ++ [(.value (dest s), v)]) (a := .flag (dest s0)) ?_ ?_ ?_ hg
      · simpa using this
      · simp only [consume, first, explicit_complete run_good hr]
      · intro x hx
        simp only [List.cons_append, List.mem_cons, List.mem_append, List.not_mem_nil, or_false] at hx
        rcases hx with rfl | hx | rfl
        · simp
        · exact flags_help _ x hx
        · simp
      · rw [List.cons_append, List.filterMap_cons, List.filterMap_append, gives_flags, store_flags]
        simp [gives, storeOf]
  | lettersGlued hl hs hc hsw hv0 hvq _ ih =>
    rename_i cs ss c s v rest gs _
    obtain ⟨ks, hk, hg⟩ := ih
    cases hl with
    | nil =>
      refine ⟨_, kinds_cons (classify_letter_of run_good hv0 hvq (letter_iff.1 hc)) hk, ?_⟩
      rw [act_value hsw]
      refine go_one (gs1 := [(_, _)]) (acts := [(.value _, _)]) ?_ (by simp) rfl hg
      simp only [consume, first, explicit_takes (T := T) (a := .value _) rfl]
    | cons hl0 hl =>
      rename_i c0 s0 cs ss
      have hs0 := hs s0 (by simp)
      have hr : Rest T (cs ++ c :: v) (ss.map dest) [(.value (dest s), v)] none :=
        .glued (letters_flags hl fun s hs' => hs s (List.mem_cons_of_mem _ hs')) (by rw [letter_iff.1 hc, act_value hsw]) hv0 hvq rfl
      refine ⟨_, kinds_cons (classify_letter_of run_good (by simp) (letters_head (T := T) hl (by simpa using (letter_ne (T := T) run_good (letter_iff.1 hc)).2)) (letter_iff.1 hl0)) hk, ?_⟩
      rw [act_switch hs0]
      have := go_one (s := '-' :: c0 :: (cs ++ c :: v)) (short := true) (e := some (false, cs ++ c :: v)) (gs1 := (s0 :: ss).map (fun s => (s, [])) ++ [(s, v)])
        (acts := (.flag (dest s0), []) :: ((ss.map dest).map fun d => (.flag d, [])) ++ [(.value (dest s), v)]) (a := .flag (dest s0)) ?_ ?_ ?_ hg
      · simpa using this
      · simp only [consume, first, explicit_complete run_good hr]
      · intro x hx
        simp only [List.cons_append, List.mem_cons, List.mem_append, List.not_mem_nil, or_false] at hx
        rcases hx with rfl | hx | rfl
        · simp
        · exact flags_help _ x hx
        · simp
      · rw [List.cons_append, List.filterMap_cons, List.filterMap_append, gives_flags, store_flags]
        simp [gives, storeOf]

end fits

end Sorcha.Argv
