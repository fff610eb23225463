import Verif.Argv.Read
import Verif.Argv.Run
import Verif.Argv.SpecMain

/-!
# Lemmas: the dispatcher
-/

namespace Sorcha.Argv
open Spec

theorem main_good : Good mainTable := by
  refine ⟨?_, ?_, ?_⟩
  · intro e he
    simp only [mainTable, List.mem_cons, List.not_mem_nil, or_false] at he
    rcases he with rfl | rfl | rfl
    · exact .inl ⟨'h', by decide, rfl⟩
    · exact .inr ⟨"help".toList, by decide, rfl⟩
    · exact .inr ⟨"version".toList, by decide, rfl⟩
  · intro e he
    have : ∀ n ∈ mainTable.map Prod.fst, '=' ∉ n := by decide +kernel
    exact this e.1 (List.mem_map.2 ⟨e, he, rfl⟩)
  · decide +kernel

theorem main_names : mainTable.map Prod.fst = mainNames.map String.toList := rfl

theorem main_value {v : Str} : Value mainNames v ↔ classify mainTable v = .ok .arg := value_iff main_good main_names

/-! ## Which arguments are ambiguous -/

theorem classify_error {D : Type} {T : Table D} {s : Str} {x : Exit} (h : classify T s = .error x) : x = .usage ∧ (∃ c r, s = '-' :: c :: r) ∧ T.lookup s = none ∧
    (if '=' ∈ s then T.lookup (beforeEq s) else none) = none ∧ 2 ≤ (tuples T s).length := by
  match s with
  | [] => simp [classify] at h
  | c :: r =>
    simp only [classify] at h
    split at h
    · cases h
    · rename_i hc
      simp only [ne_eq, not_not] at hc
      subst hc
      split at h
      · cases h
      · rename_i hl
        split at h
        · cases h
        · rename_i h1
          split at h
          · cases h
          · rename_i hl2
            split at h
            · split at h <;> [cases h; split at h <;> cases h]
            · cases h
            · rename_i t0 t1
              injection h with h
              refine ⟨h.symm, ?_, hl, hl2, ?_⟩
              · cases r with
                | nil => simp at h1
                | cons c r => exact ⟨c, r, rfl⟩
              · cases ht : tuples T ('-' :: r) with
                | nil => exact absurd ht t0
                | cons k ks =>
                  cases ks with
                  | nil => exact absurd ht (t1 k)
                  | cons k' ks => simp

theorem classify_many {D : Type} {T : Table D} {s : Str} (h2 : ∃ c r, s = '-' :: c :: r) (h3 : T.lookup s = none)
    (h4 : (if '=' ∈ s then T.lookup (beforeEq s) else none) = none) (h5 : 2 ≤ (tuples T s).length) : classify T s = .error .usage := by
  obtain ⟨c, r, rfl⟩ := h2
  simp only [classify, ne_eq, not_true_eq_false, if_false, h3, h4]
  rw [if_neg (by simp)]
  generalize tuples T ('-' :: c :: r) = l at h5
  match l, h5 with
  | _ :: _ :: _, _ => rfl

theorem filter_le {D : Type} {T : Table D} (hT : (T.map Prod.fst).Nodup) {P : Str × Act D → Bool} {m : Str} (h : ∀ e ∈ T, P e = true → e.1 = m) : (T.filter P).length ≤ 1 := by
  by_cases hex : ∃ e ∈ T, P e = true
  · obtain ⟨⟨n, a⟩, he, hp⟩ := hex
    have hn := h _ he hp
    simp only at hn
    subst hn
    rw [filter_unique hT he hp h]
    simp
  · push Not at hex
    rw [List.filter_eq_nil_iff.2 (fun e he => by simpa using hex e he)]
    simp

theorem main_prefix (d : Char) (t : Str) : ∀ e ∈ mainTable, ('-' :: '-' :: d :: t).isPrefixOf e.1 = true →
    (d = 'h' ∧ e.1 = "--help".toList) ∨ (d = 'v' ∧ e.1 = "--version".toList) := by
  intro e he hp
  rw [List.isPrefixOf_iff_prefix] at hp
  obtain ⟨u, hu⟩ := hp
  have key : ∀ c : Char, ∀ r : Str, '-' :: '-' :: d :: t ++ u = '-' :: '-' :: c :: r → d = c := by
    intro c r h
    injection h with _ h; injection h with _ h; injection h
  simp only [mainTable, List.mem_cons, List.not_mem_nil, or_false] at he
  rcases he with rfl | rfl | rfl
  · have := congrArg List.length hu
    simp at this
  · exact .inl ⟨key 'h' "elp".toList hu, rfl⟩
  · exact .inr ⟨key 'v' "ersion".toList hu, rfl⟩

theorem main_ambiguous {s : Str} (hs : s ≠ ['-', '-']) : (∃ x, classify mainTable s = .error x) ↔ ['-', '-', '='] <+: s := by
  constructor
  · rintro ⟨x, h⟩
    obtain ⟨_, ⟨c, r, rfl⟩, h3, h4, h5⟩ := classify_error h
    by_cases hc : c = '-'
    · subst hc
      rw [tuples_long, List.length_map] at h5
      rw [beforeEq_cons (by decide), beforeEq_cons (by decide)] at h5
      cases hb : beforeEq r with
      | nil =>
        cases r with
        | nil => exact absurd rfl hs
        | cons c r =>
          by_cases hc : c = '='
          · subst hc; exact ⟨r, rfl⟩
          · rw [beforeEq_cons hc] at hb; cases hb
      | cons d t =>
        rw [hb] at h5
        exfalso
        have := main_prefix d t
        have hle : (mainTable.filter fun e => ('-' :: '-' :: d :: t).isPrefixOf e.1).length ≤ 1 := by
          by_cases h1 : d = 'h'
          · refine filter_le main_good.nodup (m := "--help".toList) fun e he hp => ?_
            rcases this e he hp with h | h
            · exact h.2
            · rw [h1] at h; exact absurd h.1 (by decide)
          · refine filter_le main_good.nodup (m := "--version".toList) fun e he hp => ?_
            rcases this e he hp with h | h
            · exact absurd h.1 h1
            · exact h.2
        omega
    · rw [tuples_short hc] at h5
      exfalso
      have hle : (mainTable.filterMap fun e => if e.1 = ['-', c] then some (Kind.option e.2 (isShort e.1) (some (false, r)))
          else if ('-' :: c :: r).isPrefixOf e.1 then some (.option e.2 (isShort e.1) none) else none).length ≤ 1 := by
        rw [List.length_filterMap_eq_countP, List.countP_eq_length_filter]
        refine filter_le main_good.nodup (m := ['-', c]) fun e he hp => ?_
        by_contra hne
        rw [if_neg hne] at hp
        split at hp
        · rename_i hpre
          exact hne (short_prefix main_good hc he (List.isPrefixOf_iff_prefix.1 hpre)).2
        · simp at hp
      omega
  · rintro ⟨t, rfl⟩
    refine ⟨.usage, classify_many ⟨'-', '=' :: t, rfl⟩ ?_ ?_ ?_⟩
    · apply lookup_none
      intro e he heq
      exact main_good.noEq e he (by rw [heq]; simp)
    · have : beforeEq (['-', '-', '='] ++ t) = ['-', '-'] := beforeEq_append (n := ['-', '-']) (v := t) (by simp)
      rw [if_pos (by simp), this]
      rfl
    · have : tuples mainTable (['-', '-', '='] ++ t) = _ := tuples_long (T := mainTable) (r := '=' :: t)
      rw [this, List.length_map]
      have : beforeEq ('-' :: '-' :: '=' :: t) = ['-', '-'] := beforeEq_append (n := ['-', '-']) (v := t) (by simp)
      rw [this]
      decide +kernel

theorem clear_nil : Clear [] := by
  intro before a after h
  simp at h

theorem clear_dashes (rest : List Str) : Clear (['-', '-'] :: rest) := by
  intro before a after h hb hp
  cases before with
  | nil =>
    simp at h
    rw [← h.1] at hp
    exact absurd hp (by decide)
  | cons b before => simp at h; exact hb (by simp [← h.1])

theorem clear_cons {s : Str} (hs : s ≠ ['-', '-']) (rest : List Str) : Clear (s :: rest) ↔ ¬ ['-', '-', '='] <+: s ∧ Clear rest := by
  constructor
  · intro h
    refine ⟨h [] s rest rfl (by simp), fun before a after he hb => ?_⟩
    exact h (s :: before) a after (by rw [he]; rfl) (by simp [hb, hs.symm])
  · rintro ⟨h1, h2⟩ before a after he hb
    cases before with
    | nil => simp at he; rw [← he.1]; exact h1
    | cons b before =>
      simp at he
      exact h2 before a after he.2 (fun h => hb (List.mem_cons_of_mem _ h))

/-- The first pass succeeds if no argument is ambiguous. -/
theorem kinds_clear (argv : List Str) : (∃ ks, kinds mainTable argv = .ok ks) ↔ Clear argv := by
  induction argv with
  | nil => exact ⟨fun _ => clear_nil, fun _ => ⟨[], rfl⟩⟩
  | cons s rest ih =>
    by_cases hs : s = ['-', '-']
    · subst hs
      exact ⟨fun _ => clear_dashes rest, fun _ => ⟨_, by simp only [kinds, if_true]; rfl⟩⟩
    · rw [clear_cons hs, ← ih, ← main_ambiguous hs]
      simp only [kinds, hs, if_false]
      constructor
      · rintro ⟨ks, h⟩
        cases hc : classify mainTable s with
        | error x => rw [hc] at h; cases h
        | ok k =>
          rw [hc] at h
          simp only at h
          cases hr : kinds mainTable rest with
          | error x => rw [hr] at h; cases h
          | ok kr => exact ⟨by simp, kr, rfl⟩
      · rintro ⟨h1, kr, h2⟩
        cases hc : classify mainTable s with
        | error x => exact absurd ⟨x, hc⟩ h1
        | ok k => exact ⟨(s, k) :: kr, by simp only [h2]⟩

theorem kinds_usage {D : Type} {T : Table D} {argv : List Str} {x : Exit} (h : kinds T argv = .error x) : x = .usage := by
  induction argv with
  | nil => cases h
  | cons s rest ih =>
    simp only [kinds] at h
    split at h
    · cases h
    · cases hc : classify T s with
      | error y => rw [hc] at h; simp only [Except.error.injEq] at h; rw [← h]; exact (classify_error hc).1
      | ok k =>
        rw [hc] at h
        simp only at h
        cases hr : kinds T rest with
        | error y => rw [hr] at h; simp only [Except.error.injEq] at h; exact ih (by rw [hr, h])
        | ok kr => rw [hr] at h; cases h

theorem kinds_names {D : Type} {T : Table D} {argv : List Str} {ks : List (Str × Kind D)} (h : kinds T argv = .ok ks) : ks.map Prod.fst = argv := by
  induction argv generalizing ks with
  | nil => simp only [kinds, Except.ok.injEq] at h; rw [← h]; rfl
  | cons s rest ih =>
    simp only [kinds] at h
    split at h
    · simp only [Except.ok.injEq] at h
      rw [← h, List.map_cons, List.map_map]
      exact congrArg (s :: ·) (List.map_id rest)
    · cases hc : classify T s with
      | error y => rw [hc] at h; cases h
      | ok k =>
        rw [hc] at h
        simp only at h
        cases hr : kinds T rest with
        | error y => rw [hr] at h; cases h
        | ok kr =>
          rw [hr] at h
          simp only [Except.ok.injEq] at h
          rw [← h, List.map_cons, ih hr]

/-! ## Options of `sorcha` itself -/

/-- Once something has been set or not recognised no command is started. -/
def Spoiled (st : St MainDest) : Prop := st.given ≠ [] ∨ st.extras = true

theorem launch_spoiled {path : Path} {st : St MainDest} (h : Spoiled st) (v : Option Str) (args : List Str) : ∃ n, launch path st v args = .status n := by
  unfold launch
  split
  · exact ⟨2, rfl⟩
  · split
    · exact ⟨2, rfl⟩
    · rename_i he
      split
      · exact ⟨0, rfl⟩
      · rename_i hg
        rcases h with h | h
        · exact absurd h hg
        · exact absurd h he

theorem explicit_acts {D : Type} {T : Table D} {a : Act D} {short sep : Bool} {x : Str} {t : Taken D} (h : explicitArg T a short sep x = .ok t) : t.acts ≠ [] := by
  unfold explicitArg at h
  split at h
  · simp only [Except.ok.injEq] at h; rw [← h]; simp
  · split at h
    · cases h
    · split at h
      · cases h
      · split at h
        · cases h
        · split at h
          · simp only [Except.ok.injEq] at h; rw [← h]; simp
          · split at h
            · simp only [Except.ok.injEq] at h; rw [← h]; simp
            all_goals
              simp only [Except.map] at h
              split at h
              · cases h
              · simp only [Except.ok.injEq] at h; rw [← h]; simp

theorem consume_acts {D : Type} {T : Table D} {a : Act D} {short : Bool} {e : Option (Bool × Str)} {next : Option (Str × Kind D)} {acts : List (Act D × Str)} {used extra : Bool}
    (h : consume T a short e next = .ok (acts, used, extra)) : acts ≠ [] := by
  unfold consume at h
  split at h
  · cases h
  · rename_i t hf
    split at h
    · simp only [Except.ok.injEq, Prod.mk.injEq] at h
      rw [← h.1]
      cases e with
      | none => rename_i hl; simp only [first, Except.ok.injEq] at hf; rw [← hf] at hl; cases hl
      | some p => exact explicit_acts hf
    · split at h
      · split at h
        · simp only [Except.ok.injEq, Prod.mk.injEq] at h; rw [← h.1]; simp
        · cases h
      · simp only [Except.ok.injEq, Prod.mk.injEq] at h; rw [← h.1]; simp

theorem perform_spoils {acts : List (Act MainDest × Str)} {st st' : St MainDest} (h : perform acts st = .ok st') (hne : acts ≠ []) : Spoiled st' := by
  obtain ⟨h1, h2⟩ := perform_ok.1 h
  left
  rw [h2]
  cases acts with
  | nil => exact absurd rfl hne
  | cons x acts =>
    obtain ⟨a, v⟩ := x
    have := h1 (a, v) (by simp)
    cases a with
    | help => exact absurd rfl this
    | value d => simp [gives]
    | flag d => simp [gives]

theorem mainGo_spoiled {path : Path} {ks : List (Str × Kind MainDest)} {st : St MainDest} (h : Spoiled st) : ∃ n, mainGo path ks st = .status n := by
  induction ks generalizing st with
  | nil => simp only [mainGo]; exact launch_spoiled h _ _
  | cons x ks ih =>
    obtain ⟨s, k⟩ := x
    cases k with
    | arg => simp only [mainGo]; exact launch_spoiled h _ _
    | dashes => simp only [mainGo]; exact launch_spoiled h _ _
    | unknown => simp only [mainGo]; exact ih (.inr rfl)
    | option a short e =>
      simp only [mainGo]
      split
      · exact ⟨0, rfl⟩
      · exact ⟨2, rfl⟩
      · rename_i hc
        split
        · exact ⟨0, rfl⟩
        · exact ⟨2, rfl⟩
        · rename_i hp
          exact ih (perform_spoils hp (consume_acts hc))

theorem mainGo_option {path : Path} {s : Str} {a : Act MainDest} {short : Bool} {e : Option (Bool × Str)} {ks : List (Str × Kind MainDest)} {st : St MainDest} :
    ∃ n, mainGo path ((s, .option a short e) :: ks) st = .status n := by
  simp only [mainGo]
  split
  · exact ⟨0, rfl⟩
  · exact ⟨2, rfl⟩
  · rename_i hc
    split
    · exact ⟨0, rfl⟩
    · exact ⟨2, rfl⟩
    · rename_i hp
      exact mainGo_spoiled (perform_spoils hp (consume_acts hc))

/-! ## Finding the command -/

theorem which_iff {path : Path} {name d : Str} : which path name = some d ↔ FirstIn path name d := by
  unfold which FirstIn
  rw [Option.map_eq_some_iff]
  constructor
  · rintro ⟨⟨d', o⟩, hf, rfl⟩
    obtain ⟨hp, before, after, he, hb⟩ := List.find?_eq_some_iff_append.1 hf
    cases o with
    | none => cases hp
    | some es =>
      refine ⟨before, es, after, he, ?_, ?_⟩
      · simp only [List.any_eq_true, Bool.and_eq_true, decide_eq_true_eq, Bool.not_eq_true'] at hp
        obtain ⟨e, he, ⟨h1, h2⟩, h3⟩ := hp
        exact ⟨e, he, h1, h2, h3⟩
      · intro x hx fs hfs e he' ⟨h1, h2, h3⟩
        have := hb x hx
        rw [hfs] at this
        simp only [Bool.not_eq_true', List.any_eq_false, Bool.and_eq_true, decide_eq_true_eq] at this
        exact this e he' ⟨⟨h1, h2⟩, h3⟩
  · rintro ⟨before, es, after, rfl, ⟨e, he, h1, h2, h3⟩, hb⟩
    refine ⟨(d, some es), List.find?_eq_some_iff_append.2 ⟨?_, before, after, rfl, ?_⟩, rfl⟩
    · simp only [List.any_eq_true]
      exact ⟨e, he, by simp [h1, h2, h3]⟩
    · intro x hx
      cases hx2 : x.2 with
      | none => rfl
      | some fs =>
        simp only [Bool.not_eq_true', List.any_eq_false]
        intro e' he' hcon
        simp only [Bool.and_eq_true, decide_eq_true_eq, Bool.not_eq_true'] at hcon
        exact hb x hx fs hx2 e' he' ⟨hcon.1.1, hcon.1.2, hcon.2⟩

theorem first_verbs {path : Path} {v d : Str} (h : FirstIn path ("sorcha-".toList ++ v) d) : v ∈ verbs path := by
  obtain ⟨before, es, after, rfl, ⟨e, he, h1, h2, h3⟩, _⟩ := h
  unfold verbs
  rw [List.mem_flatMap]
  refine ⟨(d, some es), by simp, ?_⟩
  simp only [List.mem_map, List.mem_filter, Bool.and_eq_true, List.isPrefixOf_iff_prefix]
  refine ⟨e, ⟨he, ⟨v, h1.symm⟩, h2⟩, ?_⟩
  rw [h1]
  rfl

theorem launch_run {path : Path} {verb : Option Str} {args : List Str} {d u : Str} {args' : List Str} :
    launch path ⟨[], false⟩ verb args = .run d u args' ↔ args' = args ∧ ∃ v, verb = some v ∧ v ≠ [] ∧ u = "sorcha-".toList ++ v ∧ FirstIn path u d := by
  unfold launch
  constructor
  · intro h
    split at h
    · cases h
    · simp only [Bool.false_eq_true, if_false, ne_eq, not_true_eq_false] at h
      cases verb with
      | none => cases h
      | some v =>
        simp only at h
        split at h
        · cases h
        · rename_i hv
          split at h
          · cases h
          · rename_i d' hw
            injection h with h1 h2 h3
            subst h1; subst h2; subst h3
            exact ⟨rfl, v, rfl, hv, rfl, which_iff.1 hw⟩
  · rintro ⟨rfl, v, rfl, hv, rfl, hf⟩
    have hmem := first_verbs hf
    simp only [Option.all_some, hmem, decide_true, if_true, Bool.false_eq_true, if_false, ne_eq, not_true_eq_false, hv, which_iff.2 hf]

theorem launch_zero {path : Path} {verb : Option Str} {args : List Str} : launch path ⟨[], false⟩ verb args ≠ .status 0 := by
  unfold launch
  split
  · simp
  · simp only [Bool.false_eq_true, if_false, ne_eq, not_true_eq_false]
    cases verb with
    | none => simp
    | some v =>
      simp only
      split
      · simp
      · split <;> simp

/-! ## What is asked for -/

theorem tuples_option {D : Type} {T : Table D} {s : Str} {k : Kind D} (h : k ∈ tuples T s) : k ≠ .dashes := by
  unfold tuples at h
  split at h
  · obtain ⟨e, _, rfl⟩ := List.mem_map.1 h
    simp
  · obtain ⟨e, _, he⟩ := List.mem_filterMap.1 h
    split at he
    · injection he with he; rw [← he]; simp
    · split at he
      · injection he with he; rw [← he]; simp
      · cases he
  · cases h

theorem classify_dashes {D : Type} {T : Table D} {s : Str} {k : Kind D} (h : classify T s = .ok k) : k ≠ .dashes := by
  unfold classify at h
  split at h
  · injection h with h; rw [← h]; simp
  · split at h
    · injection h with h; rw [← h]; simp
    · split at h
      · injection h with h; rw [← h]; simp
      · split at h
        · injection h with h; rw [← h]; simp
        · split at h
          · injection h with h; rw [← h]; simp
          · split at h
            · split at h
              · injection h with h; rw [← h]; simp
              · split at h <;> (injection h with h; rw [← h]; simp)
            · rename_i k' ht
              injection h with h
              rw [← h]
              exact tuples_option (T := T) (by rw [ht]; simp)
            · cases h

theorem kinds_ok {D : Type} {T : Table D} {s : Str} {rest : List Str} {ks : List (Str × Kind D)} (hs : s ≠ ['-', '-']) (h : kinds T (s :: rest) = .ok ks) :
    ∃ k kr, classify T s = .ok k ∧ kinds T rest = .ok kr ∧ ks = (s, k) :: kr := by
  simp only [kinds, hs, if_false] at h
  cases hc : classify T s with
  | error y => rw [hc] at h; cases h
  | ok k =>
    rw [hc] at h
    simp only at h
    cases hr : kinds T rest with
    | error y => rw [hr] at h; cases h
    | ok kr => rw [hr] at h; simp only [Except.ok.injEq] at h; exact ⟨k, kr, rfl, rfl, h.symm⟩

theorem kinds_dashes {D : Type} {T : Table D} (rest : List Str) : kinds T (['-', '-'] :: rest) = .ok ((['-', '-'], .dashes) :: rest.map fun r => (r, .arg)) := by
  simp only [kinds, if_true]

/-- The positional arguments when the first one is plain. -/
theorem positionals_arg {s : Str} {rest : List Str} {kr : List (Str × Kind MainDest)} (h : kinds mainTable rest = .ok kr) :
    positionals ((s, .arg) :: kr) = (some s, if rest.head? = some ['-', '-'] then rest.tail else rest) := by
  cases rest with
  | nil => simp only [kinds, Except.ok.injEq] at h; subst h; rfl
  | cons r rest =>
    by_cases hr : r = ['-', '-']
    · subst hr
      rw [kinds_dashes] at h
      simp only [Except.ok.injEq] at h
      subst h
      simp only [positionals, List.head?_cons, if_true, List.tail_cons, List.map_map]
      exact congrArg (some s, ·) (List.map_id rest)
    · have hn := kinds_names h
      obtain ⟨k, kr', hc, _, rfl⟩ := kinds_ok hr h
      have hd := classify_dashes hc
      have : positionals ((s, .arg) :: (r, k) :: kr') = (some s, ((r, k) :: kr').map Prod.fst) := by
        cases k with
        | dashes => exact absurd rfl hd
        | arg => rfl
        | unknown => rfl
        | option a short e => rfl
      rw [this, hn, if_neg (by simpa using hr)]

theorem mainGo_run {path : Path} {argv : List Str} {ks : List (Str × Kind MainDest)} (hk : kinds mainTable argv = .ok ks) {d u : Str} {args : List Str} :
    mainGo path ks ⟨[], false⟩ = .run d u args ↔ ∃ v, Asks argv v args ∧ v ≠ [] ∧ u = "sorcha-".toList ++ v ∧ FirstIn path u d := by
  cases argv with
  | nil =>
    simp only [kinds, Except.ok.injEq] at hk
    subst hk
    simp only [mainGo, launch_run, positionals]
    constructor
    · rintro ⟨_, v, hv, _⟩; cases hv
    · rintro ⟨v, ha, _⟩
      rcases ha with ⟨_, h, _⟩ | ⟨_, h⟩ | h <;> cases h
  | cons s rest =>
    by_cases hs : s = ['-', '-']
    · subst hs
      rw [kinds_dashes] at hk
      simp only [Except.ok.injEq] at hk
      subst hk
      simp only [mainGo, launch_run]
      have hnv : ¬ Value mainNames ['-', '-'] := by
        rw [main_value]
        intro h
        cases h
      cases rest with
      | nil =>
        simp only [List.map_nil, positionals]
        constructor
        · rintro ⟨_, v, hv, _⟩; cases hv
        · rintro ⟨v, ha, _⟩
          rcases ha with ⟨h, h', _⟩ | ⟨h, h'⟩ | h
          · simp at h'; rw [← h'.1] at h; exact absurd h hnv
          · simp at h'
          · simp at h
      | cons v rest =>
        have : ((v :: rest).map fun r => (r, (Kind.arg : Kind MainDest))) = (v, .arg) :: rest.map fun r => (r, .arg) := rfl
        rw [this]
        simp only [positionals, List.map_map]
        have hid : List.map (Prod.fst ∘ fun r => (r, (Kind.arg : Kind MainDest))) rest = rest := List.map_id rest
        rw [hid]
        constructor
        · rintro ⟨rfl, v', hv', h⟩
          injection hv' with hv'
          subst hv'
          exact ⟨v, .inr (.inr rfl), h⟩
        · rintro ⟨v', ha, h⟩
          rcases ha with ⟨hv, h', _⟩ | ⟨hv, h'⟩ | h'
          · simp at h'; rw [← h'.1] at hv; exact absurd hv hnv
          · simp at h'; rw [← h'.1] at hv; exact absurd hv hnv
          · simp at h'
            obtain ⟨rfl, rfl⟩ := h'
            exact ⟨rfl, v, rfl, h⟩
    · obtain ⟨k, kr, hc, hr, rfl⟩ := kinds_ok hs hk
      have hno : classify mainTable s ≠ .ok .arg → ∀ v, ¬ Asks (s :: rest) v args := by
        intro hne v ha
        rcases ha with ⟨hv, h', _⟩ | ⟨hv, h'⟩ | h'
        · simp at h'; rw [← h'.1] at hv; exact hne (main_value.1 hv)
        · simp at h'; rw [← h'.1] at hv; exact hne (main_value.1 hv)
        · simp at h'; exact hs h'.1
      cases k with
      | dashes => exact absurd rfl (classify_dashes hc)
      | option a short e =>
        obtain ⟨n, hn⟩ := mainGo_option (path := path) (s := s) (a := a) (short := short) (e := e) (ks := kr) (st := ⟨[], false⟩)
        rw [hn]
        constructor
        · intro h; cases h
        · rintro ⟨v, ha, _⟩
          exact absurd ha (hno (by rw [hc]; simp) v)
      | unknown =>
        simp only [mainGo]
        obtain ⟨n, hn⟩ := mainGo_spoiled (path := path) (ks := kr) (st := ⟨[], true⟩) (.inr rfl)
        rw [hn]
        constructor
        · intro h; cases h
        · rintro ⟨v, ha, _⟩
          exact absurd ha (hno (by rw [hc]; simp) v)
      | arg =>
        simp only [mainGo, launch_run, positionals_arg hr]
        have hv := main_value.2 hc
        constructor
        · rintro ⟨rfl, v, hv', h⟩
          injection hv' with hv'
          subst hv'
          refine ⟨s, ?_, h⟩
          by_cases hd : rest.head? = some ['-', '-']
          · rw [if_pos hd]
            cases rest with
            | nil => cases hd
            | cons r rest => simp at hd; subst hd; exact .inr (.inl ⟨hv, rfl⟩)
          · rw [if_neg hd]
            exact .inl ⟨hv, rfl, hd⟩
        · rintro ⟨v, ha, h⟩
          rcases ha with ⟨_, h', hd⟩ | ⟨_, h'⟩ | h'
          · simp at h'
            obtain ⟨rfl, rfl⟩ := h'
            rw [if_neg hd]
            exact ⟨rfl, s, rfl, h⟩
          · simp at h'
            obtain ⟨rfl, rfl⟩ := h'
            exact ⟨rfl, s, rfl, h⟩
          · simp at h'; exact absurd h'.1 hs

theorem mainGo_zero {path : Path} {argv : List Str} {ks : List (Str × Kind MainDest)} (hk : kinds mainTable argv = .ok ks) (h : mainGo path ks ⟨[], false⟩ = .status 0) :
    ∃ s rest, argv = s :: rest ∧ s ≠ ['-', '-'] ∧ ¬ Value mainNames s := by
  cases argv with
  | nil =>
    simp only [kinds, Except.ok.injEq] at hk
    subst hk
    simp only [mainGo] at h
    exact absurd h launch_zero
  | cons s rest =>
    refine ⟨s, rest, rfl, ?_, ?_⟩
    · rintro rfl
      rw [kinds_dashes] at hk
      simp only [Except.ok.injEq] at hk
      subst hk
      simp only [mainGo] at h
      exact absurd h launch_zero
    · intro hv
      have hc := main_value.1 hv
      have hs : s ≠ ['-', '-'] := by
        rintro rfl
        cases hc
      obtain ⟨k, kr, hc', hr, rfl⟩ := kinds_ok hs hk
      rw [hc] at hc'
      injection hc' with hc'
      subst hc'
      simp only [mainGo] at h
      exact absurd h launch_zero

end Sorcha.Argv
