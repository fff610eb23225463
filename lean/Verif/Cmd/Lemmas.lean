import Verif.Argv.Words
import Verif.Argv.Main
import Verif.Cmd.Spec

/-!
# Lemmas: the command lines of the other commands
-/

namespace Sorcha.Cmd
open Argv Argv.Spec Spec

section
variable {D S : Type} [DecidableEq D] [DecidableEq S] {T : Table D} {names : List (String × S)} {Switch : S → Prop} {dest : S → D} [F : Fits T names Switch dest]

omit [DecidableEq D] in
theorem lastOf_some_iff (gs : List (S × Str)) (s : S) : (∃ v, lastOf gs s = some v) ↔ Given gs s := by
  rw [← Option.isSome_iff_exists]
  unfold lastOf Given
  rw [Option.isSome_map, List.getLast?_isSome]
  simp only [ne_eq, List.filter_eq_nil_iff, decide_eq_true_eq]
  push Not
  constructor
  · rintro ⟨g, hg, h⟩; exact ⟨g.2, h ▸ hg⟩
  · rintro ⟨v, h⟩; exact ⟨_, h, rfl⟩

theorem lastOf_append (gs : List (S × Str)) (g : S × Str) (s : S) : lastOf (gs ++ [g]) s = if g.1 = s then some (String.ofList g.2) else lastOf gs s := by
  unfold lastOf
  by_cases h : g.1 = s
  · simp [List.filter_append, h]
  · simp [List.filter_append, h]

/-- What a namespace holds after the settings. -/
theorem fold_field {A B : Type} (set : A → D × Str → A) (π : A → B) (s : S) (f : String → B) (dest : S → D)
    (hset : ∀ a t v, π (set a (dest t, v)) = if t = s then f (String.ofList v) else π a) (gs : List (S × Str)) (a : A) :
    π ((gs.map (storeOf dest)).foldl set a) = ((lastOf gs s).map f).getD (π a) := by
  induction gs using List.reverseRecOn with
  | nil => rfl
  | append_singleton gs g ih =>
    rw [List.map_append, List.foldl_append, lastOf_append]
    simp only [List.map_cons, List.map_nil, List.foldl_cons, List.foldl_nil, storeOf]
    rw [hset]
    by_cases h : g.1 = s
    · simp [h]
    · rw [if_neg h, if_neg h]; exact ih

include F in
theorem given_dest (gs : List (S × Str)) (s : S) : dest s ∈ (gs.map (storeOf dest)).map Prod.fst ↔ Given gs s := by
  simp only [List.map_map, List.mem_map, Function.comp, storeOf, Given]
  constructor
  · rintro ⟨g, hg, h⟩; exact ⟨g.2, (F.inj h) ▸ hg⟩
  · rintro ⟨v, h⟩; exact ⟨_, h, rfl⟩

include F in
theorem parseKnown_iff (needed : List S) (argv : List Str) (given : List (D × Str)) :
    parseKnown T (needed.map dest) argv = .ok ⟨given, false⟩ ↔ ∃ gs, SaysIn names Switch argv gs ∧ given = gs.map (storeOf dest) ∧ ∀ s ∈ needed, Given gs s := by
  have hreq : ∀ gs : List (S × Str), ((needed.map dest).all fun d => d ∈ (gs.map (storeOf dest)).map Prod.fst) = true ↔ ∀ s ∈ needed, Given gs s := by
    intro gs
    simp only [List.all_eq_true, List.mem_map, forall_exists_index, and_imp, forall_apply_eq_imp_iff₂, decide_eq_true_eq]
    exact forall₂_congr fun s _ => by
      have := given_dest (F := F) gs s
      simp only [List.mem_map] at this
      exact this
  constructor
  · intro h
    simp only [parseKnown] at h
    split at h
    · cases h
    · rename_i ks hk
      split at h
      · cases h
      · rename_i st hg
        split at h
        · rename_i hr
          injection h with h
          subst h
          obtain ⟨gs, hs, he⟩ := go_sound (T := T) hk hg rfl
          simp only [List.nil_append, St.mk.injEq, and_true] at he
          subst he
          exact ⟨gs, hs, rfl, (hreq gs).1 hr⟩
        · cases h
  · rintro ⟨gs, hs, rfl, hn⟩
    obtain ⟨ks, hk, hg⟩ := go_complete (T := T) hs
    simp only [parseKnown, hk, hg ⟨[], false⟩, List.nil_append]
    rw [if_pos ((hreq gs).2 hn)]

include F in
theorem parseArgs_iff (needed : List S) (argv : List Str) (given : List (D × Str)) :
    parseArgs T (needed.map dest) argv = .ok given ↔ ∃ gs, SaysIn names Switch argv gs ∧ given = gs.map (storeOf dest) ∧ ∀ s ∈ needed, Given gs s := by
  rw [← parseKnown_iff (F := F)]
  simp only [parseArgs]
  split
  · rename_i h; rw [h]; simp
  · rename_i st h
    rw [h]
    obtain ⟨g, e⟩ := st
    cases e <;> simp

end

/-! ## Parsers with commands -/

theorem empty_help (a : Act Empty) : a = .help := by
  cases a with
  | value d => exact d.elim
  | flag d => exact d.elim
  | help => rfl

theorem explicitArg_help {T : Table Empty} (short sep : Bool) (x : Str) {t : Taken Empty} (h : explicitArg T .help short sep x = .ok t) : ∃ as, t.acts = (.help, []) :: as := by
  cases x with
  | nil => simp [explicitArg, Act.takes] at h
  | cons c cs =>
    rw [explicitArg.eq_def] at h
    simp only [Act.takes, Bool.false_eq_true, if_false] at h
    split at h
    · cases h
    · split at h
      · cases h
      · split at h
        · injection h with h; subst h; exact ⟨_, rfl⟩
        · split at h
          · injection h with h; subst h; exact ⟨_, rfl⟩
          · rename_i v
            revert h
            cases explicitArg T _ true true v <;> intro h
            · cases h
            · injection h with h; subst h; exact ⟨_, rfl⟩
          · rename_i c' v _
            revert h
            cases explicitArg T _ true false (c' :: v) <;> intro h
            · cases h
            · injection h with h; subst h; exact ⟨_, rfl⟩

/-- An option of a parser without settings ends it. -/
theorem option_ends (T : Table Empty) (a : Act Empty) (short : Bool) (e : Option (Bool × Str)) (next : Option (Str × Kind Empty)) :
    (∃ x, consume T a short e next = .error x) ∨ ∃ acts used extra, consume T a short e next = .ok (acts, used, extra) ∧ ∀ st, perform acts st = .error .help := by
  obtain rfl := empty_help a
  cases e with
  | none => right; exact ⟨[(.help, [])], false, false, rfl, fun _ => rfl⟩
  | some x =>
    obtain ⟨sep, x⟩ := x
    cases ht : explicitArg T .help short sep x with
    | error y => left; exact ⟨y, by simp only [consume, first, ht]⟩
    | ok t =>
      obtain ⟨as, ha⟩ := explicitArg_help short sep x ht
      cases hl : t.last with
      | none => right; exact ⟨t.acts, false, t.extra, by simp only [consume, first, ht, hl], fun st => by rw [ha]; rfl⟩
      | some a' =>
        obtain rfl := empty_help a'
        right; exact ⟨t.acts ++ [(.help, [])], false, t.extra, by simp only [consume, first, ht, hl]; rfl, fun st => by rw [ha]; rfl⟩

theorem subGo_extras {α : Type} (sub : Str → Option (List Str → Except Exit (α × Bool))) (ks : List (Str × Kind Empty)) (a : Sub α) : subGo sub ks true ≠ .ok a := by
  induction ks with
  | nil => simp [subGo]
  | cons k ks ih =>
    obtain ⟨s, k⟩ := k
    cases k with
    | arg =>
      intro h
      simp only [subGo] at h
      split at h
      · cases h
      · split at h
        · cases h
        · cases h
    | dashes => simp [subGo]
    | unknown => simpa only [subGo] using ih
    | option a' short e =>
      intro h
      rcases option_ends topTable a' short e ks.head? with ⟨x, hx⟩ | ⟨acts, used, extra, hx, hp⟩
      · simp only [subGo, hx] at h; cases h
      · simp only [subGo, hx, hp] at h; cases h

theorem subGo_some {α : Type} (sub : Str → Option (List Str → Except Exit (α × Bool))) (ks : List (Str × Kind Empty)) (a : α) :
    subGo sub ks false = .ok (.some a) ↔ ∃ s rest f, ks = (s, .arg) :: rest ∧ sub s = some f ∧ f (rest.map Prod.fst) = .ok (a, false) := by
  cases ks with
  | nil => simp [subGo]
  | cons k ks =>
    obtain ⟨s, k⟩ := k
    cases k with
    | arg =>
      simp only [subGo]
      cases hs : sub s with
      | none => simp [hs]
      | some f =>
        cases hf : f (ks.map Prod.fst) with
        | error x => simp [hs, hf]
        | ok y =>
          obtain ⟨b, e⟩ := y
          cases e <;> simp [hs, hf]
    | dashes => simp [subGo]
    | unknown =>
      simp only [subGo]
      constructor
      · intro h; exact absurd h (subGo_extras _ _ _)
      · rintro ⟨_, _, _, h, _⟩; cases h
    | option a' short e =>
      constructor
      · intro h
        rcases option_ends topTable a' short e ks.head? with ⟨x, hx⟩ | ⟨acts, used, extra, hx, hp⟩
        · simp only [subGo, hx] at h; cases h
        · simp only [subGo, hx, hp] at h; cases h
      · rintro ⟨_, _, _, h, _⟩; cases h

theorem subGo_none {α : Type} (sub : Str → Option (List Str → Except Exit (α × Bool))) (ks : List (Str × Kind Empty)) : subGo sub ks false = .ok .none ↔ ks = [] := by
  cases ks with
  | nil => simp [subGo]
  | cons k ks =>
    obtain ⟨s, k⟩ := k
    cases k with
    | arg =>
      simp only [subGo]
      cases hs : sub s with
      | none => simp
      | some f =>
        cases hf : f (ks.map Prod.fst) with
        | error x => simp [hf]
        | ok y =>
          obtain ⟨b, e⟩ := y
          cases e <;> simp [hf]
    | dashes => simp [subGo]
    | unknown =>
      simp only [subGo, List.cons_ne_nil, iff_false]
      exact subGo_extras _ _ _
    | option a' short e =>
      simp only [List.cons_ne_nil, iff_false]
      intro h
      rcases option_ends topTable a' short e ks.head? with ⟨x, hx⟩ | ⟨acts, used, extra, hx, hp⟩
      · simp only [subGo, hx] at h; cases h
      · simp only [subGo, hx, hp] at h; cases h

theorem top_clear (s : Str) (x : Exit) : classify topTable s ≠ .error x := by
  intro h
  obtain ⟨-, ⟨c, r, rfl⟩, hl, -, h2⟩ := classify_error h
  by_cases hc : c = '-'
  · subst hc
    have hb : beforeEq ('-' :: '-' :: r) = '-' :: '-' :: beforeEq r := by simp [beforeEq]
    have : (tuples topTable ('-' :: '-' :: r)).length ≤ 1 := by
      simp only [tuples, hb, topTable, List.length_map, List.filter_cons, List.filter_nil]
      have : ('-' :: '-' :: beforeEq r).isPrefixOf "-h".toList = false := by
        show ('-' :: '-' :: beforeEq r).isPrefixOf ['-', 'h'] = false
        simp [List.isPrefixOf]
      rw [this]
      simp only [Bool.false_eq_true, if_false]
      split <;> simp
    omega
  · have : (tuples topTable ('-' :: c :: r)).length ≤ 1 := by
      have hd : tuples topTable ('-' :: c :: r) = topTable.filterMap fun e =>
          if e.1 = ['-', c] then some (.option e.2 (isShort e.1) (some (false, r)))
          else if ('-' :: c :: r).isPrefixOf e.1 then some (.option e.2 (isShort e.1) none) else none := by
        rw [tuples.eq_def]
        split
        · rename_i heq; injection heq with _ heq; injection heq with heq; exact absurd heq hc
        · rename_i heq; injection heq with _ heq; injection heq with h1 h2; subst h1; subst h2; rfl
        · rename_i hn; exact (hn _ _ _ rfl).elim
      rw [hd]
      have e1 : ¬ ("--help".toList = ['-', c]) := by intro h; exact absurd h (by simp)
      have e2 : ('-' :: c :: r).isPrefixOf "--help".toList = false := by
        show ('-' :: c :: r).isPrefixOf ['-', '-', 'h', 'e', 'l', 'p'] = false
        simp [List.isPrefixOf, hc]
      simp only [topTable, List.filterMap_cons, List.filterMap_nil, if_neg e1, e2, Bool.false_eq_true, if_false]
      split <;> simp
    omega

theorem kinds_top (argv : List Str) : ∃ ks, kinds topTable argv = .ok ks := by
  induction argv with
  | nil => exact ⟨_, rfl⟩
  | cons s rest ih =>
    obtain ⟨ks, hk⟩ := ih
    by_cases hs : s = ['-', '-']
    · exact ⟨_, by rw [kinds, if_pos hs]⟩
    · cases hc : classify topTable s with
      | error x => exact absurd hc (top_clear s x)
      | ok k => exact ⟨_, by rw [kinds, if_neg hs, hc, hk]⟩

/-- A command line with a command: the command comes first. -/
theorem parseSub_some {α : Type} (sub : Str → Option (List Str → Except Exit (α × Bool))) (hsub : ∀ s f, sub s = some f → s.head? ≠ some '-' ∧ s ≠ []) (argv : List Str) (a : α) :
    parseSub sub argv = .ok (.some a) ↔ ∃ s rest f, argv = s :: rest ∧ sub s = some f ∧ f rest = .ok (a, false) := by
  obtain ⟨ks, hk⟩ := kinds_top argv
  simp only [parseSub, hk]
  rw [subGo_some]
  have hn := kinds_names hk
  constructor
  · rintro ⟨s, rest, f, rfl, h1, h2⟩
    exact ⟨s, rest.map Prod.fst, f, hn.symm, h1, h2⟩
  · rintro ⟨s, rest, f, rfl, h1, h2⟩
    obtain ⟨hh, hne⟩ := hsub s f h1
    cases s with
    | nil => exact absurd rfl hne
    | cons c s =>
      have hc : c ≠ '-' := fun h => hh (by rw [h]; rfl)
      have hcl : classify topTable (c :: s) = .ok .arg := by simp only [classify]; rw [if_pos hc]
      have hs : (c :: s) ≠ ['-', '-'] := by intro h; injection h with h; exact hc h
      obtain ⟨k, ks', hc', hk', rfl⟩ := kinds_ok hs hk
      rw [hcl] at hc'
      injection hc' with hc'
      subst hc'
      exact ⟨_, ks', f, rfl, h1, by rw [kinds_names hk']; exact h2⟩

theorem parseSub_none {α : Type} (sub : Str → Option (List Str → Except Exit (α × Bool))) (argv : List Str) : parseSub sub argv = .ok .none ↔ argv = [] := by
  obtain ⟨ks, hk⟩ := kinds_top argv
  simp only [parseSub, hk]
  rw [subGo_none, ← kinds_names hk, List.map_eq_nil_iff]

/-! ## A parser without settings -/

theorem go_top {ks : List (Str × Kind Empty)} {st st' : St Empty} (h : go topTable ks st = .ok st') (he : st'.extras = false) : ks = [] ∧ st = st' := by
  induction ks generalizing st with
  | nil => injection h with h; exact ⟨rfl, h⟩
  | cons k ks ih =>
    exfalso
    obtain ⟨s, k⟩ := k
    have hx : ∀ st : St Empty, go topTable ks { st with extras := true } ≠ .ok st' := by
      intro st hg
      obtain ⟨-, h2⟩ := ih hg
      rw [← h2] at he; cases he
    cases k with
    | arg => exact hx st h
    | dashes => exact hx st h
    | unknown => exact hx st h
    | option a short e =>
      rcases option_ends topTable a short e ks.head? with ⟨x, hx⟩ | ⟨acts, used, extra, hx, hp⟩
      · simp only [go, hx] at h; cases h
      · simp only [go, hx, hp] at h; cases h

theorem parseKnown_top (argv : List Str) (given : List (Empty × Str)) : parseKnown topTable [] argv = .ok ⟨given, false⟩ ↔ argv = [] ∧ given = [] := by
  constructor
  · intro h
    simp only [parseKnown] at h
    split at h
    · cases h
    · rename_i ks hk
      split at h
      · cases h
      · rename_i st hg
        simp only [List.all_nil, if_true] at h
        injection h with h
        subst h
        obtain ⟨rfl, h2⟩ := go_top hg rfl
        injection h2 with h2
        exact ⟨(kinds_names hk).symm, h2.symm⟩
  · rintro ⟨rfl, rfl⟩; rfl

theorem subArgs_iff {D A α : Type} [DecidableEq D] (T : Table D) (required : List D) (set : A → D × Str → A) (start : A) (wrap : A → α) (argv : List Str) (x : α) :
    subArgs T required set start wrap argv = .ok (x, false) ↔ ∃ given, parseKnown T required argv = .ok ⟨given, false⟩ ∧ x = wrap (given.foldl set start) := by
  simp only [subArgs]
  cases h : parseKnown T required argv with
  | error e => simp
  | ok st =>
    obtain ⟨g, e⟩ := st
    simp only [Except.ok.injEq, Prod.mk.injEq, St.mk.injEq]
    constructor
    · rintro ⟨h1, rfl⟩; exact ⟨g, ⟨rfl, rfl⟩, h1.symm⟩
    · rintro ⟨g', ⟨rfl, rfl⟩, h1⟩; exact ⟨h1.symm, rfl⟩

end Sorcha.Cmd
