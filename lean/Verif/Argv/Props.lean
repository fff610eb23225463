import Verif.Argv.Says
import Verif.Argv.Main
import Mathlib.Data.List.Induction

/-!
# C81: the command line
-/

namespace Sorcha.Argv.Props
open Spec Sorcha.Argv

/-- What is stored for a setting that has been given. -/
theorem fold_setattr (ns : Dest → Val) (l : List (Dest × Str)) (d : Dest) : l.foldl setattr ns d = match (l.filter fun g => g.1 = d).getLast? with
    | none => ns d
    | some g => (match d with
      | .f => .bool true
      | .l => .bool false
      | _ => .text g.2) := by
  induction l using List.reverseRecOn generalizing ns with
  | nil => rfl
  | append_singleton l g ih =>
    rw [List.foldl_append, List.filter_append]
    simp only [List.foldl_cons, List.foldl_nil, setattr]
    by_cases h : d = g.1
    · have : ([g].filter fun g => g.1 = d) = [g] := by simp [h]
      rw [this, List.getLast?_concat, if_pos h, ← h]
      cases d <;> rfl
    · have : ([g].filter fun g => decide (g.1 = d)) = [] := by simp [Ne.symm h]
      rw [this, List.append_nil, if_neg h]
      exact ih ns

theorem filter_store (gs : List (Setting × Str)) (s : Setting) : ((gs.map store).filter fun g => g.1 = dest s) = (gs.filter fun g => g.1 = s).map store := by
  rw [List.filter_map]
  congr 1
  apply List.filter_congr
  intro g _
  exact decide_eq_decide.2 ⟨dest_inj, fun h => congrArg dest h⟩

theorem stored (gs : List (Setting × Str)) (s : Setting) : (gs.map store).foldl setattr defaults (dest s) = match last gs s with
    | none => defaults (dest s)
    | some v => (match dest s with
      | .f => .bool true
      | .l => .bool false
      | _ => .text v.toList) := by
  rw [fold_setattr, filter_store, List.getLast?_map]
  unfold last lastOf
  cases (gs.filter fun g => g.1 = s).getLast? with
  | none => rfl
  | some g => simp [store, storeOf]

theorem given_iff (gs : List (Setting × Str)) (s : Setting) : dest s ∈ (gs.map store).map Prod.fst ↔ ∃ v, last gs s = some v := by
  rw [← Option.isSome_iff_exists]
  unfold last lastOf
  rw [Option.isSome_map, List.getLast?_isSome]
  simp only [List.map_map, List.mem_map, Function.comp, store, storeOf, ne_eq, List.filter_eq_nil_iff, decide_eq_true_eq]
  push Not
  constructor
  · rintro ⟨g, hg, h⟩; exact ⟨g, hg, dest_inj h⟩
  · rintro ⟨g, hg, h⟩; exact ⟨g, hg, by rw [h]⟩

theorem required_iff (gs : List (Setting × Str)) : (required.all fun d => d ∈ (gs.map store).map Prod.fst) = true ↔ ∀ s ∈ needed, ∃ v, last gs s = some v := by
  have : required = needed.map dest := rfl
  rw [this, List.all_eq_true]
  simp only [List.mem_map, forall_exists_index, and_imp, forall_apply_eq_imp_iff₂, decide_eq_true_eq]
  constructor
  · intro h s hs; exact (given_iff gs s).1 (by simpa using h s hs)
  · intro h s hs; simpa using (given_iff gs s).2 (h s hs)

theorem str_stored (gs : List (Setting × Str)) (s : Setting) (h : ¬ Switch s) :
    ((gs.map store).foldl setattr defaults (dest s)).str? = match last gs s with
      | none => (defaults (dest s)).str?
      | some v => some v := by
  rw [stored]
  cases last gs s with
  | none => rfl
  | some v => cases s <;> simp [Switch] at h <;> simp [dest, Val.str?]

theorem str_eq (v : Val) : v.str = v.str?.getD "" := by cases v <;> rfl

/-- C81 (`sorcha run`): the program goes on exactly if the arguments say settings in the sense of `Spec.Says` and among them are the five that are needed; each
setting then has the value that was given last, or its default. `verbose` is on unless `-l` or `--log-level` was given. -/
theorem C81_run (argv : List (List Char)) (args : Cli.Args) (verbose : Bool) :
    parseRun argv = .ok (args, verbose) ↔ ∃ gs, Says argv gs ∧ (∀ s ∈ needed, ∃ v, last gs s = some v) ∧
      args.c = (last gs .config).getD "" ∧ args.o = (last gs .outfile).getD "" ∧ args.ob = (last gs .orbits).getD "" ∧ args.p = (last gs .parameters).getD "" ∧
      args.pd = (last gs .pointings).getD "" ∧ args.er = last gs .ephemRead ∧ args.ew = last gs .ephemWrite ∧ args.ar = last gs .dataPath ∧
      args.cp = last gs .complex ∧ args.f = (last gs .force).isSome ∧ args.s = (last gs .survey).getD "rubin_sim" ∧ args.t = (last gs .stem).getD "SSPPOutput" ∧
      args.st = last gs .stats ∧ args.vd = last gs .visits ∧ verbose = (last gs .quiet).isNone := by
  have val : ∀ gs : List (Setting × Str), ∀ args : Cli.Args, ∀ verbose : Bool, toArgs ((gs.map store).foldl setattr defaults) = (args, verbose) ↔
      (args.c = (last gs .config).getD "" ∧ args.o = (last gs .outfile).getD "" ∧ args.ob = (last gs .orbits).getD "" ∧ args.p = (last gs .parameters).getD "" ∧
      args.pd = (last gs .pointings).getD "" ∧ args.er = last gs .ephemRead ∧ args.ew = last gs .ephemWrite ∧ args.ar = last gs .dataPath ∧
      args.cp = last gs .complex ∧ args.f = (last gs .force).isSome ∧ args.s = (last gs .survey).getD "rubin_sim" ∧ args.t = (last gs .stem).getD "SSPPOutput" ∧
      args.st = last gs .stats ∧ args.vd = last gs .visits ∧ verbose = (last gs .quiet).isNone) := by
    intro gs args verbose
    have opt : ∀ s, ¬ Switch s → defaults (dest s) = .none → ((gs.map store).foldl setattr defaults (dest s)).str? = last gs s := by
      intro s hs hd
      rw [str_stored gs s hs, hd]
      cases last gs s <;> rfl
    have dflt : ∀ s t, ¬ Switch s → defaults (dest s) = .text t → ((gs.map store).foldl setattr defaults (dest s)).str = (last gs s).getD (String.ofList t) := by
      intro s t hs hd
      rw [str_eq, str_stored gs s hs, hd]
      cases last gs s <;> rfl
    have hc := opt .config (by simp [Switch]) rfl
    have ho := opt .outfile (by simp [Switch]) rfl
    have hob := opt .orbits (by simp [Switch]) rfl
    have hp := opt .parameters (by simp [Switch]) rfl
    have hpd := opt .pointings (by simp [Switch]) rfl
    have her := opt .ephemRead (by simp [Switch]) rfl
    have hew := opt .ephemWrite (by simp [Switch]) rfl
    have har := opt .dataPath (by simp [Switch]) rfl
    have hcp := opt .complex (by simp [Switch]) rfl
    have hst := opt .stats (by simp [Switch]) rfl
    have hvd := opt .visits (by simp [Switch]) rfl
    have hs := dflt .survey _ (by simp [Switch]) rfl
    have ht := dflt .stem _ (by simp [Switch]) rfl
    have hf : decide ((gs.map store).foldl setattr defaults .f = .bool true) = (last gs .force).isSome := by
      have := stored gs .force
      simp only [dest] at this
      rw [this]
      cases last gs .force <;> rfl
    have hl : decide ((gs.map store).foldl setattr defaults .l = .bool true) = (last gs .quiet).isNone := by
      have := stored gs .quiet
      simp only [dest] at this
      rw [this]
      cases last gs .quiet <;> rfl
    simp only [dest, String.ofList_toList] at hc ho hob hp hpd her hew har hcp hst hvd hs ht
    simp only [toArgs, str_eq, hc, ho, hob, hp, hpd, her, hew, har, hcp, hst, hvd, hf, hl]
    rw [str_eq] at hs ht
    rw [hs, ht]
    constructor
    · intro h
      injection h with h1 h2
      subst h1; subst h2
      simp
    · rintro ⟨h1, h2, h3, h4, h5, h6, h7, h8, h9, h10, h11, h12, h13, h14, h15⟩
      cases args
      simp_all
  constructor
  · intro h
    unfold parseRun at h
    split at h
    · cases h
    · rename_i ks hk
      split at h
      · cases h
      · rename_i st hg
        split at h
        · cases h
        · rename_i hreq
          split at h
          · cases h
          · rename_i hex
            obtain ⟨gs, hs, rfl⟩ := go_sound hk hg (by simpa using hex)
            simp only [List.nil_append, Except.ok.injEq] at h hreq
            refine ⟨gs, hs, ?_, (val gs args verbose).1 h⟩
            rw [← required_iff]
            simpa using hreq
  · rintro ⟨gs, hs, hn, h⟩
    obtain ⟨ks, hk, hg⟩ := go_complete (T := runTable) hs
    unfold parseRun
    simp only [hk, hg, List.nil_append]
    rw [if_neg (by rw [(required_iff gs).2 hn]; simp)]
    simp only [Bool.false_eq_true, if_false, Except.ok.injEq]
    exact (val gs args verbose).2 h

/-- C81 (one meaning): arguments say at most one list of settings. -/
theorem C81_unique (argv : List (List Char)) (gs gs' : List (Setting × List Char)) (h : Says argv gs) (h' : Says argv gs') : gs = gs' := by
  obtain ⟨ks, hk, hg⟩ := go_complete (T := runTable) h
  obtain ⟨ks', hk', hg'⟩ := go_complete (T := runTable) h'
  rw [hk] at hk'
  injection hk' with hk'
  subst hk'
  have := (hg ⟨[], false⟩).symm.trans (hg' ⟨[], false⟩)
  simp only [List.nil_append, Except.ok.injEq, St.mk.injEq, and_true] at this
  refine List.map_injective_iff.2 ?_ this
  rintro ⟨s, v⟩ ⟨s', v'⟩ he
  simp only [store, storeOf, Prod.mk.injEq] at he
  rw [dest_inj he.1, he.2]

theorem last_perm {gs gs' : List (Setting × List Char)} (hp : gs.Perm gs') (hn : (gs.map Prod.fst).Nodup) (s : Setting) : last gs s = last gs' s := by
  have h1 := hp.filter (fun g => decide (g.1 = s))
  have hlen : (gs.filter fun g => decide (g.1 = s)).length ≤ 1 := by
    clear h1 hp
    induction gs with
    | nil => simp
    | cons g gs ih =>
      simp only [List.map_cons, List.nodup_cons] at hn
      rw [List.filter_cons]
      split
      · rename_i hg
        have : (gs.filter fun g => decide (g.1 = s)) = [] := by
          rw [List.filter_eq_nil_iff]
          intro x hx hxs
          simp only [decide_eq_true_eq] at hxs hg
          exact hn.1 (List.mem_map.2 ⟨x, hx, by rw [hxs, hg]⟩)
        rw [this]; simp
      · exact ih hn.2
  have heq : (gs.filter fun g => decide (g.1 = s)) = gs'.filter fun g => decide (g.1 = s) := by
    match hf : gs.filter fun g => decide (g.1 = s) with
    | [] => rw [hf] at h1; rw [List.nil_perm.1 h1, hf]
    | [g] => rw [hf] at h1; rw [List.perm_singleton.1 h1.symm, hf]
    | _ :: _ :: _ => rw [hf] at hlen; simp at hlen
  unfold last lastOf
  rw [heq]

/-- C81 (order): two command lines that say the same settings in another order, each setting at most once, start the same run, however the settings are written. -/
theorem C81_order (argv argv' : List (List Char)) (gs gs' : List (Setting × List Char)) (h : Says argv gs) (h' : Says argv' gs') (hp : gs.Perm gs')
    (hn : (gs.map Prod.fst).Nodup) : parseRun argv' = parseRun argv := by
  have hl := last_perm hp hn
  obtain ⟨ks, hk, hg⟩ := go_complete (T := runTable) h
  obtain ⟨ks', hk', hg'⟩ := go_complete (T := runTable) h'
  have hfold : (gs'.map store).foldl setattr defaults = (gs.map store).foldl setattr defaults := by
    funext d
    obtain ⟨s, rfl⟩ : ∃ s, d = dest s := by
      cases d
      exacts [⟨.config, rfl⟩, ⟨.outfile, rfl⟩, ⟨.orbits, rfl⟩, ⟨.parameters, rfl⟩, ⟨.pointings, rfl⟩, ⟨.ephemRead, rfl⟩, ⟨.ephemWrite, rfl⟩, ⟨.dataPath, rfl⟩,
        ⟨.complex, rfl⟩, ⟨.force, rfl⟩, ⟨.survey, rfl⟩, ⟨.stem, rfl⟩, ⟨.quiet, rfl⟩, ⟨.stats, rfl⟩, ⟨.visits, rfl⟩]
    rw [stored, stored, hl]
  have hreq : (required.all fun d => decide (d ∈ (gs'.map store).map Prod.fst)) = required.all fun d => decide (d ∈ (gs.map store).map Prod.fst) := by
    rw [Bool.eq_iff_iff, required_iff, required_iff]
    simp only [hl]
  unfold parseRun
  simp only [hk, hk', hg, hg', List.nil_append, hfold, hreq]

/-- C81 (`sorcha`): a command is started exactly if the arguments ask for it, no argument before the first `--` begins with `--=`, and there is a file of that name
in `PATH` that may be executed; it is the first one, and its arguments are passed on unchanged. -/
theorem C81_dispatch (path : Path) (argv : List (List Char)) (dir utility : List Char) (args : List (List Char)) :
    main path argv = .run dir utility args ↔
      ∃ v, Asks argv v args ∧ Clear argv ∧ v ≠ [] ∧ utility = "sorcha-".toList ++ v ∧ FirstIn path utility dir := by
  unfold main
  constructor
  · intro h
    split at h
    · cases h
    · split at h
      · cases h
      · cases h
      · rename_i ks hk
        obtain ⟨v, h1, h2, h3, h4⟩ := (mainGo_run hk).1 h
        exact ⟨v, h1, (kinds_clear argv).1 ⟨ks, hk⟩, h2, h3, h4⟩
  · rintro ⟨v, h1, hc, h2, rfl, h4⟩
    have hne : verbs path ≠ [] := List.ne_nil_of_mem (first_verbs h4)
    obtain ⟨ks, hk⟩ := (kinds_clear argv).2 hc
    rw [if_neg hne, hk]
    exact (mainGo_run hk).2 ⟨v, h1, h2, rfl, h4⟩

/-- C81 (status): when every command ends with a status from 0 to 255 or by a signal, `sorcha` ends with the status of the command it started; it ends with success
exactly if that command does, or if it started none and its own help or version was asked for before any verb. -/
theorem C81_status (path : Path) (argv : List (List Char)) (child : List Char → List Char → List (List Char) → ℤ) (hc : ∀ d u a, -256 < child d u a ∧ child d u a < 256) :
    (∀ d u a, main path argv = .run d u a → 0 ≤ child d u a → (status child (main path argv) : ℤ) = child d u a) ∧
    (status child (main path argv) = 0 → (∃ d u a, main path argv = .run d u a ∧ child d u a = 0) ∨
      ∃ s rest, argv = s :: rest ∧ s ≠ ['-', '-'] ∧ ¬ Value mainNames s) := by
  refine ⟨fun d u a h h0 => ?_, fun h => ?_⟩
  · rw [h]
    have := hc d u a
    simp only [status]
    omega
  · cases hm : main path argv with
    | run d u a =>
      left
      rw [hm] at h
      have := hc d u a
      simp only [status] at h
      exact ⟨d, u, a, rfl, by omega⟩
    | status n =>
      right
      rw [hm] at h
      simp only [status] at h
      subst h
      unfold main at hm
      split at hm
      · cases hm
      · split at hm
        · rename_i hk
          cases kinds_usage hk
        · cases hm
        · rename_i ks hk
          exact mainGo_zero hk hm

/-! ## Cases -/

/-- A command line. -/
def argvOf (l : List String) : List (List Char) := l.map String.toList

theorem letter_mem {c : Char} {s : Setting} (h : (String.ofList ['-', c], s) ∈ names) : Letter c s := h

theorem enough {gs : List (Setting × List Char)} (h : ∀ s ∈ needed, (last gs s).isSome = true) : ∀ s ∈ needed, ∃ v, last gs s = some v :=
  fun s hs => Option.isSome_iff_exists.1 (h s hs)

def usual : List String := ["-c", "config.ini", "--ob", "orbits.csv", "-p=colors.txt", "--pointing", "v3.db", "-o", "out", "-ft", "run1"]

/-- The settings of `usual`. -/
theorem usual_says : Says (argvOf usual) [(.config, "config.ini".toList), (.orbits, "orbits.csv".toList), (.parameters, "colors.txt".toList),
    (.pointings, "v3.db".toList), (.outfile, "out".toList), (.force, []), (.stem, "run1".toList)] := by
  have val : ∀ {v : List Char}, v.head? ≠ some '-' → Value Spec.allNames v := fun h => .inl h
  refine .next (n := "-c".toList) (.inl ⟨"-c", by decide, rfl⟩) (by simp [Switch]) (val (by decide)) ?_
  refine .next (n := "--ob".toList) (.inl ⟨"--ob", by decide, rfl⟩) (by simp [Switch]) (val (by decide)) ?_
  refine .equal (n := "-p".toList) (.inl ⟨"-p", by decide, rfl⟩) (by simp [Switch]) ?_
  refine .next (n := "--pointing".toList) (.inr ⟨"--pointing-db", by decide, ⟨"pointing".toList, rfl⟩, by decide, ⟨"-db".toList, rfl⟩, ?_⟩) (by simp [Switch]) (val (by decide)) ?_
  · intro m' hm' hp
    rw [← List.isPrefixOf_iff_prefix] at hp
    have : ∀ m' ∈ Spec.allNames, "--pointing".toList.isPrefixOf m'.toList = true → m' = "--pointing-db" := by decide +kernel
    exact this m' hm' hp
  refine .next (n := "-o".toList) (.inl ⟨"-o", by decide, rfl⟩) (by simp [Switch]) (val (by decide)) ?_
  exact .lettersNext (names := names) (Switch := Switch) (cs := ['f']) (ss := [.force]) (.cons (letter_mem (by decide +kernel)) .nil) (by simp [Switch]) (c := 't') (s := .stem) (letter_mem (by decide +kernel)) (by simp [Switch]) (val (by decide)) .nil

/-- The run that `usual` starts. -/
example : parseRun (argvOf usual) = .ok (⟨"colors.txt", "orbits.csv", "config.ini", "out", "v3.db", none, none, none, none, none, none, true, "rubin_sim", "run1"⟩, true) :=
  (C81_run _ _ _).2 ⟨_, usual_says, enough (by decide +kernel), by decide +kernel⟩

/-- Another command line with the same settings in another order. -/
example : parseRun (argvOf ["--stem=run1", "--force", "-oout", "--pd", "v3.db", "-p", "colors.txt", "--orb=orbits.csv", "--conf", "config.ini"]) = parseRun (argvOf usual) := by
  refine C81_order _ _ _ [(.stem, "run1".toList), (.force, []), (.outfile, "out".toList), (.pointings, "v3.db".toList), (.parameters, "colors.txt".toList),
    (.orbits, "orbits.csv".toList), (.config, "config.ini".toList)] usual_says ?_ (by decide) (by decide)
  have val : ∀ {v : List Char}, v.head? ≠ some '-' → Value Spec.allNames v := fun h => .inl h
  have uniq : ∀ (n m : String), (∀ m' ∈ Spec.allNames, n.toList.isPrefixOf m'.toList = true → m' = m) → ∀ m' ∈ Spec.allNames, n.toList <+: m'.toList → m' = m :=
    fun n m h m' hm' hp => h m' hm' (List.isPrefixOf_iff_prefix.2 hp)
  refine .equal (n := "--stem".toList) (.inl ⟨"--stem", by decide, rfl⟩) (by simp [Switch]) ?_
  refine .switch (n := "--force".toList) (.inl ⟨"--force", by decide, rfl⟩) (by simp [Switch]) ?_
  refine .lettersGlued (names := names) (Switch := Switch) (cs := []) (ss := []) .nil (by simp) (c := 'o') (s := .outfile) (v := "out".toList) (letter_mem (by decide +kernel)) (by simp [Switch]) (by decide) (by decide) ?_
  refine .next (n := "--pd".toList) (.inl ⟨"--pd", by decide, rfl⟩) (by simp [Switch]) (val (by decide)) ?_
  refine .next (n := "-p".toList) (.inl ⟨"-p", by decide, rfl⟩) (by simp [Switch]) (val (by decide)) ?_
  refine .equal (n := "--orb".toList) (.inr ⟨"--orbits", by decide, ⟨"orb".toList, rfl⟩, by decide, ⟨"its".toList, rfl⟩, uniq "--orb" _ (by decide +kernel)⟩) (by simp [Switch]) ?_
  exact .next (n := "--conf".toList) (.inr ⟨"--config", by decide, ⟨"conf".toList, rfl⟩, by decide, ⟨"ig".toList, rfl⟩, uniq "--conf" _ (by decide +kernel)⟩) (by simp [Switch]) (val (by decide)) .nil

/-- C81 (finding): `-l` is described as "Print additional information"; the run is verbose unless it is given. -/
theorem C81_log_level_fails : ∃ argv args, parseRun argv = .ok (args, true) ∧ parseRun (argv ++ ["-l".toList]) = .ok (args, false) :=
  ⟨argvOf usual, _, (C81_run _ ⟨"colors.txt", "orbits.csv", "config.ini", "out", "v3.db", none, none, none, none, none, none, true, "rubin_sim", "run1"⟩ _).2
    ⟨_, usual_says, enough (by decide +kernel), by decide +kernel⟩, by rfl⟩

/-- C81 (finding): the long names need two dashes. With one dash `-force` asks for `-f` and the output stem path `rce`, `-cp=x` sets the configuration file to `p=x` and
`-st=x` the survey to `t=x`, without a message. -/
theorem C81_single_dash_fails : ∃ argv : List (List Char), ∃ args : Cli.Args,
    parseRun (argv ++ argvOf ["-force", "-cp=x", "-st=x"]) = .ok (args, true) ∧ args.f = true ∧ args.o = "rce" ∧ args.c = "p=x" ∧ args.s = "t=x" ∧ args.cp = none ∧ args.st = none :=
  ⟨argvOf usual, _, (C81_run _ ⟨"colors.txt", "orbits.csv", "p=x", "rce", "v3.db", none, none, none, none, none, none, true, "t=x", "run1"⟩ _).2 (by
    have h : ∀ {gs : List (Setting × List Char)} {argv : List (List Char)}, Says argv gs → ∀ {argv' gs'}, Says argv' gs' → Says (argv ++ argv') (gs ++ gs') := by
      intro gs argv hs argv' gs' hs'
      induction hs with
      | nil => exact hs'
      | switch h1 h2 _ ih => exact .switch h1 h2 ih
      | next h1 h2 h3 _ ih => exact .next h1 h2 h3 ih
      | equal h1 h2 _ ih => exact .equal h1 h2 ih
      | letters h1 h2 h3 _ ih => rw [List.append_assoc]; exact .letters h1 h2 h3 ih
      | lettersNext h1 h2 h3 h4 h5 _ ih => rw [List.append_assoc]; exact .lettersNext h1 h2 h3 h4 h5 ih
      | lettersEqual h1 h2 h3 h4 _ ih => rw [List.append_assoc]; exact .lettersEqual h1 h2 h3 h4 ih
      | lettersGlued h1 h2 h3 h4 h5 h6 _ ih => rw [List.append_assoc]; exact .lettersGlued h1 h2 h3 h4 h5 h6 ih
    refine ⟨_, h usual_says (argv' := argvOf ["-force", "-cp=x", "-st=x"]) (gs' := [(.force, []), (.outfile, "rce".toList), (.config, "p=x".toList), (.survey, "t=x".toList)]) ?_, enough (by decide +kernel), by decide +kernel⟩
    refine .lettersGlued (names := names) (Switch := Switch) (cs := ['f']) (ss := [.force]) (.cons (letter_mem (by decide +kernel)) .nil) (by simp [Switch]) (c := 'o') (s := .outfile) (v := "rce".toList) (letter_mem (by decide +kernel)) (by simp [Switch]) (by decide) (by decide) ?_
    refine .lettersGlued (names := names) (Switch := Switch) (cs := []) (ss := []) .nil (by simp) (c := 'c') (s := .config) (v := "p=x".toList) (letter_mem (by decide +kernel)) (by simp [Switch]) (by decide) (by decide) ?_
    exact .lettersGlued (names := names) (Switch := Switch) (cs := []) (ss := []) .nil (by simp) (c := 's') (s := .survey) (v := "t=x".toList) (letter_mem (by decide +kernel)) (by simp [Switch]) (by decide) (by decide) .nil),
    rfl, rfl, rfl, rfl, rfl, rfl⟩

/-- C81 (finding): an abbreviation that begins two names is refused even when both name the same setting: `--a` and `--v`. -/
theorem C81_abbreviation_fails : (∀ rest, parseRun ("--a".toList :: rest) = .error .usage) ∧ ∀ rest, parseRun ("--v".toList :: rest) = .error .usage :=
  ⟨fun _ => rfl, fun _ => rfl⟩

/-- A `PATH` with two directories. -/
def somePath : Path := [("/usr/bin".toList, some [⟨"ls".toList, true, false⟩]), ("/opt/bin".toList, some [⟨"sorcha-run".toList, true, false⟩, ⟨"sorcha".toList, true, false⟩])]

/-- The arguments behind the verb are passed on, options of `sorcha` itself too. -/
example : main somePath (argvOf ["run", "-c", "config.ini", "--help", "--", "x"]) = .run "/opt/bin".toList "sorcha-run".toList (argvOf ["-c", "config.ini", "--help", "--", "x"]) := by
  refine (C81_dispatch _ _ _ _ _).2 ⟨"run".toList, .inl ⟨.inl (by decide), rfl, by decide⟩, ?_, by decide, rfl, ?_⟩
  · rw [← kinds_clear]; exact ⟨_, rfl⟩
  · exact ⟨[("/usr/bin".toList, some [⟨"ls".toList, true, false⟩])], _, [], rfl, ⟨⟨"sorcha-run".toList, true, false⟩, by decide, rfl, rfl, rfl⟩, by
      intro d hd fs hfs e he
      simp only [List.mem_singleton] at hd
      subst hd
      simp only [Option.some.injEq] at hfs
      subst hfs
      simp only [List.mem_singleton] at he
      subst he
      decide⟩

/-- A failing command makes `sorcha` fail with the same status. -/
example : status (fun _ _ _ => 3) (main somePath (argvOf ["run"])) = 3 := by rfl

/-- C81 (finding): an argument of the verb that begins with `--=` is not passed on: `sorcha` itself refuses it. -/
theorem C81_equals_fails : ∃ path, (∃ d u, main path (argvOf ["run", "=x"]) = .run d u (argvOf ["=x"])) ∧ main path (argvOf ["run", "--=x"]) = .status 2 :=
  ⟨somePath, ⟨_, _, rfl⟩, rfl⟩

/-- C81 (finding): a `--` right behind the verb is not passed on. -/
theorem C81_dashes_fails : ∃ path d u, main path (argvOf ["run", "--", "-c", "x"]) = .run d u (argvOf ["-c", "x"]) := ⟨somePath, _, _, rfl⟩

end Sorcha.Argv.Props
