import Verif.Cmd.Fit
import Verif.Setup.Templates
import Verif.Setup.LogsProps

/-!
# C90: the arguments of `sorcha init`, `demo`, `bootstrap`, `cite` and `outputs`
-/

namespace Sorcha.Cmd.Props
open Argv Argv.Spec Spec

/-- C90 (`sorcha init`): the command goes to work exactly if its arguments say settings, with the path given last or the working directory, and forced exactly if `-f` is among them. -/
theorem C90_init (argv : List (List Char)) (a : InitArgs) :
    initArgs argv = .ok a ↔ ∃ gs, InitSays argv gs ∧ a.path = (lastOf gs .path).getD "./" ∧ (a.force = true ↔ Given gs .force) ∧ (a.verbose = true ↔ Given gs .verbose) := by
  have key : ∀ gs : List (InitSetting × Str), (gs.map (storeOf initDest)).foldl InitArgs.set {} = a ↔
      a.path = (lastOf gs .path).getD "./" ∧ (a.force = true ↔ Given gs .force) ∧ (a.verbose = true ↔ Given gs .verbose) := by
    intro gs
    have h1 := fold_field InitArgs.set InitArgs.path InitSetting.path id initDest (by intro a t v; cases t <;> rfl) gs {}
    have h2 := fold_field InitArgs.set InitArgs.force InitSetting.force (fun _ => true) initDest (by intro a t v; cases t <;> rfl) gs {}
    have h3 := fold_field InitArgs.set InitArgs.verbose InitSetting.verbose (fun _ => true) initDest (by intro a t v; cases t <;> rfl) gs {}
    generalize (gs.map (storeOf initDest)).foldl InitArgs.set {} = b at h1 h2 h3
    obtain ⟨bv, bp, bf⟩ := b
    obtain ⟨av, ap, af⟩ := a
    rw [← switch_given, ← switch_given, ← h2, ← h3]
    simp only [Option.map_id_fun, id_eq] at h1
    simp only [InitArgs.mk.injEq, ← h1]
    tauto
  simp only [initArgs]
  constructor
  · intro h
    split at h
    · cases h
    · rename_i given hp
      injection h with h
      obtain ⟨gs, hs, rfl, -⟩ := (parseArgs_iff (T := initTable) [] argv given).1 hp
      exact ⟨gs, hs, (key gs).1 h⟩
  · rintro ⟨gs, hs, h⟩
    rw [show parseArgs initTable [] argv = _ from (parseArgs_iff (T := initTable) [] argv _).2 ⟨gs, hs, rfl, by simp⟩]
    exact congrArg _ ((key gs).2 h)

/-- C90 (`sorcha bootstrap`): likewise with the directory of the cache. -/
theorem C90_bootstrap (osCache : String) (argv : List (List Char)) (a : BootArgs) :
    bootArgs osCache argv = .ok a ↔ ∃ gs, BootSays argv gs ∧ a.cache = (lastOf gs .cache).getD osCache ∧ (a.force = true ↔ Given gs .force) := by
  have key : ∀ gs : List (BootSetting × Str), (gs.map (storeOf bootDest)).foldl BootArgs.set { cache := osCache } = a ↔
      a.cache = (lastOf gs .cache).getD osCache ∧ (a.force = true ↔ Given gs .force) := by
    intro gs
    have h1 := fold_field BootArgs.set BootArgs.cache BootSetting.cache id bootDest (by intro a t v; cases t <;> rfl) gs { cache := osCache }
    have h2 := fold_field BootArgs.set BootArgs.force BootSetting.force (fun _ => true) bootDest (by intro a t v; cases t <;> rfl) gs { cache := osCache }
    generalize (gs.map (storeOf bootDest)).foldl BootArgs.set { cache := osCache } = b at h1 h2
    obtain ⟨bc, bf⟩ := b
    obtain ⟨ac, af⟩ := a
    rw [← switch_given, ← h2]
    simp only [Option.map_id_fun, id_eq] at h1
    simp only [BootArgs.mk.injEq, ← h1]
    tauto
  simp only [bootArgs]
  constructor
  · intro h
    split at h
    · cases h
    · rename_i given hp
      injection h with h
      obtain ⟨gs, hs, rfl, -⟩ := (parseArgs_iff (T := bootTable) [] argv given).1 hp
      exact ⟨gs, hs, (key gs).1 h⟩
  · rintro ⟨gs, hs, h⟩
    rw [show parseArgs bootTable [] argv = _ from (parseArgs_iff (T := bootTable) [] argv _).2 ⟨gs, hs, rfl, by simp⟩]
    exact congrArg _ ((key gs).2 h)

/-- C90 (`sorcha cite`): likewise with the directory of the file and whether to print. -/
theorem C90_cite (cwd : String) (argv : List (List Char)) (a : CiteArgs) :
    citeArgs cwd argv = .ok a ↔ ∃ gs, CiteSays argv gs ∧ a.o = (lastOf gs .dir).getD cwd ∧ (a.p = true ↔ Given gs .print) := by
  have key : ∀ gs : List (CiteSetting × Str), (gs.map (storeOf citeDest)).foldl CiteArgs.set { o := cwd } = a ↔
      a.o = (lastOf gs .dir).getD cwd ∧ (a.p = true ↔ Given gs .print) := by
    intro gs
    have h1 := fold_field CiteArgs.set CiteArgs.o CiteSetting.dir id citeDest (by intro a t v; cases t <;> rfl) gs { o := cwd }
    have h2 := fold_field CiteArgs.set CiteArgs.p CiteSetting.print (fun _ => true) citeDest (by intro a t v; cases t <;> rfl) gs { o := cwd }
    generalize (gs.map (storeOf citeDest)).foldl CiteArgs.set { o := cwd } = b at h1 h2
    obtain ⟨bc, bf⟩ := b
    obtain ⟨ac, af⟩ := a
    rw [← switch_given, ← h2]
    simp only [Option.map_id_fun, id_eq] at h1
    simp only [CiteArgs.mk.injEq, ← h1]
    tauto
  simp only [citeArgs]
  constructor
  · intro h
    split at h
    · cases h
    · rename_i given hp
      injection h with h
      obtain ⟨gs, hs, rfl, -⟩ := (parseArgs_iff (T := citeTable) [] argv given).1 hp
      exact ⟨gs, hs, (key gs).1 h⟩
  · rintro ⟨gs, hs, h⟩
    rw [show parseArgs citeTable [] argv = _ from (parseArgs_iff (T := citeTable) [] argv _).2 ⟨gs, hs, rfl, by simp⟩]
    exact congrArg _ ((key gs).2 h)

theorem demo_names (s : Str) (f : List Str → Except Exit (DemoDo × Bool)) (h : demoSub s = some f) : s.head? ≠ some '-' ∧ s ≠ [] := by
  simp only [demoSub] at h
  split at h
  · rename_i hs; subst hs; decide
  · split at h
    · rename_i hs; subst hs; decide
    · cases h

theorem outputs_names (s : Str) (f : List Str → Except Exit (OutputsDo × Bool)) (h : outputsSub s = some f) : s.head? ≠ some '-' ∧ s ≠ [] := by
  simp only [outputsSub] at h
  split at h
  · rename_i hs; subst hs; decide
  · split at h
    · rename_i hs; subst hs; decide
    · cases h

/-- C90 (`sorcha demo prepare`): the files are prepared exactly if the first argument is `prepare` and the others say settings. -/
theorem C90_demo_prepare (argv : List (List Char)) (a : DemoArgs) :
    demoArgs argv = .ok (.some (.prepare a)) ↔ ∃ rest gs, argv = "prepare".toList :: rest ∧ DemoSays rest gs ∧ a.path = (lastOf gs .path).getD "./" ∧ (a.force = true ↔ Given gs .force) := by
  have key : ∀ gs : List (DemoSetting × Str), (gs.map (storeOf demoDest)).foldl DemoArgs.set {} = a ↔
      a.path = (lastOf gs .path).getD "./" ∧ (a.force = true ↔ Given gs .force) := by
    intro gs
    have h1 := fold_field DemoArgs.set DemoArgs.path DemoSetting.path id demoDest (by intro a t v; cases t <;> rfl) gs {}
    have h2 := fold_field DemoArgs.set DemoArgs.force DemoSetting.force (fun _ => true) demoDest (by intro a t v; cases t <;> rfl) gs {}
    generalize (gs.map (storeOf demoDest)).foldl DemoArgs.set {} = b at h1 h2
    obtain ⟨bc, bf⟩ := b
    obtain ⟨ac, af⟩ := a
    rw [← switch_given, ← h2]
    simp only [Option.map_id_fun, id_eq] at h1
    simp only [DemoArgs.mk.injEq, ← h1]
    tauto
  simp only [demoArgs]
  rw [parseSub_some demoSub demo_names]
  constructor
  · rintro ⟨s, rest, f, rfl, hf, hr⟩
    simp only [demoSub] at hf
    split at hf
    · rename_i hs
      subst hs
      injection hf with hf
      subst hf
      obtain ⟨given, hp, hx⟩ := (subArgs_iff _ _ _ _ _ _ _).1 hr
      obtain ⟨gs, hs, rfl, -⟩ := (parseKnown_iff (T := demoTable) [] rest given).1 hp
      injection hx with hx
      exact ⟨rest, gs, rfl, hs, (key gs).1 hx.symm⟩
    · split at hf
      · injection hf with hf
        subst hf
        obtain ⟨given, hp, hx⟩ := (subArgs_iff _ _ _ _ _ _ _).1 hr
        cases hx
      · cases hf
  · rintro ⟨rest, gs, rfl, hs, h⟩
    refine ⟨_, rest, _, rfl, if_pos rfl, ?_⟩
    rw [subArgs_iff]
    exact ⟨_, (parseKnown_iff (T := demoTable) [] rest _).2 ⟨gs, hs, rfl, by simp⟩, by rw [(key gs).2 h]⟩

/-- C90 (`sorcha demo howto`): the command is printed exactly for `sorcha demo howto`, and the help of `sorcha demo` for no argument. -/
theorem C90_demo_howto (argv : List (List Char)) : (demoArgs argv = .ok (.some .howto) ↔ argv = ["howto".toList]) ∧ (demoArgs argv = .ok .none ↔ argv = []) := by
  refine ⟨?_, parseSub_none _ _⟩
  simp only [demoArgs]
  rw [parseSub_some demoSub demo_names]
  constructor
  · rintro ⟨s, rest, f, rfl, hf, hr⟩
    simp only [demoSub] at hf
    split at hf
    · injection hf with hf
      subst hf
      obtain ⟨given, hp, hx⟩ := (subArgs_iff _ _ _ _ _ _ _).1 hr
      cases hx
    · split at hf
      · rename_i hs
        subst hs
        injection hf with hf
        subst hf
        obtain ⟨given, hp, hx⟩ := (subArgs_iff _ _ _ _ _ _ _).1 hr
        obtain ⟨rfl, -⟩ := (parseKnown_top rest given).1 hp
        rfl
      · cases hf
  · rintro rfl
    exact ⟨_, [], _, rfl, rfl, rfl⟩

/-- C90 (`sorcha outputs create-sqlite`): the database is made exactly if the first argument is `create-sqlite` and the others say settings, with the name of the database,
the directory of the inputs and that of the results among them. -/
theorem C90_create_sqlite (argv : List (List Char)) (a : SqlArgs) :
    outputsArgs argv = .ok (.some (.createSqlite a)) ↔ ∃ rest gs, argv = "create-sqlite".toList :: rest ∧ SqlSays rest gs ∧
      lastOf gs .output = some a.output ∧ lastOf gs .inputs = some a.inputs ∧ lastOf gs .results = some a.results ∧ lastOf gs .stem = a.stem ∧
      (a.complex = true ↔ Given gs .complex) := by
  have key : ∀ gs : List (SqlSetting × Str), (gs.map (storeOf sqlDest)).foldl SqlArgs.set {} = a ∧ (∀ s ∈ [SqlSetting.output, .inputs, .results], Given gs s) ↔
      lastOf gs .output = some a.output ∧ lastOf gs .inputs = some a.inputs ∧ lastOf gs .results = some a.results ∧ lastOf gs .stem = a.stem ∧
      (a.complex = true ↔ Given gs .complex) := by
    intro gs
    have h1 := fold_field SqlArgs.set SqlArgs.output SqlSetting.output id sqlDest (by intro a t v; cases t <;> rfl) gs {}
    have h2 := fold_field SqlArgs.set SqlArgs.inputs SqlSetting.inputs id sqlDest (by intro a t v; cases t <;> rfl) gs {}
    have h3 := fold_field SqlArgs.set SqlArgs.results SqlSetting.results id sqlDest (by intro a t v; cases t <;> rfl) gs {}
    have h4 := fold_field SqlArgs.set SqlArgs.stem SqlSetting.stem some sqlDest (by intro a t v; cases t <;> rfl) gs {}
    have h5 := fold_field SqlArgs.set SqlArgs.complex SqlSetting.complex (fun _ => true) sqlDest (by intro a t v; cases t <;> rfl) gs {}
    generalize (gs.map (storeOf sqlDest)).foldl SqlArgs.set {} = b at h1 h2 h3 h4 h5
    obtain ⟨b1, b2, b3, b4, b5⟩ := b
    obtain ⟨a1, a2, a3, a4, a5⟩ := a
    rw [← switch_given, ← h5]
    simp only [Option.map_id_fun, id_eq] at h1 h2 h3
    have h4' : b4 = lastOf gs .stem := by
      rw [show b4 = ((lastOf gs SqlSetting.stem).map some).getD none from h4]
      cases lastOf gs SqlSetting.stem <;> rfl
    simp only [SqlArgs.mk.injEq, List.mem_cons, List.not_mem_nil, or_false, forall_eq_or_imp, forall_eq, ← lastOf_some_iff]
    rw [h1, h2, h3, ← h4']
    cases lastOf gs SqlSetting.output <;> cases lastOf gs SqlSetting.inputs <;> cases lastOf gs SqlSetting.results <;> simp
  simp only [outputsArgs]
  rw [parseSub_some outputsSub outputs_names]
  constructor
  · rintro ⟨s, rest, f, rfl, hf, hr⟩
    simp only [outputsSub] at hf
    split at hf
    · rename_i hs
      subst hs
      injection hf with hf
      subst hf
      obtain ⟨given, hp, hx⟩ := (subArgs_iff _ _ _ _ _ _ _).1 hr
      obtain ⟨gs, hs, rfl, hn⟩ := (parseKnown_iff (T := sqlTable) [SqlSetting.output, SqlSetting.inputs, SqlSetting.results] rest given).1 hp
      injection hx with hx
      exact ⟨rest, gs, rfl, hs, (key gs).1 ⟨hx.symm, hn⟩⟩
    · split at hf
      · injection hf with hf
        subst hf
        obtain ⟨given, hp, hx⟩ := (subArgs_iff _ _ _ _ _ _ _).1 hr
        cases hx
      · cases hf
  · rintro ⟨rest, gs, rfl, hs, h⟩
    refine ⟨_, rest, _, rfl, if_pos rfl, ?_⟩
    rw [subArgs_iff]
    exact ⟨_, (parseKnown_iff (T := sqlTable) [SqlSetting.output, SqlSetting.inputs, SqlSetting.results] rest _).2 ⟨gs, hs, rfl, ((key gs).2 h).2⟩, by rw [((key gs).2 h).1]⟩

/-- C90 (`sorcha outputs check-logs`): the logs are checked exactly if the first argument is `check-logs` and the others say settings with the directory among them; and the
help of `sorcha outputs` is printed for no argument. -/
theorem C90_check_logs (argv : List (List Char)) (a : LogsArgs) :
    (outputsArgs argv = .ok (.some (.checkLogs a)) ↔ ∃ rest gs, argv = "check-logs".toList :: rest ∧ LogsSays rest gs ∧
      lastOf gs .dir = some a.filepath ∧ lastOf gs .report = a.outpath ∧ (a.force = true ↔ Given gs .force)) ∧ (outputsArgs argv = .ok .none ↔ argv = []) := by
  refine ⟨?_, parseSub_none _ _⟩
  have key : ∀ gs : List (LogsSetting × Str), (gs.map (storeOf logsDest)).foldl LogsArgs.set {} = a ∧ (∀ s ∈ [LogsSetting.dir], Given gs s) ↔
      lastOf gs .dir = some a.filepath ∧ lastOf gs .report = a.outpath ∧ (a.force = true ↔ Given gs .force) := by
    intro gs
    have h1 := fold_field LogsArgs.set LogsArgs.filepath LogsSetting.dir id logsDest (by intro a t v; cases t <;> rfl) gs {}
    have h4 := fold_field LogsArgs.set LogsArgs.outpath LogsSetting.report some logsDest (by intro a t v; cases t <;> rfl) gs {}
    have h5 := fold_field LogsArgs.set LogsArgs.force LogsSetting.force (fun _ => true) logsDest (by intro a t v; cases t <;> rfl) gs {}
    generalize (gs.map (storeOf logsDest)).foldl LogsArgs.set {} = b at h1 h4 h5
    obtain ⟨b1, b4, b5⟩ := b
    obtain ⟨a1, a4, a5⟩ := a
    rw [← switch_given, ← h5]
    simp only [Option.map_id_fun, id_eq] at h1
    have h4' : b4 = lastOf gs .report := by
      rw [show b4 = ((lastOf gs LogsSetting.report).map some).getD none from h4]
      cases lastOf gs LogsSetting.report <;> rfl
    simp only [LogsArgs.mk.injEq, List.mem_cons, List.not_mem_nil, or_false, forall_eq, ← lastOf_some_iff]
    rw [h1, ← h4']
    cases lastOf gs LogsSetting.dir <;> simp
  simp only [outputsArgs]
  rw [parseSub_some outputsSub outputs_names]
  constructor
  · rintro ⟨s, rest, f, rfl, hf, hr⟩
    simp only [outputsSub] at hf
    split at hf
    · injection hf with hf
      subst hf
      obtain ⟨given, hp, hx⟩ := (subArgs_iff _ _ _ _ _ _ _).1 hr
      cases hx
    · split at hf
      · rename_i hs
        subst hs
        injection hf with hf
        subst hf
        obtain ⟨given, hp, hx⟩ := (subArgs_iff _ _ _ _ _ _ _).1 hr
        obtain ⟨gs, hs, rfl, hn⟩ := (parseKnown_iff (T := logsTable) [LogsSetting.dir] rest given).1 hp
        injection hx with hx
        exact ⟨rest, gs, rfl, hs, (key gs).1 ⟨hx.symm, hn⟩⟩
      · cases hf
  · rintro ⟨rest, gs, rfl, hs, h⟩
    refine ⟨_, rest, _, rfl, rfl, ?_⟩
    rw [subArgs_iff]
    exact ⟨_, (parseKnown_iff (T := logsTable) [LogsSetting.dir] rest _).2 ⟨gs, hs, rfl, ((key gs).2 h).2⟩, by rw [((key gs).2 h).1]⟩

end Sorcha.Cmd.Props
