import Verif.DesRun.Model
import Verif.Whole.Model

/-!
# `sorcha run -s DES` from the command line to the files

The same as `Whole/Model.lean` for the runs of the Dark Energy Survey: the rounds are those of `DesRun`. The readers, the ephemerides and the files are shared with the Rubin
runs (des.py:95-220 and 372-407 are sorcha.py:106-229 and 374-409 but for what the pointings are read with).
-/

namespace Sorcha.Whole

open Sorcha.Csv (Str)
open Sorcha.Cli (CmdArgs)
open Sorcha.History (Disk Chunk)

variable {G W V : Type}

/-- What a DES run uses besides: its own calculations, and the columns and cells of its table of observations. -/
structure DesWorld (G W V : Type) where
  base : World G W V
  env : Config.Cfg → CmdArgs → Disk → Option (DesRun.Env G W V)
  columns : Config.Cfg → CmdArgs → List String
  cells : Pipeline.Row W V → Output.Row
  stats : List (Pipeline.Row W V) → Output.Frame

/-- The rounds, des.py:175-394: what each of them writes, and whether all went well. A round that fails has written its ephemerides before. -/
noncomputable def desRounds (w : DesWorld G W V) (E : DesRun.Env G W V) (c : Config.Cfg) (a : CmdArgs) :
    Pipeline.State G → List (List (Pointing.Obs W) × Option Output.Frame) → List Chunk × Bool
  | _, [] => ([], true)
  | s, (obs, eph) :: rest =>
    match DesRun.process E c s obs with
    | .error _ => ([⟨w.base.messages s.round, eph, none⟩], false)
    | .ok (out, s') =>
      if out.length = 0 then
        let r := desRounds w E c a s' rest
        (⟨w.base.messages s.round, eph, none⟩ :: r.1, r.2)
      else
        match Output.outputFrame w.base.dist (outConfig c) ⟨w.columns c a, out.map w.cells⟩ with
        | .error _ => ([⟨w.base.messages s.round, eph, none⟩], false)
        | .ok g =>
          let r := desRounds w E c a s' rest
          (⟨w.base.messages s.round, eph, some (g, w.stats out)⟩ :: r.1, r.2)

/-- `execute` behind the command line, run.py:171-242, and `runDESSimulation`, des.py:71-407; a Rubin run is that of `plan`. Not described: the formats left out there, and
statistics of a run with settings of the linking filter, which want columns a DES run does not have (PPStats.py:50-56). -/
noncomputable def desPlan (w : DesWorld G W V) (a : CmdArgs) (d : Disk) : Plan :=
  match textAt d a.configfile with
  | none => .writes .csv [] false
  | some t =>
    match Ini.configure w.base.py w.base.lightCurves w.base.activities a.surveyname (configLines t) with
    | .error _ => .writes .csv [] false
    | .ok (c, _) =>
      match Cli.execute (fun p => d.paths.contains p) w.base.isDir (runConfig c) a with
      | .error _ => .writes .csv [] false
      | .ok .rubin => plan w.base a d
      | .ok .des =>
        if c.input.ephFormat = "hdf5" ∨ c.output.format = "hdf5" ∨ (c.linking.ssp.isSome = true ∧ a.stats.isSome = true) then .other
        else
          match w.env c a d with
          | none => .writes .csv [] false
          | some E =>
            let b := observations w.base c a d
            let r := desRounds w E c a (w.base.state c a) b.1
            .writes (if c.output.format = "csv" then .csv else .sqlite) r.1 (b.2 && r.2)

/-- `sorcha run argv`, run.py:9-242, for both surveys. -/
inductive DesInvoked (w : DesWorld G W V) (argv : List Str) (d : Disk) : Disk → List Char → History.Outcome → Prop
  | usage {e} (h : Argv.parseRun argv = .error e) : DesInvoked w argv d d [] .refused
  | refused {args v e} (h : Argv.parseRun argv = .ok (args, v)) (hc : (Cli.commandLine (existing w.base d) w.base.isDir w.base.glob args d.paths).1 = .error e) :
      DesInvoked w argv d (checked w.base args d) (w.base.start.flatMap fun l => l ++ ['\n']) .refused
  | ran {args v a fmt chunks s done} (h : Argv.parseRun argv = .ok (args, v))
      (hc : (Cli.commandLine (existing w.base d) w.base.isDir w.base.glob args d.paths).1 = .ok a) (hp : desPlan w a (checked w.base args d) = .writes fmt chunks true)
      (he : History.Ends false (History.runEffects w.base.lines a fmt chunks w.base.stamp) ⟨checked w.base args d, w.base.start.flatMap fun l => l ++ ['\n']⟩ s done) :
      DesInvoked w argv d s.disk s.log (if done then .finished else .stopped)
  | failed {args v a fmt chunks s done} (h : Argv.parseRun argv = .ok (args, v))
      (hc : (Cli.commandLine (existing w.base d) w.base.isDir w.base.glob args d.paths).1 = .ok a) (hp : desPlan w a (checked w.base args d) = .writes fmt chunks false)
      (he : History.Ends false (chunks.flatMap (History.chunkEffects w.base.lines a fmt)) ⟨checked w.base args d, w.base.start.flatMap fun l => l ++ ['\n']⟩ s done) :
      DesInvoked w argv d s.disk s.log .stopped

end Sorcha.Whole
