import Verif.Linking.Props
import Verif.Filters.Props
import Verif.Rng.Props
import Verif.Readers.Props
import Verif.Output.Props
import Verif.Photom.Props
import Verif.Mags.Props
import Verif.Photom.RandProps
import Verif.Geom.Props
import Verif.Ephem.Props
import Verif.Ephem.PicketProps
import Verif.Ephem.OrbitProps
import Verif.Ephem.ElementsProps
import Verif.Ephem.ParseProps
import Verif.Visits.Witness
import Verif.Cli.Props
import Verif.Des.Props
import Verif.Pointing.Props
import Verif.Config.Safe
import Verif.Config.Visits
import Verif.Inputs.Props
import Verif.Pipeline.Props2
import Verif.Pipeline.Total
import Verif.Driver.Run
import Verif.DesRun.Examples
import Verif.Columns.Examples
import Verif.Columns.Agree
import Verif.Des.Exact
import Verif.History.Examples
import Verif.Ephem.SolveState
import Verif.Setup.Templates
import Verif.Setup.LogsExamples
import Verif.Setup.CacheExamples
import Verif.Tables.Examples
import Verif.Addons.Props
import Verif.Cameras.Props
import Verif.Ini.Accept
import Verif.Ini.Default
import Verif.Cameras.Edge
import Verif.Shipped.Examples
import Verif.H5.Props
import Verif.Log.Props
import Verif.Sqlite.Props
import Verif.Cull.Examples
import Verif.Seed.Props
import Verif.Argv.Props
import Verif.Ids.Props
import Verif.Csv.Props
import Verif.Csv.BlankLemmas
import Verif.Csv.TextProps
import Verif.Csv.BlankWrite
import Verif.Csv.BlankProps
import Verif.Whole.Props
import Verif.Whole.Props2
import Verif.Whole.Examples
import Verif.Whole.Props3
import Verif.Whole.Examples2
import Verif.Whole.Props4
import Verif.Whole.Examples3
import Verif.Whole.Examples4
import Verif.Whole.Props6
import Verif.Whole.Examples5
import Verif.Whole.Props7
import Verif.Whole.Examples6
import Verif.Whole.Examples7
import Verif.Cmd.Examples
import Verif.Driver.Refs
import Verif.Whole.DesExamples
import Verif.Whole.Stats
import Verif.Whole.StatSpec
import Verif.Whole.StatLemmas
import Verif.Whole.Props8
import Verif.Whole.DesStats
import Verif.Whole.Examples8
import Verif.Whole.Combine
import Verif.Whole.Props9
import Verif.Whole.Examples9
import Verif.Whole.Examples10
import Verif.Whole.SpecLogs
import Verif.Whole.Logs
import Verif.Whole.Props10
import Verif.Whole.Examples11
import Verif.Whole.SpecSession
import Verif.Whole.Session
import Verif.Whole.Props11
import Verif.Whole.Examples12
import Verif.Whole.SpecCampaign
import Verif.Whole.Campaign
import Verif.Whole.Props12
import Verif.Whole.Examples13
import Verif.Whole.DesParts
import Verif.Whole.Props13
import Verif.Whole.Examples14
import Verif.Db.Model
import Verif.Db.Spec
import Verif.Db.Lemmas
import Verif.Db.Props
import Verif.Db.Examples
import Verif.Whole.Props14
import Verif.Geom.Units
import Verif.Geom.UnitsProps
import Verif.Whole.SpecParallel
import Verif.Whole.Parallel
import Verif.Whole.ParallelLemmas
import Verif.Whole.Props15
import Verif.Whole.Props16
import Verif.Whole.Examples15
import Verif.Whole.ParallelLogs
import Verif.Whole.Props17
import Verif.Whole.Examples16
import Verif.Epoch.Props
import Verif.Compare.Props
import Verif.Cmd.Demo
import Verif.Turn.Props
import Verif.Output.FloatRound
import Verif.Photom.Float
import Verif.Linking.Float
import Verif.Ephem.PicketFloat
import Verif.Photom.Float2
import Verif.Addons.Columns
import Verif.Output.FloatMedian
