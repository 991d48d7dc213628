import Verif.Props.Time
import Verif.Props.TestSpec
import Verif.Props.Htol
import Verif.Props.Minimize
import Verif.Props.Helpers
import Verif.Props.RandomVars
import Verif.Props.Latent
import Verif.Props.CbiExport
import Verif.Props.Instrument
import Verif.Props.Env
import Verif.Props.Units
import Verif.Props.Report
import Verif.Props.Mech
import Verif.Props.Compose
import Verif.Props.Run
import Verif.Props.Timeline
import Verif.Props.Fail
import Verif.Props.Measure
import Verif.Props.Order
import Verif.Props.Init
import Verif.Props.Rows
import Verif.Props.Samples
import Verif.Props.Seeds
import Verif.Props.Logger
import Verif.Props.ReportIO
import Verif.Props.Degrade
import Verif.Props.DegradeEx
import Verif.Props.EquivTime
import Verif.Props.Total
import Verif.Props.Split
import Verif.Props.SplitEx
import Verif.Props.Sum
import Verif.Props.Equation
import Verif.Props.Circuit
import Verif.Props.Tddb
import Verif.Props.TddbRun
import Verif.Props.TddbState
import Verif.Props.TddbRead
import Verif.Props.Readings
import Verif.Props.CbiModel
import Verif.Props.CookbookEnv
import Verif.Props.Nbti
import Verif.Props.NbtiDefault
import Verif.Props.Fresh
import Verif.Props.FreshEx
import Verif.Props.Flat
import Verif.Props.Demo
import Verif.Props.Ranges
import Verif.Props.Finite
import Verif.Props.River
import Verif.Props.Table
import Verif.Props.AmpDev
import Verif.Props.AmpTest
import Verif.Props.Amp
import Verif.Props.EnvBuild
import Verif.Props.CondShift
import Verif.Props.Start
import Verif.Props.FailHistory
import Verif.Props.History
import Verif.Props.Exposure
import Verif.Props.Others
import Verif.Props.Nominal
import Verif.Props.Longer
import Verif.Props.Direct
import Verif.Props.Layout
import Verif.Props.Optional
import Verif.Props.Clock
import Verif.Props.Accelerate
import Verif.Props.Owned
import Verif.Props.Arguments
import Verif.Props.ReportFile
import Verif.Props.ReportNested
import Verif.Props.ReportObject
import Verif.Props.NbtiHistory
import Verif.Props.DegUnit
import Verif.Props.Tapes
import Verif.Props.Defects
import Verif.Props.EnvVariation
import Verif.Props.EnvDefault
import Verif.Props.ErrorLaw
import Verif.Props.InitVariation
import Verif.Props.Noise
import Verif.Props.Inspect
import Verif.Props.Together
import Verif.Props.Streams
import Verif.Props.DemoEntry
import Verif.Props.SelfCheck
import Verif.Tests.Float
import Verif.Tests.Repo
import Verif.Tests.RepoSim
import Verif.Props.Figures
import Verif.Props.FigureDemos
import Verif.Props.Fails
import Verif.Props.AmpFigure
import Verif.Props.FigureEx
import Verif.Props.Reorder
import Verif.Props.Exchange
import Verif.Props.Carried
import Verif.Props.CarriedEx
import Verif.Props.SharedSeeds
import Verif.Props.HtolNbti
import Verif.Props.HtolNbtiEx
import Verif.Props.Unfinished
import Verif.Props.DoneStays
import Verif.Props.DoneMech
import Verif.Props.Alone
import Verif.Props.Cases
import Verif.Props.CasesRun
import Verif.Props.CasesAccel
