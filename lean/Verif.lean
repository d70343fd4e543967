import Verif.Lemmas.Affine
import Verif.Lemmas.Announced
import Verif.Lemmas.Api
import Verif.Lemmas.Argparse
import Verif.Lemmas.AsOne
import Verif.Lemmas.AverageTime
import Verif.Lemmas.Binary64
import Verif.Lemmas.Build
import Verif.Lemmas.Calendar
import Verif.Lemmas.Cli
import Verif.Lemmas.CliFin
import Verif.Lemmas.Convert
import Verif.Lemmas.Days
import Verif.Lemmas.Finitary
import Verif.Lemmas.Float
import Verif.Lemmas.Gen
import Verif.Lemmas.Init
import Verif.Lemmas.Loop
import Verif.Lemmas.Messages
import Verif.Lemmas.Num
import Verif.Lemmas.Overlap
import Verif.Lemmas.Paint
import Verif.Lemmas.Parallel
import Verif.Lemmas.Peak
import Verif.Lemmas.Possible
import Verif.Lemmas.Prob
import Verif.Lemmas.PythonRandom
import Verif.Lemmas.Relate
import Verif.Lemmas.Rename
import Verif.Lemmas.Restore
import Verif.Lemmas.Retry
import Verif.Lemmas.RoundTrip
import Verif.Lemmas.Run
import Verif.Lemmas.Runs
import Verif.Lemmas.Sat
import Verif.Lemmas.SaveLoad
import Verif.Lemmas.Scale
import Verif.Lemmas.Spots
import Verif.Lemmas.SumRuns
import Verif.Lemmas.Switch
import Verif.Lemmas.Together
import Verif.Lemmas.Unbiased
import Verif.Lemmas.UnbiasedDay
import Verif.Lemmas.Warnings
import Verif.Lemmas.Witness
import Verif.Model.Api
import Verif.Model.Appliance
import Verif.Model.Argparse
import Verif.Model.Call
import Verif.Model.Cases
import Verif.Model.Cli
import Verif.Model.CliSays
import Verif.Model.CliTrace
import Verif.Model.Convert
import Verif.Model.Draw
import Verif.Model.Examples
import Verif.Model.Float
import Verif.Model.Loc
import Verif.Model.Messages
import Verif.Model.Post
import Verif.Model.Readers
import Verif.Model.RunSays
import Verif.Model.SaveLoad
import Verif.Model.Shared
import Verif.Model.Standalone
import Verif.Model.Trace
import Verif.Model.UseCase
import Verif.Model.User
import Verif.Model.Utils
import Verif.Props.Algebra
import Verif.Props.Aligned
import Verif.Props.Argparse
import Verif.Props.Build
import Verif.Props.Calendar
import Verif.Props.Call
import Verif.Props.Cases
import Verif.Props.Chances
import Verif.Props.Cli
import Verif.Props.CliCrash
import Verif.Props.CliOrder
import Verif.Props.CliPlan
import Verif.Props.CliResults
import Verif.Props.CliYear
import Verif.Props.Configure
import Verif.Props.Convert
import Verif.Props.Cycles
import Verif.Props.CyclesExact
import Verif.Props.Days
import Verif.Props.Draw
import Verif.Props.Energy
import Verif.Props.Entries
import Verif.Props.Events
import Verif.Props.Examples
import Verif.Props.Expected
import Verif.Props.Failures
import Verif.Props.Float
import Verif.Props.Frequency
import Verif.Props.History
import Verif.Props.Hoeffding
import Verif.Props.HowLong
import Verif.Props.Independent
import Verif.Props.Interrupted
import Verif.Props.Laws
import Verif.Props.Loc
import Verif.Props.NeverFails
import Verif.Props.NotLoadable
import Verif.Props.OneUse
import Verif.Props.Overlap
import Verif.Props.Parallel
import Verif.Props.ParallelLaw
import Verif.Props.ParallelStats
import Verif.Props.Peak
import Verif.Props.PeakHistory
import Verif.Props.PossibleCases
import Verif.Props.PossibleDays
import Verif.Props.Post
import Verif.Props.Profile
import Verif.Props.Programs
import Verif.Props.RareFile
import Verif.Props.Readers
import Verif.Props.Restored
import Verif.Props.Retries
import Verif.Props.Room
import Verif.Props.RoundTrip
import Verif.Props.RunSays
import Verif.Props.SaveLoad
import Verif.Props.SavedCases
import Verif.Props.Says
import Verif.Props.Scaling
import Verif.Props.Seed
import Verif.Props.Shared
import Verif.Props.Standalone
import Verif.Props.Switch
import Verif.Props.TimeOfUse
import Verif.Props.Together
import Verif.Props.Told
import Verif.Props.Unbiased
import Verif.Props.Utils
import Verif.Props.Variance
import Verif.Props.Warned
import Verif.Props.WindowsOfDay
import Verif.Py
import Verif.Spec
import Verif.Spec10
import Verif.Spec11
import Verif.Spec12
import Verif.Spec13
import Verif.Spec14
import Verif.Spec15
import Verif.Spec16
import Verif.Spec17
import Verif.Spec2
import Verif.Spec3
import Verif.Spec4
import Verif.Spec5
import Verif.Spec6
import Verif.Spec7
import Verif.Spec8
import Verif.Spec9
