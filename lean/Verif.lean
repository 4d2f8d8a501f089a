import Verif.Prelude
import Verif.Base64.Props
import Verif.Path.Props
import Verif.Measurement.Props
import Verif.Measurement.CompareProps
import Verif.Regression.ArgsProps
import Verif.Regression.MainProps
import Verif.Regression.LeftoverProps
import Verif.Pipe.Props
import Verif.Pipe.RunSpec
import Verif.Pipe.RunProps
import Verif.Pipe.RunExample
import Verif.Itk.Props
import Verif.Itk.InsightProps
import Verif.Itk.OutputOfImages
import Verif.Itk.UnreadableRuns
import Verif.Xml.ReadProps
import Verif.Xml.NameProps
import Verif.Xml.TreeProps
import Verif.Xml.RunProps
import Verif.Xml.CrashProps
import Verif.Diff.Props
import Verif.Diff.Clash
import Verif.Diff.Minimal
import Verif.Diff.FormatProps
import Verif.Decimal.FormProps
import Verif.Decimal.EndToEnd
import Verif.Whole.Props
import Verif.Whole.OwnTests
import Verif.Whole.OwnTestsSpec
import Verif.Whole.CallsRun
import Verif.Whole.ArgumentsTest
import Verif.Whole.TwoModes
import Verif.Whole.StepsSpec
import Verif.Whole.Steps
import Verif.Whole.FilesSpec
import Verif.Whole.Files
import Verif.Whole.FilesExample
import Verif.Whole.Empty
import Verif.Whole.MixSpec
import Verif.Whole.Mix
import Verif.Whole.MixExample
import Verif.Whole.LateExample
import Verif.Whole.NamedExample
import Verif.Whole.SettersExample
import Verif.Whole.RepoTests
import Verif.Path.DiskProps
import Verif.Path.PredicateProps
import Verif.Itk.WatcherProps
import Verif.Regression.SettingsProps
import Verif.Regression.ToldProps
import Verif.Regression.CallerArgv
import Verif.Regression.CallerArgvProps
import Verif.Itk.ReportProps
import Verif.Numbers.Props
import Verif.Life.Examples
import Verif.Life.BlockExamples
import Verif.Life.Visitors
import Verif.Life.VisitorsSpec
import Verif.Life.VisitorsProps
import Verif.Life.VisitorsLoss
import Verif.Life.VisitorsExamples
import Verif.Xml.MessagesProps
import Verif.Regression.ArgsMessages
import Verif.Measurement.MessagesProps
import Verif.Base64.WrittenProps
import Verif.Measurement.SecondRead
import Verif.Itk.ImagesExample
import Verif.Itk.NamesShape
import Verif.Itk.AnyPixelTypes
import Verif.Itk.FilesProps
import Verif.Itk.IeeeProps
import Verif.Itk.Stats
import Verif.Itk.StatsSpec
import Verif.Itk.StatsLemmas
import Verif.Itk.StatsProps
import Verif.Itk.Program
import Verif.Itk.ProgramSpec
import Verif.Itk.ProgramProps
import Verif.Itk.ProgramExample
import Verif.Itk.ProgramExpected
import Verif.Itk.ProgramBad
import Verif.Itk.DataDirExample
import Verif.Itk.IeeeRunSpec
import Verif.Itk.IeeeRun
import Verif.Itk.IeeeRunExample
import Verif.Itk.RepoTests
import Verif.Itk.RepoTestsSpec
import Verif.Itk.RepoTestsProps
import Verif.Itk.RepoTestsExample
import Verif.Xml.ErrorStream
import Verif.Xml.ErrorStreamSpec
import Verif.Xml.ErrorStreamProps
import Verif.Whole.InsightSpec
import Verif.Whole.Insight
import Verif.Whole.InsightProps
import Verif.Whole.RegionTest
import Verif.Whole.InsightExample
import Verif.Parallel.Model
import Verif.Parallel.Spec
import Verif.Parallel.Arguments
import Verif.Parallel.Local
import Verif.Parallel.Steps
import Verif.Parallel.Props
import Verif.Parallel.Race
import Verif.Parallel.Example
import Verif.Parallel.FullDisk
import Verif.Parallel.FullDiskSpec
import Verif.Parallel.FullDiskProps
import Verif.Parallel.IndependentSpec
import Verif.Parallel.IndependentProps
import Verif.Parallel.Shared
import Verif.Parallel.SharedSpec
import Verif.Parallel.SharedProps
import Verif.Parallel.SharedRead
import Verif.Parallel.SharedLost
import Verif.Parallel.SharedExample
import Verif.Parallel.Kept
import Verif.Xml.HostProps
import Verif.Stderr.Model
import Verif.Stderr.Spec
import Verif.Stderr.Props
import Verif.Stderr.RunProps
import Verif.Stderr.OptionOrder
import Verif.Stderr.Images
import Verif.Stderr.ImagesSpec
import Verif.Stderr.ImagesProps
import Verif.Stderr.Programs
import Verif.Stderr.ProgramsSpec
import Verif.Stderr.ProgramsProps
