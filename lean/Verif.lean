import Verif.Proof.Again
import Verif.Proof.Causality
import Verif.Proof.Foreign
import Verif.Proof.Idle
import Verif.Proof.OptionSets
import Verif.Props.Again
import Verif.Props.Causality
import Verif.Props.Clock
import Verif.Props.Documents
import Verif.Props.EitAborts
import Verif.Props.EitCollector
import Verif.Props.EitReporters
import Verif.Props.EitpfCollector
import Verif.Props.EventData
import Verif.Props.EventsJson
import Verif.Props.ExtendedEvent
import Verif.Props.Foreign
import Verif.Props.Idle
import Verif.Props.Json
import Verif.Props.LogoCollector
import Verif.Props.Main
import Verif.Props.MainAbort
import Verif.Props.MainAborts
import Verif.Props.MainEits
import Verif.Props.MainFilters
import Verif.Props.MainPrints
import Verif.Props.OptionSets
import Verif.Props.Options
import Verif.Props.PacketSource
import Verif.Props.Pcr
import Verif.Props.PcrSyncAborts
import Verif.Props.PcrSynchronizer
import Verif.Props.PesAborts
import Verif.Props.PesPrinter
import Verif.Props.PesTables
import Verif.Props.PesText
import Verif.Props.Pipeline
import Verif.Props.ProgramAborts
import Verif.Props.ProgramFilter
import Verif.Props.RecordAborts
import Verif.Props.Resume
import Verif.Props.RingFileSink
import Verif.Props.SeekAborts
import Verif.Props.ServiceAborts
import Verif.Props.ServiceFilter
import Verif.Props.ServiceRecorder
import Verif.Props.ServiceScanner
import Verif.Props.StartSeeker
import Verif.Props.StdoutSink
import Verif.Spec.Again
import Verif.Spec.Causality
import Verif.Spec.Foreign
import Verif.Spec.Idle
import Verif.Spec.OptionSets
import Verif.Tests.AirtimeTracker
import Verif.Tests.Base
import Verif.Tests.Cli
import Verif.Tests.Usage
import Verif.Tests.Collectors
import Verif.Tests.EitpfCollector
import Verif.Tests.Helper
import Verif.Tests.PacketSource
import Verif.Tests.PcrSynchronizer
import Verif.Tests.ProgramFilter
import Verif.Tests.RingFileSink
import Verif.Tests.ServiceFilter
import Verif.Tests.ServiceRecorder
import Verif.Tests.ServiceScanner
import Verif.Tests.StartSeeker
import Verif.Spec.Later
import Verif.Proof.Later
import Verif.Proof.LaterDocs
import Verif.Proof.LaterCollect
import Verif.Proof.LaterFilters
import Verif.Proof.LaterClock
import Verif.Proof.LaterPes
import Verif.Props.Later
import Verif.Model.Cli
import Verif.Model.Usage
import Verif.Spec.Cli
import Verif.Proof.Cli
import Verif.Props.Cli
import Verif.Spec.Reading
import Verif.Proof.Reading
import Verif.Props.Reading
import Verif.Spec.Repeated
import Verif.Proof.Repeated
import Verif.Proof.RepeatedService
import Verif.Proof.RepeatedProgram
import Verif.Proof.RepeatedProgram2
import Verif.Proof.RepeatedRecorder
import Verif.Proof.RepeatedMain
import Verif.Props.Repeated
import Verif.Spec.ExitCodes
import Verif.Proof.ExitCodes
import Verif.Props.ExitCodes
import Verif.Proof.PreStreaming
import Verif.Props.PreStreaming
import Verif.Spec.Selecting
import Verif.Proof.Selecting
import Verif.Props.Selecting
import Verif.Spec.Usage
import Verif.Proof.Usage
import Verif.Props.Usage
import Verif.Spec.Agree
import Verif.Proof.Agree
import Verif.Props.Agree
import Verif.Props.AgreeExample
import Verif.Spec.Geometry
import Verif.Proof.Geometry
import Verif.Props.Geometry
import Verif.Proof.WaitUntil
import Verif.Props.WaitUntil
import Verif.Proof.SeekLimits
import Verif.Props.SeekLimits
import Verif.Proof.TimeLimit
import Verif.Props.TimeLimit
import Verif.Spec.Reports
import Verif.Props.Reports
import Verif.Spec.Margins
import Verif.Proof.Margins
import Verif.Props.Margins
import Verif.Proof.MarginsRun
import Verif.Proof.MarginsSteps
import Verif.Spec.Retimed
import Verif.Proof.Retimed
import Verif.Props.Retimed
import Verif.Spec.Tags
import Verif.Proof.Tags
import Verif.Props.Tags
import Verif.Proof.StdoutRecorder
import Verif.Props.StdoutRecorder
import Verif.Spec.Joined
import Verif.Proof.Joined
import Verif.Props.Joined
import Verif.Spec.Rescan
import Verif.Props.Rescan
import Verif.Props.Pieces
import Verif.Spec.Entered
import Verif.Proof.Entered
import Verif.Proof.EnteredMain
import Verif.Props.Entered
import Verif.Props.EnteredMain
import Verif.Props.Recordings
import Verif.Proof.Behind
import Verif.Props.Behind
import Verif.Proof.BehindScan
import Verif.Props.BehindScan
import Verif.Spec.BehindEits
import Verif.Proof.BehindEits
import Verif.Props.BehindEits
import Verif.Spec.EitpfHandover
import Verif.Proof.EitpfHandover
import Verif.Props.EitpfHandover
import Verif.Proof.BehindSync
import Verif.Props.BehindSync
import Verif.Spec.EitsHandover
import Verif.Proof.EitsHandover
import Verif.Props.EitsHandover
import Verif.Proof.OtherService
import Verif.Props.OtherService
import Verif.Props.SeekBehind
