import Verif.Base
import Verif.Digits
import Verif.Json
import Verif.Double
import Verif.Fields
import Verif.JsonCodec
import Verif.Wire.Model
import Verif.Wire.Spec
import Verif.Wire.Lemmas
import Verif.Wire.Props
import Verif.Utf8.Model
import Verif.Utf8.Spec
import Verif.Utf8.Lemmas
import Verif.Utf8.Props
import Verif.AuthConc.Model
import Verif.AuthConc.Lemmas
import Verif.AuthConc.Props
import Verif.History.Model
import Verif.History.Spec
import Verif.History.Lemmas
import Verif.History.Props
import Verif.Comm.Model
import Verif.Kernel.Monad
import Verif.Kernel.Model
import Verif.Kernel.Spec
import Verif.Kernel.Frame
import Verif.Kernel.User
import Verif.Kernel.Handlers
import Verif.Kernel.Dispatch
import Verif.Kernel.Runs
import Verif.Kernel.Exec
import Verif.Kernel.Blocks
import Verif.Kernel.Requests
import Verif.Kernel.Courses
import Verif.Kernel.Sample
import Verif.Kernel.Props
import Verif.Kernel.ExecFinal
import Verif.Kernel.Sessions
import Verif.Kernel.PropsExec
import Verif.Kernel.Internal
import Verif.Kernel.InputSpec
import Verif.Kernel.InputRuns
import Verif.Kernel.PropsInput
import Verif.Kernel.OutSpec
import Verif.Kernel.Outgoing
import Verif.Kernel.PropsSession
import Verif.Comm.Spec
import Verif.Comm.Lemmas
import Verif.Kernel.CommTrace
import Verif.Kernel.CommSpec
import Verif.Kernel.CommRuns
import Verif.Comm.Transfers
import Verif.Kernel.PropsComm
import Verif.Kernel.PropsPublish
import Verif.KernelConc.Model
import Verif.KernelConc.Spec
import Verif.KernelConc.Lemmas
import Verif.KernelConc.Handlers
import Verif.KernelConc.Invariant
import Verif.KernelConc.Props
import Verif.Server.Live
import Verif.Server.Relay
import Verif.Server.RelayLemmas
import Verif.Server.Model
import Verif.Server.Spec
import Verif.Server.Lemmas
import Verif.Server.Channels
import Verif.Server.Props
import Verif.Server.Split
import Verif.Server.SplitLemmas
import Verif.Server.SplitEnd
import Verif.Server.SplitProps
import Verif.Server.RelayLive
import Verif.Server.Service
import Verif.Server.ServiceProps
import Verif.KernelConc.Serial
import Verif.Server.Atomic
import Verif.Server.Answers
import Verif.Server.AtomicProps
import Verif.KernelConc.AnswerSpec
import Verif.KernelConc.Answers
import Verif.KernelConc.AnswerHandlers
import Verif.KernelConc.AnswerInv
import Verif.KernelConc.AnswerProps
import Verif.Server.SplitAnswers
import Verif.Server.SplitAnswerProps
import Verif.Server.Remote
import Verif.Server.RemoteLemmas
import Verif.Server.Duo
import Verif.Server.DuoSpec
import Verif.Server.DuoLemmas
import Verif.Server.DuoLive
import Verif.Server.DuoServe
import Verif.Server.DuoTrace
import Verif.Server.DuoSample
import Verif.Server.DuoProps
import Verif.Dap.Framing
import Verif.Dap.FramingSpec
import Verif.Dap.FramingLemmas
import Verif.Dap.FramingProps
import Verif.Dap.Model
import Verif.Dap.Spec
import Verif.Dap.Lemmas
import Verif.Dap.Sample
import Verif.Dap.WaitProps
import Verif.Dap.EventLemmas
import Verif.Dap.EventProps
import Verif.Dap.InitProps
import Verif.Dap.InitExamples
import Verif.Dap.RouteLemmas
import Verif.Dap.RouteRuns
import Verif.Dap.RouteProps
import Verif.Debugger.Model
import Verif.Debugger.Spec
import Verif.Debugger.Lemmas
import Verif.Debugger.Runs
import Verif.Debugger.Records
import Verif.Debugger.Traffic
import Verif.Debugger.Sample
import Verif.Debugger.Answers
import Verif.Debugger.Pages
import Verif.Debugger.Props
import Verif.Debugger.FileProps
import Verif.Setup.Model
import Verif.Setup.Spec
import Verif.Setup.Decimal
import Verif.Setup.Lemmas
import Verif.Setup.Props
import Verif.Clock.Model
import Verif.Clock.Spec
import Verif.Clock.Lemmas
import Verif.Clock.Props
import Verif.Clock.Conc
import Verif.Clock.ConcSpec
import Verif.Clock.ConcLemmas
import Verif.Clock.ConcProps
import Verif.Sys.Model
import Verif.Sys.Spec
import Verif.Sys.Lemmas
import Verif.Sys.Props
import Verif.Logger.Model
import Verif.Logger.Spec
import Verif.Logger.Lemmas
import Verif.Logger.Props
import Verif.Build.Model
import Verif.Build.Spec
import Verif.Build.Lemmas
import Verif.Build.Props
import Verif.Link.Model
import Verif.Link.Spec
import Verif.Link.Wp
import Verif.Link.Requester
import Verif.Link.ClientSide
import Verif.Link.Invariant
import Verif.Link.Steps
import Verif.Link.Logs
import Verif.Link.Sample
import Verif.Link.Props
import Verif.Link.LiveSpec
import Verif.Link.Safe
import Verif.Link.SafeClient
import Verif.Link.SafeInv
import Verif.Link.Rest
import Verif.Link.RoundLemmas
import Verif.Link.LiveSample
import Verif.Link.LiveProps
import Verif.Link.EndSpec
import Verif.Link.Ending
import Verif.Link.Prompt
import Verif.Link.Launch
import Verif.Link.EndProps
import Verif.Kernels.Spec
import Verif.Kernels.Sure
import Verif.Kernels.Hist
import Verif.Kernels.SureHandlers
import Verif.Kernels.SureDispatch
import Verif.Kernels.SureInv
import Verif.Kernels.Servers
import Verif.Debugger.Conc
import Verif.Debugger.ConcSpec
import Verif.Debugger.ConcLemmas
import Verif.Debugger.ConcInv
import Verif.Debugger.ConcSample
import Verif.Debugger.ConcProps
import Verif.Dap.BadFramingSpec
import Verif.Dap.BadFramingLemmas
import Verif.Dap.BadFramingProps
import Verif.Kernels.Model
import Verif.Kernels.DemoSpec
import Verif.Kernels.Demo
import Verif.Kernels.DemoProps
import Verif.Kernels.Programs
import Verif.Kernels.Sample
import Verif.Kernels.Props
import Verif.Kernels.MainProps
import Verif.Server.PartsSpec
import Verif.Server.Parts
import Verif.Server.PartsProps
import Verif.Tests.Props
import Verif.Server.TranscriptProps
import Verif.KernelConc.Pen
import Verif.Server.HistoryConc
import Verif.Server.HistoryProps
import Verif.Dap.Peers
import Verif.Dap.PeersSpec
import Verif.Dap.PeersLemmas
import Verif.Dap.PeersProps
import Verif.Kernels.SessionSpec
import Verif.Kernels.SessionProps
import Verif.Server.OrderlySpec
import Verif.Server.Orderly
import Verif.Server.OrderlyProps
import Verif.Kernels.SplitSessionProps
import Verif.Server.SieveSpec
import Verif.Server.Sieve
import Verif.Server.SieveProps
import Verif.Sys.Windows
import Verif.Sys.WindowsSpec
import Verif.Sys.WindowsLemmas
import Verif.Sys.WindowsProps
import Verif.Server.GatherSpec
import Verif.Server.Gather
import Verif.Server.GatherProps
import Verif.Kernels.Debugging
import Verif.Kernels.DebuggingSpec
import Verif.Kernels.DebuggingLemmas
import Verif.Kernels.DebuggingProps
import Verif.Protocol.Spec
import Verif.Protocol.Lemmas
import Verif.Protocol.Props
import Verif.Protocol.BundledProps
import Verif.Kernels.WholeSpec
import Verif.Kernels.Whole
import Verif.Kernels.WholeProps
import Verif.Kernels.ManagerProps
import Verif.Kernels.Manager
import Verif.Kernels.ManagerSpec
import Verif.Kernels.Queries
import Verif.Kernels.QuerySpec
import Verif.Server.Transcript
import Verif.Server.TranscriptSpec
import Verif.Server.PublishedSpec
import Verif.Server.Published
