import Verif.Props.Strings
import Verif.Props.Trie
import Verif.Props.Header
import Verif.Props.Route
import Verif.Props.Req
import Verif.Props.Resp
import Verif.Props.Socket
import Verif.Props.Address
import Verif.Props.Server
import Verif.Props.Static
import Verif.Props.Serve
import Verif.Props.Pool
import Verif.Props.Logger
import Verif.Props.Tcp
import Verif.Props.TcpMore
import Verif.Props.Ssl
import Verif.Props.Context
import Verif.Props.File
import Verif.Props.ClientLife
import Verif.Props.Conversation
import Verif.Props.HttpTls
import Verif.Props.HttpLife
import Verif.Props.Timer
import Verif.Props.Hangup
import Verif.Props.Backends
import Verif.Props.Progress
import Verif.Props.Resume
import Verif.Props.Interop
import Verif.Props.Throw
import Verif.Props.Race
import Verif.Props.TrieHeap
import Verif.Props.LogRace
import Verif.Props.ServerRace
import Verif.Props.Builders
import Verif.Props.FileKind
import Verif.Props.CommandLine
import Verif.Props.Guardian
import Verif.Props.WebServer
import Verif.Props.FdReuse
import Verif.Props.ErrText
import Verif.Props.StartErr
import Verif.Props.Demos
import Verif.Props.AddressText
import Verif.Props.LateAnswer
import Verif.Props.PoolTask
import Verif.Props.PoolCaught
import Verif.Props.Host
import Verif.Props.Accept
import Verif.Props.Readme
import Verif.Props.Memory
import Verif.Props.LogThreads
import Verif.Props.PoolHeld
import Verif.Props.Reentrant
import Verif.Props.MuxSettings
import Verif.Tests.Utils
import Verif.Tests.Http
import Verif.Tests.Net
import Verif.Props.RespCalls
import Verif.Props.SockCopies
import Verif.Props.SockTimeout
import Verif.Props.TrieAny
import Verif.Props.ConnLog
import Verif.Props.Signals
import Verif.Props.Codes
import Verif.Props.RunErr
import Verif.Props.Idle
import Verif.Props.Alias
import Verif.Props.TimerWatch
import Verif.Props.Pieces
import Verif.Props.StaticLog
import Verif.Props.Meanwhile
import Verif.Props.Links
import Verif.Props.Traces
import Verif.Props.ThreadLimit
import Verif.Props.LogClock
import Verif.Props.LogInit
import Verif.Props.StartThreads
import Verif.Props.TlsPeer
import Verif.Props.LogAge
import Verif.Props.FileCrash
import Verif.Props.WebStatus
import Verif.Props.LogCrash
import Verif.Props.TrieMemory
import Verif.Props.LogGraph
import Verif.Props.ServerMemory
import Verif.Props.LogMemory
import Verif.Props.LogOwners
import Verif.Props.PoolMemory
import Verif.Props.TlsLeft
