import Verif.Props.Unicode
import Verif.Props.Buffer
import Verif.Props.Framing
import Verif.Props.StringBuilder
import Verif.Props.Argv
import Verif.Props.Startup
import Verif.Props.InputMap
import Verif.Props.DefaultInputMap
import Verif.Props.ConsoleInput
import Verif.Props.ConsoleKeys
import Verif.Props.ConsoleReplies
import Verif.Props.ConsolePending
import Verif.Props.ConsoleMouse
import Verif.Props.ConsoleVt
import Verif.Props.ConsoleMeaning
import Verif.Props.ConsoleLine
import Verif.Props.Terminal
import Verif.Props.Output
import Verif.Props.StringUtil
import Verif.Props.DebugClient
import Verif.Props.SmallRect
import Verif.Props.Win32Console
import Verif.Props.OwnedHandle
import Verif.Props.ConsoleFont
import Verif.Props.LargeConsoleRead
import Verif.Props.NamedPipe
import Verif.Props.Agent
import Verif.Props.AgentRpc
import Verif.Props.Client
import Verif.Props.ClientReply
import Verif.Props.Open
import Verif.Props.AgentOut
import Verif.Props.Scraper
import Verif.Props.ScraperResize
import Verif.Props.ScraperDirect
import Verif.Props.ScraperIdle
import Verif.Props.PipeSecurity
import Verif.Props.Trace
import Verif.Props.ConsoleResize
import Verif.Props.Adapter
import Verif.Props.TtyMode
import Verif.Props.FindProgram
import Verif.Props.EventLoop
import Verif.Props.ClientView
import Verif.Props.AgentInput
import Verif.Props.ShowInput
import Verif.Props.CreateDesktop
import Verif.Props.Detect
import Verif.Props.AdapterMain
import Verif.Props.ShowKey
import Verif.Props.ClientThreads
import Verif.Props.ErrorObject
import Verif.Props.KeyMemory
import Verif.Props.Lvb
import Verif.Props.FontApi
import Verif.Props.SecurityMemory
import Verif.Props.VersionReport
import Verif.Props.DumpInputMap
import Verif.Props.TraceSend
import Verif.Props.AgentHandles
import Verif.Props.CtrlEvents
import Verif.Props.AgentLocation
import Verif.Props.AdapterObjects
import Verif.Props.PipeMemory
import Verif.Props.ClientPid
import Verif.Props.SpawnConfig
import Verif.Props.GenRandom
