import Verif.Props.Checkers
import Verif.Props.Floats
import Verif.Props.Verdict
import Verif.Props.Worker
import Verif.Props.Judge
import Verif.Props.Net
import Verif.Props.Data
import Verif.Props.Discovery
import Verif.Props.Config
import Verif.Props.Path
import Verif.Props.ReadStr
import Verif.Lemmas.Syscalls
import Verif.Model.SyscallTables
import Verif.Props.Syscalls
import Verif.Props.Isolate
import Verif.Props.Monitor
import Verif.Props.Abi
import Verif.Props.Time
import Verif.Props.Child
import Verif.Props.Communicate
import Verif.Props.Symlink
import Verif.Props.Cache
import Verif.Props.BF
import Verif.Props.Interactor
import Verif.Props.Commands
import Verif.Props.TestSuite
import Verif.Props.IntPatch
import Verif.Model.Policy
import Verif.Spec.Policy
import Verif.Spec.Sandbox
import Verif.Props.Policy
import Verif.Props.Sandbox
import Verif.Model.Regex
import Verif.Model.FsPatterns
import Verif.Spec.FsPatterns
import Verif.Lemmas.Regex
import Verif.Props.FsPatterns
import Verif.Model.Watchdog
import Verif.Props.Watchdog
import Verif.Model.Compile
import Verif.Props.Compile
import Verif.Model.Roots
import Verif.Spec.Roots
import Verif.Props.Roots
import Verif.Model.Session
import Verif.Props.Session
import Verif.Model.Feedback
import Verif.Props.Feedback
import Verif.Model.JavaClass
import Verif.Spec.JavaClass
import Verif.Props.JavaClass
import Verif.Model.Launch
import Verif.Spec.Launch
import Verif.Props.Launch
import Verif.Model.Helpers
import Verif.Spec.Helpers
import Verif.Props.Helpers
import Verif.Model.Loader
import Verif.Spec.Loader
import Verif.Props.Loader
import Verif.Model.Arch
import Verif.Spec.Arch
import Verif.Props.Arch
import Verif.Model.Startup
import Verif.Spec.Startup
import Verif.Props.Startup
import Verif.Model.Connect
import Verif.Spec.Connect
import Verif.Props.Connect
import Verif.Model.Shown
import Verif.Spec.Shown
import Verif.Props.Shown
import Verif.Model.Ansi
import Verif.Spec.Ansi
import Verif.Props.Ansi
import Verif.Model.Memory
import Verif.Spec.Memory
import Verif.Props.Memory
import Verif.Spec.Site
import Verif.Lemmas.Site
import Verif.Props.Site
import Verif.Model.Main
import Verif.Spec.Main
import Verif.Props.Main
import Verif.Spec.Screen
import Verif.Props.Screen
import Verif.Spec.Partial
import Verif.Lemmas.Partial
import Verif.Model.Source
import Verif.Spec.Source
import Verif.Props.Source
import Verif.Model.CmdLine
import Verif.Spec.CmdLine
import Verif.Props.CmdLine
import Verif.Model.Message
import Verif.Spec.Message
import Verif.Props.Message
import Verif.Model.Listen
import Verif.Spec.Listen
import Verif.Props.Listen
import Verif.Model.Autoconf
import Verif.Spec.Autoconf
import Verif.Props.Autoconf
import Verif.Spec.Confined
import Verif.Props.Confined
import Verif.Model.Cli
import Verif.Spec.Cli
import Verif.Props.Cli
import Verif.Model.Args
import Verif.Spec.Args
import Verif.Props.Args
import Verif.Model.Request
import Verif.Spec.Request
import Verif.Props.Request
import Verif.Model.Submission
import Verif.Spec.Submission
import Verif.Props.Submission
import Verif.Model.Packets
import Verif.Spec.Packets
import Verif.Props.Packets
import Verif.Model.Helped
import Verif.Spec.Helped
import Verif.Lemmas.Award
import Verif.Props.Helped
import Verif.Model.Score
import Verif.Spec.Score
import Verif.Props.Score
import Verif.Model.Start
import Verif.Spec.Start
import Verif.Props.Start
import Verif.Model.Wire
import Verif.Spec.Wire
import Verif.Props.Wire
import Verif.Model.Patience
import Verif.Props.Patience
import Verif.Model.Abort
import Verif.Props.Abort
import Verif.Spec.Files
import Verif.Props.Files
import Verif.Model.Names
import Verif.Spec.Names
import Verif.Lemmas.Names
import Verif.Props.Names
import Verif.Model.Load
import Verif.Spec.Load
import Verif.Props.Load
import Verif.Model.Bridge
import Verif.Spec.Bridge
import Verif.Lemmas.Bridge
import Verif.Props.Bridge
import Verif.Model.Ending
import Verif.Spec.Ending
import Verif.Props.Ending
import Verif.Model.Settings
import Verif.Spec.Settings
import Verif.Props.Settings
import Verif.Model.CompilerStart
import Verif.Spec.CompilerStart
import Verif.Props.CompilerStart
import Verif.Model.Citest
import Verif.Spec.Citest
import Verif.Props.Citest
import Verif.Model.HelperFs
import Verif.Spec.HelperFs
import Verif.Props.HelperFs
import Verif.Model.Asm
import Verif.Spec.Asm
import Verif.Props.Asm
import Verif.Model.Exchange
import Verif.Spec.Exchange
import Verif.Lemmas.Exchange
import Verif.Props.Exchange
import Verif.Model.ScriptFs
import Verif.Spec.ScriptFs
import Verif.Props.ScriptFs
import Verif.Model.Family
import Verif.Spec.Family
import Verif.Props.Family
import Verif.Model.Vigil
import Verif.Spec.Vigil
import Verif.Props.Vigil
import Verif.Model.Limits
import Verif.Spec.Limits
import Verif.Props.Limits
import Verif.Model.Ipc
import Verif.Spec.Ipc
import Verif.Props.Ipc
import Verif.Model.Workers
import Verif.Spec.Workers
import Verif.Props.Workers
import Verif.Model.AbortTime
import Verif.Spec.AbortTime
import Verif.Props.AbortTime
import Verif.Model.Interrupted
import Verif.Spec.Interrupted
import Verif.Props.Interrupted
import Verif.Model.Torn
import Verif.Props.Torn
import Verif.Model.Usr2
import Verif.Spec.Usr2
import Verif.Props.Usr2
import Verif.Model.Control
import Verif.Spec.Control
import Verif.Props.Control
import Verif.Model.Title
import Verif.Props.Title
