import Verif.Props.Runner
import Verif.Props.Child
import Verif.Props.Seccomp
import Verif.Props.Killer
import Verif.Props.Logger
import Verif.Props.Cli
import Verif.Props.Python
import Verif.Props.Numbers
import Verif.Props.Node
import Verif.Props.Lua
import Verif.Props.Parse
import Verif.Props.Clock
import Verif.Props.Delivery
import Verif.Props.Report
import Verif.Props.PythonCall
import Verif.Props.NodeCall
import Verif.Props.NodeLists
import Verif.Props.Console
import Verif.Props.Life
import Verif.Props.Family
import Verif.Props.Told
import Verif.Props.Errors
import Verif.Props.Streams
import Verif.Props.Own
import Verif.Props.Crowd
import Verif.Props.Signals
import Verif.Props.Accepted
import Verif.Props.Forged
import Verif.Props.Blame
import Verif.Props.Remains
import Verif.Props.Violation
import Verif.Props.WatchExact
import Verif.Props.Prompt
import Verif.Props.Order
import Verif.Props.Pipes
import Verif.Props.Space
import Verif.Props.Peaks
import Verif.Props.Network
import Verif.Props.Cut
import Verif.Props.Ledger
import Verif.Props.Kills
import Verif.Props.Alike
import Verif.Props.Lock
import Verif.Props.Toil
import Verif.Props.Disc
import Verif.Props.Confine
import Verif.Props.Touch
import Verif.Props.Storage
import Verif.Props.Names
import Verif.Props.LogShared
import Verif.Props.LogThreads
import Verif.Props.Pending
import Verif.Props.Inherit
import Verif.Props.Inherited
import Verif.Props.Terminal
import Verif.Props.Ordinary
import Verif.Props.Orphan
import Verif.Props.Stuck
import Verif.Props.ExecSize
import Verif.Props.ExecLost
import Verif.Props.Outcome
import Verif.Props.ToldExact
import Verif.Props.Askable
import Verif.Props.LuaMemory
import Verif.Props.PrintMemory
import Verif.Props.AskNode
import Verif.Props.NodeNumber
import Verif.Props.NodeNul
import Verif.Spec.Rights
import Verif.Props.Rights
import Verif.Spec.Peers
import Verif.Props.Peers
import Verif.Spec.Starved
import Verif.Props.Starved
import Verif.Spec.StackUse
import Verif.Props.StackUse
import Verif.Spec.Ipc
import Verif.Props.Ipc
import Verif.Spec.Secret
import Verif.Props.Secret
import Verif.Spec.Tamper
import Verif.Props.Tamper
import Verif.Props.Settled
import Verif.Props.SettledRuns
import Verif.Props.Loopholes
import Verif.Props.Muted
