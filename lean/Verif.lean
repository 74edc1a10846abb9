import Verif.Props.Wire
import Verif.Props.FwWire
import Verif.Props.Stream
import Verif.Props.Session
import Verif.Props.Client
import Verif.Props.Joint
import Verif.Props.Network
import Verif.Props.Firewall
import Verif.Props.FirewallMore
import Verif.Props.FwAccept
import Verif.Props.UdpWake
import Verif.Props.Conf
import Verif.Props.Knock
import Verif.Props.ConfShow
import Verif.Props.Daemon
import Verif.Props.Seccomp
import Verif.Props.Trio
import Verif.Props.TrioExact
import Verif.Props.RunDir
import Verif.Props.System
import Verif.Model.Main
import Verif.Props.Main
import Verif.Model.Timing
import Verif.Props.FwdConns
import Verif.Props.Timing
import Verif.Props.ClientTrust
import Verif.Props.FwForeign
import Verif.Props.NoLeak
import Verif.Props.GenKeyWorks
import Verif.Model.ByteJoint
import Verif.Lemmas.ByteJoint
import Verif.Props.ByteJoint
import Verif.Model.UdpJoint
import Verif.Spec.UdpJoint
import Verif.Lemmas.UdpJoint
import Verif.Props.UdpJoint
import Verif.Spec.UdpIdle
import Verif.Props.UdpIdle
import Verif.Props.Startup
import Verif.Spec.Ip
import Verif.Lemmas.Ip
import Verif.Model.FwCount
import Verif.Props.FwCount
import Verif.Model.MaintTask
import Verif.Spec.MaintTask
import Verif.Props.MaintTask
import Verif.Model.Whole
import Verif.Lemmas.Whole
import Verif.Props.Whole
import Verif.Props.EndToEnd
import Verif.Model.SystemdFd
import Verif.Props.SystemdFd
import Verif.Model.DefaultPath
import Verif.Props.DefaultPath
import Verif.Model.FwTasks
import Verif.Spec.FwTasks
import Verif.Lemmas.FwTasks
import Verif.Lemmas.FwTasksInv
import Verif.Props.FwTasks
import Verif.Model.NftLost
import Verif.Lemmas.NftLost
import Verif.Props.NftLost
import Verif.Model.DocRuleset
import Verif.Spec.DocRuleset
import Verif.Props.DocRuleset
import Verif.Spec.Reload
import Verif.Props.Reload
import Verif.Model.Hmac
import Verif.Props.Hmac
import Verif.Spec.Keccak
import Verif.Props.Sha3
import Verif.Props.UdpExact
import Verif.Props.Exact
import Verif.Model.Float
import Verif.Props.Float
import Verif.Props.IpParse
import Verif.Props.Json
import Verif.Props.Tight
import Verif.Props.Starts
import Verif.Props.ConfWrite
import Verif.Props.Exact2
import Verif.Props.ConfExact
import Verif.Model.Process
import Verif.Props.Process
import Verif.Props.Tight3
import Verif.Props.Exact3
import Verif.Props.Exact4
import Verif.Model.Several
import Verif.Spec.Several
import Verif.Lemmas.Several
import Verif.Props.Several
import Verif.Props.Resolve
import Verif.Props.RuleBound
import Verif.Model.Takeover
import Verif.Spec.Takeover
import Verif.Props.Takeover
import Verif.Spec.LastStart
import Verif.Props.LastStart
import Verif.Props.Tight4
import Verif.Model.AcceptAhead
import Verif.Spec.AcceptAhead
import Verif.Props.AcceptAhead
import Verif.Model.Lossy
import Verif.Spec.Lossy
import Verif.Props.Lossy
import Verif.Model.Install
import Verif.Spec.Install
import Verif.Props.Install
import Verif.Spec.Restart
import Verif.Props.Restart
import Verif.Model.UdpBusy
import Verif.Spec.UdpBusy
import Verif.Props.UdpBusy
import Verif.Spec.Flow
import Verif.Props.Flow
import Verif.Spec.KeyUse
import Verif.Props.KeyUse
import Verif.Lemmas.GoAway
import Verif.Props.Shipped
import Verif.Props.Revoke
import Verif.Props.ConfMsg
import Verif.Props.Units
import Verif.Props.UnitTests
import Verif.Props.Tight5
import Verif.Props.Exact5
import Verif.Props.Refused
import Verif.Model.Ready
import Verif.Props.Ready
import Verif.Model.Services
import Verif.Props.Services
import Verif.Props.Defaults
import Verif.Props.PidOwner
import Verif.Model.Accounts
import Verif.Props.Accounts
import Verif.Props.NamedPort
import Verif.Props.Usable
import Verif.Props.Readme
import Verif.Props.Uninstall
import Verif.Props.Interop
import Verif.Model.NftRuns
import Verif.Props.NftRuns
import Verif.Model.MkDirs
import Verif.Props.MkDirs
import Verif.Model.OwnTests
import Verif.Props.OwnTests
import Verif.Model.Crowd
import Verif.Props.Crowd
import Verif.Model.Punctual
import Verif.Props.Punctual
import Verif.Props.KeptOpen
import Verif.Model.Reuse
import Verif.Props.Reuse
import Verif.Model.BuildScript
import Verif.Props.BuildScript
import Verif.Props.Series
import Verif.Model.BuildCmd
import Verif.Props.BuildCmd
import Verif.Props.Replay
import Verif.Props.Stealth
