import Verif.Acl.Lemmas
import Verif.Acl.Model
import Verif.Acl.Props
import Verif.Bic.Model
import Verif.Bic.Props
import Verif.Bmc.Lemmas
import Verif.Bmc.Model
import Verif.Bmc.Props
import Verif.Bmc.TableProps
import Verif.Bond.Model
import Verif.Bond.Props
import Verif.Bond.Props2
import Verif.Bond.Props3
import Verif.Bond.Props4
import Verif.Bond.Spec
import Verif.Bond.Support
import Verif.Clock.Facts
import Verif.Clock.Model
import Verif.Clock.Moves
import Verif.Clock.Props
import Verif.Clock.Props2
import Verif.Clock.Props3
import Verif.Clock.Props4
import Verif.Clock.Spec
import Verif.Clock.Support
import Verif.Codec.Bounds
import Verif.Codec.Messages
import Verif.Codec.Model
import Verif.Codec.Props
import Verif.Codec.Spec
import Verif.Codec.Support
import Verif.Common.CInt
import Verif.Common.CStr
import Verif.Common.Ring
import Verif.Config.Model
import Verif.Config.Props
import Verif.Config.Support
import Verif.Control.Model
import Verif.Control.Props
import Verif.Control.Spec
import Verif.Crny.Bounds
import Verif.Crny.Model
import Verif.Crny.Moves
import Verif.Crny.Props
import Verif.Crny.Props2
import Verif.Crny.Props3
import Verif.Crny.PropsText
import Verif.Crny.Round
import Verif.Crny.Spec
import Verif.Crny.Steps
import Verif.Crny.Support
import Verif.Crny.Text
import Verif.Crny.Trace
import Verif.Db.Model
import Verif.Db.Props
import Verif.Db.Support
import Verif.Dispatch.Model
import Verif.Dispatch.Props
import Verif.Dispatch.Spec
import Verif.Dispatch.Support
import Verif.Engine.Model
import Verif.Engine.Props
import Verif.Engine.Spec
import Verif.Engine.Support
import Verif.Evtmon.Model
import Verif.Evtmon.Props
import Verif.Evtmon.Spec
import Verif.Evtmon.Support
import Verif.Exit.Model
import Verif.Exit.Props
import Verif.Feed.Model
import Verif.Feed.Props
import Verif.Feed.Support
import Verif.Filter.Model
import Verif.Filter.Props
import Verif.Foreign.Lemmas
import Verif.Foreign.Model
import Verif.Freerun.Model
import Verif.Freerun.Props
import Verif.Freerun.Spec
import Verif.Freerun.Start
import Verif.Freerun.Support
import Verif.GenConf.Model
import Verif.GenConf.Props
import Verif.GenConf.Props2
import Verif.GenConf.Props3
import Verif.GenConf.Props4
import Verif.GenConf.Scalars
import Verif.GenConf.Spec
import Verif.Gps.Model
import Verif.Gps.Props
import Verif.Gps.Props2
import Verif.Intf.Model
import Verif.Intf.Props
import Verif.Intf.Runs
import Verif.Intf.Spec
import Verif.Intf.Start
import Verif.Intf.Support
import Verif.Intf.Table
import Verif.Lacp.Model
import Verif.Lacp.Props
import Verif.Lacp.Support
import Verif.Leap.Model
import Verif.Leap.Props
import Verif.Leap.Spec
import Verif.Leap.Support
import Verif.Log.Model
import Verif.Log.Props
import Verif.Management.Model
import Verif.Management.Props
import Verif.Management.Spec
import Verif.Management.Support
import Verif.Mcast.Cases
import Verif.Mcast.Model
import Verif.Mcast.Props
import Verif.Mcast.Props2
import Verif.Mcast.Props3
import Verif.Mcast.Runs
import Verif.Mcast.Spec
import Verif.Mcast.Support
import Verif.Misc.Model
import Verif.Misc.Props
import Verif.Monitor.Model
import Verif.Monitor.Props
import Verif.Monitor.Spec
import Verif.Monitor.Support
import Verif.Netlink.Compare
import Verif.Netlink.Engine
import Verif.Netlink.Model
import Verif.Netlink.Props
import Verif.Netlink.Props2
import Verif.Netlink.Props3
import Verif.Netlink.Props4
import Verif.Netlink.Service
import Verif.Netlink.Spec
import Verif.Netlink.Support
import Verif.Netlink.Total
import Verif.Netlink.Trace
import Verif.Ntp.Model
import Verif.Ntp.Moves
import Verif.Ntp.Props
import Verif.Ntp.Props2
import Verif.Ntp.Props3
import Verif.Ntp.Props4
import Verif.Ntp.Props5
import Verif.Ntp.Spec
import Verif.Ntp.Support
import Verif.Ntp.Trace
import Verif.Ntp6.Model
import Verif.Ntp6.Parse
import Verif.Ntp6.Props
import Verif.Ntp6.Props2
import Verif.Ntp6.Props3
import Verif.Ntp6.Props4
import Verif.Ntp6.Spec
import Verif.Ntp6.Support
import Verif.Ntp6.Trace
import Verif.Ntp6.Whole
import Verif.Ntp7.Honest
import Verif.Ntp7.Model
import Verif.Ntp7.Props
import Verif.Ntp7.Props2
import Verif.Ntp7.Props3
import Verif.Ntp7.Records
import Verif.Ntp7.Safe
import Verif.Ntp7.Spec
import Verif.Ntp7.Support
import Verif.Ntp7.Trace
import Verif.Ntp7.Whole
import Verif.Peer.Frames
import Verif.Peer.Model
import Verif.Peer.Props
import Verif.Peer.Spec
import Verif.Peer.Support
import Verif.Phc.Model
import Verif.Phc.Moves
import Verif.Phc.Moves2
import Verif.Phc.Moves3
import Verif.Phc.Props
import Verif.Phc.Props2
import Verif.Phc.Props3
import Verif.Phc.Props4
import Verif.Phc.Props5
import Verif.Phc.Props6
import Verif.Phc.Props7
import Verif.Phc.Spec
import Verif.Phc.Support
import Verif.PidLock.Model
import Verif.PidLock.Props
import Verif.Pps.Frames
import Verif.Pps.Inv
import Verif.Pps.Inv2
import Verif.Pps.Inv3
import Verif.Pps.Model
import Verif.Pps.Props
import Verif.Pps.Props2
import Verif.Pps.Spec
import Verif.Pps.Support
import Verif.Priv.EditProps
import Verif.Priv.EditSupport
import Verif.Priv.Model
import Verif.Priv.Props
import Verif.Priv.Spec
import Verif.Priv.Support
import Verif.PtpConf.Model
import Verif.PtpConf.Names
import Verif.PtpConf.Props
import Verif.PtpConf.Props2
import Verif.PtpConf.Props3
import Verif.PtpConf.Props4
import Verif.PtpConf.Spec
import Verif.PtpConf.Support
import Verif.PtpMod.Model
import Verif.PtpMod.Props
import Verif.PtpMod.Props2
import Verif.PtpMod.Props3
import Verif.PtpMod.Spec
import Verif.PtpMod.Support
import Verif.PtpServo.Model
import Verif.PtpServo.Props
import Verif.PtpServo.Spec
import Verif.PtpServo.Support
import Verif.Servo.Model
import Verif.Servo.Props
import Verif.Servo.Support
import Verif.Slave.Frame
import Verif.Slave.Model
import Verif.Slave.Props
import Verif.Slave.Props2
import Verif.Slave.Spec
import Verif.Slave.Support
import Verif.Start.Model
import Verif.Start.Props
import Verif.Stats.Lemmas
import Verif.Stats.Model
import Verif.Stats.Props
import Verif.Stats.Support
import Verif.SyncText.Model
import Verif.SyncText.Props
import Verif.SyncText.Spec
import Verif.Thread.Model
import Verif.Thread.Props
import Verif.Thread.Spec
import Verif.Thread.Support
import Verif.Time.Lemmas
import Verif.Time.Model
import Verif.Time.Props
import Verif.Timer.Model
import Verif.Timer.Props
import Verif.Timer.Spec
import Verif.Timer.Support
import Verif.Tsd.Model
import Verif.Tsd.Props
import Verif.TxCache.Model
import Verif.TxCache.Props
import Verif.TxCache.Spec
import Verif.TxCache.Support
