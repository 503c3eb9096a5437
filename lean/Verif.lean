import Verif.Props.Cksum
import Verif.Props.Addr
import Verif.Props.CodecLink
import Verif.Props.CodecUdp
import Verif.Props.CodecIp4
import Verif.Props.CodecIp6
import Verif.Props.CodecTcp
import Verif.Props.Tx
import Verif.Props.Fragment
import Verif.Props.Reassembly
import Verif.Props.Cache
import Verif.Props.Timer
import Verif.Props.Ring
import Verif.Props.CodecIcmp6
import Verif.Props.Socket
import Verif.Props.Rx
import Verif.Props.SessionData
import Verif.Props.SessionState
import Verif.Props.SessionFlow
import Verif.Props.SessionEnd
import Verif.Props.SessionTimeout
import Verif.Props.TcpStack
import Verif.Props.Addrs
import Verif.Props.AddrText
import Verif.Props.Dhcp
import Verif.Props.EndToEnd
import Verif.Props.Wire
import Verif.Props.WireNd
import Verif.Props.Connect
import Verif.Props.Origin
import Verif.Props.SessionNet
import Verif.Props.Mld
import Verif.Props.WireTx
import Verif.Props.Hosts
import Verif.Props.Live
import Verif.Props.Loss
import Verif.Props.Stats
import Verif.Props.Host
import Verif.Props.Resolve
import Verif.Props.Nearly
import Verif.Lemmas.Genuine
import Verif.Props.Machine
import Verif.Props.HostTx
import Verif.Props.StatsTx
import Verif.Lemmas.ReleaseAll
import Verif.Props.Release
import Verif.Props.Recover
import Verif.Props.Init
import Verif.Props.Preempt
import Verif.Props.TimerThread
import Verif.Props.Senders
import Verif.Props.Threads
import Verif.Props.CacheThreads
import Verif.Props.RingThreads
import Verif.Props.Echo
import Verif.Props.TcpEcho
import Verif.Props.Boot
import Verif.Props.TcpService
import Verif.Props.Accept
import Verif.Props.AcceptIp
import Verif.Props.Names
import Verif.Props.AddrObj
import Verif.Props.Deaf
import Verif.Props.AddrForms
import Verif.Props.StatsDrop
import Verif.Props.Daytime
import Verif.Props.Ip4Forms
import Verif.Props.TcpServices
import Verif.Props.Ping
import Verif.Props.TcpClient
import Verif.Props.UdpClient
