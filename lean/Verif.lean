import Verif.Py
import Verif.Struct
import Verif.Checksum
import Verif.Props.Checksum
import Verif.EthAddr
import Verif.Props.EthAddr
import Verif.Common
import Verif.Ethernet
import Verif.Props.Ethernet
import Verif.Arp
import Verif.Props.Arp
import Verif.Scan
import Verif.IPv4Opt
import Verif.IPv4
import Verif.Props.IPv4
import Verif.Udp
import Verif.Props.Udp
import Verif.Tcp
import Verif.Props.Tcp
import Verif.Icmp
import Verif.Props.Icmp
import Verif.IPv6
import Verif.Props.IPv6
import Verif.Icmpv6
import Verif.Props.Icmpv6
import Verif.Rip
import Verif.Props.Rip
import Verif.Packet
import Verif.Props.Packet
import Verif.Props.PacketSeq
import Verif.Props.PacketParse
import Verif.Props.PacketRT
import Verif.Dict
import Verif.Socket
import Verif.Props.Socket
import Verif.Firewall
import Verif.Props.Firewall
import Verif.Text
import Verif.Units
import Verif.Props.Units
import Verif.IPText
import Verif.Interface
import Verif.NetBase
import Verif.Props.IPText
import Verif.Props.NetBase
import Verif.Live
import Verif.Hub
import Verif.Linkem
import Verif.Props.Live
import Verif.Props.Linkem
import Verif.Topo
import Verif.Props.TopoInv
import Verif.Props.TopoNum
import Verif.Props.Topo
import Verif.Props.Wire
import Verif.Matcher
import Verif.Props.Matcher
import Verif.Scenario
import Verif.Props.Scenario
import Verif.Props.Dispatch
import Verif.Props.Extras
import Verif.OpenFlow
import Verif.Props.OpenFlow
import Verif.Props.OfMatch
import Verif.OfStats
import Verif.Props.OfWire
import Verif.Props.OfStats
import Verif.OfMsg
import Verif.Props.OfMsg
import Verif.Props.OfStatsWire
import Verif.OfSwitch
import Verif.Props.OfConn
import Verif.Props.OfTable
import Verif.Props.OfSwitch
import Verif.TopoSave
import Verif.Props.TopoList
import Verif.Props.TopoText
import Verif.Props.TopoSave
import Verif.Props.OfMatchSet
import Verif.Pcap
import Verif.Props.PcapTime
import Verif.Props.Pcap
import Verif.Props.PcapDev
import Verif.Sim
import Verif.SimCli
import Verif.Props.Sim
import Verif.Props.SimCli
import Verif.Props.OfStatsText
import Verif.Start
import Verif.Props.Start
import Verif.SetAttr
import Verif.Props.CopyOut
import Verif.Heap
import Verif.Props.Heap
import Verif.HeapNet
import Verif.Props.HeapNet
import Verif.Of13
import Verif.Props.Of13
import Verif.Props.AttrFrame
import Verif.Str
import Verif.Props.Str
import Verif.Props.Of13Attr
import Verif.Report
import Verif.Props.Report
import Verif.UdpStack
import Verif.Props.UdpStack
import Verif.Conf.OpenFlow
import Verif.Conf.Tools
import Verif.Conf.Docs
import Verif.Props.OptApi
import Verif.Registry
import Verif.Props.Registry
import Verif.Props.Exact
import Verif.Host
import Verif.Props.Host
import Verif.AddrText
import Verif.OfFeat
import Verif.Props.IPv6Text
import Verif.Props.AddrText
import Verif.Props.OfFeat
import Verif.Props.StrAll
import Verif.Props.StrPacket
import Verif.Props.Exact2
import Verif.Serve
import Verif.Props.Serve
import Verif.Props.Exact3
import Verif.Show
import Verif.Props.Show
import Verif.Props.PacketPad
import Verif.Tools
import Verif.Props.Tools
import Verif.TopoShare
import Verif.Props.TopoShare
import Verif.Props.Exact4
import Verif.SimShare
import Verif.Props.SimShare
import Verif.Compiled
import Verif.Props.Compiled
import Verif.Json
import Verif.Props.Json
import Verif.TopoFile
import Verif.Props.TopoFile
import Verif.Props.ParseErr
import Verif.Props.Exact5
import Verif.Props.Exact6
import Verif.AddrKey
import Verif.Props.AddrKey
import Verif.SimApi
import Verif.Props.SimApi
import Verif.CmdArgs
import Verif.Props.CmdArgs
import Verif.TopoLoad
import Verif.Props.TopoLoad
import Verif.Of13Stats
import Verif.Props.Of13Stats
import Verif.IcmpShare
import Verif.Props.IcmpShare
import Verif.Props.Exact7
import Verif.Build
import Verif.Props.Build
import Verif.Props.IntText
import Verif.Props.DataMake
import Verif.Suite
import Verif.Props.Suite
import Verif.LiveStop
import Verif.Props.LiveStop
import Verif.Props.Debugger
import Verif.Props.MoreParts
import Verif.Skeletons
import Verif.Props.Forward
import Verif.PdbFrame
import Verif.Props.PdbFrame
import Verif.LoopSend
import Verif.Props.LoopSend
import Verif.DevInfo
import Verif.Props.DevInfo
import Verif.OutEvent
import Verif.Props.OutEvent
import Verif.DevAddr
import Verif.Props.DevAddr
import Verif.FwExercise
import Verif.Props.FwExercise
import Verif.FwLimit
import Verif.Props.FwLimit
import Verif.FwRate
import Verif.Props.FwRate
import Verif.StackTest
import Verif.Props.StackTest
import Verif.Audit
