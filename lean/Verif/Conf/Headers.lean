import Verif.Packet
import Verif.SetAttr
import Verif.Str
import Verif.Report

/-! # The project's own unit tests, run on the model: headers

The assertions of `/repo/tests/test_ethernet.py`, `test_arp.py`, `test_udp.py`, `test_tcp.py`, `test_null.py`, `test_ipv4.py`
and `test_packet.py`, transcribed.  They say nothing about all inputs: they are evidence that the definitions compute what
the code computes.  Left out are assertions about logging, `repr`, and values that the model cannot express
(`p["a"]`, attributes that do not exist). -/

namespace SY.Conf
open SY

/-- `EthAddr(text)`; the texts below can all be parsed. -/
def mac (s : String) : EthAddr := ((EthAddr.mk' (.text s.toList)).toOption).getD .any

/-- `IPv4Address(text)`; the texts below can all be parsed. -/
def ip4 (s : String) : IPAddr := .v4 ((ipv4Parse s.toList).getD 0)

/-- `text.encode()` for ASCII. -/
def ascii (s : String) : Bytes := s.toList.map fun c => UInt8.ofNat c.toNat

/-! ## test_ethernet.py -/

-- testBlankAddrs, 9-11
example : Ethernet.default.src = .any ∧ Ethernet.default.dst = .any := by decide
-- testSetSrc, testSetDst, 13-21
example : (Ethernet.default.setSrc (.text "00:00:00:00:00:01".toList)).map (·.src) =
    EthAddr.mk' (.text "00:00:00:00:00:01".toList) := by decide +kernel
example : (Ethernet.default.setDst (.text "00:00:00:00:00:01".toList)).map (·.dst) = .ok ⟨[0, 0, 0, 0, 0, 1]⟩ := by
  decide +kernel
-- testBadSet, 23-25
example : (Hdr.eth Ethernet.default).setattr .ttl (some (.num 1)) = .error .attributeError := by decide +kernel
-- testBadEType, 27-30
example : Ethernet.default.setEthertype 1 = .error .valueError := by decide +kernel
-- testBadAddr, 32-34
example : EthAddr.mk' (.text "a".toList) = .error .runtimeError := by decide +kernel
-- testParse, 36-43
example : Ethernet.fromBytes [1, 2, 3, 4, 5, 6, 6, 5, 4, 3, 2, 1, 8, 0] =
    .ok (⟨mac "01:02:03:04:05:06", mac "06:05:04:03:02:01", 0x0800⟩, []) := by decide +kernel
-- testBadParse, 45-49
example : Ethernet.fromBytes [0x78, 1] = .error .notEnoughData := by decide +kernel

/-- The packet of testVlan, 51-66. -/
def vlanPkt : Packet :=
  [.hdr (.eth ⟨mac "aa:bb:cc:dd:ee:ff", mac "00:11:22:33:44:55", 0x8100⟩), .hdr (.vlan ⟨42, 2, 0x0800⟩),
   .hdr (.ip4 { IPv4.default with src := ip4 "1.2.3.4", dst := ip4 "5.6.7.8" }), .hdr (.icmp .default4)]

-- testVlan, 67-75
example : vlanPkt.length = 4 ∧ vlanPkt.size = .ok 46 := by decide +kernel
example : (vlanPkt.toBytes.2 >>= fun b => Packet.parse b none >>= fun q => vlanPkt.toBytes.1.eq q) = .ok true := by
  decide +kernel

/-! ## test_arp.py -/

-- testArpRequest, 6-30
example : createIpArpRequest (.text "00:00:00:11:22:33".toList) (.addr (ip4 "1.2.3.4")) (.addr (ip4 "10.11.12.13")) =
    .ok (⟨mac "ff:ff:ff:ff:ff:ff", mac "00:00:00:11:22:33", 0x0806⟩,
      ⟨1, 0x0800, 6, 4, 1, mac "00:00:00:11:22:33", ip4 "1.2.3.4", mac "ff:ff:ff:ff:ff:ff", ip4 "10.11.12.13"⟩) := by
  decide +kernel
/-- The ARP header of that packet. -/
def arpReq : Arp :=
  ⟨1, 0x0800, 6, 4, 1, mac "00:00:00:11:22:33", ip4 "1.2.3.4", mac "ff:ff:ff:ff:ff:ff", ip4 "10.11.12.13"⟩
example : arpReq.size = 28 ∧ (arpReq.toBytes >>= fun b => Arp.fromBytes b) = .ok (arpReq, []) := by decide +kernel
example : (arpReq.toBytes >>= fun b => Arp.fromBytes (b.take 25)) = .error .notEnoughData := by decide +kernel
example : (arpReq.toBytes >>= fun b => Arp.fromBytes (b.take 6 ++ [0xff, 0xff] ++ b.drop 8)).toOption = none := by
  decide +kernel
-- testArpReply, 38-56
example : createIpArpReply (.text "aa:bb:cc:dd:ee:ff".toList) (.text "00:00:00:11:22:33".toList) (.addr (ip4 "10.11.12.13"))
    (.addr (ip4 "1.2.3.4")) =
    .ok (⟨mac "00:00:00:11:22:33", mac "aa:bb:cc:dd:ee:ff", 0x0806⟩,
      ⟨1, 0x0800, 6, 4, 2, mac "aa:bb:cc:dd:ee:ff", ip4 "10.11.12.13", mac "00:00:00:11:22:33", ip4 "1.2.3.4"⟩) := by
  decide +kernel

/-! ## test_udp.py -/

/-- The packet of testSerialize, 6-20. -/
def udpPkt : Packet :=
  [.hdr (.eth ⟨mac "11:22:33:00:00:00", mac "00:00:00:11:22:33", 0x0800⟩),
   .hdr (.ip4 { IPv4.default with src := ip4 "1.2.3.4", dst := ip4 "4.5.6.7", protocol := 17, ttl := 37 }),
   .hdr (.udp { UDP.default with src := 10000, dst := 9999 }), .hdr (.raw (ascii "hello, world"))]

-- testSerialize, 21-24
example : (udpPkt.toBytes.2 >>= fun b => Packet.parse b none >>= fun q => q.toBytes.2) = udpPkt.toBytes.2 := by
  decide +kernel
-- 26-28: the packet cut in the UDP header
example : (udpPkt.toBytes.2 >>= fun b => Packet.parse (b.take (b.length - 15)) none).toOption = none := by decide +kernel
-- testChecksum, 30-41
example : UDP.default.csum = 0 := rfl
example : (Packet.toBytes [.hdr (.ip4 { IPv4.default with protocol := 17 }), .hdr (.udp .default)]).1[1]? =
    some (.hdr (.udp ⟨0, 0, 8, 65502⟩)) := by decide +kernel
example : ((Hdr.udp { UDP.default with src := 1234, dst := 4567 }).pre [] []) = .ok (.udp ⟨1234, 4567, 8, 0⟩) := by
  decide +kernel
-- 43-45
example : checksum [0, 0, 0xfe, 0xff, 0, 0] 0 (some 1) = 65535 := by decide +kernel

/-! ## test_tcp.py -/

-- testReconstruct, 9-18
example : let t := (TCP.default.setflag .PSH true)
    ({ t with ack := 5678 }.toBytes >>= fun b => TCP.fromBytes b) = .ok ({ t with ack := 5678 }, []) ∧ t.size = 20 ∧
      (Hdr.tcp t).next = .ok none := by decide +kernel
-- testFlags, 20-45
example : TCP.default.flags = 0 := rfl
example : ((TCP.default.setflag .SYN true).setflag .FIN true).isset .SYN = true ∧
    ((TCP.default.setflag .SYN true).setflag .FIN true).isset .FIN = true := by decide
/-- The header made at 27. -/
def tcpSA : TCP := (({ TCP.default with src := 40, dst := 80, seq := 19, ack := 47 }.setflag .SYN true).setflag .ACK true)
example : "SA".toList <:+: tcpSA.str ∧ ¬ "SA".toList <:+: (tcpSA.setflag .ACK false).str ∧
    (tcpSA.setflag .ACK false).isset .ACK = false := by decide +kernel
example : ∀ f ∈ tcpFlagOrder, (tcpSA.setflag f true).isset f = true ∧ ((tcpSA.setflag f true).setflag f false).isset f = false := by
  decide
example : (tcpFlagOrder.foldl (fun t f => t.setflag f true) tcpSA).flagstr.length = 9 := by decide +kernel
-- testBadSet, 47-49
example : (Hdr.tcp .default).setattr .ttl (some (.num 55)) = .error .attributeError := by decide +kernel
/-- The packet of testChecksum, 51-56. -/
def tcpPkt : Packet :=
  [.hdr (.eth .default), .hdr (.ip4 { IPv4.default with protocol := 6 }),
   .hdr (.tcp ({ TCP.default with src := 40, dst := 80, seq := 19, ack := 47 }.setflag .SYN true))]
example : (tcpPkt.toBytes.1[2]?).bind (fun x => match x with | .hdr (.tcp t) => some (t.csum, t.str) | _ => none) =
    some (44841, "TCP 40->80 (S 19:47)".toList) := by decide +kernel
example : (tcpPkt.toBytes.2 >>= fun b => Packet.parse (b.take (b.length - 2)) none).toOption = none := by decide +kernel

/-! ## test_null.py -/

-- testNullInstance, 7-19
example : (Hdr.null 2).toBytes = .ok [2, 0, 0, 0] ∧ (Hdr.null 2).size = .ok 4 ∧ (Hdr.null 2).str = .ok "Null: AF_INET".toList := by
  decide +kernel
-- testAf, 21-32
example : (Hdr.null 10).next = .ok (some .ip6) ∧ (Hdr.null 2).next = .ok (some .ip4) ∧ (Hdr.null 12).next = .error .generic := by
  decide
-- testFromBytes, 34-45
example : (Cls.null.fromBytes [0]).toOption = none ∧ Cls.null.fromBytes [2, 0, 0, 0] = .ok (.null 2, some []) := by
  decide +kernel

/-! ## test_ipv4.py -/

/-- The packet of setUp, 8-13. -/
def icmpPkt : Packet := [.hdr (.eth .default), .hdr (.ip4 .default), .hdr (.icmp .default4)]

-- testReconstruct, 15-18
example : (icmpPkt.toBytes.2 >>= fun b => Packet.parse b none >>= fun q => icmpPkt.toBytes.1.eq q) = .ok true := by
  decide +kernel
/-- The header of testNextHdr, 21. -/
def igmp : IPv4 := { IPv4.default with src := ip4 "1.2.3.4", dst := ip4 "4.5.6.7", ttl := 64, ipid := 99, protocol := 2 }
-- testNextHdr, 22-36
example : (Hdr.ip4 igmp).next = .ok none := by decide +kernel
example : (igmp.toBytes >>= fun b => IPv4.fromBytes (b.take 19)).toOption = none := by decide +kernel
example : (igmp.toBytes >>= fun b => IPv4.fromBytes (0x35 :: b.drop 1)).toOption = none := by decide +kernel
example : (igmp.toBytes >>= fun b => IPv4.fromBytes (0x46 :: b.drop 1)).toOption = none := by decide +kernel
-- testBlankAddrs, 38-40
example : IPv4.default.src = ip4 "0.0.0.0" ∧ IPv4.default.dst = ip4 "0.0.0.0" := by decide +kernel
-- testBadSet, 42-61
example : IPv4.default.setTtl 500 = .error .valueError ∧ IPv4.default.setTos 256 = .error .valueError ∧
    IPv4.default.setDscp 65 = .error .valueError ∧ IPv4.default.setEcn (-1) = .error .valueError ∧
    IPv4.default.setEcn 8 = .error .valueError ∧ IPv4.default.setIpid 131072 = .error .valueError ∧
    IPv4.default.setFrag (-1) = .error .valueError ∧ IPv4.default.setFrag (2 ^ 14) = .error .valueError := by decide +kernel
-- testBadProtocolType, 63-66
example : IPv4.default.setProtocol 0xff = .error .valueError := by decide +kernel
-- testFrag, 68-74
example : IPv4.default.flags = 0 ∧ ((IPv4.default.setFlags 4) >>= fun h => h.setFrag 1000).map (fun h => (h.flags, h.frag)) =
    .ok (4, 1000) := by decide +kernel
-- testTosbits, 76-84
example : (IPv4.default.setDscp 46).map (fun h => (h.dscp, h.tos, h.ecn)) = .ok (46, 0x2E <<< 2, 0) ∧
    (IPv4.default.setDscp 46 >>= fun h => h.setEcn 1).map (fun h => (h.ecn, h.tos)) = .ok (1, (0x2E <<< 2) ||| 1) := by
  decide +kernel
-- testOptionContainer, 86-99
example : optsToBytes [] = .ok [] ∧ (AVal.opts []).str = .ok "IPOptionList ()".toList ∧
    (AVal.opts [.single 1]).str = .ok "IPOptionList (IPOptionNoOperation)".toList ∧ optsEq [.single 1] [] = .ok false ∧
    optsEq [.single 1] [.single 1] = .ok true := by decide +kernel
-- testNoOpt, 101-114
example : ({ IPv4.default with options := [.single 1] }).size = .ok 24 ∧
    (Hdr.ip4 { IPv4.default with options := [.single 1] }).getattr .hl = .ok (.num 6) ∧
    (({ IPv4.default with options := [.single 1] }).toBytes.map fun (b : Bytes) => b.drop (b.length - 4)) = .ok [1, 0, 0, 0] := by
  decide +kernel
-- testOptionIndexing, 139-144
example : (optsToBytes [.routing 7 4 (List.replicate 9 0)] >>= parseOpts).map (·.head?) =
    .ok (some (.routing 7 4 (List.replicate 9 0))) := by decide +kernel
-- routeOptTestHelper, 146-158 (all three calls of it make a Record Route option)
example : (Hdr.ip4 { IPv4.default with options := [.routing 7 4 (List.replicate 9 0)] }).getattr .hl = .ok (.num 15) ∧
    optsToBytes [.routing 7 4 (List.replicate 9 0)] = .ok ([7, 0x27, 4] ++ List.replicate 36 0 ++ [0]) := by decide +kernel
-- testRouteOptions, 182
example : "0.0.0.0, 0.0.0.0".toList <:+: (IPOpt.routing 7 4 [0, 0]).str := by decide +kernel
-- testFourByteOpts, 210-220
example : (IPOpt.fourB 20 0 0x80).toBytes = .ok [0x94, 4, 0, 0] ∧ optStep [0x94, 4, 0, 0] = .ok (.fourB 20 0 0x80, 4) ∧
    (IPOpt.fourB 11 1500 0).toBytes = .ok [11, 4, 5, 0xdc] ∧ optStep [11, 4, 5, 0xdc] = .ok (.fourB 11 1500 0, 4) ∧
    (IPOpt.fourB 12 1500 0).toBytes = .ok [12, 4, 5, 0xdc] ∧ optStep [12, 4, 5, 0xdc] = .ok (.fourB 12 1500 0, 4) := by
  decide +kernel
-- testIPOptionTimestamp, 222-252
example : (IPOpt.timestamp 5 1 (List.replicate 4 (some 0, 0))).toBytes = .ok ([0x44, 0x24, 5, 1] ++ zeros 32) := by decide +kernel
example : (optStep ([0x44, 0x28, 5, 0] ++ zeros 36) >>= fun o => o.1.toBytes) = .ok ([0x44, 0x28, 5, 0] ++ zeros 36) := by
  decide +kernel
example : (optStep (([0x44, 0x28, 5, 0] ++ zeros 36).take 39)).toOption = none := by decide +kernel
example : IPOpt.eq (.timestamp 5 1 (List.replicate 4 (some 0, 0))) (.timestamp 5 0 (List.replicate 9 (none, 0))) = .ok false := by
  decide +kernel
example : (optStep ([0x44, 8, 5, 0] ++ zeros 4)).map (fun o => o.1.str) =
    .ok "IPOptionTimestamp (TimestampEntry(ipv4addr=None, timestamp=0))".toList := by decide +kernel
example : (optStep [0x44, 0x0c, 5, 1, 0x7f, 0, 0, 1, 0, 0, 0, 0]).map (fun o => o.1.str) =
    .ok "IPOptionTimestamp (TimestampEntry(ipv4addr=IPv4Address('127.0.0.1'), timestamp=0))".toList := by decide +kernel

/-! ## test_packet.py -/

-- testEmptyPacket, testEthPacket, 20-29
example : Packet.size [] = .ok 0 ∧ (Packet.add [] (.hdr (.eth .default)) >>= fun p => p.size) = .ok 14 := by decide +kernel
-- testAddInsert, 31-68
example : Packet.size [.hdr (.eth .default), .hdr (.eth .default)] = .ok 28 := by decide +kernel
example : Packet.addPacket [.hdr (.eth .default)] [.hdr (.ip4 .default)] = .ok [.hdr (.eth .default), .hdr (.ip4 .default)] := by
  decide +kernel
example : Packet.add icmpPkt (.other 0) = .error .generic := by decide +kernel
example : Packet.prepend [.hdr (.ip4 .default), .hdr (.icmp .default4)] (.hdr (.eth .default)) = icmpPkt := by decide +kernel
example : (icmpPkt.add (.bytes (ascii "Some raw gunk")) >>= fun p => p.getItem 3 >>= fun x => x.toBytes) =
    .ok (ascii "Some raw gunk") := by decide +kernel
example : icmpPkt.hasName .ip4 = true ∧ icmpPkt.hasHeader .ip6 = false ∧ icmpPkt.hasName .ip6 = false := by decide +kernel
-- testIndexing, 71-85
example : (icmpPkt.setItem 1 (.hdr (.eth .default)) >>= fun p => p.getItem 1) = .ok (.hdr (.eth .default)) ∧
    Packet.getItem [.hdr (.eth .default), .hdr (.eth .default)] 2 = .error .indexError := by decide +kernel
-- testFormatter, 87-104
example : formatPkt false none icmpPkt = icmpPkt.str ∧
    formatPkt false (some .ip4) icmpPkt = .ok ("Ethernet... | ".toList ++ IPv4.default.str ++ " | ICMP...".toList) ∧
    formatPkt false (some .ip6) icmpPkt = icmpPkt.str := by decide +kernel
-- testHeaderAccess, 106-147
example : icmpPkt.hasHeader .eth = true ∧ icmpPkt.hasHeader .ip4 = true ∧ icmpPkt.hasHeader .icmp = true ∧
    icmpPkt.getHeader .eth = some (.hdr (.eth .default)) ∧ icmpPkt.getHeader .ip4 = some (.hdr (.ip4 .default)) ∧
    icmpPkt.getHeader .icmp = some (.hdr (.icmp .default4)) ∧ icmpPkt.headerIndex .eth 0 = .ok 0 ∧
    icmpPkt.headerIndex .ip4 0 = .ok 1 ∧ icmpPkt.headerIndex .icmp 0 = .ok 2 ∧
    icmpPkt.getClass .icmp = .ok (.hdr (.icmp .default4)) ∧ icmpPkt.getClass .ip6 = .error .keyError := by decide +kernel
example : icmpPkt.delClass .eth = .ok [.hdr (.ip4 .default), .hdr (.icmp .default4)] ∧
    (icmpPkt.delClass .eth >>= fun p => p.delClass .eth) = .error .keyError ∧
    icmpPkt.setItem 0 (.other 0) = .error .typeError := by decide +kernel
example : icmpPkt.contains (.hdr (.icmp .default4)) = .ok true ∧
    icmpPkt.contains (.hdr (.icmp (icmp4.setType .default4 5).1)) = .ok false := by decide +kernel
-- testEquality, 149-163
example : Packet.eq [] [] = .ok true ∧ Packet.eq [.hdr (.icmp .default4)] [] = .ok false ∧
    Packet.eq [.hdr (.icmp .default4)] [.hdr (.icmp .default4)] = .ok true ∧
    Packet.eq [.hdr (.icmp .default4)] [.hdr (.icmp (icmp4.setType .default4 5).1)] = .ok false ∧
    Packet.eq (Packet.insert [.hdr (.icmp .default4)] 0 (.hdr (.ip4 .default))) [.hdr (.icmp .default4)] = .ok false := by
  decide +kernel
-- testNullPacketHeader, 165-178
example : Hdr.nullHdr.toBytes = .ok [] ∧ Hdr.nullHdr.size = .ok 0 ∧
    Cls.nullHdr.fromBytes (ascii "abc") = .ok (.nullHdr, some (ascii "abc")) ∧ Hdr.nullHdr.next = .ok none ∧
    Hdr.nullHdr.str = .ok "NullPacketHeader".toList ∧ Hdr.nullHdr.eq .nullHdr = .ok true := by decide +kernel
-- testRawPacket, 180-205
example : (Hdr.raw (ascii "abc")).toBytes = .ok (ascii "abc") ∧ (Hdr.raw (ascii "hwyl")).next = .ok none ∧
    (Hdr.raw (ascii "hwyl")).size = .ok 4 := by decide +kernel
example : (icmp4.toBytes .default4 >>= fun b => Item.matches (.hdr (.raw b)) (.hdr (.icmp .default4))) = .ok false ∧
    (icmp4.toBytes .default4 >>= fun b => Item.matches (.hdr (.raw b)) (.bytes b)) = .ok false ∧
    (icmp4.toBytes .default4 >>= fun b => Item.matches (.hdr (.raw b)) (.hdr (.raw b))) = .ok true := by decide +kernel
example : rawStr (ascii "diolch yn fawr") = "RawPacketContents (14 bytes) b'diolch yn '...".toList ∧
    rawStr (ascii "diolch") = "RawPacketContents (6 bytes) b'diolch'".toList := by decide +kernel

end SY.Conf
