import Verif.Conf.Headers

/-! # The project's own unit tests, run on the model: ICMP, RIP, IPv6 and ICMPv6

The assertions of `/repo/tests/test_icmp.py`, `test_ripv2.py`, `test_ipv6.py` and `test_icmpv6.py`, transcribed.  Left out are
assertions about logging, and values that the model cannot express (an option list given a string, a slice as an index). -/

namespace SY.Conf
open SY

/-! ## test_icmp.py -/

/-- `ICMP()` after assigning `icmptype = t`. -/
def icmpOf (t : Nat) : ICMPMsg ICMPData := (icmp4.setType .default4 t).1

/-- `other.from_bytes(m.to_bytes())` compares equal to `m`. -/
def icmpBack (m : ICMPMsg ICMPData) : Res Bool :=
  icmp4.toBytes m >>= fun b => icmp4.fromBytes b >>= fun r => m.eq4 r.1

/-- `part in text`, `str.__contains__`. -/
def within (part : String) : Text → Bool
  | [] => part.toList.isEmpty
  | c :: t => part.toList.isPrefixOf (c :: t) || within part t

-- testBadTypeCode, 8-28
example : (icmp4.setType .default4 2).2 = some .valueError ∧ (icmp4.setType .default4 19).2 = some .valueError ∧
    (icmp4.setType .default4 49).2 = some .valueError := by decide +kernel
example : (icmp4.setCode .default4 (.enum "ICMPType" 8)).2 = some .valueError ∧
    (icmp4.setCode .default4 (.int 1)).2 = some .valueError ∧
    (icmp4.setCode (icmpOf 0) (.int 1)).2 = some .valueError := by decide +kernel
-- testChangeICMPIdentity, 30-148
example : icmp4.setType .default4 0 = (⟨0, 0, .echo true 0 0 [], 0⟩, none) := by decide +kernel
example : ∀ t ∈ [3, 4, 5, 8, 9, 10, 11, 12, 13, 14, 15, 16, 17, 18], (icmpOf t).type = t ∧ icmpBack (icmpOf t) = .ok true := by
  decide +kernel
example : ∀ t ∈ [3, 5, 8, 11], (icmp4.toBytes (icmpOf t) >>= fun b => icmp4.fromBytes b.dropLast).toOption = none := by
  decide +kernel
example : (icmpOf 4).data.enc.map (·.length) = .ok 4 := by decide +kernel
example : within "RedirectAddress: 149.43.80.25" (icmp4Str ⟨5, 0, .redirect (0x952b5019 : BitVec 32) [], 0⟩) = true := by
  decide +kernel
example : within "OrigDgramLen: 28" (icmp4Str ⟨11, 0, .exceeded 28 [], 0⟩) = true := by decide +kernel
example : (ICMPData.enc (.mask false 0 0 0 []) >>= fun b => ICMPData.decMask false b).toOption ≠ none ∧
    (ICMPData.enc (.mask false 0 0 0 []) >>= fun b => ICMPData.decMask false (b.take 5)).toOption = none ∧
    (ICMPData.enc (.mask false 0 0 0 []) >>= fun b => ICMPData.decMask false (b.take 3)).toOption = none := by decide +kernel
example : (icmp4.setType ⟨17, 0, .mask false 13 42 0xffffff00 [], 0⟩ 18).1 = ⟨18, 0, .mask true 0 0 0 [], 0⟩ := by
  decide +kernel
example : within "0 0 0.0.0.0" (icmp4Str ⟨18, 0, .mask true 0 0 0 [], 0⟩) = true := by decide +kernel
-- testValidCode, 150-155
example : (icmp4.setCode .default4 (.int 0)) = (.default4, none) ∧
    (icmp4.setCode .default4 (.enum "ICMPCodeEchoRequest" 0)).1 = .default4 := by decide +kernel
-- testSerializeEchoReq, 157-168
example : icmp4.toBytes .default4 = .ok [8, 0, 0xf7, 0xff, 0, 0, 0, 0] := by decide +kernel
example : icmpBack ⟨8, 0, .echo false 0 0 (ascii "hello, world hello, world hello, world "), 0⟩ = .ok true := by
  decide +kernel
example : (icmp4.toBytes ⟨8, 0, .echo false 0 0 (ascii "hello, world "), 0⟩ >>= fun b =>
    icmp4.fromBytes (b.take 3)).toOption = none := by decide +kernel
-- testSetSubtype, 170-175
example : (icmpOf 4).data.typeOf = some 4 ∧ icmp4.toBytes (icmpOf 4) = .ok [4, 0, 0xfb, 0xff, 0, 0, 0, 0] := by decide +kernel
-- testDeserialize, 177-185
example : (icmp4.fromBytes [4, 0, 0xfb, 0xff, 0, 0, 0, 0]).map (fun r => (r.1.type, r.1.data.typeOf)) = .ok (4, some 4) ∧
    (icmp4.fromBytes [4, 0, 0xfb, 0xff, 0, 0, 0]).toOption = none := by decide +kernel
-- testUnreachableMtu, 187-193
example : (icmp4.toBytes ⟨3, 0, .unreach 42 5 [], 0⟩).map (·.getLast?) = .ok (some 5) := by decide +kernel
-- testICMPKwArgsValid, 195-204
example : (icmp4.setCode (icmpOf 3) (.enum "ICMPCodeDestinationUnreachable" 0)).2 = none ∧
    (icmp4.toBytes (icmpOf 3) >>= fun b => icmp4.fromBytes b).map (fun r => (r.1.type, r.1.code, r.1.data.typeOf)) =
      .ok (3, 0, some 3) := by decide +kernel
-- testICMPKwArgsInvalid1, 2, 206-212
example : (icmp4.setCode (icmpOf 0) (.int 45)).2 = some .valueError ∧
    (icmp4.setCode (icmpOf 8) (.enum "ICMPCodeDestinationUnreachable" 13)).2 = some .valueError := by decide +kernel
-- testStringify, 214-217, and testStr, 219-226
example : "ICMP DestinationUnreachable:SourceHostIsolated".toList.isPrefixOf
    (icmp4Str (icmp4.setCode (icmpOf 3) (.int 8)).1) = true := by decide +kernel
example : within "DestinationUnreachable:HostUnreachable"
    (icmp4Str ⟨3, 1, .unreach 28 1300 [69, 0, 0, 28], 0⟩) = true := by decide +kernel
-- testDataprops, 228-243
example : (icmp4.setData .default4 .notData).2.isSome = true := by decide +kernel
-- testIcmp6, 245-249
example : ICMPv6Data.typeOf (.echo false 0 0 []) = some 128 ∧ ICMPv6Data.typeOf (.echo true 0 0 []) = some 129 := by decide

/-! ## test_ripv2.py -/

/-- The packets of testRequest and testReply, 7-34. -/
def ripPkt (r : RIPv2) : Packet :=
  [.hdr (.eth { Ethernet.default with src := mac "00:11:22:33:44:55", dst := mac "55:44:33:22:11:00" }),
   .hdr (.ip4 { IPv4.default with protocol := 17, src := ip4 "192.168.100.42", dst := ip4 "192.168.100.255" }),
   .hdr (.udp { UDP.default with src := 5000, dst := 520 }), .hdr (.rip r)]

/-- The dotted quad as a number. -/
def quad (s : String) : BitVec 32 := (ipv4Parse s.toList).getD 0

/-- `RIPRouteEntry(address, netmask, nexthop, family)`; the entries below are all valid. -/
def route (a m n : String) (family : Int) : Res RIPRoute := RIPRoute.new (quad a) (quad m) (quad n) family 16 0

/-- The header of testReply, 29-34. -/
def ripReply : Res RIPv2 :=
  RIPv2.default.setCommand 2 >>= fun h =>
  route "192.168.200.0" "255.255.255.0" "192.168.200.254" 4 >>= fun r =>
  route "192.168.100.0" "255.255.252.0" "192.168.100.254" 3 >>= fun s => .ok ((h.append r).append s)

/-- Serialise, parse, and let `RIPv2` parse the last header (16-17, 35-37). -/
def ripBack (r : RIPv2) : Res Packet :=
  (ripPkt r).toBytes.2 >>= fun b => Packet.parse b none >>= fun q => q.getItem (-1) >>= fun it =>
  it.toBytes >>= fun raw => RIPv2.fromBytes raw >>= fun r => q.setItem (-1) (.hdr (.rip r))

-- testRequest, 15-21
example : (ripBack .default >>= fun q => (ripPkt .default).toBytes.1.eq q) = .ok true := by decide +kernel
example : (RIPv2.toBytes .default).map (·.length) = .ok 4 ∧ within "RIPv2 Request" RIPv2.default.str = true := by decide +kernel
-- testReply, 35-46
example : (ripReply >>= fun r => ripBack r >>= fun q => (ripPkt r).toBytes.1.eq q) = .ok true := by decide +kernel
example : (ripReply >>= fun r => ripBack r >>= fun q => q.str).map
    (fun t => (within "192.168.200.0/24" t, within "192.168.100.0/22" t)) = .ok (true, true) := by decide +kernel
example : (ripReply >>= fun r => ripBack r >>= fun q => q.size) = .ok 44 ∧
    (ripReply >>= fun r => r.toBytes).map (·.length) = .ok 44 := by decide +kernel
-- testReply, 48-66
example : (ripReply >>= fun r => route "192.168.0.0" "255.255.0.0" "192.168.42.5" 15 >>= fun e => r.set (-1) e).map
    (fun r => (within "192.168.0.0/16" r.str, within "192.168.100.0/22" r.str, within "RIPv2 Reply (2 routes" r.str)) =
    .ok (true, false, true) := by decide +kernel
example : (ripReply >>= fun r => route "0.0.0.0" "255.255.255.0" "0.0.0.0" 2 >>= fun e => r.set 2 e) = .error .indexError ∧
    (ripReply >>= fun r => r.get 2) = .error .indexError := by decide +kernel
-- testReply, 72-76
example : (route "192.168.100.0" "255.255.252.0" "192.168.100.254" 3 >>= fun r =>
      r.toBytes >>= fun b => RIPRoute.fromBytes b >>= fun s => .ok (decide (r = s))) = .ok true ∧
    (route "192.168.100.0" "255.255.252.0" "192.168.100.254" 3 >>= fun r =>
      r.toBytes >>= fun b => RIPRoute.fromBytes b.dropLast).toOption = none := by decide +kernel
-- testReply, 78-91: bytes left over are ignored
example : (ripReply >>= fun r => r.toBytes >>= fun b => RIPv2.fromBytes (b.take 3)).toOption = none ∧
    (ripReply >>= fun r => r.toBytes >>= fun b => RIPv2.fromBytes (b ++ [0x11, 0x22, 0x33])).map (·.routes.length) = .ok 2 ∧
    (ripReply >>= fun r => r.toBytes >>= fun b => RIPv2.fromBytes (b.take 38)).map (·.routes.length) = .ok 1 := by
  decide +kernel

/-! ## test_ipv6.py -/

/-- The packet of `setUp`, 8-13, with other headers in place of the last. -/
def v6Pkt (next : Nat) (hs : List Hdr) : Packet :=
  .hdr (.eth { Ethernet.default with ethertype := 0x86dd }) :: .hdr (.ip6 { IPv6.default with next := next }) ::
    hs.map .hdr

/-- `Packet(raw=pkt.to_bytes()) == pkt`. -/
def pktBack (p : Packet) : Res Bool := p.toBytes.2 >>= fun b => Packet.parse b none >>= fun q => p.toBytes.1.eq q

-- testBasic, 15-36
example : IPv6.default.size = 40 ∧ IPv6.fromBytes [0, 1, 2] = .error .notEnoughData ∧
    (IPv6.default.toBytes >>= fun b => IPv6.fromBytes b.dropLast) = .error .notEnoughData ∧
    (IPv6.default.toBytes >>= fun b => IPv6.fromBytes (0x70 :: b.drop 1)) = .error .valueError := by decide +kernel
example : (IPv6.default.setNext 47).map (fun h => (Hdr.ip6 h).next) = .ok (.ok none) ∧ IPv6.default.ttl = 128 ∧
    (IPv6.default.setTtl 64).ttl = 64 := by decide +kernel
example : within "::->ff02::1" (IPv6.str { IPv6.default with dst := 0xff020000000000000000000000000001#128 }) = true := by
  decide +kernel
-- testReconstruct, 38-41
example : pktBack (v6Pkt 58 [.icmp6 .default6]) = .ok true := by decide +kernel
-- testBlankAddrs, 43-45
example : IPv6.default.src = 0 ∧ IPv6.default.dst = 0 := by decide
-- testBadProtocolType, 51-54
example : IPv6.default.setNext 0xff = .error .valueError := by decide +kernel
-- testExtHdr, 56-69
example : (RouteOpt.default.setNext 43).map (fun h => (Hdr.route h).next) = .ok (.ok (some .route)) ∧
    (RouteOpt.default.setNext 47).map (fun h => (Hdr.route h).next) = .ok (.ok none) ∧
    (extParse 1 [0]).toOption = none := by decide +kernel
-- testRouteOpt, 71-91
/-- `IPv6RouteOption(address=IPv6Address("fd00::1"))`, 73. -/
def v6Route : RouteOpt := { RouteOpt.default with next := some 58, addr := 0xfd000000000000000000000000000001#128 }
example : pktBack (v6Pkt 43 [.route v6Route, .icmp6 .default6]) = .ok true := by decide +kernel
example : within "IPv6RouteOption" (IPv6.str { IPv6.default with next := 43 }) = true := by decide +kernel
example : (RouteOpt.toBytes { v6Route with rtype := 13 } >>= fun b => RouteOpt.fromBytes b) = .error .valueError := by
  decide +kernel
-- testFragExtHdr, 93-116
example : pktBack (v6Pkt 44 [.frag ⟨some 58, 0, 42, 1000, false⟩, .icmp6 .default6]) = .ok true := by decide +kernel
example : Fragment.str ⟨some 58, 0, 42, 1000, false⟩ = "IPv6Fragment (id: 42 offset: 1000 mf: False)".toList := by
  decide +kernel
example : (Fragment.toBytes ⟨some 58, 0, 42, 1000, false⟩ >>= fun b => Fragment.fromBytes b.dropLast) =
    .error .notEnoughData := by decide +kernel
-- testDestOptTunnelLimit, 119-131
example : pktBack (v6Pkt 60 [.dst ⟨some 58, [.tunnelLimit 0x13, .mkPadN 3]⟩, .icmp6 .default6]) = .ok true := by
  decide +kernel
-- testHopOptRouterAlert, 133-145
example : pktBack (v6Pkt 0 [.hop ⟨some 58, [.routerAlert 0x13, .mkPadN 2]⟩, .icmp6 .default6]) = .ok true := by
  decide +kernel
-- testHopOptHomeAddr, 147-158, and testBadPadding, 160-182
example : pktBack (v6Pkt 0 [.hop ⟨some 58, [.homeAddress 0xfc000000000000000000000000000002#128, .mkPadN 4]⟩,
    .icmp6 .default6]) = .ok true := by decide +kernel
-- testJumboPayload, 184-196, and testV6JumboInsufficientData, 198-213
example : pktBack (v6Pkt 60 [.dst ⟨some 58, [.jumbo 10000]⟩, .icmp6 .default6]) = .ok true := by decide +kernel
example : pktBack (v6Pkt 60 [.dst ⟨some 59, [.jumbo 10000]⟩]) = .ok true ∧
    ((v6Pkt 60 [.dst ⟨some 59, [.jumbo 10000]⟩]).toBytes.2 >>= fun b => Packet.parse (b.take (b.length - 3)) none).toOption =
      none := by decide +kernel
-- testV6Pad1BadOption, 215-237
example : ((v6Pkt 60 [.dst ⟨some 59, [.pad1, .pad1, .pad1, .pad1, .pad1, .pad1, .pad1, .pad1]⟩]).toBytes.2 >>= fun b =>
    Packet.parse b none).toOption ≠ none := by decide +kernel
example : ((v6Pkt 60 [.dst ⟨some 59, [.pad1, .pad1, .pad1, .pad1, .pad1, .pad1, .pad1, .pad1]⟩]).toBytes.2 >>= fun b =>
    Packet.parse (b.take (b.length - 4) ++ [0x0d, 0, 0, 0]) none) = .error .valueError := by decide +kernel
-- testNoNextHdr, 239-249
example : pktBack [.hdr (.eth { Ethernet.default with ethertype := 0x86dd }), .hdr (.ip6
    ⟨0, 0, 128, 59, 0, 0xfc00000000000000000000000000000a#128, 0xfc00000000000000000000000000000b#128⟩)] = .ok true := by
  decide +kernel

/-! ## test_icmpv6.py -/

-- testOptionLinkLayerAddress, 37-45
example : (NDOpt.mkTarget (.text "33:33:00:00:00:01".toList) >>= fun o => o.toBytes >>= fun b =>
    decLladdr true b >>= fun o' => o'.toBytes >>= fun b' => .ok (b.length, b[1]?, decide (b = b'))) =
    .ok (8, some 1, true) := by decide +kernel
-- testOptionPrefixInformation, 47-55
example : (NDOpt.defaultPrefix.setPrefix 0xfd000000000000000000000000000000#128 64 >>= fun o => o.toBytes >>= fun b =>
    decPfx b >>= fun o' => o'.setPrefixLength 48 >>= fun o'' => .ok (decide (o = o'), within "pfxlen 48" o''.str)) =
    .ok (true, true) := by decide +kernel
-- testOptionRedirectedHeader, 57-62, and testOptionMTU, 64-69
example : ((NDOpt.setHeader [0, 0x11, 0x22, 0x33]).toBytes >>= decRedirected) = .ok (NDOpt.setHeader [0, 0x11, 0x22, 0x33]) ∧
    ((NDOpt.mtu 576).toBytes >>= decMtu) = .ok (.mtu 576) := by decide +kernel
-- testOptionList, 71-97
example : (ndBytes [.pfx true true 25920000 604800 0xfd000000000000000000000000000000#128 64,
      NDOpt.setHeader [0, 0x11, 0x22, 0x33], .mtu 576] >>= parseND) =
    .ok [.pfx true true 25920000 604800 0xfd000000000000000000000000000000#128 64,
      NDOpt.setHeader [0, 0x11, 0x22, 0x33], .mtu 576] := by decide +kernel

/-- The bytes of testReconstruct1, 100. -/
def mldReport : Bytes :=
  [51, 51, 0, 0, 0, 0x16, 0x18, 0x81, 0x0e, 3, 0xae, 0x51, 0x86, 0xdd, 0x60, 0, 0, 0, 0, 0x24, 0, 1,
   0xfe, 0x80, 0, 0, 0, 0, 0, 0, 0x1c, 0xe7, 0xbe, 0x29, 0x4f, 0x55, 0x89, 0x73,
   0xff, 2, 0, 0, 0, 0, 0, 0, 0, 0, 0, 0, 0, 0, 0, 0x16, 0x3a, 0, 1, 0, 5, 2, 0, 0,
   0x8f, 0, 0xbb, 0x36, 0, 0, 0, 1, 4, 0, 0, 0, 0xff, 2, 0, 0, 0, 0, 0, 0, 0, 0, 0, 0, 0, 0, 0, 0xfb]

-- testReconstruct1, 99-115
example : (Packet.parse mldReport none).map (fun p => (p.getClass .ip6, p.getClass .hop)) =
    .ok (.ok (.hdr (.ip6 ⟨0, 0, 1, 0, 36, 0xfe800000000000001ce7be294f558973#128, 0xff020000000000000000000000000016#128⟩)),
      .ok (.hdr (.hop ⟨some 58, [.padN 0, .routerAlert 0]⟩))) := by decide +kernel
example : ((Packet.parse mldReport none >>= fun p => p.getClass .icmp6).map fun it => match it with
    | .hdr (.icmp6 m) => (m.type, m.code, (icmp6.setCode m (.int 13)).2)
    | _ => (0, 0, none)) = .ok (143, 0, some .valueError) := by decide +kernel
-- testReconstruct2, 117-120
example : Packet.parse (mldReport.take 42) none = .error .notEnoughData := by decide +kernel
-- testSetType, 122-128
example : (icmp6.setType .default6 133) = (⟨133, 0, .rs [] [], 0⟩, none) := by decide +kernel

/-- The packets of the remaining tests: Ethernet and IPv6 with hop limit 255 around an ICMPv6 header. -/
def ndPkt (m : ICMPMsg ICMPv6Data) : Packet :=
  [.hdr (.eth ⟨mac "33:33:00:00:00:01", mac "58:ac:78:93:da:00", 0x86dd⟩),
   .hdr (.ip6 ⟨0, 0, 255, 58, 0, 0xfe800000000000000000000000000001#128, 0xff020000000000000000000000000001#128⟩),
   .hdr (.icmp6 m)]

-- testMakeRouterAdvertisement, 130-136
example : pktBack (ndPkt ⟨134, 0, .ra 64 false false false false 1800 0 0 [.lladdr false (mac "00:50:56:af:97:68")] [], 0⟩) =
    .ok true := by decide +kernel
-- testMakeRouterSolicitation, 161-166
example : pktBack (ndPkt ⟨133, 0, .rs [.lladdr false (mac "00:50:56:af:97:68"), .mtu 1250,
    .pfx true true 25920000 604800 0xfd000000000000000000000000000000#128 64] [], 0⟩) = .ok true := by decide +kernel
-- testMakeNeighborAdvertisement, 177-196
example : pktBack (ndPkt ⟨136, 0, .na false false false 0 [.lladdr true (mac "00:1b:24:04:a2:1e")] [], 0⟩) = .ok true := by
  decide +kernel
example : rsoStr false false false = [] ∧ rsoStr true true true = "RSO".toList := by decide +kernel
-- testMakeNeighborSolicitation, 198-208
example : pktBack (ndPkt ⟨135, 0, .ns 0 [.lladdr false (mac "58:ac:78:93:da:00")] [], 0⟩) = .ok true := by decide +kernel
-- testMakeRedirect, 210-217
example : ((v6Pkt 58 [.icmp6 .default6]).toBytes.2 >>= fun b =>
    pktBack (ndPkt ⟨137, 0, .redirect 0xfe800003000000000000000000000001#128 0xfe800003000000000000000000000002#128
      [.lladdr true .any, NDOpt.setHeader b] [], 0⟩)) = .ok true := by decide +kernel
-- testNeighborAdvertisementReconstruct, 219-226
example : (Packet.parse
    [0x60, 0, 0, 0, 0, 0x18, 0x3a, 0xff, 0xfe, 0x80, 0, 0, 0, 0, 0, 0, 0xea, 0x8d, 0x28, 0xff, 0xfe, 0x59, 0x2e, 0x5b,
     0xfe, 0x80, 0, 0, 0, 0, 0, 0, 0x1c, 0x44, 0x49, 0xff, 0x8e, 0x68, 0x2b, 0x21, 0x88, 0, 0x1b, 0xd8, 0xc0, 0, 0, 0,
     0xfe, 0x80, 0, 0, 0, 0, 0, 0, 0xea, 0x8d, 0x28, 0xff, 0xfe, 0x59, 0x2e, 0x5b] (some .ip6)).toOption ≠ none := by
  decide +kernel
example : (Packet.parse
    [0x60, 0, 0, 0, 0, 0x20, 0x3a, 0xff, 0xfe, 0x80, 0, 0, 0, 0, 0, 0, 0x1c, 0x44, 0x49, 0xff, 0x8e, 0x68, 0x2b, 0x21,
     0xfe, 0x80, 0, 0, 0, 0, 0, 0, 0xea, 0x8d, 0x28, 0xff, 0xfe, 0x59, 0x2e, 0x5b, 0x87, 0, 0x45, 0xf7, 0, 0, 0, 0,
     0xfe, 0x80, 0, 0, 0, 0, 0, 0, 0xea, 0x8d, 0x28, 0xff, 0xfe, 0x59, 0x2e, 0x5b, 1, 1, 0xac, 0xbc, 0x32, 0xc2, 0xb6, 0x59]
    (some .ip6)).toOption ≠ none := by decide +kernel

end SY.Conf
