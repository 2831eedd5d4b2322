import Verif.Packet
import Verif.IPText

/-!
# Packets as text

Model of the `__str__` methods of the packet library: /repo/switchyard/lib/packet/packet.py, ethernet.py, arp.py,
ipv4.py, ipv6.py, udp.py, tcp.py, icmp.py, icmpv6.py, ripv2.py, null.py.  An attribute that does not exist makes the
method raise `AttributeError`.  Enumeration members are printed by name (`.name`) or, by `format`, as their number.
Classes derived by a user print under the name of the class they derive from.
-/

namespace SY

/-- Text. -/
abbrev Text := List Char

/-- The names of the members of `EtherType`, common.py 7-37 (an alias has the name of the first member with its value). -/
def etherTypeNames : List (Nat × String) :=
  [(0xffff, "NoType"), (0x5dc, "IEEE8023"), (0x800, "IP"), (0x806, "ARP"), (0x842, "WOL"), (0x22f0, "AVTP"),
   (0x22f3, "TRILL"), (0x22ea, "SRP"), (0x8035, "RARP"), (0x8100, "x8021Q"), (0x8102, "SLPP"),
   (0x8103, "VLACP"), (0x8137, "IPX"), (0x86dd, "IPv6"), (0x8809, "LACP"), (0x8847, "MPLS"),
   (0x8848, "MPLSMulti"), (0x888e, "EAP"), (0x88a8, "x8021AD"), (0x88a2, "AOE"), (0x88a4, "EtherCat"),
   (0x88bb, "LWAPP"), (0x88cc, "LLDP"), (0x88e7, "x8021AH"), (0x88f7, "PTP")]

/-- The names of the members of `IPProtocol`, common.py 51-77. -/
def ipProtocolNames : List (Nat × String) :=
  [(0, "IPv6HopOption"), (1, "ICMP"), (2, "IGMP"), (4, "IPinIP"), (6, "TCP"), (17, "UDP"), (41, "IPv6Encap"),
   (43, "IPv6RouteOption"), (44, "IPv6Fragment"), (46, "RSVP"), (47, "GRE"),
   (50, "EncapsulatingSecurityPayload"), (51, "AuthenticationHeader"), (55, "IPMobility"), (56, "TLSP"),
   (58, "ICMPv6"), (59, "IPv6NoNext"), (60, "IPv6DestinationOption"), (88, "EIGRP"), (89, "OSPF"),
   (94, "IPIP"), (97, "EtherIP"), (132, "SCTP"), (135, "IPv6Mobility"), (137, "MPLSinIP"), (140, "IPv6Shim6")]

/-- The names of the members of `ICMPType`, common.py 98-113. -/
def icmpTypeNames : List (Nat × String) :=
  [(0, "EchoReply"), (3, "DestinationUnreachable"), (4, "SourceQuench"), (5, "Redirect"), (8, "EchoRequest"),
   (9, "RouterAdvertisement"), (10, "RouterSolicitation"), (11, "TimeExceeded"), (12, "ParameterProblem"),
   (13, "Timestamp"), (14, "TimestampReply"), (15, "InformationRequest"), (16, "InformationReply"),
   (17, "AddressMaskRequest"), (18, "AddressMaskReply")]

/-- The names of the members of `ICMPv6Type`, common.py 228-267. -/
def icmpv6TypeNames : List (Nat × String) :=
  [(1, "DestinationUnreachable"), (2, "PacketTooBig"), (3, "TimeExceeded"), (4, "ParameterProblem"),
   (100, "PrivateExperimentation1"), (101, "PrivateExperimentation2"), (128, "EchoRequest"),
   (129, "EchoReply"), (130, "MulticastListenerQuery"), (131, "MulticastListenerReport"),
   (132, "MulticastListenerDone"), (133, "RouterSolicitation"), (134, "RouterAdvertisement"),
   (135, "NeighborSolicitation"), (136, "NeighborAdvertisement"), (137, "RedirectMessage"),
   (138, "RouterRenumbering"), (139, "ICMPNodeInformationQuery"), (140, "ICMPNodeInformationResponse"),
   (141, "InverseNeighborDiscoverySolicitationMessage"), (142, "InverseNeighborDiscoveryAdvertisementMessage"),
   (143, "Version2MulticastListenerReport"), (144, "HomeAgentAddressDiscoveryRequestMessage"),
   (145, "HomeAgentAddressDiscoveryReplyMessage"), (146, "MobilePrefixSolicitation"),
   (147, "MobilePrefixAdvertisement"), (148, "CertificationPathSolicitationMessage"),
   (149, "CertificationPathAdvertisementMessage"),
   (150, "ICMPmessagesutilizedbyexperimentalmobilityprotocolssuchasSeamoby"),
   (151, "MulticastRouterAdvertisement"), (152, "MulticastRouterSolicitation"),
   (153, "MulticastRouterTermination"), (154, "FMIPv6Messages"), (155, "RPLControlMessage"),
   (156, "ILNPv6LocatorUpdateMessage"), (157, "DuplicateAddressRequest"),
   (158, "DuplicateAddressConfirmation"), (200, "Privateexperimentation3"), (201, "Privateexperimentation4")]

/-- The names of the members of the code enumerations, common.py 116-225 and 270-303. -/
def icmpCodeNames : String → List (Nat × String)
  | "ICMPCodeEchoReply" => [(0, "EchoReply")]
  | "ICMPCodeDestinationUnreachable" =>
    [(0, "NetworkUnreachable"), (1, "HostUnreachable"), (2, "ProtocolUnreachable"), (3, "PortUnreachable"),
     (4, "FragmentationRequiredDFSet"), (5, "SourceRouteFailed"), (6, "DestinationNetworkUnknown"),
     (7, "DestinationHostUnknown"), (8, "SourceHostIsolated"), (9, "NetworkAdministrativelyProhibited"),
     (10, "HostAdministrativelyProhibited"), (11, "NetworkUnreachableForTOS"), (12, "HostUnreachableForTOS"),
     (13, "CommunicationAdministrativelyProhibited"), (14, "HostPrecedenceViolation"),
     (15, "PrecedenceCutoffInEffect")]
  | "ICMPv6CodeDestinationUnreachable" =>
    [(0, "NoRouteToDestination"), (1, "CommunicationWithDestinationAdminProhibitied"),
     (2, "BeyondScopeOfSourceAddress"), (3, "AddressUnreachable"), (4, "PortUnreachable"),
     (5, "SourceAddressFailedIngressEgressPolicy"), (6, "RejectRouteToDestination"),
     (7, "ErrorInSourceRoutingHeader"), (8, "HeadersTooLong")]
  | "ICMPCodeSourceQuench" => [(0, "SourceQuench")]
  | "ICMPCodeRedirect" =>
    [(0, "RedirectForNetwork"), (1, "RedirectForHost"), (2, "RedirectForTOSAndNetwork"),
     (3, "RedirectForTOSAndHost")]
  | "ICMPCodeEchoRequest" => [(0, "EchoRequest")]
  | "ICMPCodeRouterAdvertisement" => [(0, "RouterAdvertisement")]
  | "ICMPCodeRouterSolicitation" => [(0, "RouterSolicitation")]
  | "ICMPCodeTimeExceeded" => [(0, "TTLExpired"), (1, "FragmentReassemblyTimeExceeded")]
  | "ICMPCodeParameterProblem" => [(0, "PointerIndictatesError"), (1, "MissingRequiredOption"), (2, "BadLength")]
  | "ICMPCodeTimestamp" => [(0, "Timestamp")]
  | "ICMPCodeTimestampReply" => [(0, "TimestampReply")]
  | "ICMPCodeInformationRequest" => [(0, "InformationRequest")]
  | "ICMPCodeInformationReply" => [(0, "InformationReply")]
  | "ICMPCodeAddressMaskRequest" => [(0, "AddressMaskRequest")]
  | "ICMPCodeAddressMaskReply" => [(0, "AddressMaskReply")]
  | "ICMPv6CodeNeighborSolicitation" => [(0, "NeighborSolicitation")]
  | "ICMPv6CodeNeighborAdvertisement" => [(0, "NeighborAdvertisement")]
  | "ICMPv6CodeRedirectMessage" => [(0, "RedirectMessage")]
  | "ICMPv6CodeRouterSolicitation" => [(0, "RouterSolicitation")]
  | "ICMPv6CodeRouterAdvertisement" => [(0, "RouterAdvertisement")]
  | "ICMPv6CodeMulticastListenerQuery" => [(0, "MulticastListenerQuery")]
  | "ICMPv6CodeMulticastListenerReport" => [(0, "MulticastListenerReport")]
  | "ICMPv6CodeMulticastListenerDone" => [(0, "MulticastListenerDone")]
  | "ICMPv6CodeVersion2MulticastListenerReport" => [(0, "MulticastListenerReport")]
  | _ => []

/-- `E(v).name`. -/
def enumName (tbl : List (Nat × String)) (v : Nat) : Text := ((tbl.lookup v).getD "").toList

/-- `sep.join(parts)`. -/
def joinText (sep : Text) : List Text → Text
  | [] => []
  | [x] => x
  | x :: y :: r => x ++ sep ++ joinText sep (y :: r)

/-- `str` of an integer. -/
def intText (v : Int) : Text := if 0 ≤ v then natText v.toNat else '-' :: natText (-v).toNat

/-- `str` of a truth value. -/
def boolText (b : Bool) : Text := if b then "True".toList else "False".toList

/-- One byte in the `repr` of a `bytes` object that is delimited by `q` (Python's `bytes.__repr__`). -/
def byteRepr (q : Char) (x : UInt8) : Text :=
  if x.toNat = q.toNat ∨ x.toNat = 92 then ['\\', Char.ofNat x.toNat]
  else if x.toNat = 9 then "\\t".toList
  else if x.toNat = 10 then "\\n".toList
  else if x.toNat = 13 then "\\r".toList
  else if x.toNat < 32 ∨ 127 ≤ x.toNat then '\\' :: 'x' :: fmt02x x
  else [Char.ofNat x.toNat]

/-- The quote that delimits the `repr` of a `bytes` object. -/
def bytesQuote (b : Bytes) : Char := if 39 ∈ b ∧ 34 ∉ b then '"' else '\''

/-- `repr` (and `str`) of a `bytes` object. -/
def bytesRepr (b : Bytes) : Text := 'b' :: bytesQuote b :: b.flatMap (byteRepr (bytesQuote b)) ++ [bytesQuote b]

/-- The flags in the order of `range(9)`, tcp.py 207. -/
def tcpFlagOrder : List TCPFlag := [.FIN, .SYN, .RST, .PSH, .ACK, .URG, .ECE, .CWR, .NS]

/-- `TCPFlags(f).name[0]`, tcp.py 56-65 and 209. -/
def TCPFlag.letter : TCPFlag → Char
  | .FIN => 'F' | .SYN => 'S' | .RST => 'R' | .PSH => 'P' | .ACK => 'A'
  | .URG => 'U' | .ECE => 'E' | .CWR => 'C' | .NS => 'N'

/-- `flagstr`, tcp.py 204-210. -/
def TCP.flagstr (h : TCP) : Text := (tcpFlagOrder.filter h.isset).map TCPFlag.letter

/-- `__class__.__name__`. -/
def Cls.name : Cls → String
  | .base => "PacketHeaderBase" | .eth => "Ethernet" | .vlan => "Vlan" | .arp => "Arp" | .ip4 => "IPv4"
  | .ip6 => "IPv6" | .ext => "IPv6ExtensionHeader" | .route => "IPv6RouteOption" | .frag => "IPv6Fragment"
  | .hop => "IPv6HopOption" | .dst => "IPv6DestinationOption" | .udp => "UDP" | .tcp => "TCP" | .icmp => "ICMP"
  | .icmp6 => "ICMPv6" | .rip => "RIPv2" | .null => "Null" | .raw => "RawPacketContents"
  | .nullHdr => "NullPacketHeader"

/-- `Ethernet.__str__`, ethernet.py 170-172. -/
def Ethernet.str (h : Ethernet) : Text :=
  "Ethernet ".toList ++ h.src.toStr ++ "->".toList ++ h.dst.toStr ++ " ".toList ++ enumName etherTypeNames h.ethertype

/-- `Vlan.__str__`, ethernet.py 93-94. -/
def Vlan.str (h : Vlan) : Text :=
  "Vlan ".toList ++ intText h.vlanid ++ " ".toList ++ enumName etherTypeNames h.ethertype

/-- `Arp.__str__`, arp.py 130-133: the operation is not shown. -/
def Arp.str (h : Arp) : Text :=
  "Arp ".toList ++ h.senderhwaddr.toStr ++ ":".toList ++ h.senderprotoaddr.text ++ " ".toList ++
    h.targethwaddr.toStr ++ ":".toList ++ h.targetprotoaddr.text

/-- `IPv4.__str__`, ipv4.py 572-573. -/
def IPv4.str (h : IPv4) : Text :=
  "IPv4 ".toList ++ h.src.text ++ "->".toList ++ h.dst.text ++ " ".toList ++ enumName ipProtocolNames h.protocol

/-- `IPv6.__str__`, ipv6.py 606-607. -/
def IPv6.str (h : IPv6) : Text :=
  "IPv6 ".toList ++ ipv6Text h.src ++ "->".toList ++ ipv6Text h.dst ++ " ".toList ++ enumName ipProtocolNames h.next

/-- `IPv6RouteOption.__str__`, ipv6.py 96-97. -/
def RouteOpt.str (h : RouteOpt) : Text :=
  "IPv6RouteOption (type ".toList ++ natText h.rtype ++ ", ".toList ++ ipv6Text h.addr ++ ")".toList

/-- `IPv6Fragment.__str__`, ipv6.py 160-161. -/
def Fragment.str (h : Fragment) : Text :=
  "IPv6Fragment (id: ".toList ++ intText h.ident ++ " offset: ".toList ++ intText h.offset ++ " mf: ".toList ++
    boolText h.mf ++ ")".toList

/-- `__str__` of the options of the hop-by-hop header, ipv6.py 187-188, 220-221, 241-242, 261-262, 283-284.  That of
`HomeAddress`, 303-304, reads `_value`, which the class does not have. -/
def TLV.str : TLV → Res Text
  | .pad1 => .ok "Pad1".toList
  | .padN n => .ok ("PadN (".toList ++ intText (n + 2) ++ ")".toList)
  | .jumbo v => .ok ("JumboPayload (".toList ++ intText v ++ ")".toList)
  | .tunnelLimit v => .ok ("TunnelEncapsulationLimit (".toList ++ intText v ++ ")".toList)
  | .routerAlert v => .ok ("RouterAlert (".toList ++ intText v ++ ")".toList)
  | .homeAddress _ => .error .attributeError

/-- `[str(o) for o in options]`, ipv6.py 322. -/
def tlvStrs : List TLV → Res (List Text)
  | [] => .ok []
  | o :: os => o.str >>= fun s => tlvStrs os >>= fun r => .ok (s :: r)

/-- `IPv6HopOption.__str__` for the class with the given name, ipv6.py 321-322. -/
def HopOpt.str (name : String) (h : HopOpt) : Res Text :=
  tlvStrs h.opts >>= fun l => .ok (name.toList ++ "/".toList ++ joinText " ; ".toList l)

/-- `UDP.__str__`, udp.py 77-78. -/
def UDP.str (h : UDP) : Text := "UDP ".toList ++ intText h.src ++ "->".toList ++ intText h.dst

/-- `TCP.__str__`, tcp.py 168-170. -/
def TCP.str (h : TCP) : Text :=
  "TCP ".toList ++ intText h.src ++ "->".toList ++ intText h.dst ++ " (".toList ++ h.flagstr ++ " ".toList ++
    intText h.seq ++ ":".toList ++ intText h.ack ++ ")".toList

/-- `ICMPData.__str__`, icmp.py 185-186. -/
def payloadStr (b : Bytes) : Text :=
  natText b.length ++ " bytes of raw payload (".toList ++ bytesRepr (b.take 10) ++ ")".toList

/-- `__str__` of the data classes, icmp.py 185-186, 222-223, 268-269, 305-306, 358-359, 418-419. -/
def ICMPData.str : ICMPData → Text
  | .other b => payloadStr b
  | .plain _ b => payloadStr b
  | .quench b => payloadStr b
  | .redirect a b => payloadStr b ++ " RedirectAddress: ".toList ++ ipv4Text a
  | .unreach _ m b => payloadStr b ++ " NextHopMTU: ".toList ++ intText m
  | .echo _ i s b => intText i ++ " ".toList ++ intText s ++ " (".toList ++ natText b.length ++ " data bytes)".toList
  | .exceeded o b => payloadStr b ++ " OrigDgramLen: ".toList ++ intText o
  | .mask _ i s a _ => intText i ++ " ".toList ++ intText s ++ " ".toList ++ ipv4Text a

/-- The name of the code member of a type, or `""` if there is none (`icmpcode.name`, icmp.py 127-128). -/
def codeName (codes : Nat → Option CodeEnum) (t c : Nat) : Text :=
  match codes t with
  | some e => enumName (icmpCodeNames e.name) c
  | none => []

/-- The type and, if its name is another one, the code, icmp.py 126-128. -/
def typeCode (tname cname : Text) : Text := if tname ≠ cname then tname ++ ":".toList ++ cname else tname

/-- `ICMP.__str__`, icmp.py 125-129. -/
def icmp4Str (m : ICMPMsg ICMPData) : Text :=
  "ICMP ".toList ++ typeCode (enumName icmpTypeNames m.type) (codeName icmpCodes m.type m.code) ++ " ".toList ++ m.data.str

/-- `__str__` of the neighbour discovery options, icmpv6.py 108-109, 142-143, 246-247, 279-280, 322-324. -/
def NDOpt.str : NDOpt → Text
  | .lladdr t a =>
    (if t then "ICMPv6OptionTargetLinkLayerAddress ".toList else "ICMPv6OptionSourceLinkLayerAddress ".toList) ++ a.toStr
  | .pfx l a v p n k =>
    "ICMPv6OptionPrefixInformation pfxlen ".toList ++ natText k ++ " l ".toList ++ natText l.toNat ++ " a ".toList ++
      natText a.toNat ++ " valid lifetime ".toList ++ intText v ++ " preferred lifetime ".toList ++ intText p ++
      " prefix ".toList ++ ipv6Text n
  | .mtu v => "ICMPv6OptionMTU ".toList ++ intText v
  | .redirected h => "ICMPv6OptionRedirectedHeader redirected packet (".toList ++ natText h.length ++ " bytes)".toList

/-- `ICMPv6OptionList.__str__`, icmpv6.py 433-436. -/
def ndOptsStr (os : List NDOpt) : Text :=
  "ICMPv6OptionList (".toList ++ joinText ", ".toList (os.map NDOpt.str) ++ ")".toList

/-- The options, if there are any, at the end of a message, icmpv6.py 509-510, 670-671, 765-766, 818-819. -/
def withOpts (s : Text) (os : List NDOpt) : Text := if os = [] then s else s ++ " | ".toList ++ ndOptsStr os

/-- `__class__.__name__` of the classes without a `__str__` of their own, icmpv6.py 455-456, 471-484. -/
def PlainICMPv6.name : PlainICMPv6 → String
  | .mlQuery => "ICMPv6MulticastListenerQuery" | .mlReport => "ICMPv6MulticastListenerReport"
  | .mlDone => "ICMPv6MulticastListenerDone" | .v2Report => "ICMPv6Version2MulticastListenerReport"

/-- `get_rso_str`, icmpv6.py 714-722. -/
def rsoStr (r s o : Bool) : Text :=
  (if r then ['R'] else []) ++ (if s then ['S'] else []) ++ (if o then ['O'] else [])

/-- `__str__` of the data classes, icmp.py 185-186, 268-269, 305-306, icmpv6.py 455-456, 507-511, 628-632, 668-672,
759-767, 813-820.  That of a router advertisement reads `_retrans_time`, but the attribute is `_retrans_timer`.  That
of a redirect shows the target address in place of the destination. -/
def ICMPv6Data.str : ICMPv6Data → Res Text
  | .other b => .ok (payloadStr b)
  | .plain c _ _ => .ok c.name.toList
  | .unreach _ m b => .ok (payloadStr b ++ " NextHopMTU: ".toList ++ intText m)
  | .echo _ i s b =>
    .ok (intText i ++ " ".toList ++ intText s ++ " (".toList ++ natText b.length ++ " data bytes)".toList)
  | .rs os _ => .ok (withOpts "ICMPv6RouterSolicitation".toList os)
  | .ra .. => .error .attributeError
  | .ns t os _ => .ok (withOpts ("ICMPv6NeighborSolicitation: target address ".toList ++ ipv6Text t) os)
  | .na r s o t os _ =>
    .ok (withOpts ("Target address: ".toList ++ ipv6Text t ++ " flags: 0x".toList ++ Nat.toDigits 16 (rsoByte r s o) ++
      " (".toList ++ rsoStr r s o ++ ")".toList) os)
  | .redirect t _ os _ =>
    .ok (withOpts ("ICMPv6RedirectMessage Target: ".toList ++ ipv6Text t ++ " Destination: ".toList ++ ipv6Text t) os)

/-- `ICMP.__str__` of an `ICMPv6` object, icmp.py 125-129. -/
def icmp6Str (m : ICMPMsg ICMPv6Data) : Res Text :=
  m.data.str >>= fun d =>
  .ok ("ICMPv6 ".toList ++ typeCode (enumName icmpv6TypeNames m.type) (codeName icmpv6Codes m.type m.code) ++
    " ".toList ++ d)

/-- `RIPRouteEntry.__str__`, ripv2.py 37-41. -/
def RIPRoute.str (r : RIPRoute) : Text :=
  ipv4Text (BitVec.ofNat 32 r.net) ++ "/".toList ++ natText r.plen ++ " (".toList ++ intText r.metric ++ ")".toList ++
    (if r.nexthop = 0 then [] else " -> ".toList ++ ipv4Text r.nexthop)

/-- `RIPCommand(c).name`, ripv2.py 17-19. -/
def ripCommandNames : List (Nat × String) := [(1, "Request"), (2, "Reply")]

/-- `RIPv2.__str__`, ripv2.py 143-145. -/
def RIPv2.str (h : RIPv2) : Text :=
  "RIPv2 ".toList ++ enumName ripCommandNames h.command ++ " (".toList ++ natText h.routes.length ++
    " routes: ".toList ++ joinText ", ".toList (h.routes.map RIPRoute.str) ++ ")".toList

/-- `AFTypeNames.get(af, "?")`, null.py 14-17 and 65 (Linux numbers). -/
def afName (af : Int) : Text := if af = 2 then "AF_INET".toList else if af = 10 then "AF_INET6".toList else "?".toList

/-- `RawPacketContents.__str__`, packet.py 400-405. -/
def rawStr (b : Bytes) : Text :=
  "RawPacketContents (".toList ++ natText b.length ++ " bytes) ".toList ++ bytesRepr (b.take 10) ++
    (if b.length < 10 then [] else "...".toList)

/-- `str(header)`. -/
def Hdr.str : Hdr → Res Text
  | .eth h => .ok h.str | .vlan h => .ok h.str | .arp h => .ok h.str | .ip4 h => .ok h.str | .ip6 h => .ok h.str
  | .route h => .ok h.str | .frag h => .ok h.str | .hop h => h.str "IPv6HopOption"
  | .dst h => h.str "IPv6DestinationOption" | .udp h => .ok h.str | .tcp h => .ok h.str | .icmp h => .ok (icmp4Str h)
  | .icmp6 h => icmp6Str h | .rip h => .ok h.str | .null af => .ok ("Null: ".toList ++ afName af)
  | .raw b => .ok (rawStr b) | .nullHdr => .ok "NullPacketHeader".toList

/-- `[str(ph) for ph in self._headers if isinstance(ph, PacketHeaderBase)]`, packet.py 241. -/
def Packet.strs : Packet → Res (List Text)
  | [] => .ok []
  | .hdr h :: p => h.str >>= fun s => Packet.strs p >>= fun r => .ok (s :: r)
  | _ :: p => Packet.strs p

/-- `Packet.__str__`, packet.py 240-241. -/
def Packet.str (p : Packet) : Res Text := p.strs >>= fun l => .ok (joinText " | ".toList l)

end SY
