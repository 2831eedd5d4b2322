import Verif.Build
import Verif.Str
import Verif.Conf.Headers

/-! # The sessions shown in the documentation, run on the model

The interactive sessions of `/repo/documentation/reference.rst` and `writing_a_program.rst` about packets, transcribed: what
is typed is computed, what is printed is compared.  They say nothing about all inputs: they are evidence that the
definitions compute what the code is said to compute.  Where the documentation does not agree with the code, the comment
says so. -/

namespace SY.Conf
open SY

/-- A text as an argument. -/
def txt (s : String) : PyVal := some (.text s.toList)

/-- A number or member of an enumeration as an argument. -/
def num (n : Int) : PyVal := some (.num n)

/-- `hdr.name = value` several times. -/
def assign (h : Res Hdr) (l : List (HdrAttr × PyVal)) : Res Hdr :=
  h >>= fun h => h.setKws (l.map fun x => (.hdr x.1, x.2))

/-- `print(hdr)`. -/
def shows (h : Res Hdr) (s : String) : Bool := decide (h >>= (fun h => h.str) = .ok s.toList)

/-- `a + b + …`. -/
def packet : List (Res Hdr) → Res Packet
  | [] => .ok []
  | h :: l => h >>= fun h => packet l >>= fun p => .ok (.hdr h :: p)

/-- `print(packet)`. -/
def prints (p : Res Packet) (s : String) : Bool := decide (p >>= (fun p => p.str) = .ok s.toList)

/-! ## reference.rst -/

-- 107-119
example : prints (packet [Cls.eth.build []]) "Ethernet 00:00:00:00:00:00->00:00:00:00:00:00 IP" = true := by decide +kernel
-- 184-187 and 191: the same header
example : assign (Cls.eth.build []) [(.src, txt "de:ad:00:00:be:ef"), (.dst, txt "ff:ff:ff:ff:ff:ff"), (.ethertype, num 0x0806)] =
    Cls.eth.build [(.hdr .src, txt "de:ad:00:00:be:ef"), (.hdr .dst, txt "ff:ff:ff:ff:ff:ff"), (.hdr .ethertype, num 0x0806)] ∧
    shows (Cls.eth.build [(.hdr .src, txt "de:ad:00:00:be:ef"), (.hdr .dst, txt "ff:ff:ff:ff:ff:ff"), (.hdr .ethertype, num 0x0806)])
      "Ethernet de:ad:00:00:be:ef->ff:ff:ff:ff:ff:ff ARP" = true := by decide +kernel
-- 275-279
example : shows (assign (Cls.ip4.build []) [(.src, txt "10.0.1.1"), (.dst, txt "10.0.2.42"), (.protocol, num 17), (.ttl, num 64)])
    "IPv4 10.0.1.1->10.0.2.42 UDP" = true := by decide +kernel
-- 299-305
example : shows (Cls.ip6.build []) "IPv6 ::->:: ICMPv6" = true ∧
    shows (assign (Cls.ip6.build []) [(.src, txt "fe80::1"), (.dst, txt "fe80::2")]) "IPv6 fe80::1->fe80::2 ICMPv6" = true := by
  decide +kernel
-- 322-327
example : prints (packet [Cls.eth.build [], Cls.ip4.build [(.hdr .protocol, num 17)],
      assign (Cls.udp.build []) [(.src, num 4444), (.dst, num 5555)], .ok (.raw (ascii "These are some application data bytes"))])
    "Ethernet 00:00:00:00:00:00->00:00:00:00:00:00 IP | IPv4 0.0.0.0->0.0.0.0 UDP | UDP 4444->5555 | RawPacketContents (37 bytes) b'These are '..."
      = true := by decide +kernel
-- 352-359
example : (assign (Cls.tcp.build []) [(.flag .SYN, num 1)] >>= fun h => h.getattr (.flag .SYN)).map (fun v => PyVal.truth (some v)) =
    .ok true := by decide +kernel
-- 388-393
example : shows (Cls.icmp.build []) "ICMP EchoRequest 0 0 (0 data bytes)" = true ∧
    shows (assign (Cls.icmp.build []) [(.icmptype, num 11)])
      "ICMP TimeExceeded:TTLExpired 0 bytes of raw payload (b'') OrigDgramLen: 0" = true ∧
    (assign (Cls.icmp.build []) [(.icmptype, num 11)] >>= fun h => h.getattr .icmpcode) = .ok (.num 0) := by
  decide +kernel

/-- The IPv4 packet of 411-416, without an Ethernet header, and its bytes. -/
def deadPkt : Res Bytes := packet [Cls.ip4.build [], Cls.icmp.build []] >>= fun p => p.toBytes.2

-- 411-416: the documentation's message says 42, the length of a packet with an Ethernet header; without it, as the text below
-- it demands, the packet has 28 bytes.
example : (deadPkt >>= fun b => ((ICMPData.exceeded 0 []).setattr (some (.bytes (b.take 28))) .payload).getD (.error .generic)).map
      (fun d => (d.payload.length, d.payload.take 2)) = .ok (28, [0x45, 0]) := by decide +kernel
-- 453-468; the documentation prints "… 0 bytes of raw payload (b'') NextHopMTU: 0"
example : (assign (Cls.icmp.build []) [(.icmptype, num 3), (.icmpcode, num 44)]) = .error .valueError := by decide +kernel
example : shows (assign (Cls.icmp.build []) [(.icmptype, num 3), (.icmpcode, num 2)])
    "ICMP DestinationUnreachable:ProtocolUnreachable 0 bytes of raw payload (b'') NextHopMTU: 0" = true ∧
    shows (assign (Cls.icmp.build []) [(.icmptype, num 3), (.icmpcode, num 2), (.icmpcode, num 1)])
    "ICMP DestinationUnreachable:HostUnreachable 0 bytes of raw payload (b'') NextHopMTU: 0" = true := by decide +kernel
-- 533-540, in both ways
example : shows (assign (Cls.icmp6.build []) [(.icmptype, num 137)])
    "ICMPv6 RedirectMessage ICMPv6RedirectMessage Target: :: Destination: ::" = true ∧
    assign (Cls.icmp6.build []) [(.icmptype, num 137)] = Cls.icmp6.build [(.hdr .icmptype, num 137)] := by decide +kernel

/-- The message data of 542-546, with a redirected packet of six bytes. -/
def redirectData (target : EthArg) : Res ICMPv6Data :=
  ICMPv6Data.make 137 [(.own .targetaddr, txt "::0")] none >>= fun r =>
  NDOpt.mkTarget target >>= fun t => .ok (r.addOptions [NDOpt.setHeader [1, 2, 3, 4, 5, 6], t])

-- 548-550.  The address given to `ICMPv6OptionTargetLinkLayerAddress` is dropped by the constructor, so all zeros are printed
-- whatever is given: the session cannot tell.
example : (redirectData (.text "00:00:00:00:00:00".toList) >>= fun d =>
      shows (assign (Cls.icmp6.build []) [(.icmpdata, some (.data6 d))])
        "ICMPv6 RedirectMessage ICMPv6RedirectMessage Target: :: Destination: :: | ICMPv6OptionList (ICMPv6OptionRedirectedHeader redirected packet (6 bytes), ICMPv6OptionTargetLinkLayerAddress 00:00:00:00:00:00)"
      |> .ok) = .ok true ∧
    redirectData (.text "00:00:00:00:00:00".toList) = redirectData (.text "01:02:03:04:05:06".toList) := by decide +kernel

/-- 554-559. -/
def oneGo : Res Packet :=
  NDOpt.mkSource (.text "00:50:56:af:97:68".toList) >>= fun s =>
  NDOpt.mkPrefix [(.net, txt "fd00::/64")] >>= fun p =>
  ICMPv6Data.make 133 [] (some [s, .mtu 1250, p]) >>= fun d =>
  packet [Cls.eth.build [(.hdr .ethertype, num 0x86dd), (.hdr .src, txt "58:ac:78:93:da:00"), (.hdr .dst, txt "33:33:00:00:00:01")],
    Cls.ip6.build [(.hdr .nextheader, num 58), (.hdr .hoplimit, num 255), (.hdr .src, txt "fe80::1"), (.hdr .dst, txt "ff02::1")],
    Cls.icmp6.build [(.hdr .icmptype, num 133), (.hdr .icmpdata, some (.data6 d))]]

-- 554-559: the packet is serialised and read back as it is
example : (oneGo >>= fun p => p.size) = .ok (14 + 40 + 8 + 8 + 8 + 32) ∧
    (oneGo >>= fun p => p.toBytes.2 >>= fun b => Packet.parse b none >>= fun q => p.toBytes.1.eq q) = .ok true := by decide +kernel

/-! ## writing_a_program.rst -/

/-- The packet of 165-190 after the assignments up to 247. -/
def docPkt (dst ip : String) (icmp : List (DataName × PyVal)) : Res Packet :=
  (icmp.foldl (fun d x => d >>= fun d => (d.setattr x.2 x.1).getD (.error .attributeError)) (.ok (.echo false 0 0 []) : Res ICMPData))
    >>= fun d =>
  packet [assign (Cls.eth.build []) [(.dst, txt dst)], assign (Cls.ip4.build []) [(.dst, txt ip)],
    assign (Cls.icmp.build []) [(.icmpdata, some (.data4 d))]]

-- 171-173
example : prints (packet [Cls.eth.build [], Cls.ip4.build [], Cls.icmp.build []])
    "Ethernet 00:00:00:00:00:00->00:00:00:00:00:00 IP | IPv4 0.0.0.0->0.0.0.0 ICMP | ICMP EchoRequest 0 0 (0 data bytes)" = true := by
  decide +kernel
-- 184-194
example : (packet [Cls.eth.build [], Cls.ip4.build [], Cls.icmp.build []]).map List.length = .ok 3 ∧
    (packet [Cls.eth.build [], Cls.ip4.build [], Cls.icmp.build []] >>= fun p => p.size) = .ok 42 := by decide +kernel
-- 206-211
example : shows (assign (Cls.eth.build []) [(.dst, txt "ab:cd:ef:00:11:22")]) "Ethernet 00:00:00:00:00:00->ab:cd:ef:00:11:22 IP" = true ∧
    shows (assign (Cls.eth.build []) [(.dst, some (.eth (mac "00:11:22:33:44:55")))])
      "Ethernet 00:00:00:00:00:00->00:11:22:33:44:55 IP" = true := by decide +kernel
-- 214-216: the documentation forgets the address assigned just before
example : prints (packet [assign (Cls.eth.build []) [(.dst, txt "00:11:22:33:44:55"), (.ethertype, num 0x0806)], Cls.ip4.build [], Cls.icmp.build []])
    "Ethernet 00:00:00:00:00:00->00:11:22:33:44:55 ARP | IPv4 0.0.0.0->0.0.0.0 ICMP | ICMP EchoRequest 0 0 (0 data bytes)" = true := by
  decide +kernel
-- 223-236
example : (packet [Cls.eth.build [], Cls.ip4.build [], Cls.icmp.build []]).map (fun p => (p.hasHeader .ip4, p.headerIndex .ip4 0)) =
    .ok (true, .ok 1) := by decide +kernel
-- 263-266
example : prints (docPkt "00:11:22:33:44:55" "149.43.80.13" [(.own .identifier, num 42), (.own .sequence, num 13)])
    "Ethernet 00:00:00:00:00:00->00:11:22:33:44:55 IP | IPv4 0.0.0.0->149.43.80.13 ICMP | ICMP EchoRequest 42 13 (0 data bytes)" = true := by
  decide +kernel
-- 270-272
example : prints (docPkt "00:11:22:33:44:55" "149.43.80.13"
      [(.own .identifier, num 42), (.own .sequence, num 13), (.payload, txt "hello, world")])
    "Ethernet 00:00:00:00:00:00->00:11:22:33:44:55 IP | IPv4 0.0.0.0->149.43.80.13 ICMP | ICMP EchoRequest 42 13 (12 data bytes)" = true := by
  decide +kernel
-- 276-281
example : prints (packet [
      Cls.eth.build [(.hdr .src, txt "11:22:33:44:55:66"), (.hdr .dst, txt "66:55:44:33:22:11"), (.hdr .ethertype, num 0x0800)],
      Cls.ip4.build [(.hdr .src, txt "1.2.3.4"), (.hdr .dst, txt "4.3.2.1"), (.hdr .protocol, num 17), (.hdr .ttl, num 32)],
      Cls.udp.build [(.hdr .src, num 1234), (.hdr .dst, num 4321)], .ok (.raw (ascii "this is some application payload!"))])
    "Ethernet 11:22:33:44:55:66->66:55:44:33:22:11 IP | IPv4 1.2.3.4->4.3.2.1 UDP | UDP 1234->4321 | RawPacketContents (33 bytes) b'this is so'..."
      = true := by decide +kernel
-- 286-287: the bytes shown are those of the packet before the IPv4 address was assigned
example : (docPkt "00:11:22:33:44:55" "0.0.0.0"
      [(.own .identifier, num 42), (.own .sequence, num 13), (.payload, txt "hello, world")] >>= fun p => p.toBytes.2) =
    .ok ([0, 0x11, 0x22, 0x33, 0x44, 0x55, 0, 0, 0, 0, 0, 0, 8, 0, 0x45, 0, 0, 0x28, 0, 0, 0, 0, 0, 1, 0xba, 0xd6, 0, 0, 0, 0,
      0, 0, 0, 0, 8, 0, 0xb7, 0x7c, 0, 0x2a, 0, 0x0d] ++ ascii "hello, world") := by decide +kernel

end SY.Conf
