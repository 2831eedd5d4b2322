import Verif.Matcher

/-!
# Assigning an attribute of a header by name

Model of `setattr(hdr, name, value)` as `PacketInputEvent.generate_packet` uses it
(/repo/switchyard/lib/testing.py 469-474): the setters of the header classes of
/repo/switchyard/lib/packet/*.py, applied to a value that was read from another header or given by a program.
-/

namespace SY

/-- A value that is assigned: one that an attribute can have, or `None`. -/
abbrev PyVal := Option AVal

/-- The value if it is an `int` (enumeration members and booleans are). -/
def PyVal.number : PyVal → Option Int
  | some (.num v) => some v
  | some (.bool b) => some (b.toNat : Int)
  | some (.proto (some n)) => some (n : Int)
  | _ => none

/-- The argument of an enumeration class: what is not a number is no member. -/
def PyVal.enumArg (v : PyVal) : Res Int :=
  match v.number with
  | some n => .ok n
  | none => .error .valueError

/-- The operand of `0 <= value < n`, ipv4.py 480, 494, 500, 510, 552. -/
def PyVal.rangeArg (v : PyVal) : Res Int :=
  match v.number with
  | some n => .ok n
  | none => .error .typeError

/-- Decimal digits of `int(s)` after the sign, single underscores allowed between digits. -/
def scanDec : IntSt → Nat → List Char → Option Nat
  | .afterDigit, acc, [] => some acc
  | _, _, [] => none
  | st, acc, c :: r =>
    if c = '_' then (if st = .start then none else scanDec .start acc r)
    else if '0' ≤ c ∧ c ≤ '9' then scanDec .afterDigit (acc * 10 + (c.toNat - 48)) r
    else none

/-- `int(s)` for text without white space around it; `none` is `ValueError`.  Digits that are not ASCII,
which Python takes too, are rejected here. -/
def signedDec : List Char → Option Int
  | '+' :: r => (scanDec .start 0 r).map Int.ofNat
  | '-' :: r => (scanDec .start 0 r).map (fun n => -Int.ofNat n)
  | r => (scanDec .start 0 r).map Int.ofNat

/-- The characters of bytes.  Separators 28-31 around a number, which `int` takes off text but not off
bytes, become a character that is not taken off. -/
def byteChars (b : Bytes) : List Char :=
  b.map fun x => if 28 ≤ x.toNat ∧ x.toNat ≤ 31 then 'x' else Char.ofNat x.toNat

/-- `int(text)`: `ValueError` for what is no number. -/
def intOfChars (s : List Char) : Res Int :=
  match signedDec (pyStrip s) with
  | some n => .ok n
  | none => .error .valueError

/-- `int(value)`: an address has a number; text and bytes are parsed. -/
def PyVal.intArg (v : PyVal) : Res Int :=
  match v with
  | some (.ip a) => .ok a.toNat
  | some (.text s) => intOfChars s
  | some (.bytes b) => intOfChars (byteChars b)
  | v => v.rangeArg

/-- The value of a setter that stores anything: udp.py 61-67, tcp.py 160-218, ipv6.py 554-564.
Something that is not a number is stored, and the packet cannot be serialised afterwards
(`struct.error`); the model raises at once. -/
def PyVal.freeArg (v : PyVal) : Res Int :=
  match v.number with
  | some n => .ok n
  | none => .error .structError

/-- The argument of `EthAddr(value)`, address/__init__.py 31-54. -/
def PyVal.ethArg : PyVal → EthArg
  | none => .none
  | some (.proto none) => .none
  | some (.eth a) => .addr a
  | some (.bytes b) => .raw b
  | some (.text s) => .text s
  | _ => .other

/-- The argument of `ip_address(value)` and `IPv6Address(value)`; text is parsed; what is not an address, a
number, text or bytes is turned into text that is not an address, which raises `err`. -/
def PyVal.ipArg (err : PyErr) (v : PyVal) : Res IPArg :=
  match v with
  | some (.ip a) => .ok (.addr a)
  | some (.bytes b) => .ok (.raw b)
  | some (.text s) =>
    match ipAddressText s with
    | .ok a => .ok (.addr a)
    | .error _ => .error err
  | v =>
    match v.number with
    | some n => .ok (.int n)
    | none => .error err

/-- `bool(value)`.  ICMP data counts as true (it is false if it serialises to nothing, which is not
modelled). -/
def PyVal.truth : PyVal → Bool
  | none => false
  | some (.num v) => v ≠ 0
  | some (.bool b) => b
  | some (.proto o) => match o with | none => false | some n => n ≠ 0
  | some (.opts os) => !os.isEmpty
  | some (.bytes b) => !b.isEmpty
  | some (.text s) => !s.isEmpty
  | some .tcpopts => false
  | some _ => true

/-- The `icmpcode` argument, icmp.py 111-118.  A code that was read from another message is an
enumeration member; only its value is modelled. -/
def PyVal.codeArg (v : PyVal) : CodeArg :=
  match v.number with
  | some n => .int n
  | none => .other

/-- A setter that may have changed the object when it raises: only the exception is kept. -/
def orRaise {α : Type} (x : α × Option PyErr) : Res α :=
  match x.2 with
  | none => .ok x.1
  | some e => .error e

/-- Setters of `Ethernet`, ethernet.py 122-140. -/
def Ethernet.setattr (h : Ethernet) (v : PyVal) : HdrAttr → Res Ethernet
  | .src => h.setSrc v.ethArg
  | .dst => h.setDst v.ethArg
  | .ethertype => v.enumArg >>= fun n => h.setEthertype n
  | _ => .error .attributeError

/-- Setters of `Vlan`, ethernet.py 52-70. -/
def Vlan.setattr (h : Vlan) (v : PyVal) : HdrAttr → Res Vlan
  | .vlanid => v.intArg >>= fun n => .ok (h.setVlanid n)
  | .pcp => v.intArg >>= fun n => .ok (h.setPcp n)
  | .ethertype => v.enumArg >>= fun n => h.setEthertype n
  | _ => .error .attributeError

/-- Setters of `Arp`, arp.py 88-122; `hardwaretype` and `protocoltype` have none. -/
def Arp.setattr (h : Arp) (v : PyVal) : HdrAttr → Res Arp
  | .operation => v.enumArg >>= fun n => h.setOperation n
  | .senderhwaddr => h.setSenderHw v.ethArg
  | .senderprotoaddr => v.ipArg .valueError >>= fun a => h.setSenderProto a
  | .targethwaddr => h.setTargetHw v.ethArg
  | .targetprotoaddr => v.ipArg .valueError >>= fun a => h.setTargetProto a
  | _ => .error .attributeError

/-- Setters of `IPv4`, ipv4.py 467-554; `total_length`, `hl` and `options` have none. -/
def IPv4.setattr (h : IPv4) (v : PyVal) : HdrAttr → Res IPv4
  | .ttl => v.intArg >>= fun n => h.setTtl n
  | .tos => v.rangeArg >>= fun n => h.setTos n
  | .dscp => v.rangeArg >>= fun n => h.setDscp n
  | .ecn => v.rangeArg >>= fun n => h.setEcn n
  | .ipid => v.rangeArg >>= fun n => h.setIpid n
  | .protocol => v.enumArg >>= fun n => h.setProtocol n
  | .src => v.ipArg .valueError >>= fun a => h.setSrc a
  | .dst => v.ipArg .valueError >>= fun a => h.setDst a
  | .flags => v.enumArg >>= fun n => h.setFlags n
  | .fragmentOffset => v.rangeArg >>= fun n => h.setFrag n
  | _ => .error .attributeError

/-- Setters of `IPv6`, ipv6.py 554-604. -/
def IPv6.setattr (h : IPv6) (v : PyVal) : HdrAttr → Res IPv6
  | .trafficclass => v.freeArg >>= fun n => .ok (h.setTc n)
  | .flowlabel => v.freeArg >>= fun n => .ok (h.setFlow n)
  | .ttl => v.intArg >>= fun n => .ok (h.setTtl n)
  | .hoplimit => v.intArg >>= fun n => .ok (h.setTtl n)
  | .nextheader => v.enumArg >>= fun n => h.setNext n
  | .src => v.ipArg .addressValue >>= fun a => h.setSrc a
  | .dst => v.ipArg .addressValue >>= fun a => h.setDst a
  | _ => .error .attributeError

/-- Setters of `IPv6RouteOption`, ipv6.py 47-57, 103-105. -/
def RouteOpt.setattr (h : RouteOpt) (v : PyVal) : HdrAttr → Res RouteOpt
  | .nextheader => v.enumArg >>= fun n => h.setNext n
  | .protocol => v.enumArg >>= fun n => h.setNext n
  | .address => v.ipArg .addressValue >>= fun a => h.setAddr a
  | _ => .error .attributeError

/-- Setters of `IPv6Fragment`, ipv6.py 47-57, 140-158. -/
def Fragment.setattr (h : Fragment) (v : PyVal) : HdrAttr → Res Fragment
  | .nextheader => v.enumArg >>= fun n => h.setNext n
  | .protocol => v.enumArg >>= fun n => h.setNext n
  | .ident => v.intArg >>= fun n => .ok (h.setId n)
  | .offset => v.intArg >>= fun n => .ok (h.setOffset n)
  | .mf => .ok (h.setMf v.truth)
  | _ => .error .attributeError

/-- Setters of `IPv6HopOption`, ipv6.py 47-57.  `IPv6DestinationOption` declares no slots (377-378),
so any other name is stored in its dictionary, without effect (`loose`). -/
def HopOpt.setattr (loose : Bool) (h : HopOpt) (v : PyVal) : HdrAttr → Res HopOpt
  | .nextheader => v.enumArg >>= fun n => h.setNext n
  | .protocol => v.enumArg >>= fun n => h.setNext n
  | _ => if loose then .ok h else .error .attributeError

/-- Setters of `UDP`, udp.py 61-67. -/
def UDP.setattr (h : UDP) (v : PyVal) : HdrAttr → Res UDP
  | .src => v.freeArg >>= fun n => .ok (h.setSrc n)
  | .dst => v.freeArg >>= fun n => .ok (h.setDst n)
  | _ => .error .attributeError

/-- Setters of `TCP`, tcp.py 160-166, 176-194, 216-218, 241-307. -/
def TCP.setattr (h : TCP) (v : PyVal) : HdrAttr → Res TCP
  | .src => v.freeArg >>= fun n => .ok { h with src := n }
  | .dst => v.freeArg >>= fun n => .ok { h with dst := n }
  | .seq => v.freeArg >>= fun n => .ok { h with seq := n }
  | .ack => v.freeArg >>= fun n => .ok { h with ack := n }
  | .window => v.freeArg >>= fun n => .ok { h with window := n }
  | .urgentPointer => v.freeArg >>= fun n => .ok { h with urg := n }
  | .flag f => .ok (h.setflag f v.truth)
  | _ => .error .attributeError

/-- Setters of `ICMP`, icmp.py 94-118, 141-146. -/
def icmpSetattr (h : ICMPMsg ICMPData) (v : PyVal) : HdrAttr → Res (ICMPMsg ICMPData)
  | .icmptype => v.enumArg >>= fun n => orRaise (icmp4.setType h n)
  | .icmpcode => orRaise (icmp4.setCode h v.codeArg)
  | .icmpdata =>
    match v with
    | some (.data4 d) => orRaise (icmp4.setData h (.obj d))
    | _ => orRaise (icmp4.setData h .notData)
  | _ => .error .attributeError

/-- Setters of `ICMPv6`, icmpv6.py 78-89 and those of `ICMP`.  (Data of an ICMPv4 message, which the
setter takes, is not modelled: it raises here.) -/
def icmp6Setattr (h : ICMPMsg ICMPv6Data) (v : PyVal) : HdrAttr → Res (ICMPMsg ICMPv6Data)
  | .icmptype => v.enumArg >>= fun n => orRaise (icmp6.setType h n)
  | .icmp6type => v.enumArg >>= fun n => orRaise (icmp6.setType h n)
  | .icmpcode => orRaise (icmp6.setCode h v.codeArg)
  | .icmp6code => orRaise (icmp6.setCode h v.codeArg)
  | .icmpdata =>
    match v with
    | some (.data6 d) => orRaise (icmp6.setData h (.obj d))
    | _ => orRaise (icmp6.setData h .notData)
  | _ => .error .attributeError

/-- Setter of `RIPv2`, ripv2.py 177-179. -/
def RIPv2.setattr (h : RIPv2) (v : PyVal) : HdrAttr → Res RIPv2
  | .command => v.enumArg >>= fun n => h.setCommand n
  | _ => .error .attributeError

/-- `setattr(hdr, name, value)` on a header.  `RawPacketContents` has no setter (packet.py 381-383);
`NullPacketHeader` declares no slots (packet.py 340). -/
def Hdr.setattr (h : Hdr) (a : HdrAttr) (v : PyVal) : Res Hdr :=
  match h with
  | .eth h => .eth <$> h.setattr v a
  | .vlan h => .vlan <$> h.setattr v a
  | .arp h => .arp <$> h.setattr v a
  | .ip4 h => .ip4 <$> h.setattr v a
  | .ip6 h => .ip6 <$> h.setattr v a
  | .route h => .route <$> h.setattr v a
  | .frag h => .frag <$> h.setattr v a
  | .hop h => .hop <$> h.setattr false v a
  | .dst h => .dst <$> h.setattr true v a
  | .udp h => .udp <$> h.setattr v a
  | .tcp h => .tcp <$> h.setattr v a
  | .icmp h => .icmp <$> icmpSetattr h v a
  | .icmp6 h => .icmp6 <$> icmp6Setattr h v a
  | .rip h => .rip <$> h.setattr v a
  | .null _ => if a = .af then .null <$> v.intArg else .error .attributeError
  | .raw _ => .error .attributeError
  | .nullHdr => .ok .nullHdr

/-- `setattr` on a member of a packet; `bytes` objects take no attributes (other objects that are
not headers are taken to be alike). -/
def Item.setattr (a : HdrAttr) (v : PyVal) : Item → Res Item
  | .hdr h => .hdr <$> h.setattr a v
  | _ => .error .attributeError

/-- `setattr(packet.get_header(c), a, v)`, testing.py 473-474: the first header of the class is changed
in place; if there is none, `None` has no attributes that can be set. -/
def Packet.setattr (c : Cls) (a : HdrAttr) (v : PyVal) : Packet → Res Packet
  | [] => .error .attributeError
  | it :: p =>
    if it.isA c then it.setattr a v >>= fun it' => .ok (it' :: p)
    else Packet.setattr c a v p >>= fun p' => .ok (it :: p')

end SY
