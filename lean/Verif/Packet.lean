import Verif.Ethernet
import Verif.Arp
import Verif.Tcp
import Verif.Icmp
import Verif.Icmpv6
import Verif.Rip

/-! # Packets (`/repo/switchyard/lib/packet/packet.py`)

Header objects are values here: sharing of one header object between packets is the subject of
`Verif/Heap.lean`.  The classes modelled are those of `/repo/switchyard/lib/packet`; header classes
written by users are not. -/

namespace SY

/-- The header classes, including the two that only serve as base classes: `PacketHeaderBase`
(packet.py 244) and `IPv6ExtensionHeader` (ipv6.py 24). -/
inductive Cls
  | base | eth | vlan | arp | ip4 | ip6 | ext | route | frag | hop | dst | udp | tcp | icmp | icmp6
  | rip | null | raw | nullHdr
  deriving DecidableEq, Repr

/-- `issubclass(c, d)`: `ICMPv6(ICMP)` (icmpv6.py 24), `IPv6DestinationOption(IPv6HopOption)`
(ipv6.py 377), the four extension headers (ipv6.py 84, 124, 306, 377), everything else derives from
`PacketHeaderBase` directly. -/
def Cls.isSub (c d : Cls) : Bool :=
  c == d || d == .base || (d == .ext && (c == .route || c == .frag || c == .hop || c == .dst)) ||
  (d == .hop && c == .dst) || (d == .icmp && c == .icmp6)

/-- A header object. -/
inductive Hdr
  | eth (h : Ethernet) | vlan (h : Vlan) | arp (h : Arp) | ip4 (h : IPv4) | ip6 (h : IPv6)
  | route (h : RouteOpt) | frag (h : Fragment) | hop (h : HopOpt) | dst (h : HopOpt)
  | udp (h : UDP) | tcp (h : TCP) | icmp (h : ICMPMsg ICMPData) | icmp6 (h : ICMPMsg ICMPv6Data)
  | rip (h : RIPv2) | null (af : Int) | raw (b : Bytes) | nullHdr
  deriving DecidableEq

/-- `obj.__class__`. -/
def Hdr.cls : Hdr → Cls
  | .eth _ => .eth | .vlan _ => .vlan | .arp _ => .arp | .ip4 _ => .ip4 | .ip6 _ => .ip6
  | .route _ => .route | .frag _ => .frag | .hop _ => .hop | .dst _ => .dst | .udp _ => .udp
  | .tcp _ => .tcp | .icmp _ => .icmp | .icmp6 _ => .icmp6 | .rip _ => .rip | .null _ => .null
  | .raw _ => .raw | .nullHdr => .nullHdr

/-- What a packet's list can hold: headers; `bytes` objects, which `prepend_header`,
`insert_header` and `__setitem__` store as they are; any other object (`prepend_header` and
`insert_header` check nothing), identified by a number. -/
inductive Item
  | hdr (h : Hdr)
  | bytes (b : Bytes)
  | other (id : Nat)
  deriving DecidableEq

/-- `isinstance(item, c)`. -/
def Item.isA : Item → Cls → Bool
  | .hdr h, c => h.cls.isSub c
  | _, _ => false

/-- `Packet._headers`, packet.py 11.  (`_raw` is written but never read.) -/
abbrev Packet := List Item

/-! ## Lookup -/

/-- `get_header_by_name`, 144-152, for the name of class `c`. -/
def Packet.byName (p : Packet) (c : Cls) : Option Item :=
  p.find? fun it => match it with
    | .hdr h => h.cls == c
    | _ => false

/-- `get_header` with a class, 154-166 (`returnval` defaults to `None`). -/
def Packet.getHeader (p : Packet) (c : Cls) : Option Item := p.find? (·.isA c)

/-- `has_header`, 135-142, with a class. -/
def Packet.hasHeader (p : Packet) (c : Cls) : Bool := (p.getHeader c).isSome

/-- `has_header`, 135-142, with a class name. -/
def Packet.hasName (p : Packet) (c : Cls) : Bool := (p.byName c).isSome

/-- `list[i]` in Python: negative indices count from the end, once. -/
def listIndex {α : Type} (l : List α) (i : Int) : Res α :=
  match l[(if i < 0 then l.length + i else i).toNat]? with
  | some x => if 0 ≤ (if i < 0 then l.length + i else i) then .ok x else .error .indexError
  | none => .error .indexError

/-- The loop of `get_header_index`, 174-177; `n` iterations remain. -/
def Packet.indexLoop (p : Packet) (c : Cls) : Nat → Int → Res Int
  | 0, _ => .ok (-1)
  | n + 1, i =>
    listIndex p i >>= fun it => if it.isA c then .ok i else Packet.indexLoop p c n (i + 1)

/-- `get_header_index`, 168-177. -/
def Packet.headerIndex (p : Packet) (c : Cls) (start : Int) : Res Int :=
  p.indexLoop c (p.length - start).toNat start

/-- `_checkidx`, 182-188. -/
def Packet.checkIdx (p : Packet) (i : Int) : Res Nat :=
  let i := if i < 0 then p.length + i else i
  if 0 ≤ i ∧ i < p.length then .ok i.toNat else .error .indexError

/-- `p[i]`, 190-193. -/
def Packet.getItem (p : Packet) (i : Int) : Res Item :=
  p.checkIdx i >>= fun i => listIndex p i

/-- `p[Class]`, 194-198. -/
def Packet.getClass (p : Packet) (c : Cls) : Res Item :=
  p.headerIndex c 0 >>= fun i => if i = -1 then .error .keyError else listIndex p i

/-! ## Modification -/

/-- `add_header`, 109-121 (also `add_payload`, 131-133, and `+=`, 68-75): bytes are wrapped,
anything else that is not a header raises. -/
def Packet.add (p : Packet) (x : Item) : Res Packet :=
  match x with
  | .bytes b => .ok (p ++ [.hdr (.raw b)])
  | .hdr h => .ok (p ++ [.hdr h])
  | .other _ => .error .generic

/-- `prepend_header`, 102-107. -/
def Packet.prepend (p : Packet) (x : Item) : Packet := x :: p

/-- `list.insert(i, x)` of Python: the index is clamped to the list. -/
def pyInsert {α : Type} (l : List α) (i : Int) (x : α) : List α :=
  let i := if i < 0 then l.length + i else i
  l.take i.toNat ++ x :: l.drop i.toNat

/-- `insert_header`, 123-129. -/
def Packet.insert (p : Packet) (i : Int) (x : Item) : Packet := pyInsert p i x

/-- `p[i] = x`, 202-208. -/
def Packet.setItem (p : Packet) (i : Int) (x : Item) : Res Packet :=
  p.checkIdx i >>= fun i =>
  match x with
  | .other _ => .error .typeError
  | x => .ok (p.set i x)

/-- `del p[i]`, 217-220. -/
def Packet.delItem (p : Packet) (i : Int) : Res Packet :=
  p.checkIdx i >>= fun i => .ok (p.eraseIdx i)

/-- `del p[Class]`, 221-225. -/
def Packet.delClass (p : Packet) (c : Cls) : Res Packet :=
  p.headerIndex c 0 >>= fun i => if i = -1 then .error .keyError else .ok (p.eraseIdx i.toNat)

/-- `p + q` for two packets, 77-82: each header of `q` is added to a copy of `p`. -/
def Packet.addPacket (p q : Packet) : Res Packet :=
  match q with
  | [] => .ok p
  | x :: q => p.add x >>= fun p => Packet.addPacket p q

/-! ## Serialising -/

/-- `to_bytes` of each class. -/
def Hdr.toBytes : Hdr → Res Bytes
  | .eth h => h.toBytes | .vlan h => h.toBytes | .arp h => h.toBytes | .ip4 h => h.toBytes
  | .ip6 h => h.toBytes | .route h => h.toBytes | .frag h => h.toBytes | .hop h => h.toBytes
  | .dst h => h.toBytes | .udp h => h.toBytes | .tcp h => h.toBytes | .icmp h => icmp4.toBytes h
  | .icmp6 h => icmp6ToBytes h | .rip h => h.toBytes | .null af => nullToBytes af | .raw b => .ok b
  | .nullHdr => .ok []

/-- `len(header)`: `size` or `__len__` of each class. -/
def Hdr.size : Hdr → Res Nat
  | .eth h => .ok h.size | .vlan h => .ok h.size | .arp h => .ok h.size | .ip4 h => h.size
  | .ip6 h => .ok h.size | .route h => .ok h.size | .frag h => .ok h.size | .hop h => .ok h.size
  | .dst h => .ok h.size | .udp h => .ok h.size | .tcp h => .ok h.size | .icmp h => icmp4.size h
  | .icmp6 h => SY.icmp6.size h | .rip h => .ok h.size | .null _ => .ok 4 | .raw b => .ok b.length
  | .nullHdr => .ok 0

/-- The `IPv4` header found by `pkt.get_header_by_name('IPv4')` (udp.py 92, tcp.py 101). -/
def Packet.ip4? (p : Packet) : Option IPv4 :=
  match p.byName .ip4 with
  | some (.hdr (.ip4 h)) => some h
  | _ => none

/-- The `IPv6` header found by `pkt.get_header('IPv6')` (icmpv6.py 71). -/
def Packet.ip6? (p : Packet) : Option IPv6 :=
  match p.byName .ip6 with
  | some (.hdr (.ip6 h)) => some h
  | _ => none

/-- `pre_serialize(raw, pkt, i)` of each class: udp.py 88-92, tcp.py 97-101, ipv4.py 409-410, ipv6.py
512-513, icmpv6.py 70-73; the others do nothing.  Simplified: when it raises, the header keeps
its old state (UDP would already have stored its length, which the next call overwrites). -/
def Hdr.pre (h : Hdr) (tail : Bytes) (p : Packet) : Res Hdr :=
  match h with
  | .ip4 h => .ip4 <$> h.preSerialize tail
  | .ip6 h => .ok (.ip6 (h.preSerialize tail))
  | .udp h => .udp <$> h.preSerialize tail p.ip4?
  | .tcp h => .tcp <$> h.preSerialize tail p.ip4?
  | .icmp6 h => .icmp6 <$> icmp6PreSerialize h p.ip6?
  | h => .ok h

/-- `pre_serialize` then `to_bytes` on a list element; only headers have these methods. -/
def Item.pre (it : Item) (tail : Bytes) (p : Packet) : Res Item :=
  match it with
  | .hdr h => .hdr <$> h.pre tail p
  | _ => .error .attributeError

/-- `to_bytes` on a list element. -/
def Item.toBytes : Item → Res Bytes
  | .hdr h => h.toBytes
  | _ => .error .attributeError

/-- `len` of a list element (an object of unknown class is taken to have none). -/
def Item.size : Item → Res Nat
  | .hdr h => h.size
  | .bytes b => .ok b.length
  | .other _ => .error .typeError

/-- `size`, 25-27. -/
def Packet.size : Packet → Res Nat
  | [] => .ok 0
  | it :: p => it.size >>= fun n => Packet.size p >>= fun m => .ok (n + m)

/-- The loop of `to_bytes`, 35-38; the next index is `i`, `rawlist` is as in the source.  Returns the
packet (whose headers are modified on the way) and the result. -/
def Packet.serLoop : Nat → Packet → List Bytes → Packet × Res (List Bytes)
  | 0, p, rawlist => (p, .ok rawlist)
  | i + 1, p, rawlist =>
    match listIndex p i with
    | .error e => (p, .error e)
    | .ok it =>
      match it.pre rawlist.flatten p with
      | .error e => (p, .error e)
      | .ok it' =>
        match it'.toBytes with
        | .error e => (p.set i it', .error e)
        | .ok b => Packet.serLoop i (p.set i it') (b :: rawlist)

/-- `to_bytes`, 29-40. -/
def Packet.toBytes (p : Packet) : Packet × Res Bytes :=
  ((Packet.serLoop p.length p []).1, List.flatten <$> (Packet.serLoop p.length p []).2)

/-! ## Parsing -/

/-- `cls().from_bytes(raw)`: the new header and what `from_bytes` returns.  `RIPv2.from_bytes` returns
`None` (ripv2.py 121-138); `RawPacketContents()` raises `TypeError` (packet.py 369-375), as do the
two base classes. -/
def Cls.fromBytes (c : Cls) (raw : Bytes) : Res (Hdr × Option Bytes) :=
  match c with
  | .eth => Ethernet.fromBytes raw >>= fun r => .ok (.eth r.1, some r.2)
  | .vlan => Vlan.fromBytes raw >>= fun r => .ok (.vlan r.1, some r.2)
  | .arp => Arp.fromBytes raw >>= fun r => .ok (.arp r.1, some r.2)
  | .ip4 => IPv4.fromBytes raw >>= fun r => .ok (.ip4 r.1, some r.2)
  | .ip6 => IPv6.fromBytes raw >>= fun r => .ok (.ip6 r.1, some r.2)
  | .route => RouteOpt.fromBytes raw >>= fun r => .ok (.route r.1, some r.2)
  | .frag => Fragment.fromBytes raw >>= fun r => .ok (.frag r.1, some r.2)
  | .hop => HopOpt.fromBytes raw >>= fun r => .ok (.hop r.1, some r.2)
  | .dst => HopOpt.fromBytes raw >>= fun r => .ok (.dst r.1, some r.2)
  | .udp => UDP.fromBytes raw >>= fun r => .ok (.udp r.1, some r.2)
  | .tcp => TCP.fromBytes raw >>= fun r => .ok (.tcp r.1, some r.2)
  | .icmp => icmp4.fromBytes raw >>= fun r => .ok (.icmp r.1, some r.2)
  | .icmp6 => SY.icmp6.fromBytes raw >>= fun r => .ok (.icmp6 r.1, some r.2)
  | .rip => RIPv2.fromBytes raw >>= fun h => .ok (.rip h, none)
  | .null => nullFromBytes raw >>= fun r => .ok (.null r.1, some r.2)
  | .nullHdr => .ok (.nullHdr, some raw)
  | .raw | .base | .ext => .error .typeError

/-- `Ethernet._next_header_map`, ethernet.py 101-107. -/
def ethNext (t : Nat) : Option Cls :=
  if t = 0x0800 then some .ip4 else if t = 0x0806 then some .arp else if t = 0x86dd then some .ip6
  else if t = 0x8100 then some .vlan else none

/-- `Vlan._next_header_map`, ethernet.py 30-35. -/
def vlanNext (t : Nat) : Option Cls :=
  if t = 0x0800 then some .ip4 else if t = 0x0806 then some .arp else if t = 0x86dd then some .ip6
  else none

/-- `IPTypeClasses`, ipv4.py 375-379. -/
def ip4Next (t : Nat) : Option Cls :=
  if t = 1 then some .icmp else if t = 6 then some .tcp else if t = 17 then some .udp else none

/-- `IPTypeClasses`, ipv6.py 475-486. -/
def ip6Next (t : Nat) : Option Cls :=
  if t = 6 then some .tcp else if t = 17 then some .udp else if t = 58 then some .icmp6
  else if t = 0 then some .hop else if t = 43 then some .route else if t = 44 then some .frag
  else if t = 60 then some .dst else none

/-- `next_header_class` of each class: packet.py 285-293, null.py 52-56 (raises), ipv6.py 59-63; the
others return `None` (arp.py 124, icmp.py 131, ripv2.py 185, udp.py 19, tcp.py 73).  Address families
are those of Linux. -/
def Hdr.next : Hdr → Res (Option Cls)
  | .eth h => .ok (ethNext h.ethertype)
  | .vlan h => .ok (vlanNext h.ethertype)
  | .ip4 h => .ok (ip4Next h.protocol)
  | .ip6 h => .ok (ip6Next h.next)
  | .route h => .ok (h.next.bind ip6Next)
  | .frag h => .ok (h.next.bind ip6Next)
  | .hop h => .ok (h.next.bind ip6Next)
  | .dst h => .ok (h.next.bind ip6Next)
  | .null af => if af = 2 then .ok (some .ip4) else if af = 10 then .ok (some .ip6) else .error .generic
  | _ => .ok none

/-- The end of `_parse`, 59-60. -/
def parseEnd (rest : Option Bytes) (acc : Packet) : Packet :=
  match rest with
  | some (x :: xs) => acc ++ [.hdr (.raw (x :: xs))]
  | _ => acc

/-- The loop of `_parse`, 52-60, with a bound on the number of iterations (`none` when it is
exhausted); `acc` is `self._headers`. -/
def parseLoop : Nat → Cls → Bytes → Packet → Option (Res Packet)
  | 0, _, _, _ => none
  | fuel + 1, c, raw, acc =>
    match c.fromBytes raw with
    | .error e => some (.error e)
    | .ok (h, rest) =>
      match h.next with
      | .error e => some (.error e)
      | .ok none => some (.ok (parseEnd rest (acc ++ [.hdr h])))
      | .ok (some c') => parseLoop fuel c' (rest.getD []) (acc ++ [.hdr h])

/-- `Packet(raw, first_header)`, 13-18 and 42-60.  Enough iterations are provided for every input
(`Props/PacketParse.lean`, `parse_terminates`). -/
def Packet.parse (raw : Bytes) (first : Option Cls) : Res Packet :=
  if raw = [] then .ok []
  else (parseLoop (raw.length + 8) (first.getD .eth) raw []).getD (.error .diverges)

/-! ## Equality -/

/-- `x == y` for headers with `isinstance(y, x.__class__)`.  For an `ICMP` and an `ICMPv6` header
the payloads would be compared (icmp.py 182-183) if their types agreed, but 3 and 4, the only common
numbers, are types no ICMPv6 object can be given (`setType`). -/
def Hdr.eq (x y : Hdr) : Res Bool :=
  match x, y with
  | .eth a, .eth b => .ok (a.eq b)
  | .vlan a, .vlan b => .ok (a.eq b)
  | .arp a, .arp b => .ok (a.eq b)
  | .ip4 a, .ip4 b => .ok (a.eq b)
  | .ip6 a, .ip6 b => .ok (a.eq b)
  | .udp a, .udp b => .ok (a.eq b)
  | .tcp a, .tcp b => .ok (a.eq b)
  | .icmp a, .icmp b => a.eq4 b
  | .icmp6 a, .icmp6 b => a.eq6 b
  | .icmp a, .icmp6 b =>
    .ok (decide (a.type = b.type ∧ a.code = b.code) && decide (a.data.payload = b.data.payload))
  | .null a, .null b => .ok (decide (a = b))
  | .nullHdr, .nullHdr => .ok true
  | x, y => x.toBytes >>= fun a => y.toBytes >>= fun b => .ok (decide (a = b))

/-- `isinstance(other, self.__class__) and not self != other`, 235-236 and 213. -/
def Item.matches (x y : Item) : Res Bool :=
  match x, y with
  | .hdr a, .hdr b => if b.cls.isSub a.cls then a.eq b else .ok false
  | .bytes a, .bytes b => .ok (decide (a = b))
  | .other a, .other b => .ok (decide (a = b))
  | _, _ => .ok false

/-- The loop of `__eq__`, 234-238. -/
def Packet.eqLoop : Packet → Packet → Res Bool
  | x :: p, y :: q => x.matches y >>= fun b => if b then Packet.eqLoop p q else .ok false
  | _, _ => .ok true

/-- `__eq__`, 229-238, against another packet. -/
def Packet.eq (p q : Packet) : Res Bool :=
  if p.length ≠ q.length then .ok false else Packet.eqLoop p q

/-- `obj in p`, 210-215 (identity of objects is not modelled: an object is equal to itself). -/
def Packet.contains : Packet → Item → Res Bool
  | [], _ => .ok false
  | x :: p, y => x.matches y >>= fun b => if b then .ok true else Packet.contains p y

end SY
