import Verif.Str
import Verif.Dict

/-!
# Packet matchers of the test framework

Model of `_PacketMatcher`, /repo/switchyard/lib/testing.py 39-316.  Predicates are functions of the
packet (the code evaluates a lambda from its source text on every match; that a predicate could
modify the packet, and the checks on the text, 95-109, are not modelled).  Messages (`fail_reason`,
`_showpkt`) are not modelled.
-/

namespace SY

/-- The public data attributes of the header classes, that is, the names that `dir(header)` lists,
without those that start with an underscore, methods, and `checksum` (testing.py 128-130).
ethernet.py, arp.py, ipv4.py, ipv6.py, udp.py, tcp.py, icmp.py, icmpv6.py, ripv2.py, null.py,
packet.py: every `@property`. -/
inductive HdrAttr
  | src | dst | ethertype | vlanid | pcp
  | hardwaretype | protocoltype | operation | senderhwaddr | senderprotoaddr | targethwaddr
  | targetprotoaddr
  | tos | dscp | ecn | totalLength | ipid | flags | fragmentOffset | ttl | protocol | hl | options
  | trafficclass | flowlabel | nextheader | hoplimit | address | ident | offset | mf
  | length | seq | ack | window | flagstr | urgentPointer | flag (f : TCPFlag)
  | icmptype | icmpcode | icmpdata | icmp6type | icmp6code | command | version | af | data
  deriving DecidableEq, Repr

/-- Values of attributes: numbers and enumeration members, booleans, an IP protocol or `None`,
addresses, IPv4 option lists, ICMP data, bytes, text, and TCP's (always empty) option list. -/
inductive AVal
  | num (v : Int)
  | bool (b : Bool)
  | proto (o : Option Nat)
  | eth (a : EthAddr)
  | ip (a : IPAddr)
  | opts (os : List IPOpt)
  | data4 (d : ICMPData)
  | data6 (d : ICMPv6Data)
  | bytes (b : Bytes)
  | text (s : List Char)
  | tcpopts
  deriving DecidableEq

/-- `optnum`, ipv4.py 30-32. -/
def IPOpt.optnum : IPOpt → Nat
  | .single n => n
  | .routing n _ _ => n
  | .timestamp _ _ _ => 4
  | .fourB n _ _ => n

/-- `__eq__` of the IPv4 option classes, ipv4.py 44-45, 131-134, 218-221, 251-254.  (An option of
another class with the same number, which only a hand-made `IPOption` can be, has no `_ptr` or
`_value`.) -/
def IPOpt.eq (a b : IPOpt) : Res Bool :=
  match a with
  | .single n => .ok (decide (n = b.optnum))
  | .routing n p as =>
    if n = b.optnum then
      match b with
      | .routing _ p' as' => .ok (decide (p = p') && decide (as = as'))
      | _ => .error .attributeError
    else .ok false
  | .timestamp _ f es =>
    match b with
    | .timestamp _ f' es' => .ok (decide (es = es') && decide (f = f'))
    | _ => .ok false
  | .fourB n v c =>
    if n = b.optnum then
      match b with
      | .fourB _ v' c' => .ok (decide (v = v') && decide (c = c'))
      | _ => .error .attributeError
    else .ok false

/-- `==` on two lists of options of the same length: stops at the first difference.  ipv4.py 368. -/
def optsEqLoop : List IPOpt → List IPOpt → Res Bool
  | [], [] => .ok true
  | a :: as, b :: bs => a.eq b >>= fun r => if r then optsEqLoop as bs else .ok false
  | _, _ => .ok false

/-- `IPOptionList.__eq__`, ipv4.py 363-368. -/
def optsEq (as bs : List IPOpt) : Res Bool :=
  if as.length ≠ bs.length then .ok false else optsEqLoop as bs

/-- `u == v` on attribute values: values of ICMP data and option lists by their `__eq__` methods,
`TCPOptions` by size (tcp.py 45-48), the others by value. -/
def AVal.eq (u v : AVal) : Res Bool :=
  match u, v with
  | .opts a, .opts b => optsEq a b
  | .data4 a, .data4 b => a.eq b
  | .data6 a, .data6 b => a.eq b
  | u, v => .ok (decide (u = v))

/-- `__class__.__name__` of the option classes, ipv4.py 51-58, 141-156, 257-269. -/
def ipOptNames : List (Nat × String) :=
  [(0, "IPOptionEndOfOptionList"), (1, "IPOptionNoOperation"), (3, "IPOptionLooseSourceRouting"),
   (4, "IPOptionTimestamp"), (7, "IPOptionRecordRoute"), (9, "IPOptionStrictSourceRouting"),
   (11, "IPOptionMTUProbe"), (12, "IPOptionMTUReply"), (20, "IPOptionRouterAlert")]

/-- `repr` of a `TimestampEntry`, ipv4.py 156 (a `namedtuple`). -/
def tsEntryStr (e : Option (BitVec 32) × Nat) : Text :=
  "TimestampEntry(ipv4addr=".toList ++
    (match e.1 with | some a => "IPv4Address('".toList ++ ipv4Text a ++ "')".toList | none => "None".toList) ++
    ", timestamp=".toList ++ natText e.2 ++ ")".toList

/-- `__str__` of the option classes, ipv4.py 47-48, 136-138, 223-225. -/
def IPOpt.str (o : IPOpt) : Text :=
  match o with
  | .routing n _ as =>
    enumName ipOptNames n ++ " (".toList ++ joinText ", ".toList (as.map ipv4Text) ++ ")".toList
  | .timestamp _ _ es => "IPOptionTimestamp (".toList ++ joinText ", ".toList (es.map tsEntryStr) ++ ")".toList
  | _ => enumName ipOptNames o.optnum

/-- `str` (and `format`, which shows an enumeration member as its number) of an attribute's value.  `TCPOptions` has
the `__str__` of packet.py 336-337. -/
def AVal.str : AVal → Res Text
  | .num v => .ok (intText v)
  | .bool b => .ok (boolText b)
  | .proto (some n) => .ok (natText n)
  | .proto none => .ok "None".toList
  | .eth a => .ok a.toStr
  | .ip a => .ok a.text
  | .opts os => .ok ("IPOptionList (".toList ++ joinText ", ".toList (os.map IPOpt.str) ++ ")".toList)
  | .data4 d => .ok d.str
  | .data6 d => d.str
  | .bytes b => .ok (bytesRepr b)
  | .text s => .ok s
  | .tcpopts => .ok "TCPOptions".toList

/-- The flag attributes in the order of `dir`, by name. -/
def tcpFlagsByName : List TCPFlag := [.ACK, .CWR, .ECE, .FIN, .NS, .PSH, .RST, .SYN, .URG]

/-- The attributes of a header with what reading them gives (`getattr`).  Only `IPv4.hl`
(ipv4.py 556-558) can raise: it serialises the options. -/
def Hdr.attrs : Hdr → List (HdrAttr × Res AVal)
  | .eth h => [(.dst, .ok (.eth h.dst)), (.ethertype, .ok (.num h.ethertype)), (.src, .ok (.eth h.src))]
  | .vlan h => [(.ethertype, .ok (.num h.ethertype)), (.pcp, .ok (.num h.pcp)), (.vlanid, .ok (.num h.vlanid))]
  | .arp h => [(.hardwaretype, .ok (.num h.hwtype)), (.operation, .ok (.num h.operation)),
      (.protocoltype, .ok (.num h.prototype)), (.senderhwaddr, .ok (.eth h.senderhwaddr)),
      (.senderprotoaddr, .ok (.ip h.senderprotoaddr)), (.targethwaddr, .ok (.eth h.targethwaddr)),
      (.targetprotoaddr, .ok (.ip h.targetprotoaddr))]
  | .ip4 h => [(.dscp, .ok (.num (h.tos >>> 2 : Nat))), (.dst, .ok (.ip h.dst)), (.ecn, .ok (.num (h.tos &&& 3 : Nat))),
      (.flags, .ok (.num h.flags)), (.fragmentOffset, .ok (.num h.frag)),
      (.hl, h.size >>= fun n => .ok (.num (n / 4 : Nat))), (.ipid, .ok (.num h.ipid)),
      (.options, .ok (.opts h.options)), (.protocol, .ok (.num h.protocol)), (.src, .ok (.ip h.src)),
      (.tos, .ok (.num h.tos)), (.totalLength, .ok (.num h.totallen)), (.ttl, .ok (.num h.ttl))]
  | .ip6 h => [(.dst, .ok (.ip (.v6 h.dst))), (.flowlabel, .ok (.num h.flow)), (.hoplimit, .ok (.num h.ttl)),
      (.nextheader, .ok (.num h.next)), (.src, .ok (.ip (.v6 h.src))), (.trafficclass, .ok (.num h.tc)),
      (.ttl, .ok (.num h.ttl))]
  | .route h => [(.address, .ok (.ip (.v6 h.addr))), (.nextheader, .ok (.proto h.next)), (.protocol, .ok (.proto h.next))]
  | .frag h => [(.ident, .ok (.num h.ident)), (.mf, .ok (.bool h.mf)), (.nextheader, .ok (.proto h.next)),
      (.offset, .ok (.num h.offset)), (.protocol, .ok (.proto h.next))]
  | .hop h => [(.nextheader, .ok (.proto h.next)), (.protocol, .ok (.proto h.next))]
  | .dst h => [(.nextheader, .ok (.proto h.next)), (.protocol, .ok (.proto h.next))]
  | .udp h => [(.dst, .ok (.num h.dst)), (.length, .ok (.num h.len)), (.src, .ok (.num h.src))]
  | .tcp h => tcpFlagsByName.map (fun f => (.flag f, .ok (.bool (h.isset f)))) ++
      [(.ack, .ok (.num h.ack)), (.dst, .ok (.num h.dst)), (.flags, .ok (.num h.flags)),
      (.flagstr, .ok (.text h.flagstr)), (.offset, .ok (.num h.offset)), (.options, .ok .tcpopts),
      (.seq, .ok (.num h.seq)), (.src, .ok (.num h.src)), (.urgentPointer, .ok (.num h.urg)),
      (.window, .ok (.num h.window))]
  | .icmp h => [(.icmpcode, .ok (.num h.code)), (.icmpdata, .ok (.data4 h.data)), (.icmptype, .ok (.num h.type))]
  | .icmp6 h => [(.icmp6code, .ok (.num h.code)), (.icmp6type, .ok (.num h.type)), (.icmpcode, .ok (.num h.code)),
      (.icmpdata, .ok (.data6 h.data)), (.icmptype, .ok (.num h.type))]
  | .rip h => [(.command, .ok (.num h.command)), (.version, .ok (.num 2))]
  | .null af => [(.af, .ok (.num af))]
  | .raw b => [(.data, .ok (.bytes b))]
  | .nullHdr => []

/-- `getattr(hdr, attr)`: `AttributeError` if there is no such attribute. -/
def Hdr.getattr (h : Hdr) (a : HdrAttr) : Res AVal := (h.attrs.lookup a).getD (.error .attributeError)

/-- The class of a member of a packet's header list, used as a dictionary key; members that are not
headers are `bytes` or other objects. -/
inductive Klass
  | hdr (c : Cls)
  | bytes
  | other (id : Nat)
  deriving DecidableEq

/-- `x.__class__`. -/
def Item.klass : Item → Klass
  | .hdr h => .hdr h.cls
  | .bytes _ => .bytes
  | .other i => .other i

/-- `getattr` on a member of a packet; objects that are not headers have none of these attributes. -/
def Item.getattr : Item → HdrAttr → Res AVal
  | .hdr h, a => h.getattr a
  | _, _ => .error .attributeError

/-- `getattr` on each attribute in turn, keeping the names, testing.py 127-135. -/
def readAll : List (HdrAttr × Res AVal) → Res (List HdrAttr)
  | [] => .ok []
  | x :: xs => x.2 >>= fun _ => readAll xs >>= fun l => .ok (x.1 :: l)

/-- `_collect_header_attrs`, testing.py 126-135 (everything that `dir` lists for a `bytes` object is
a method; other objects are taken to have no data attributes). -/
def Item.collectAttrs : Item → Res (List HdrAttr)
  | .hdr h => readAll h.attrs
  | _ => .ok []

/-- `_collect_all_attrs`, testing.py 137-142. -/
def collectAll : Packet → Dict Klass (List HdrAttr) → Res (Dict Klass (List HdrAttr))
  | [], d => .ok d
  | it :: p, d => it.collectAttrs >>= fun l => collectAll p (d.set it.klass l)

/-- `_inexact_comparison_attributes`, testing.py 145-155. -/
def inexactTable : Dict Klass (List HdrAttr) :=
  [(.hdr .eth, [.src, .dst, .ethertype]),
   (.hdr .arp, [.targetprotoaddr, .senderprotoaddr, .targethwaddr, .senderhwaddr]),
   (.hdr .ip4, [.src, .dst, .protocol]),
   (.hdr .ip6, [.src, .dst, .nextheader]),
   (.hdr .tcp, [.src, .dst]),
   (.hdr .udp, [.src, .dst]),
   (.hdr .icmp, [.icmptype, .icmpcode]),
   (.hdr .icmp6, [.icmptype, .icmpcode]),
   (.hdr .vlan, [.vlanid, .ethertype])]

/-- `_compute_inexact`, testing.py 144-163: the table without the classes the packet does not have. -/
def computeInexact (p : Packet) : Dict Klass (List HdrAttr) :=
  inexactTable.filter fun e => (p.map Item.klass).contains e.1

/-- `_filter_wildcards`, testing.py 165-169. -/
def filterWildcards : List (Cls × HdrAttr) → Dict Klass (List HdrAttr) → Dict Klass (List HdrAttr)
  | [], d => d
  | (c, a) :: ws, d =>
    match d.get? (.hdr c) with
    | some l => filterWildcards ws (d.set (.hdr c) (l.erase a))
    | none => filterWildcards ws d

/-- `_PacketMatcher`, testing.py 78-88. -/
structure Matcher where
  exact : Bool
  ref : Packet
  preds : List (Packet → Res Bool)
  attrs : Dict Klass (List HdrAttr)
  first : Option Cls

/-- `_compute_comparison_attrs`, testing.py 125-175. -/
def comparisonAttrs (p : Packet) (exact : Bool) (wild : List (Cls × HdrAttr)) : Res (Dict Klass (List HdrAttr)) :=
  (if exact then collectAll p [] else .ok (computeInexact p)) >>= fun d => .ok (filterWildcards wild d)

/-- The class of the first header, testing.py 85-87 (`None` if the packet has length zero). -/
def firstHeader (p : Packet) (n : Nat) : Option Cls :=
  if n = 0 then none
  else match p with
    | .hdr h :: _ => some h.cls
    | _ => none

/-- `_PacketMatcher(packet, predicates, wildcards, exact=...)`, testing.py 46-88.  The check that
wildcards are pairs of a header class and an attribute of it, 111-123, is the type of `wild`
(a superset of what the check lets through matters only in that the theorems hold for it too);
wildcards for methods and private names, which the check accepts and which have no effect, are left
out.  `len(packet)` may raise, 86. -/
def Matcher.new (p : Packet) (exact : Bool) (wild : List (Cls × HdrAttr)) (preds : List (Packet → Res Bool)) :
    Res Matcher :=
  comparisonAttrs p exact wild >>= fun d =>
  p.size >>= fun n => .ok ⟨exact, p, preds, d, firstHeader p n⟩

/-- `_compare_header_types`, testing.py 178-199: the classes are equal index by index and neither
packet has headers left over. -/
def sameTypes : Packet → Packet → Bool
  | [], [] => true
  | x :: r, y :: p => x.klass == y.klass && sameTypes r p
  | _, _ => false

/-- The two values as they are shown when they differ, testing.py 210; the text is made at once. -/
def shown (e : Bool) (u v : AVal) : Res Unit := if e then .ok () else v.str >>= fun _ => u.str >>= fun _ => .ok ()

/-- The comparison of two headers on a list of attributes, testing.py 206-210: every attribute is
compared, whether or not an earlier one differed. -/
def compareAttrs (x y : Item) : List HdrAttr → Res Bool
  | [] => .ok true
  | a :: l =>
    x.getattr a >>= fun u => y.getattr a >>= fun v => u.eq v >>= fun e => shown e u v >>= fun _ =>
    compareAttrs x y l >>= fun r => .ok (e && r)

/-- `_compare_header_attrs`, testing.py 201-217 (for packets with equally many headers). -/
def compareHeaders (d : Dict Klass (List HdrAttr)) : Packet → Packet → Res Bool
  | x :: r, y :: p =>
    compareAttrs x y ((d.get? x.klass).getD []) >>= fun b => compareHeaders d r p >>= fun c => .ok (b && c)
  | _, _ => .ok true

/-- `_compare_packet_against_reference`, testing.py 177-219. -/
def Matcher.compare (m : Matcher) (p : Packet) : Res Bool :=
  if sameTypes m.ref p then compareHeaders m.attrs m.ref p else .ok false

/-- `[ eval(fn)(packet) for fn in self._predicates ]`, testing.py 303. -/
def evalPreds (p : Packet) : List (Packet → Res Bool) → Res (List Bool)
  | [] => .ok []
  | f :: fs => f p >>= fun b => evalPreds p fs >>= fun bs => .ok (b :: bs)

/-- The two comparisons and their conjunction, testing.py 302-307. -/
def Matcher.verdict (m : Matcher) (p : Packet) : Res Bool :=
  m.compare p >>= fun c => evalPreds p m.preds >>= fun bs => .ok (c && bs.all id)

/-- `match`, testing.py 288-307.  The packet and the reference packet are serialised first, which
fills in their computed fields: the result carries both. -/
def Matcher.matchPkt (m : Matcher) (p : Packet) : Matcher × Packet × Res Bool :=
  match p.toBytes with
  | (p', .error e) => (m, p', .error e)
  | (p', .ok _) =>
    match m.ref.toBytes with
    | (r, .error e) => ({ m with ref := r }, p', .error e)
    | (r, .ok _) => ({ m with ref := r }, p', Matcher.verdict { m with ref := r } p')

/-- A matcher in saved form: the reference packet as bytes.  `__getstate__`, testing.py 309-312. -/
structure SavedMatcher where
  exact : Bool
  ref : Bytes
  preds : List (Packet → Res Bool)
  attrs : Dict Klass (List HdrAttr)
  first : Option Cls

/-- `__getstate__`, testing.py 309-312. -/
def Matcher.save (m : Matcher) : Res SavedMatcher :=
  m.ref.toBytes.2 >>= fun b => .ok ⟨m.exact, b, m.preds, m.attrs, m.first⟩

/-- `__setstate__`, testing.py 314-316. -/
def SavedMatcher.restore (s : SavedMatcher) : Res Matcher :=
  Packet.parse s.ref s.first >>= fun p => .ok ⟨s.exact, p, s.preds, s.attrs, s.first⟩

end SY
