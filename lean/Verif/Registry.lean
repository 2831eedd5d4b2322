import Verif.Matcher

/-! # Configuring which header class comes next, and user-defined header classes

Model of /repo/switchyard/lib/packet/packet.py 42-60 and 244-293 together with the class attributes that the
header classes define, and of the two header classes of the documentation (documentation/code/newheader.py,
udpappheader.py; documentation/advanced_api.rst 20-131).  Line numbers without a file name refer to packet.py.

`Verif/Packet.lean` models parsing under the initial configuration; `Props/Registry.lean` shows that the two
agree (`unconfigured_parse`). -/

namespace SY

/-- A header class: one of the library's, or one that the program defines, deriving directly from
`PacketHeaderBase` (as the documentation asks, advanced_api.rst 22-30), numbered. -/
inductive RCls
  | lib (c : Cls)
  | user (n : Nat)
  deriving DecidableEq, Repr

/-- A name of an attribute: one of the public attributes of the library's classes, or any other name.
The names `_ethertype`, `_protocol` and `_nextheader`, which the library's classes use, denote the same values as
the attributes without the underscore (ethernet.py 64-70 and 134-140, ipv4.py 514-520, ipv6.py 566-572). -/
inductive AttrName
  | std (a : HdrAttr)
  | other (n : Nat)
  deriving DecidableEq, Repr

/-- A dictionary from values of the attribute to classes (or `None`).  Keys are integers: the members of the
enumerations used as keys are `IntEnum`s (common.py 16-80), which are equal to their numbers. -/
abbrev NextDict := Dict Int (Option RCls)

/-- The class attributes `_next_header_map` and `_next_header_class_key` (249-250): which dictionary object a
class has in its own body (`none`: it inherits), which name (`some none` is `''`), and the dictionary objects. -/
structure Reg where
  maps : RCls → Option Nat
  keys : RCls → Option (Option AttrName)
  heap : List NextDict

/-- The classes in which a class attribute is looked up, in order: `ICMPv6(ICMP)` (icmpv6.py 24), the extension
headers (ipv6.py 84, 124, 306, 377), everything else derives from `PacketHeaderBase` directly. -/
def RCls.mro : RCls → List RCls
  | .lib .base => [.lib .base]
  | .lib .dst => [.lib .dst, .lib .hop, .lib .ext, .lib .base]
  | .lib .route => [.lib .route, .lib .ext, .lib .base]
  | .lib .frag => [.lib .frag, .lib .ext, .lib .base]
  | .lib .hop => [.lib .hop, .lib .ext, .lib .base]
  | .lib .icmp6 => [.lib .icmp6, .lib .icmp, .lib .base]
  | c => [c, .lib .base]

/-- `cls._next_header_map`: the first class that has one; the dictionary of the base class is number 0. -/
def Reg.mapOf (r : Reg) (c : RCls) : Nat := (c.mro.findSome? r.maps).getD 0

/-- `cls._next_header_class_key`. -/
def Reg.keyOf (r : Reg) (c : RCls) : Option AttrName := (c.mro.findSome? r.keys).getD none

/-- `d.get(v, None)` for the dictionary object number `d`, 290. -/
def Reg.look (r : Reg) (d : Nat) (v : Int) : Option RCls := (((r.heap[d]?).getD []).get? v).join

/-- The configuration as the library is imported: packet.py 249-250, ethernet.py 30-36 and 101-108, ipv4.py 375-389,
ipv6.py 475-496, udp.py 18-19, tcp.py 72-73. -/
def Reg.init : Reg where
  maps := fun c => match c with
    | .lib .base => some 0 | .lib .eth => some 1 | .lib .vlan => some 2 | .lib .ip4 => some 3 | .lib .ip6 => some 4
    | .lib .udp => some 5 | .lib .tcp => some 6 | _ => none
  keys := fun c => match c with
    | .lib .base => some none | .lib .eth => some (some (.std .ethertype)) | .lib .vlan => some (some (.std .ethertype))
    | .lib .ip4 => some (some (.std .protocol)) | .lib .ip6 => some (some (.std .nextheader))
    | .lib .udp => some none | .lib .tcp => some none | _ => none
  heap := [[],
    [(0x0800, some (.lib .ip4)), (0x0806, some (.lib .arp)), (0x86dd, some (.lib .ip6)), (0x8100, some (.lib .vlan)),
     (0xffff, none)],
    [(0x0800, some (.lib .ip4)), (0x0806, some (.lib .arp)), (0x86dd, some (.lib .ip6)), (0xffff, none)],
    [(1, some (.lib .icmp)), (6, some (.lib .tcp)), (17, some (.lib .udp))],
    [(6, some (.lib .tcp)), (17, some (.lib .udp)), (58, some (.lib .icmp6)), (0, some (.lib .hop)),
     (43, some (.lib .route)), (44, some (.lib .frag)), (60, some (.lib .dst)), (59, none)],
    [], []]

/-- What a program can call. -/
inductive RegCall
  /-- `cls.set_next_header_class_key(name)`, `''` being `none` -/
  | setKey (c : RCls) (k : Option AttrName)
  /-- `cls.add_next_header_class(v, hdrcls)` -/
  | add (c : RCls) (v : Int) (t : Option RCls)
  /-- `cls.set_next_header_map(d)` with a dictionary made for the purpose -/
  | setMap (c : RCls) (d : NextDict)
  /-- `cls.set_next_header_map(d)` with the dictionary that class `c'` has -/
  | shareMap (c c' : RCls)
  deriving DecidableEq

/-- `set_next_header_class_key`, 266-271: an assignment to the class itself. -/
def Reg.setKey (r : Reg) (c : RCls) (k : Option AttrName) : Reg :=
  { r with keys := fun x => if x = c then some k else r.keys x }

/-- `add_next_header_class`, 273-277: changes the dictionary that the class has *or inherits*. -/
def Reg.add (r : Reg) (c : RCls) (v : Int) (t : Option RCls) : Reg :=
  { r with heap := r.heap.modify (r.mapOf c) fun d => d.set v t }

/-- `set_next_header_map`, 279-283: an assignment to the class itself. -/
def Reg.setRef (r : Reg) (c : RCls) (d : Nat) : Reg :=
  { r with maps := fun x => if x = c then some d else r.maps x }

/-- A new dictionary object. -/
def Reg.alloc (r : Reg) (d : NextDict) : Reg := { r with heap := r.heap ++ [d] }

/-- One call, 266-283. -/
def Reg.call (r : Reg) : RegCall → Reg
  | .setKey c k => r.setKey c k
  | .add c v t => r.add c v t
  | .setMap c d => (r.alloc d).setRef c r.heap.length
  | .shareMap c c' => r.setRef c (r.mapOf c')

/-- A program that configures the library. -/
def Reg.run (calls : List RegCall) : Reg := calls.foldl Reg.call Reg.init

/-! ## Header objects -/

/-- What a program's header classes do, for values of type `U`: `to_bytes`; `cls().from_bytes(raw)`, with what it
returns; reading an attribute, which gives an integer (or `none`: something that no integer equals).  They do not
override `next_header_class` or `pre_serialize`. -/
structure UserHdrs (U : Type) where
  enc : Nat → U → Res Bytes
  dec : Nat → Bytes → Res (U × Bytes)
  attr : Nat → U → AttrName → Res (Option Int)

/-- A header object: the library's, or of the program's class number `n`. -/
inductive RHdr (U : Type)
  | lib (h : Hdr)
  | user (n : Nat) (v : U)
  deriving DecidableEq

variable {U : Type}

/-- `obj.__class__`. -/
def RHdr.cls : RHdr U → RCls
  | .lib h => .lib h.cls
  | .user n _ => .user n

/-- A value as a key of the dictionaries, 290: numbers, enumeration members and booleans are integers; addresses,
text and bytes are no integer's equal; objects with `__eq__` and without `__hash__` (`IPOptionList`, ipv4.py 363,
`TCPOptions`, tcp.py 44, ICMP data, icmp.py) cannot be looked up.  (That an `EthAddr` has the hash of an integer key,
by accident, is not modelled.) -/
def AVal.key : AVal → Res (Option Int)
  | .num v => .ok (some v)
  | .bool b => .ok (some (if b then 1 else 0))
  | .proto o => .ok (o.map fun n => (n : Int))
  | .eth _ | .ip _ | .bytes _ | .text _ => .ok none
  | .opts _ | .data4 _ | .data6 _ | .tcpopts => .error .typeError

/-- `getattr(self, name)` as a key, 289.  `NullPacketHeader` answers every name with itself (350-351), which has no hash
(332). -/
def RHdr.attr (u : UserHdrs U) (h : RHdr U) (a : AttrName) : Res (Option Int) :=
  match h, a with
  | .lib .nullHdr, _ => .error .typeError
  | .lib h, .std a => h.getattr a >>= AVal.key
  | .lib _, .other _ => .error .attributeError
  | .user n v, a => u.attr n v a

/-- `PacketHeaderBase.next_header_class`, 285-293. -/
def Reg.nextBase (r : Reg) (u : UserHdrs U) (h : RHdr U) : Res (Option RCls) :=
  match r.keyOf h.cls with
  | none => .ok none
  | some a => h.attr u a >>= fun v => .ok (v.bind (r.look (r.mapOf h.cls)))

/-- The dictionary `IPTypeClasses` of ipv6.py (475-486), whoever has it as its `_next_header_map`. -/
def ip6DictNo : Nat := 4

/-- `next_header_class`: the base class's, unless overridden: arp.py 124, icmp.py 131 (also for `ICMPv6`), ripv2.py 185
return `None`; null.py 52-56 uses a table of its own; the extension headers, ipv6.py 59-63, use `IPTypeClasses` itself. -/
def Reg.next (r : Reg) (u : UserHdrs U) (h : RHdr U) : Res (Option RCls) :=
  match h with
  | .lib (.arp _) | .lib (.icmp _) | .lib (.icmp6 _) | .lib (.rip _) => .ok none
  | .lib (.null af) => (Hdr.null af).next >>= fun c => .ok (c.map .lib)
  | .lib (.route h) => .ok ((h.next.map fun n => (n : Int)).bind (r.look ip6DictNo))
  | .lib (.frag h) => .ok ((h.next.map fun n => (n : Int)).bind (r.look ip6DictNo))
  | .lib (.hop h) => .ok ((h.next.map fun n => (n : Int)).bind (r.look ip6DictNo))
  | .lib (.dst h) => .ok ((h.next.map fun n => (n : Int)).bind (r.look ip6DictNo))
  | h => r.nextBase u h

/-! ## Packets -/

/-- `cls().from_bytes(raw)` (`none`: `from_bytes` returned `None`). -/
def RCls.fromBytes (u : UserHdrs U) (c : RCls) (raw : Bytes) : Res (RHdr U × Option Bytes) :=
  match c with
  | .lib c => c.fromBytes raw >>= fun x => .ok (.lib x.1, x.2)
  | .user n => u.dec n raw >>= fun x => .ok (.user n x.1, some x.2)

/-- The end of `_parse`, 59-60. -/
def regEnd (rest : Option Bytes) (acc : List (RHdr U)) : List (RHdr U) :=
  match rest with
  | some (x :: xs) => acc ++ [.lib (.raw (x :: xs))]
  | _ => acc

/-- The loop of `_parse`, 52-60, with a bound on the number of iterations (`none` when it is exhausted). -/
def regLoop (u : UserHdrs U) (r : Reg) : Nat → RCls → Bytes → List (RHdr U) → Option (Res (List (RHdr U)))
  | 0, _, _, _ => none
  | fuel + 1, c, raw, acc =>
    match c.fromBytes u raw with
    | .error e => some (.error e)
    | .ok (h, rest) =>
      match r.next u h with
      | .error e => some (.error e)
      | .ok none => some (.ok (regEnd rest (acc ++ [h])))
      | .ok (some c') => regLoop u r fuel c' (rest.getD []) (acc ++ [h])

/-- `Packet(raw, first_header)`, 13-18 and 42-60, ends and gives `res`. -/
def Reg.Gives (r : Reg) (u : UserHdrs U) (raw : Bytes) (first : RCls) (res : Res (List (RHdr U))) : Prop :=
  if raw = [] then res = .ok [] else ∃ fuel, regLoop u r fuel first raw [] = some res

/-- The header as the serialiser sees it: only `to_bytes` of a program's header matters to the others. -/
def RHdr.lower (u : UserHdrs U) : RHdr U → Res Item
  | .lib h => .ok (.hdr h)
  | .user n v => u.enc n v >>= fun b => .ok (.hdr (.raw b))

/-- The headers as the serialiser sees them.  (Simplification: a program's `to_bytes` that raises does so before any
of the library's.) -/
def lowerAll (u : UserHdrs U) : List (RHdr U) → Res Packet
  | [] => .ok []
  | h :: p => h.lower u >>= fun x => lowerAll u p >>= fun q => .ok (x :: q)

/-- `to_bytes`, 29-40. -/
def regToBytes (u : UserHdrs U) (p : List (RHdr U)) : Res Bytes := lowerAll u p >>= fun q => q.toBytes.2

/-! ## The documentation's classes -/

/-- `UDPPing.to_bytes`, documentation/code/udpappheader.py 11-13. -/
def udpPingEnc (seq : Int) : Res Bytes := pack [.u 2] [.i seq]

/-- `UDPPing.from_bytes`, documentation/code/udpappheader.py 15-21. -/
def udpPingDec (raw : Bytes) : Res (Int × Bytes) :=
  if raw.length < 2 then .error .valueError
  else unpack [.u 2] (raw.take 2) >>= fun fields =>
    match fields with
    | [.i seq] => .ok (seq, raw.drop 2)
    | _ => .error .structError

/-- `SpanningTreeMessage.to_bytes`, documentation/code/newheader.py 12-14.  (`6sxB` without `!` is native byte order with
native alignment, which makes no difference for single bytes and byte strings.) -/
def stmEnc (root : EthAddr) (hops : Int) : Res Bytes := pack [.s 6, .x 1, .u 1] [.b root.raw, .i hops]

/-- `SpanningTreeMessage.from_bytes`, documentation/code/newheader.py 16-23. -/
def stmDec (raw : Bytes) : Res ((EthAddr × Int) × Bytes) :=
  if raw.length < 8 then .error .valueError
  else unpack [.s 6, .x 1, .u 1] (raw.take 8) >>= fun fields =>
    match fields with
    | [.b root, .i hops] => .ok ((⟨root⟩, hops), raw.drop 8)
    | _ => .error .structError

/-- A header of one of the two classes. -/
inductive DocHdr
  | ping (seq : Int)
  | stm (root : EthAddr) (hops : Int)
  deriving DecidableEq

/-- The two classes: number 0 is `UDPPing`, number 1 is `SpanningTreeMessage`; their public attributes are `sequence`
(0), `hops_to_root` (1) and `root` (2), udpappheader.py 23-29, newheader.py 25-35. -/
def docHdrs : UserHdrs DocHdr where
  enc := fun _ v => match v with
    | .ping s => udpPingEnc s
    | .stm a n => stmEnc a n
  dec := fun n raw =>
    if n = 0 then udpPingDec raw >>= fun x => .ok (.ping x.1, x.2)
    else stmDec raw >>= fun x => .ok (.stm x.1.1 x.1.2, x.2)
  attr := fun _ v a => match v, a with
    | .ping s, .other 0 => .ok (some s)
    | .stm _ n, .other 1 => .ok (some n)
    | .stm _ _, .other 2 => .ok none
    | _, _ => .error .attributeError

end SY
