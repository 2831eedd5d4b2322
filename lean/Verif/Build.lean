import Verif.SetAttr
import Verif.OfSwitch

/-!
# Constructing headers with keyword arguments

Model of `Cls(name=value, …)` for the header classes of /repo/switchyard/lib/packet/*.py: the defaults are
filled in, then the arguments are assigned in the order in which they are written
(`PacketHeaderBase.__init__`, packet.py 254-256); the constructors of ICMP messages also take the names of
attributes of their data (icmp.py 31-52, icmpv6.py 31-53).
-/

namespace SY

/-- Names of the attributes of ICMP data that no header has (`data` is in `HdrAttr`), and any further name.
Names of methods are not modelled. -/
inductive DataAttr
  | identifier | sequence | redirectto | origdgramlen | nexthopmtu | addrmask
  | targetaddr | destaddr | r | s | o | m | h | p | curhoplimit | routerLifetime | reachableTime | retransTimer
  | other (name : List Char)
  deriving DecidableEq, Repr

/-- The name of a keyword argument. -/
inductive KwName
  | hdr (a : HdrAttr)
  | own (d : DataAttr)
  deriving DecidableEq, Repr

/-- Keyword arguments in the order in which they are written. -/
abbrev Kws := List (KwName × PyVal)

/-- The value given to `data`, icmp.py 175-180: bytes, or text that is encoded; `bytes(value, 'utf8')` raises
`TypeError` for anything else. -/
def PyVal.dataArg : PyVal → Res Bytes
  | some (.bytes b) => .ok b
  | some (.text s) => .ok (utf8Text s)
  | _ => .error .typeError

/-- `IPv4Address(value)`, icmp.py 231, 405. -/
def ipv4Of : IPArg → Res (BitVec 32)
  | .addr (.v4 a) => .ok a
  | .addr (.v6 _) => .error .addressValue
  | .int v => if 0 ≤ v ∧ v < (2 ^ 32 : Nat) then .ok (BitVec.ofNat 32 v.toNat) else .error .addressValue
  | .raw b => ipv4OfBytes b

/-- The value given to `redirectto` or `addrmask`, icmp.py 229-231, 403-405. -/
def PyVal.ipv4Arg (v : PyVal) : Res (BitVec 32) := v.ipArg .addressValue >>= fun a => ipv4Of a

/-- `data` setter of `ICMPData`, icmp.py 175-180. -/
def ICMPData.setPayload (b : Bytes) : ICMPData → ICMPData
  | .other _ => .other b
  | .plain c _ => .plain c b
  | .quench _ => .quench b
  | .redirect a _ => .redirect a b
  | .unreach o n _ => .unreach o n b
  | .echo r i s _ => .echo r i s b
  | .exceeded o _ => .exceeded o b
  | .mask r i s a _ => .mask r i s a b

/-- The names of attributes of ICMP data: `data`, which is also one of a header, and the others. -/
inductive DataName
  | payload
  | own (d : DataAttr)
  deriving DecidableEq, Repr

/-- A name as one of an attribute of ICMP data. -/
def KwName.dataName : KwName → Option DataName
  | .hdr .data => some .payload
  | .hdr _ => none
  | .own d => some (.own d)

/-- `hasattr(data, name)` and `setattr(data, name, value)` for the data of ICMP messages: `none` if there is
no such attribute.  icmp.py 171-180, 225-231, 252-266, 313-327, 350-356, 399-420. -/
def ICMPData.setattr (d : ICMPData) (v : PyVal) : DataName → Option (Res ICMPData)
  | .payload => some (v.dataArg >>= fun b => .ok (d.setPayload b))
  | .own .identifier =>
    match d with
    | .echo r _ s p => some (v.intArg >>= fun n => .ok (.echo r n s p))
    | .mask r _ s a p => some (v.intArg >>= fun n => .ok (.mask r n s a p))
    | _ => none
  | .own .sequence =>
    match d with
    | .echo r i _ p => some (v.intArg >>= fun n => .ok (.echo r i n p))
    | .mask r i _ a p => some (v.intArg >>= fun n => .ok (.mask r i n a p))
    | _ => none
  | .own .redirectto =>
    match d with
    | .redirect _ p => some (v.ipv4Arg >>= fun a => .ok (.redirect a p))
    | _ => none
  | .own .origdgramlen =>
    match d with
    | .unreach _ n p => some (v.intArg >>= fun o => .ok (.unreach o n p))
    | .exceeded _ p => some (v.intArg >>= fun o => .ok (.exceeded o p))
    | _ => none
  | .own .nexthopmtu =>
    match d with
    | .unreach o _ p => some (v.intArg >>= fun n => .ok (.unreach o n p))
    | _ => none
  | .own .addrmask =>
    match d with
    | .mask r i s _ p => some (v.ipv4Arg >>= fun a => .ok (.mask r i s a p))
    | _ => none
  | _ => none

/-- The value given to `targetaddr` or `destaddr`, icmpv6.py 664-666, 724-726, 804-814. -/
def PyVal.ipv6Arg (v : PyVal) : Res (BitVec 128) := v.ipArg .addressValue >>= fun a => ipv6Address a

/-- `bool(int(value) & 0x1)`, icmpv6.py 568-594. -/
def PyVal.bitArg (v : PyVal) : Res Bool := v.intArg >>= fun n => .ok (decide (n % 2 = 1))

/-- `assert isinstance(value, bool)`, icmpv6.py 740-753. -/
def PyVal.boolArg : PyVal → Res Bool
  | some (.bool b) => .ok b
  | _ => .error .assertion

/-- `if value < 0: raise ValueError`, icmpv6.py 557-561, 600-624. -/
def PyVal.timeArg (v : PyVal) : Res Int := v.rangeArg >>= fun n => if n < 0 then .error .valueError else .ok n

/-- `data` setter, icmp.py 175-180, for the data of ICMPv6 messages. -/
def ICMPv6Data.setPayload (b : Bytes) : ICMPv6Data → ICMPv6Data
  | .other _ => .other b
  | .plain c os _ => .plain c os b
  | .unreach o n _ => .unreach o n b
  | .echo r i s _ => .echo r i s b
  | .rs os _ => .rs os b
  | .ra c m o h p x y z os _ => .ra c m o h p x y z os b
  | .ns t os _ => .ns t os b
  | .na r s o t os _ => .na r s o t os b
  | .redirect t d os _ => .redirect t d os b

/-- The same for the data of ICMPv6 messages: echo and unreachable messages have the attributes of the IPv4
classes (icmpv6.py 457-470), the others their own: 551-624, 660-666, 720-753, 796-814.  `options` can be
read but not assigned. -/
def ICMPv6Data.setattr (d : ICMPv6Data) (v : PyVal) : DataName → Option (Res ICMPv6Data)
  | .payload => some (v.dataArg >>= fun b => .ok (d.setPayload b))
  | .own .identifier =>
    match d with
    | .echo r _ s p => some (v.intArg >>= fun n => .ok (.echo r n s p))
    | _ => none
  | .own .sequence =>
    match d with
    | .echo r i _ p => some (v.intArg >>= fun n => .ok (.echo r i n p))
    | _ => none
  | .own .origdgramlen =>
    match d with
    | .unreach _ n p => some (v.intArg >>= fun o => .ok (.unreach o n p))
    | _ => none
  | .own .nexthopmtu =>
    match d with
    | .unreach o _ p => some (v.intArg >>= fun n => .ok (.unreach o n p))
    | _ => none
  | .own .targetaddr =>
    match d with
    | .ns _ os b => some (v.ipv6Arg >>= fun a => .ok (.ns a os b))
    | .na r s o _ os b => some (v.ipv6Arg >>= fun a => .ok (.na r s o a os b))
    | .redirect _ e os b => some (v.ipv6Arg >>= fun a => .ok (.redirect a e os b))
    | _ => none
  | .own .destaddr =>
    match d with
    | .redirect t _ os b => some (v.ipv6Arg >>= fun a => .ok (.redirect t a os b))
    | _ => none
  | .own .r =>
    match d with
    | .na _ s o t os b => some (v.boolArg >>= fun x => .ok (.na x s o t os b))
    | _ => none
  | .own .s =>
    match d with
    | .na r _ o t os b => some (v.boolArg >>= fun x => .ok (.na r x o t os b))
    | _ => none
  | .own .o =>
    match d with
    | .na r s _ t os b => some (v.boolArg >>= fun x => .ok (.na r s x t os b))
    | .ra c m _ h p x y z os b => some (v.bitArg >>= fun o => .ok (.ra c m o h p x y z os b))
    | _ => none
  | .own .m =>
    match d with
    | .ra c _ o h p x y z os b => some (v.bitArg >>= fun m => .ok (.ra c m o h p x y z os b))
    | _ => none
  | .own .h =>
    match d with
    | .ra c m o _ p x y z os b => some (v.bitArg >>= fun h => .ok (.ra c m o h p x y z os b))
    | _ => none
  | .own .p =>
    match d with
    | .ra c m o h _ x y z os b => some (v.bitArg >>= fun p => .ok (.ra c m o h p x y z os b))
    | _ => none
  | .own .curhoplimit =>
    match d with
    | .ra _ m o h p x y z os b => some (v.timeArg >>= fun c => .ok (.ra c m o h p x y z os b))
    | _ => none
  | .own .routerLifetime =>
    match d with
    | .ra c m o h p _ y z os b => some (v.timeArg >>= fun x => .ok (.ra c m o h p x y z os b))
    | _ => none
  | .own .reachableTime =>
    match d with
    | .ra c m o h p x _ z os b => some (v.timeArg >>= fun y => .ok (.ra c m o h p x y z os b))
    | _ => none
  | .own .retransTimer =>
    match d with
    | .ra c m o h p x y _ os b => some (v.timeArg >>= fun z => .ok (.ra c m o h p x y z os b))
    | _ => none
  | _ => none

/-- The loop over the keyword arguments that assigns those which are attributes of the data, and the
arguments that remain, icmp.py 45-51, icmpv6.py 44-50. -/
def dataKws {D : Type} (set : D → PyVal → DataName → Option (Res D)) : D → Kws → Res (D × Kws)
  | d, [] => .ok (d, [])
  | d, (k, v) :: kws =>
    match k.dataName.bind (set d v) with
    | some r => r >>= fun d' => dataKws set d' kws
    | none => dataKws set d kws >>= fun x => .ok (x.1, (k, v) :: x.2)

/-- `setattr(self, name, value)`: a header has none of the names of attributes of ICMP data, and no further
ones; destination options and the null header take any name (C161). -/
def Hdr.setKw (h : Hdr) (v : PyVal) : KwName → Res Hdr
  | .hdr a => h.setattr a v
  | .own _ => if h.cls = .dst ∨ h.cls = .nullHdr then .ok h else .error .attributeError

/-- `PacketHeaderBase.__init__`, packet.py 254-256. -/
def Hdr.setKws : Hdr → Kws → Res Hdr
  | h, [] => .ok h
  | h, (k, v) :: kws => h.setKw v k >>= fun h' => h'.setKws kws

/-- `kwargs['icmptype']`. -/
def Kws.type? : Kws → Option PyVal
  | [] => none
  | (k, v) :: kws => if k = .hdr .icmptype then some v else Kws.type? kws

/-- The arguments without `icmptype`: `kwargs.pop('icmptype')`, icmp.py 42-43. -/
def Kws.untyped (kws : Kws) : Kws := kws.filter (fun x => x.1 ≠ .hdr .icmptype)

/-- `ICMP(icmptype=…)` before the other arguments are looked at, icmp.py 36-43. -/
def icmpTyped : Option PyVal → Res (ICMPMsg ICMPData)
  | none => .ok ICMPMsg.default4
  | some v => icmpSetattr ICMPMsg.default4 v .icmptype

/-- `ICMP(**kwargs)`, icmp.py 31-52. -/
def icmpBuild (kws : Kws) : Res Hdr :=
  icmpTyped (Kws.type? kws) >>= fun m =>
  dataKws ICMPData.setattr m.data (Kws.untyped kws) >>= fun x =>
  (Hdr.icmp { m with data := x.1 }).setKws x.2

/-- `ICMPv6(**kwargs)`, icmpv6.py 31-53. -/
def icmp6Build (kws : Kws) : Res Hdr :=
  dataKws ICMPv6Data.setattr ICMPMsg.default6.data kws >>= fun x =>
  (Hdr.icmp6 { ICMPMsg.default6 with data := x.1 }).setKws x.2

/-- `Null(af=…)`, null.py 23-25: there is no other argument. -/
def nullBuild : Kws → Res Hdr
  | [] => .ok (.null 2)
  | [(.hdr .af, v)] => v.intArg >>= fun n => .ok (.null n)
  | _ => .error .typeError

/-- The header that a constructor starts from: ethernet.py 43-45, 111-112; arp.py 24-32; ipv4.py 393-403;
ipv6.py 30-34, 90-93, 130-133, 317-319, 499-506; udp.py 22-24; tcp.py 76-83; ripv2.py 104-105. -/
def Cls.start : Cls → Option Hdr
  | .eth => some (.eth .default) | .vlan => some (.vlan .default) | .arp => some (.arp .default)
  | .ip4 => some (.ip4 .default) | .ip6 => some (.ip6 .default) | .route => some (.route .default)
  | .frag => some (.frag .default) | .hop => some (.hop .default) | .dst => some (.dst .default)
  | .udp => some (.udp .default) | .tcp => some (.tcp .default) | .rip => some (.rip .default)
  | _ => none

/-- `Cls(**kwargs)`.  The base classes are abstract; `RawPacketContents` and `NullPacketHeader` take no such
arguments (packet.py 340-383; `RawPacketContents(raw=…)` is not modelled), nor does `RIPv2(raw=…)` (ripv2.py
106-107). -/
def Cls.build (c : Cls) (kws : Kws) : Res Hdr :=
  match c with
  | .icmp => icmpBuild kws
  | .icmp6 => icmp6Build kws
  | .null => nullBuild kws
  | c =>
    match c.start with
    | some h => h.setKws kws
    | none => .error .typeError

/-! ## Data objects and options of ICMP messages -/

/-- Keyword arguments of a data class. -/
abbrev DataKws := List (DataName × PyVal)

/-- `setattr(self, name, value)` on a data object of a class that declares no slots: any further name is
stored and has no effect.  (Names that start with an underscore, and those of methods, which would be
hidden, are outside the model.) -/
def looseSet {D : Type} (set : D → PyVal → DataName → Option (Res D)) (d : D) (v : PyVal) (n : DataName) : Res D :=
  (set d v n).getD (.ok d)

/-- `PacketHeaderBase.__init__`, packet.py 254-256, on such an object. -/
def looseSets {D : Type} (set : D → PyVal → DataName → Option (Res D)) : D → DataKws → Res D
  | d, [] => .ok d
  | d, (n, v) :: kws => looseSet set d v n >>= fun d' => looseSets set d' kws

/-- The constructor of the data class of ICMP type `t`, icmp.py 190-194, 208-210, 236-239, 277-280, 334-337,
366-370, 425-444: classes with fields of their own take no arguments, the others any.  Of a type without a class there is no constructor to call. -/
def ICMPData.make (t : Nat) (kws : DataKws) : Res ICMPData :=
  match ICMPData.new t with
  | some (.plain c p) => looseSets ICMPData.setattr (.plain c p) kws
  | some d => if kws = [] then .ok d else .error .typeError
  | none => .error .nameError

/-- `self._options.append(o)` for the options given, icmpv6.py 447-449. -/
def ICMPv6Data.addOptions (l : List NDOpt) : ICMPv6Data → ICMPv6Data
  | .plain c os p => .plain c (os ++ l) p
  | .rs os b => .rs (os ++ l) b
  | .ra c m o h p x y z os b => .ra c m o h p x y z (os ++ l) b
  | .ns t os b => .ns t (os ++ l) b
  | .na r s o t os b => .na r s o t (os ++ l) b
  | .redirect t d os b => .redirect t d (os ++ l) b
  | d => d

/-- The constructor of the data class of ICMPv6 type `t`, icmpv6.py 442-449, 457-470, 487-491, 520-527,
641-643, 680-685, 775-778; `opts` is the argument `options`, of option objects only. -/
def ICMPv6Data.make (t : Nat) (kws : DataKws) (opts : Option (List NDOpt)) : Res ICMPv6Data :=
  match ICMPv6Data.new t with
  | some (.echo r i s p) => if kws = [] ∧ opts = none then .ok (.echo r i s p) else .error .typeError
  | some (.unreach o n p) => if kws = [] ∧ opts = none then .ok (.unreach o n p) else .error .typeError
  | some d => looseSets ICMPv6Data.setattr d kws >>= fun d' => .ok (d'.addOptions (opts.getD []))
  | none => .error .nameError

/-- Names of attributes of a prefix information option. -/
inductive PfxName
  | l | a | valid | preferred | net | plen
  | other (name : List Char)
  deriving DecidableEq, Repr

/-- `IPv6Network(value, strict=False)`: the address and the length of its prefix (Python library). -/
def PyVal.netArg (v : PyVal) : Res (BitVec 128 × Int) :=
  match v with
  | some (.text s) =>
    match ipv6IfaceParse s with
    | some ⟨.v6 a, n⟩ => .ok (a, n)
    | _ => .error .valueError
  | v => v.ipv6Arg >>= fun a => .ok (a, 128)

/-- The length in `"{}/{}".format(address, value)`, icmpv6.py 197-200.  (How an enumeration member is
written is not modelled: it raises here.) -/
def PyVal.plenArg : PyVal → Res Int
  | some (.num n) => .ok n
  | some (.text s) => if s ≠ [] ∧ s.all Char.isDigit = true then .ok (digitsVal s) else .error .valueError
  | _ => .error .valueError

/-- The setters of a prefix information option, icmpv6.py 197-244; the class declares slots. -/
def NDOpt.setPfx (op : NDOpt) (v : PyVal) : PfxName → Res NDOpt
  | .l =>
    match op with
    | .pfx _ a x y ad n => v.bitArg >>= fun l => .ok (.pfx l a x y ad n)
    | o => .ok o
  | .a =>
    match op with
    | .pfx l _ x y ad n => v.bitArg >>= fun a => .ok (.pfx l a x y ad n)
    | o => .ok o
  | .valid => v.rangeArg >>= fun n => op.setValid n
  | .preferred => v.rangeArg >>= fun n => op.setPreferred n
  | .net => v.netArg >>= fun x => op.setPrefix x.1 x.2
  | .plen => v.plenArg >>= fun n => op.setPrefixLength n
  | .other _ => .error .attributeError

/-- The loop of the constructor, icmpv6.py 168-169. -/
def NDOpt.setPfxs : NDOpt → List (PfxName × PyVal) → Res NDOpt
  | o, [] => .ok o
  | o, (k, v) :: kws => o.setPfx v k >>= fun o' => o'.setPfxs kws

/-- `ICMPv6OptionPrefixInformation(**kwargs)`, icmpv6.py 161-169. -/
def NDOpt.mkPrefix (kws : List (PfxName × PyVal)) : Res NDOpt := NDOpt.defaultPrefix.setPfxs kws

end SY
