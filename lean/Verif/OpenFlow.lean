import Verif.Packet

/-! # OpenFlow 1.0 structures (`/repo/switchyard/lib/openflow/openflow10.py`, 11-80 and 393-1226)

A Python `set` of enumeration members is the list of its members in the order in which the
enumeration defines them, without repetition.  Attribute setters that apply `int()` take integers
here.  `OpenflowStruct.__eq__` (137-138) compares serialised forms. -/

namespace SY

/-! ## Sets of flags -/

/-- `_make_bitmap`, 11-19. -/
def makeBitmap : List Nat → Nat
  | [] => 0
  | v :: s => v ||| makeBitmap s

/-- `_unpack_bitmap`, 21-31, for an enumeration with the given distinct values. -/
def unpackBitmap (b : Nat) (enum : List Nat) : List Nat := enum.filter fun v => v &&& b == v

/-- `s.add(v)` for a set of members of `enum`. -/
def setAdd (enum s : List Nat) (v : Nat) : List Nat := enum.filter fun x => s.contains x || x == v

/-- `OpenflowPort`, 59-68. -/
def ofPorts : List Nat := [0xff00, 0xfff8, 0xfff9, 0xfffa, 0xfffb, 0xfffc, 0xfffd, 0xfffe, 0xffff]

/-- `_get_port`, 71-80. -/
def getPort (v : Int) : Res Nat :=
  if 0 ≤ v ∧ v.toNat ∈ ofPorts then .ok v.toNat
  else if 0 ≤ v ∧ v < 0xff00 then .ok v.toNat
  else .error .valueError

/-! ## Match structures -/

/-- `OpenflowWildcard`, 737-758, in the order of definition. -/
def ofWildcards : List Nat :=
  [1, 2, 4, 8, 16, 32, 64, 128, 0x3f00, 0xfc000, 0x100000, 0x200000, 0x2000, 0x80000, 0x3fffff]

/-- The members whose name ends neither in `All` nor in `Mask`, 451-453 and 768-770. -/
def simpleWildcards : List Nat := [1, 2, 4, 8, 16, 32, 64, 128, 0x100000, 0x200000]

/-- `OpenflowMatch` object, 393-432.  `dl_vlan`, `dl_vlan_pcp` are any integers (657-667), `in_port`
any nonnegative one (631-635); `nw_dst` may be an IPv6 address (710-712). -/
structure OfMatch where
  wildcards : List Nat
  nwSrcWild : Nat
  nwDstWild : Nat
  inPort : Nat
  dlSrc : EthAddr
  dlDst : EthAddr
  dlVlan : Int
  dlVlanPcp : Int
  dlType : Nat
  nwTos : Nat
  nwProto : Nat
  nwSrc : BitVec 32
  nwDst : IPAddr
  tpSrc : Nat
  tpDst : Nat
  deriving DecidableEq, Repr

/-- `OpenflowMatch()`, 416-432. -/
def OfMatch.default : OfMatch where
  wildcards := []
  nwSrcWild := 0
  nwDstWild := 0
  inPort := 0
  dlSrc := EthAddr.any
  dlDst := EthAddr.any
  dlVlan := 0
  dlVlanPcp := 0
  dlType := 0x0800
  nwTos := 0
  nwProto := 1
  nwSrc := 0
  nwDst := .v4 0
  tpSrc := 0
  tpDst := 0

/-- `_PACKFMT = '!IH6s6sHBxHBB2x4s4sHH'`, 399. -/
def OfMatch.fmt : List Fld :=
  [.u 4, .u 2, .s 6, .s 6, .u 2, .u 1, .x 1, .u 2, .u 1, .u 1, .x 2, .s 4, .s 4, .u 2, .u 2]

/-- `max(0, v)` then `min(32, v)`, 613-614. -/
def clampBits (v : Int) : Nat := min 32 v.toNat

/-- `nwsrc_wildcard` setter, 611-615. -/
def OfMatch.setNwSrcWild (m : OfMatch) (v : Int) : OfMatch := { m with nwSrcWild := clampBits v }
/-- `nwdst_wildcard` setter, 621-625. -/
def OfMatch.setNwDstWild (m : OfMatch) (v : Int) : OfMatch := { m with nwDstWild := clampBits v }
/-- `nwsrc_wildcard` getter, 607-609. -/
def OfMatch.getNwSrcWild (m : OfMatch) : Nat := m.nwSrcWild
/-- `nwdst_wildcard` getter, 617-619 (it returns the other attribute). -/
def OfMatch.getNwDstWild (m : OfMatch) : Nat := m.nwSrcWild

/-- `add_wildcard`, 590-592. -/
def OfMatch.addWildcard (m : OfMatch) (v : Int) : Res OfMatch :=
  enumOf ofWildcards v >>= fun w => .ok { m with wildcards := setAdd ofWildcards m.wildcards w }
/-- `remove_wildcard`, 599-600. -/
def OfMatch.removeWildcard (m : OfMatch) (v : Int) : OfMatch :=
  { m with wildcards := m.wildcards.filter fun x => !((x : Int) == v) }
/-- `reset_wildcards`, 594-597. -/
def OfMatch.resetWildcards (m : OfMatch) : OfMatch :=
  { m with wildcards := [], nwSrcWild := 0, nwDstWild := 0 }
/-- `wildcard_all`, 602-605. -/
def OfMatch.wildcardAll (m : OfMatch) : OfMatch :=
  { m with wildcards := [0x3fffff], nwSrcWild := 32, nwDstWild := 32 }

/-- `in_port` setter, 631-635. -/
def OfMatch.setInPort (m : OfMatch) (v : Int) : Res OfMatch :=
  if v < 0 then .error .valueError else .ok { m with inPort := v.toNat }
/-- `dl_src` setter, 641-643. -/
def OfMatch.setDlSrc (m : OfMatch) (v : EthArg) : Res OfMatch :=
  EthAddr.mk' v >>= fun a => .ok { m with dlSrc := a }
/-- `dl_dst` setter, 649-651. -/
def OfMatch.setDlDst (m : OfMatch) (v : EthArg) : Res OfMatch :=
  EthAddr.mk' v >>= fun a => .ok { m with dlDst := a }
/-- `dl_vlan` setter, 657-659. -/
def OfMatch.setDlVlan (m : OfMatch) (v : Int) : Res OfMatch := .ok { m with dlVlan := v }
/-- `dl_vlan_pcp` setter, 665-667. -/
def OfMatch.setDlVlanPcp (m : OfMatch) (v : Int) : Res OfMatch := .ok { m with dlVlanPcp := v }
/-- `dl_type` setter, 673-677: 0 is read as `EtherType.NoType`. -/
def OfMatch.setDlType (m : OfMatch) (v : Int) : Res OfMatch :=
  enumOf etherTypes (if v = 0 then 0xFFFF else v) >>= fun t => .ok { m with dlType := t }
/-- `nw_tos` setter, 683-688. -/
def OfMatch.setNwTos (m : OfMatch) (v : Int) : Res OfMatch :=
  if v < 0 ∨ 255 < v then .error .valueError else .ok { m with nwTos := v.toNat }
/-- `nw_proto` setter, 694-696. -/
def OfMatch.setNwProto (m : OfMatch) (v : Int) : Res OfMatch :=
  enumOf ipProtocols v >>= fun t => .ok { m with nwProto := t }
/-- `IPv4Address(value)`, 704: an IPv6 address object raises. -/
def ipv4Arg : IPArg → Res (BitVec 32)
  | .addr (.v4 a) => .ok a
  | .addr (.v6 _) => .error .addressValue
  | .int v => if 0 ≤ v ∧ v < (2 ^ 32 : Nat) then .ok (BitVec.ofNat 32 v.toNat) else .error .addressValue
  | .raw b => ipv4OfBytes b
/-- `nw_src` setter, 702-704. -/
def OfMatch.setNwSrc (m : OfMatch) (v : IPArg) : Res OfMatch :=
  ipv4Arg v >>= fun a => .ok { m with nwSrc := a }
/-- `nw_dst` setter, 710-712. -/
def OfMatch.setNwDst (m : OfMatch) (v : IPArg) : Res OfMatch :=
  ipAddress v >>= fun a => .ok { m with nwDst := a }
/-- `tp_src` setter, 718-723. -/
def OfMatch.setTpSrc (m : OfMatch) (v : Int) : Res OfMatch :=
  if v < 0 ∨ 65536 ≤ v then .error .valueError else .ok { m with tpSrc := v.toNat }
/-- `tp_dst` setter, 729-734. -/
def OfMatch.setTpDst (m : OfMatch) (v : Int) : Res OfMatch :=
  if v < 0 ∨ 65536 ≤ v then .error .valueError else .ok { m with tpDst := v.toNat }

/-- The values packed by `to_bytes`. -/
def OfMatch.vals (m : OfMatch) : List Val :=
  [.i (makeBitmap m.wildcards), .i m.inPort, .b m.dlSrc.raw, .b m.dlDst.raw, .i m.dlVlan,
   .i m.dlVlanPcp, .i m.dlType, .i m.nwTos, .i m.nwProto, .b (beEnc 4 m.nwSrc.toNat),
   .b m.nwDst.packed, .i m.tpSrc, .i m.tpDst]

/-- `to_bytes`, 438-444. -/
def OfMatch.toBytes (m : OfMatch) : Res Bytes := pack OfMatch.fmt m.vals

/-- The wildcards read from the wire, 451-467. -/
def OfMatch.readWildcards (m : OfMatch) (w : Nat) : OfMatch :=
  if w = 0x3fffff then m.wildcardAll
  else
    ({ m with wildcards := simpleWildcards.filter fun v => v &&& w == v }.setNwSrcWild
      ((w &&& 0x3f00) >>> 8 : Nat)).setNwDstWild ((w &&& 0xfc000) >>> 14 : Nat)

/-- The assignments of `from_bytes`, 469-480, in order. -/
def OfMatch.readFields (m : OfMatch) : List Val → Res OfMatch
  | [.i w, .i p, .b s, .b d, .i vl, .i pcp, .i ty, .i tos, .i pr, .b ns, .b nd, .i ts, .i td] =>
    (m.readWildcards w.toNat).setInPort p >>= fun m =>
    m.setDlSrc (.raw s) >>= fun m => m.setDlDst (.raw d) >>= fun m =>
    m.setDlVlan vl >>= fun m => m.setDlVlanPcp pcp >>= fun m => m.setDlType ty >>= fun m =>
    m.setNwTos tos >>= fun m => m.setNwProto pr >>= fun m =>
    m.setNwSrc (.raw ns) >>= fun m => m.setNwDst (.raw nd) >>= fun m =>
    m.setTpSrc ts >>= fun m => m.setTpDst td
  | _ => .error .structError

/-- `OpenflowMatch().from_bytes(raw)`, 446-481, on a new object. -/
def OfMatch.fromBytes (raw : Bytes) : Res (OfMatch × Bytes) :=
  if raw.length < 40 then .error .generic
  else
    unpack OfMatch.fmt (raw.take 40) >>= fun fields =>
    OfMatch.default.readFields fields >>= fun m => .ok (m, raw.drop 40)

/-! ### Comparing with packets -/

/-- Attribute names in `_match_field_to_packet`, 402-415. -/
inductive OfAttr
  | src | dst | vlan | pcp | ethertype | protocol | protocoltype | tos | trafficclass
  | senderprotoaddr | targetprotoaddr | icmptype | icmpcode
  deriving DecidableEq, Repr

/-- Attribute values: an enumeration member is its number. -/
inductive OfVal
  | eth (a : EthAddr)
  | num (v : Int)
  | ip (a : IPAddr)
  deriving DecidableEq, Repr

/-- `getattr(header, name)`.  `Vlan` has no attribute `vlan` (ethernet.py 48-70 define `vlanid`, `pcp`,
`ethertype`) and `IPv6` none called `protocol` (ipv6.py 550-604). -/
def Hdr.ofAttr : Hdr → OfAttr → Res OfVal
  | .eth h, .src => .ok (.eth h.src)
  | .eth h, .dst => .ok (.eth h.dst)
  | .eth h, .ethertype => .ok (.num h.ethertype)
  | .vlan h, .pcp => .ok (.num h.pcp)
  | .vlan h, .ethertype => .ok (.num h.ethertype)
  | .arp h, .protocoltype => .ok (.num h.prototype)
  | .arp h, .senderprotoaddr => .ok (.ip h.senderprotoaddr)
  | .arp h, .targetprotoaddr => .ok (.ip h.targetprotoaddr)
  | .ip4 h, .src => .ok (.ip h.src)
  | .ip4 h, .dst => .ok (.ip h.dst)
  | .ip4 h, .protocol => .ok (.num h.protocol)
  | .ip4 h, .tos => .ok (.num h.tos)
  | .ip6 h, .src => .ok (.ip (.v6 h.src))
  | .ip6 h, .dst => .ok (.ip (.v6 h.dst))
  | .ip6 h, .trafficclass => .ok (.num h.tc)
  | .tcp h, .src => .ok (.num h.src)
  | .tcp h, .dst => .ok (.num h.dst)
  | .udp h, .src => .ok (.num h.src)
  | .udp h, .dst => .ok (.num h.dst)
  | .icmp h, .icmptype => .ok (.num h.type)
  | .icmp h, .icmpcode => .ok (.num h.code)
  | .icmp6 h, .icmptype => .ok (.num h.type)
  | .icmp6 h, .icmpcode => .ok (.num h.code)
  | _, _ => .error .attributeError

/-- `getattr(pkt[cls], name)`; list elements that are not headers have none of the attributes. -/
def Packet.attrOf (p : Packet) (c : Cls) (a : OfAttr) : Res OfVal :=
  p.getClass c >>= fun it =>
  match it with
  | .hdr h => h.ofAttr a
  | _ => .error .attributeError

/-- The keys of `_match_field_to_packet`. -/
inductive OfField
  | dlSrc | dlDst | dlVlan | dlVlanPcp | dlType | nwProto | nwTos | nwSrc | nwDst | tpSrc | tpDst
  deriving DecidableEq, Repr

/-- The keys in dictionary order. -/
def ofFields : List OfField :=
  [.dlSrc, .dlDst, .dlVlan, .dlVlanPcp, .dlType, .nwProto, .nwTos, .nwSrc, .nwDst, .tpSrc, .tpDst]

/-- `_match_field_to_packet`, 402-415. -/
def OfField.sources : OfField → List (Cls × OfAttr)
  | .dlSrc => [(.eth, .src)]
  | .dlDst => [(.eth, .dst)]
  | .dlVlan => [(.vlan, .vlan)]
  | .dlVlanPcp => [(.vlan, .pcp)]
  | .dlType => [(.vlan, .ethertype), (.eth, .ethertype)]
  | .nwProto => [(.ip4, .protocol), (.ip6, .protocol), (.arp, .protocoltype)]
  | .nwTos => [(.ip4, .tos), (.ip6, .trafficclass)]
  | .nwSrc => [(.ip4, .src), (.ip6, .src), (.arp, .senderprotoaddr)]
  | .nwDst => [(.ip4, .dst), (.ip6, .dst), (.arp, .targetprotoaddr)]
  | .tpSrc => [(.tcp, .src), (.udp, .src), (.icmp, .icmptype), (.icmp6, .icmptype)]
  | .tpDst => [(.tcp, .dst), (.tcp, .dst), (.icmp, .icmpcode), (.icmp6, .icmpcode)]

/-- `_wildcard_attr_map`, 761-780, for the fields that are not addresses. -/
def OfField.wildcard : OfField → Nat
  | .dlSrc => 4 | .dlDst => 8 | .dlVlan => 2 | .dlVlanPcp => 0x100000 | .dlType => 16
  | .nwProto => 32 | .nwTos => 0x200000 | .tpSrc => 64 | .tpDst => 128
  | .nwSrc => 0 | .nwDst => 0

/-- `getattr(self, '_' + name)`. -/
def OfMatch.value (m : OfMatch) : OfField → OfVal
  | .dlSrc => .eth m.dlSrc | .dlDst => .eth m.dlDst | .dlVlan => .num m.dlVlan
  | .dlVlanPcp => .num m.dlVlanPcp | .dlType => .num m.dlType | .nwProto => .num m.nwProto
  | .nwTos => .num m.nwTos | .nwSrc => .ip (.v4 m.nwSrc) | .nwDst => .ip m.nwDst
  | .tpSrc => .num m.tpSrc | .tpDst => .num m.tpDst

/-- `a in ip_network('{n}/{32 - wild}', strict=False)`, for `wild ≤ 32`: addresses of the same
version whose leading bits agree (`ipaddress`: an IPv6 network has 128 bits). -/
def inNet (a n : IPAddr) (wild : Nat) : Bool :=
  match a, n with
  | .v4 a, .v4 n => a.toNat >>> wild == n.toNat >>> wild
  | .v6 a, .v6 n => a.toNat >>> (96 + wild) == n.toNat >>> (96 + wild)
  | _, _ => false

/-- `value in netaddr`; only address objects have a version (`ipaddress` raises `AttributeError`). -/
def OfVal.inNet (v : OfVal) (n : OfVal) (wild : Nat) : Res Bool :=
  match v, n with
  | .ip a, .ip n => .ok (SY.inNet a n wild)
  | _, _ => .error .attributeError

/-- The loops over `pkttuple`, 553-555 and 562-565: one comparison for every class that the packet
contains. -/
def testSources (p : Packet) (test : OfVal → Res Bool) : List (Cls × OfAttr) → Res (List Bool)
  | [] => .ok []
  | (c, a) :: rest =>
    if p.hasHeader c then
      p.attrOf c a >>= fun v => test v >>= fun b => testSources p test rest >>= fun bs => .ok (b :: bs)
    else testSources p test rest

/-- Number of wildcarded bits of an address field; 0 for the others. -/
def OfMatch.wildBits (m : OfMatch) : OfField → Nat
  | .nwSrc => m.nwSrcWild
  | .nwDst => m.nwDstWild
  | _ => 0

/-- One iteration of `matches_packet`, 543-565: the comparisons appended to `match`. -/
def OfMatch.testField (m : OfMatch) (p : Packet) (f : OfField) : Res (List Bool) :=
  if f = .nwSrc ∨ f = .nwDst then
    if 0 < m.wildBits f then
      testSources p (fun v => v.inNet (m.value f) (m.wildBits f)) f.sources
    else testSources p (fun v => .ok (v == m.value f)) f.sources
  else if f.wildcard &&& makeBitmap m.wildcards ≠ 0 then .ok []
  else testSources p (fun v => .ok (v == m.value f)) f.sources

/-- All comparisons of `matches_packet`, in order. -/
def OfMatch.testFields (m : OfMatch) (p : Packet) : List OfField → Res (List Bool)
  | [] => .ok []
  | f :: fs => m.testField p f >>= fun b => m.testFields p fs >>= fun bs => .ok (b ++ bs)

/-- `matches_packet`, 537-566. -/
def OfMatch.matchesPacket (m : OfMatch) (p : Packet) : Res Bool :=
  m.testFields p ofFields >>= fun bs => .ok (bs.all id)

/-- `setattr(m, field, value)` with a value taken from a packet, 578. -/
def OfMatch.setField (m : OfMatch) (f : OfField) (v : OfVal) : Res OfMatch :=
  match f, v with
  | .dlSrc, .eth a => m.setDlSrc (.addr a)
  | .dlDst, .eth a => m.setDlDst (.addr a)
  | .dlVlan, .num v => m.setDlVlan v
  | .dlVlanPcp, .num v => m.setDlVlanPcp v
  | .dlType, .num v => m.setDlType v
  | .nwProto, .num v => m.setNwProto v
  | .nwTos, .num v => m.setNwTos v
  | .nwSrc, .ip a => m.setNwSrc (.addr a)
  | .nwDst, .ip a => m.setNwDst (.addr a)
  | .tpSrc, .num v => m.setTpSrc v
  | .tpDst, .num v => m.setTpDst v
  | _, _ => .error .typeError

/-- The inner loop of `build_from_packet`, 576-579 (`continue` has no effect: the last class that
the packet contains decides). -/
def OfMatch.buildField (m : OfMatch) (p : Packet) (f : OfField) : List (Cls × OfAttr) → Res OfMatch
  | [] => .ok m
  | (c, a) :: rest =>
    if p.hasHeader c then
      p.attrOf c a >>= fun v => m.setField f v >>= fun m => m.buildField p f rest
    else m.buildField p f rest

/-- The outer loop of `build_from_packet`, 575. -/
def OfMatch.buildFields (m : OfMatch) (p : Packet) : List OfField → Res OfMatch
  | [] => .ok m
  | f :: fs => m.buildField p f f.sources >>= fun m => m.buildFields p fs

/-- `OpenflowMatch.build_from_packet`, 568-580. -/
def OfMatch.build (p : Packet) : Res OfMatch := OfMatch.default.buildFields p ofFields

/-- The comparison of one attribute by `matches_entry`, 520-534: the attribute's
wildcard must be named in the other match's set (`All` is not), or the values be equal. -/
def OfMatch.entryField (m o : OfMatch) (f : OfField) : Bool :=
  if f = .nwSrc ∨ f = .nwDst then
    (match m.value f, o.value f with
      | .ip a, .ip n => inNet a n (o.wildBits f)
      | _, _ => false) || m.value f == o.value f
  else o.wildcards.contains f.wildcard || m.value f == o.value f

/-- `matches_entry` with `strict=False`, 502-535; the attributes are all slots but the three
wildcard ones (`in_port` has wildcard 1).  The order of the tests is irrelevant. -/
def OfMatch.matchesEntry (m o : OfMatch) : Bool :=
  (ofFields.all fun f => m.entryField o f) && (o.wildcards.contains 1 || m.inPort == o.inPort)

/-- `matches_entry` with `strict=True`, 512-513: equality of serialised forms (137-138). -/
def OfMatch.matchesStrict (m o : OfMatch) : Res Bool :=
  m.toBytes >>= fun a => o.toBytes >>= fun b => .ok (a == b)

/-- `overlaps_with`, 492-500. -/
def OfMatch.overlaps (m o : OfMatch) (strict : Bool) : Res Bool :=
  if strict then m.matchesStrict o else .ok (m.matchesEntry o && o.matchesEntry m)

/-! ## Actions -/

/-- `OpenflowActionType`, 783-796. -/
def ofActionTypes : List Nat := [0, 1, 2, 3, 4, 5, 6, 7, 8, 9, 10, 11, 0xffff]

/-- The class of an action with the attributes of that class. -/
inductive ActBody
  | strip
  | output (port maxlen : Int)
  | enqueue (port queue : Int)
  | vlanVid (v : Int)
  | vlanPcp (v : Int)
  | dlAddr (a : EthAddr)
  | nwAddr (a : IPAddr)
  | nwTos (v : Int)
  | tpPort (v : Int)
  | vendor (vendor : Int) (data : Bytes)
  deriving DecidableEq, Repr

/-- An action object: `_type` and `_len` of `OpenflowAction`, 799-807, and the rest. -/
structure OfAction where
  type : Nat
  len : Int
  body : ActBody
  deriving DecidableEq, Repr

/-- `_calcdatalen`, 1188-1189: `ceil(n / 8) * 8`.  (Exact for every length a `bytes` object can
have in practice: the quotient is computed in floating point.) -/
def vendorLen (n : Nat) : Nat := (n + 7) / 8 * 8

/-- `ActionStripVlan()`, 838-841. -/
def actStrip : OfAction := ⟨3, 4, .strip⟩
/-- `ActionOutput(port)`, 848-858. -/
def actOutput (port : Int) : OfAction := ⟨0, 8, .output port 1500⟩
/-- `ActionEnqueue(port, queue_id)`, 912-922. -/
def actEnqueue (port queue : Int) : OfAction := ⟨11, 16, .enqueue port queue⟩
/-- `ActionVlanVid(vlan_vid)`, 952-961. -/
def actVlanVid (v : Int) : OfAction := ⟨1, 8, .vlanVid v⟩
/-- `ActionVlanPcp(vlan_pcp)`, 984-993. -/
def actVlanPcp (v : Int) : OfAction := ⟨2, 8, .vlanPcp v⟩
/-- `ActionDlAddr(srcdst, dl_addr)`, 1015-1026. -/
def actDlAddr (t : Int) (a : EthArg) : Res OfAction :=
  enumOf ofActionTypes t >>= fun t =>
  if t = 4 ∨ t = 5 then EthAddr.mk' a >>= fun a => .ok ⟨t, 16, .dlAddr a⟩ else .error .valueError
/-- `ActionNwAddr(srcdst, nw_addr)`, 1048-1059. -/
def actNwAddr (t : Int) (a : IPArg) : Res OfAction :=
  enumOf ofActionTypes t >>= fun t =>
  if t = 6 ∨ t = 7 then ipAddress a >>= fun a => .ok ⟨t, 8, .nwAddr a⟩ else .error .valueError
/-- `ActionNwTos(tos)`, 1082-1091. -/
def actNwTos (v : Int) : OfAction := ⟨8, 8, .nwTos v⟩
/-- `ActionTpPort(srcdst, port)`, 1113-1124. -/
def actTpPort (t : Int) (v : Int) : Res OfAction :=
  enumOf ofActionTypes t >>= fun t =>
  if t = 9 ∨ t = 10 then .ok ⟨t, 8, .tpPort v⟩ else .error .valueError
/-- `ActionVendorHeader(vendor, data)`, 1145-1155. -/
def actVendor (v : Int) (data : Bytes) : OfAction := ⟨0xffff, 8 + vendorLen data.length, .vendor v data⟩

/-- The `_PACKFMT` of each class after the common header: 850, 914, 954, 986, 1017, 1050, 1084, 1115,
1147. -/
def ActBody.fmt : ActBody → List Fld
  | .strip => []
  | .output _ _ => [.u 2, .u 2]
  | .enqueue _ _ => [.u 2, .x 6, .u 4]
  | .vlanVid _ => [.u 2, .x 2]
  | .vlanPcp _ => [.u 1, .x 3]
  | .dlAddr _ => [.s 6, .x 6]
  | .nwAddr _ => [.s 4]
  | .nwTos _ => [.u 1, .x 3]
  | .tpPort _ => [.u 2, .x 2]
  | .vendor _ _ => [.u 4]

/-- The values packed. -/
def ActBody.vals : ActBody → List Val
  | .strip => []
  | .output p m => [.i p, .i m]
  | .enqueue p q => [.i p, .i q]
  | .vlanVid v => [.i v]
  | .vlanPcp v => [.i v]
  | .dlAddr a => [.b a.raw]
  | .nwAddr a => [.b a.packed]
  | .nwTos v => [.i v]
  | .tpPort v => [.i v]
  | .vendor v _ => [.i v]

/-- What follows the packed values: data and padding of a vendor action, 1182-1186. -/
def ActBody.tail : ActBody → Bytes
  | .vendor _ d => d ++ zeros (vendorLen d.length - d.length)
  | _ => []

/-- `to_bytes` of each class: `OpenflowAction.to_bytes`, 831-833, then the class's own part. -/
def OfAction.toBytes (a : OfAction) : Res Bytes :=
  pack [.u 2, .u 2] [.i a.type, .i a.len] >>= fun h =>
  pack a.body.fmt a.body.vals >>= fun b => .ok (h ++ b ++ a.body.tail)

/-- `_ActionClassMap.get(type)()`, 1195-1209, with the classes' default arguments. -/
def newBody (t : Nat) : ActBody :=
  if t = 0 then .output 0xffff 1500
  else if t = 1 then .vlanVid 0
  else if t = 2 then .vlanPcp 0
  else if t = 3 then .strip
  else if t = 4 ∨ t = 5 then .dlAddr EthAddr.any
  else if t = 6 ∨ t = 7 then .nwAddr (.v4 0)
  else if t = 8 then .nwTos 0
  else if t = 9 ∨ t = 10 then .tpPort 0
  else if t = 11 then .enqueue 0xffff 0
  else .vendor 0xffffffff []

/-- The assignments of the class's own `from_bytes`; `rest` is what follows the packed values. -/
def ActBody.read (b : ActBody) (fields : List Val) (rest : Bytes) : Res ActBody :=
  match b, fields with
  | .strip, [] => .ok .strip
  | .output _ _, [.i p, .i m] => .ok (.output p m)
  | .enqueue _ _, [.i p, .i q] => .ok (.enqueue p q)
  | .vlanVid _, [.i v] => .ok (.vlanVid v)
  | .vlanPcp _, [.i v] => .ok (.vlanPcp v)
  | .dlAddr _, [.b a] => EthAddr.mk' (.raw a) >>= fun a => .ok (.dlAddr a)
  | .nwAddr _, [.b a] => ipAddress (.raw a) >>= fun a => .ok (.nwAddr a)
  | .nwTos _, [.i v] => .ok (.nwTos v)
  | .tpPort _, [.i v] => .ok (.tpPort v)
  | .vendor _ _, [.i v] => .ok (.vendor v rest)
  | _, _ => .error .structError

/-- The length an object has after `from_bytes`: the one on the wire (821-822), except that setting the
data of a vendor action computes it again (1171-1173). -/
def ActBody.lenRead (b : ActBody) (len : Int) : Int :=
  match b with
  | .vendor _ d => 8 + vendorLen d.length
  | _ => len

/-- `from_bytes` of the class made for type `t`, 820-823 and the class's own part, on the slice given
by `_unpack_actions`. -/
def OfAction.fromBytes (t : Nat) (raw : Bytes) : Res OfAction :=
  unpack [.u 2, .u 2] (raw.take 4) >>= fun fields =>
  match fields with
  | [.i ty, .i len] =>
    enumOf ofActionTypes ty >>= fun ty =>
    unpack (newBody t).fmt ((raw.drop 4).take (calcsize (newBody t).fmt)) >>= fun fields =>
    (newBody t).read fields ((raw.drop 4).drop (calcsize (newBody t).fmt)) >>= fun b =>
    .ok ⟨ty, b.lenRead len, b⟩
  | _ => .error .structError

/-- The loop of `_unpack_actions`, 1219-1225, with a bound on the number of iterations (`none` when it
is exhausted). -/
def unpackActionsLoop : Nat → Bytes → List OfAction → Option (Res (List OfAction))
  | 0, _, _ => none
  | fuel + 1, raw, acc =>
    if raw = [] then some (.ok acc)
    else
      match unpack [.u 2, .u 2] (raw.take 4) with
      | .ok [.i ty, .i alen] =>
        (match enumOf ofActionTypes ty >>= fun t => OfAction.fromBytes t (raw.take alen.toNat) with
        | .ok a => unpackActionsLoop fuel (raw.drop alen.toNat) (acc ++ [a])
        | .error e => some (.error e))
      | .ok _ => some (.error .structError)
      | .error e => some (.error e)

/-- `_unpack_actions`, 1212-1226.  Enough iterations are provided for every input
(`Props/OpenFlow.lean`, `actions_terminate`). -/
def unpackActions (raw : Bytes) : Res (List OfAction) :=
  (unpackActionsLoop (raw.length + 1) raw []).getD (.error .diverges)

/-- `b''.join(a.to_bytes() for a in actions)`. -/
def joinActions : List OfAction → Res Bytes
  | [] => .ok []
  | a :: as => a.toBytes >>= fun b => joinActions as >>= fun bs => .ok (b ++ bs)

end SY
