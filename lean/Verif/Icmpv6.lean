import Verif.Icmp
import Verif.IPv6

/-! # ICMPv6 (`/repo/switchyard/lib/packet/icmpv6.py`)

The type/code/data machinery is inherited from `ICMP` and modelled in `Verif.Icmp`. -/

namespace SY

/-! ## Neighbor-discovery options -/

/-- An `ICMPv6Option` object, icmpv6.py 92-324; objects are compared by their
serialisation (105-106). -/
inductive NDOpt
  /-- Source (`false`) or target (`true`) link-layer address, 112-153. -/
  | lladdr (target : Bool) (a : EthAddr)
  /-- `ICMPv6OptionPrefixInformation`, 156-247; the network is its address and length. -/
  | pfx (l a : Bool) (valid preferred : Int) (addr : BitVec 128) (plen : Nat)
  /-- `ICMPv6OptionMTU`, 250-280. -/
  | mtu (v : Int)
  /-- `ICMPv6OptionRedirectedHeader`, 283-324. -/
  | redirected (header : Bytes)
  deriving DecidableEq, Repr

/-- `ICMPv6OptionSourceLinkLayerAddress(address)`, 151-153. -/
def NDOpt.mkSource (arg : EthArg) : Res NDOpt := EthAddr.mk' arg >>= fun a => .ok (.lladdr false a)

/-- `ICMPv6OptionTargetLinkLayerAddress(address)`, 146-148: the argument is not passed on. -/
def NDOpt.mkTarget (_arg : EthArg) : Res NDOpt := EthAddr.mk' .none >>= fun a => .ok (.lladdr true a)

/-- `ethaddr` setter, 138-140. -/
def NDOpt.setEthaddr (o : NDOpt) (arg : EthArg) : Res NDOpt :=
  match o with
  | .lladdr t _ => EthAddr.mk' arg >>= fun a => .ok (.lladdr t a)
  | o => .ok o

/-- `ICMPv6OptionPrefixInformation()`, 161-167. -/
def NDOpt.defaultPrefix : NDOpt := .pfx true true 25920000 604800 0 64

/-- `ipaddress.IPv6Network("addr/plen")` (`strict`) or with `strict=False` (Python library). -/
def ipv6Network (strict : Bool) (addr : BitVec 128) (plen : Int) : Res (BitVec 128 × Nat) :=
  if 0 ≤ plen ∧ plen ≤ 128 then
    if addr.toNat % 2 ^ (128 - plen.toNat) = 0 then .ok (addr, plen.toNat)
    else if strict then .error .valueError
    else .ok (BitVec.ofNat 128 (addr.toNat - addr.toNat % 2 ^ (128 - plen.toNat)), plen.toNat)
  else .error .valueError

/-- `prefix` setter, 242-244. -/
def NDOpt.setPrefix (o : NDOpt) (addr : BitVec 128) (plen : Int) : Res NDOpt :=
  match o with
  | .pfx l a v p _ _ => ipv6Network false addr plen >>= fun n => .ok (.pfx l a v p n.1 n.2)
  | o => .ok o

/-- `prefix_length` setter, 197-200: keeps the address, strictly. -/
def NDOpt.setPrefixLength (o : NDOpt) (plen : Int) : Res NDOpt :=
  match o with
  | .pfx l a v p ad _ => ipv6Network true ad plen >>= fun n => .ok (.pfx l a v p n.1 n.2)
  | o => .ok o

/-- `valid_lifetime` setter, 222-226. -/
def NDOpt.setValid (o : NDOpt) (x : Int) : Res NDOpt :=
  match o with
  | .pfx l a _ p ad n => if x < 0 then .error .valueError else .ok (.pfx l a x p ad n)
  | o => .ok o

/-- `preferred_lifetime` setter, 232-236. -/
def NDOpt.setPreferred (o : NDOpt) (x : Int) : Res NDOpt :=
  match o with
  | .pfx l a v _ ad n => if x < 0 then .error .valueError else .ok (.pfx l a v x ad n)
  | o => .ok o

/-- `header` setter, 315-320: `padbytes = 8 - (len(value) + 2 % 8)`, where `2 % 8` is 2, and
repetition by a negative number gives nothing. -/
def NDOpt.setHeader (v : Bytes) : NDOpt := .redirected (v ++ zeros (8 - (v.length + 2)))

/-- `self._l << 7 | self._a << 6`, 172. -/
def pfxFlags (l a : Bool) : Nat := (l.toNat <<< 7) ||| (a.toNat <<< 6)

/-- `to_bytes`, 121-123, 171-175, 259-260, 295-298. -/
def NDOpt.toBytes : NDOpt → Res Bytes
  | .lladdr t a => pack [.u 1, .u 1] [.i (if t then 2 else 1), .i 1] >>= fun b => .ok (b ++ a.raw)
  | .pfx l a v p ad n =>
    pack [.u 1, .u 1, .u 1, .u 1, .u 4, .u 4, .x 4, .s 16]
      [.i 3, .i 4, .i n, .i (pfxFlags l a &&& 0xff : Nat), .i v, .i p, .b (beEnc 16 ad.toNat)]
  | .mtu v => pack [.u 1, .u 1, .x 2, .u 4] [.i 5, .i 1, .i v]
  | .redirected h =>
    pack [.u 1, .u 1] [.i 4, .i ((h.length + 2 + 7) / 8 : Nat)] >>= fun b => .ok (b ++ h)

/-- `_ICMPv6OptionLinkLayerAddress.from_bytes`, 125-132.  The error for short data refers to an
undefined name. -/
def decLladdr (t : Bool) (raw : Bytes) : Res NDOpt :=
  if raw.length < 8 then .error .nameError
  else
    unpack [.u 1, .u 1, .s 6] raw >>= fun f =>
    match f with
    | [.i n, .i l, .b a] =>
      if n ≠ (if t then 2 else 1) ∨ l ≠ 1 then .error .assertion
      else EthAddr.mk' (.raw a) >>= fun e => .ok (.lladdr t e)
    | _ => .error .structError

/-- `ICMPv6OptionPrefixInformation.from_bytes`, 178-191. -/
def decPfx (raw : Bytes) : Res NDOpt :=
  if raw.length < 32 then .error .notEnoughData
  else
    unpack [.u 1, .u 1, .u 1, .u 1, .u 4, .u 4, .x 4, .s 16] raw >>= fun f =>
    match f with
    | [.i n, .i l, .i plen, .i fl, .i v, .i p, .b a] =>
      if n ≠ 3 ∨ l ≠ 4 then .error .assertion
      else
        ipv6OfBytes a >>= fun ad =>
        ipv6Network true ad plen >>= fun net =>
        .ok (.pfx (decide ((fl.toNat >>> 7) &&& 1 ≠ 0)) (decide ((fl.toNat >>> 6) &&& 1 ≠ 0)) v p net.1 net.2)
    | _ => .error .structError

/-- `ICMPv6OptionMTU.from_bytes`, 262-269. -/
def decMtu (raw : Bytes) : Res NDOpt :=
  if raw.length < 8 then .error .notEnoughData
  else
    unpack [.u 1, .u 1, .x 2, .u 4] raw >>= fun f =>
    match f with
    | [.i n, .i l, .i v] => if n ≠ 5 ∨ l ≠ 1 then .error .assertion else .ok (.mtu v)
    | _ => .error .structError

/-- `ICMPv6OptionRedirectedHeader.from_bytes`, 300-309.  The error for data shorter than 2 bytes
refers to an attribute that does not exist. -/
def decRedirected (raw : Bytes) : Res NDOpt :=
  match raw with
  | t :: l :: r =>
    if t ≠ 4 then .error .assertion
    else if raw.length < l.toNat * 8 then .error .notEnoughData
    else .ok (NDOpt.setHeader (r.take (l.toNat * 8 - 2)))
  | _ => .error .attributeError

/-- `ICMPv6OptionClasses[optnum]().from_bytes(optdata)`, 327-335, 364-365; `none` for a number
outside `ICMPv6OptionNumber`, which is skipped (359-363). -/
def decOption (t : UInt8) (optdata : Bytes) : Res (Option NDOpt) :=
  if t = 1 then some <$> decLladdr false optdata
  else if t = 2 then some <$> decLladdr true optdata
  else if t = 3 then some <$> decPfx optdata
  else if t = 4 then some <$> decRedirected optdata
  else if t = 5 then some <$> decMtu optdata
  else .ok none

/-- One iteration of the loop 353-366, on at least 8 bytes: the option, if known, and the number
of bytes dropped from `raw`. -/
def ndStep (raw : Bytes) : Res (Option NDOpt × Nat) :=
  byteAt raw 0 >>= fun t =>
  byteAt raw 1 >>= fun l =>
  decOption t (raw.take (l.toNat * 8)) >>= fun o =>
  .ok (o, l.toNat * 8)

/-- The loop of `ICMPv6OptionList.from_bytes`, 352-367, literally; `none` means that it is still
running when the fuel is used up. -/
def ndLoop : Nat → Bytes → List NDOpt → Option (Res (List NDOpt))
  | 0, _, _ => none
  | fuel+1, raw, acc =>
    if 8 ≤ raw.length then
      match ndStep raw with
      | .error e => some (.error e)
      | .ok (o, n) => ndLoop fuel (raw.drop n) (acc ++ o.toList)
    else some (.ok acc)

/-- `ICMPv6OptionList.from_bytes`, 347-367: what the loop computes (`ndLoop_none_iff`,
`ndLoop_eq`). -/
def parseND (raw : Bytes) : Res (List NDOpt) :=
  if h : raw.length < 8 then .ok []
  else
    match ndStep raw with
    | .error e => .error e
    | .ok (o, n) =>
      if h0 : n = 0 then .error .diverges
      else (o.toList ++ ·) <$> parseND (raw.drop n)
termination_by raw.length
decreasing_by simp only [List.length_drop]; omega

/-- `ICMPv6OptionList.to_bytes`, 369-374. -/
def ndBytes : List NDOpt → Res Bytes
  | [] => .ok []
  | o :: os => o.toBytes >>= fun b => ndBytes os >>= fun r => .ok (b ++ r)

/-! ## Data objects -/

/-- The data classes without fields of their own, 471-484. -/
inductive PlainICMPv6
  | mlQuery | mlReport | mlDone | v2Report
  deriving DecidableEq, Repr

/-- Their `ICMPv6Type` values, common.py 228-267. -/
def PlainICMPv6.type : PlainICMPv6 → Nat
  | .mlQuery => 130 | .mlReport => 131 | .mlDone => 132 | .v2Report => 143

/-- Data objects of ICMPv6, icmpv6.py 439-811.  `other` is an `ICMPData` object of a class not
registered for an ICMPv6 type.  `payload` is the `data` attribute, which the solicitation,
advertisement and redirect classes do not serialise. -/
inductive ICMPv6Data
  | other (payload : Bytes)
  | plain (c : PlainICMPv6) (opts : List NDOpt) (payload : Bytes)
  | unreach (origdgramlen nexthopmtu : Int) (payload : Bytes)
  | echo (reply : Bool) (ident seq : Int) (payload : Bytes)
  | rs (opts : List NDOpt) (payload : Bytes)
  | ra (hop : Int) (m o h p : Bool) (rlife reach retrans : Int) (opts : List NDOpt) (payload : Bytes)
  | ns (target : BitVec 128) (opts : List NDOpt) (payload : Bytes)
  | na (r s o : Bool) (target : BitVec 128) (opts : List NDOpt) (payload : Bytes)
  | redirect (target dest : BitVec 128) (opts : List NDOpt) (payload : Bytes)
  deriving DecidableEq, Repr

namespace ICMPv6Data

/-- `ICMPv6TypeFromClass(d.__class__)`, 839-851. -/
def typeOf : ICMPv6Data → Option Nat
  | .other _ => none
  | .plain c _ _ => some c.type
  | .unreach .. => some 1
  | .echo false .. => some 128
  | .echo true .. => some 129
  | .rs .. => some 133
  | .ra .. => some 134
  | .ns .. => some 135
  | .na .. => some 136
  | .redirect .. => some 137

/-- `ICMPv6ClassFromType(t)()`, 823-836, and the constructors. -/
def new : Nat → Option ICMPv6Data
  | 1 => some (.unreach 0 0 [])
  | 128 => some (.echo false 0 0 [])
  | 129 => some (.echo true 0 0 [])
  | 130 => some (.plain .mlQuery [] [])
  | 131 => some (.plain .mlReport [] [])
  | 132 => some (.plain .mlDone [] [])
  | 133 => some (.rs [] [])
  | 134 => some (.ra 64 false false false false 1800 0 0 [] [])
  | 135 => some (.ns 0 [] [])
  | 136 => some (.na false false false 0 [] [])
  | 137 => some (.redirect 0 0 [] [])
  | 143 => some (.plain .v2Report [] [])
  | _ => none

/-- `issubclass(d.__class__, ICMPv6ClassFromType(t))`: no registered class is a subclass of
another registered one (459-484; `ICMPv6EchoReply` derives from the IPv4 echo classes). -/
def isA (d : ICMPv6Data) (t : Nat) : Bool := d.typeOf == some t

/-- The `data` attribute, icmp.py 171-173. -/
def payload : ICMPv6Data → Bytes
  | .other p | .plain _ _ p | .unreach _ _ p | .echo _ _ _ p | .rs _ p | .ra _ _ _ _ _ _ _ _ _ p
  | .ns _ _ p | .na _ _ _ _ _ p | .redirect _ _ _ p => p

/-- The flag octet of a router advertisement, 529. -/
def raFlags (m o h p : Bool) : Nat :=
  (m.toNat <<< 7) ||| (o.toNat <<< 6) ||| (h.toNat <<< 5) ||| (p.toNat <<< 4)

/-- `get_rso_byte`, 708-712. -/
def rsoByte (r s o : Bool) : Nat := (r.toNat <<< 7) ||| (s.toNat <<< 6) ||| (o.toNat <<< 5)

/-- `to_bytes` of each class: icmp.py 165-166, 241-242, 301-303; icmpv6.py 494-496,
528-536, 644-648, 686-691, 779-783. -/
def enc : ICMPv6Data → Res Bytes
  | .other p => .ok p
  | .plain _ _ p => .ok p
  | .unreach o n p => (· ++ p) <$> pack [.x 1, .u 1, .u 2] [.i o, .i n]
  | .echo _ i s p => (· ++ p) <$> pack [.u 2, .u 2] [.i i, .i s]
  | .rs os _ => (zeros 4 ++ ·) <$> ndBytes os
  | .ra hop m o h p rl re rt os _ =>
    pack [.u 1, .u 1, .u 2, .u 4, .u 4]
      [.i hop, .i (raFlags m o h p &&& 0xff : Nat), .i rl, .i re, .i rt] >>= fun b =>
    (b ++ ·) <$> ndBytes os
  | .ns t os _ => pack [.x 4, .s 16] [.b (beEnc 16 t.toNat)] >>= fun b => (b ++ ·) <$> ndBytes os
  | .na r s o t os _ =>
    pack [.s 1, .x 3, .s 16] [.b (beEnc 1 (rsoByte r s o)), .b (beEnc 16 t.toNat)] >>= fun b =>
    (b ++ ·) <$> ndBytes os
  | .redirect t d os _ =>
    pack [.x 4, .s 16, .s 16] [.b (beEnc 16 t.toNat), .b (beEnc 16 d.toNat)] >>= fun b =>
    (b ++ ·) <$> ndBytes os

/-- `from_bytes` of the echo classes, icmp.py 291-299. -/
def decEcho (reply : Bool) (raw : Bytes) : Res ICMPv6Data :=
  if raw.length < 4 then .error .indexError
  else
    unpack [.u 2, .u 2] (raw.take 4) >>= fun f =>
    match f with
    | [.i i, .i s] => .ok (.echo reply i s (raw.drop 4))
    | _ => .error .structError

/-- `from_bytes` of the destination-unreachable class, icmp.py 244-250. -/
def decUnreach (raw : Bytes) : Res ICMPv6Data :=
  if raw.length < 4 then .error .notEnoughData
  else
    unpack [.x 1, .u 1, .u 2] (raw.take 4) >>= fun f =>
    match f with
    | [.i o, .i n] => .ok (.unreach o n (raw.drop 4))
    | _ => .error .structError

/-- `ICMPv6RouterSolicitation.from_bytes`, 498-505. -/
def decRS (raw : Bytes) : Res ICMPv6Data :=
  if raw.length < 4 then .error .notEnoughData
  else parseND (raw.drop 4) >>= fun os => .ok (.rs os [])

/-- `ICMPv6RouterAdvertisement.from_bytes`, 538-554.  The masks are those of the code: `0x8`,
`0x4`, `0x2`, `0x1` shifted right by 7, 6, 5, 4. -/
def decRA (raw : Bytes) : Res ICMPv6Data :=
  if raw.length < 12 then .error .notEnoughData
  else
    unpack [.u 1, .u 1, .u 2, .u 4, .u 4] (raw.take 12) >>= fun f =>
    match f with
    | [.i hop, .i fl, .i rl, .i re, .i rt] =>
      parseND (raw.drop 12) >>= fun os =>
      .ok (.ra hop (decide (((fl.toNat &&& 0x8) >>> 7) &&& 1 ≠ 0)) (decide (((fl.toNat &&& 0x4) >>> 6) &&& 1 ≠ 0))
        (decide (((fl.toNat &&& 0x2) >>> 5) &&& 1 ≠ 0)) (decide (((fl.toNat &&& 0x1) >>> 4) &&& 1 ≠ 0))
        rl re rt os [])
    | _ => .error .structError

/-- `ICMPv6NeighborSolicitation.from_bytes`, 650-658. -/
def decNS (raw : Bytes) : Res ICMPv6Data :=
  if raw.length < 20 then .error .notEnoughData
  else
    unpack [.x 4, .s 16] (raw.take 20) >>= fun f =>
    match f with
    | [.b t] =>
      ipv6OfBytes t >>= fun t =>
      parseND (raw.drop 20) >>= fun os => .ok (.ns t os [])
    | _ => .error .structError

/-- `ICMPv6NeighborAdvertisement.from_bytes`, 693-706. -/
def decNA (raw : Bytes) : Res ICMPv6Data :=
  if raw.length < 20 then .error .notEnoughData
  else
    unpack [.s 1, .x 3, .s 16] (raw.take 20) >>= fun f =>
    match f with
    | [.b c, .b t] =>
      ipv6OfBytes t >>= fun t =>
      parseND (raw.drop 20) >>= fun os =>
      .ok (.na (decide ((beDec c &&& 0x80) >>> 7 ≠ 0)) (decide ((beDec c &&& 0x40) >>> 6 ≠ 0))
        (decide ((beDec c &&& 0x20) >>> 5 ≠ 0)) t os [])
    | _ => .error .structError

/-- `ICMPv6RedirectMessage.from_bytes`, 785-795. -/
def decRedirect (raw : Bytes) : Res ICMPv6Data :=
  if raw.length < 36 then .error .notEnoughData
  else
    unpack [.x 4, .s 16, .s 16] (raw.take 36) >>= fun f =>
    match f with
    | [.b t, .b d] =>
      ipv6OfBytes t >>= fun t =>
      ipv6OfBytes d >>= fun d =>
      parseND (raw.drop 36) >>= fun os => .ok (.redirect t d os [])
    | _ => .error .structError

/-- `ICMPv6ClassFromType(t)().from_bytes(raw)`. -/
def dec (t : Nat) (raw : Bytes) : Res ICMPv6Data :=
  match new t with
  | some (.echo r _ _ _) => decEcho r raw
  | some (.unreach _ _ _) => decUnreach raw
  | some (.plain c _ _) => .ok (.plain c [] raw)
  | some (.other _) => .ok (.other raw)
  | some (.rs _ _) => decRS raw
  | some (.ra ..) => decRA raw
  | some (.ns ..) => decNS raw
  | some (.na ..) => decNA raw
  | some (.redirect ..) => decRedirect raw
  | none => .error .typeError

/-- `__eq__`: the echo classes (icmp.py 308-311) compare identifier, sequence and data; every
other class (icmp.py 182-183) compares `data` only. -/
def eq (a b : ICMPv6Data) : Res Bool :=
  match a, b with
  | .echo _ i s p, .echo _ i' s' p' => .ok (decide (i = i') && decide (s = s') && decide (p = p'))
  | .echo .., _ => .error .attributeError
  | a, b => .ok (decide (a.payload = b.payload))

end ICMPv6Data

/-- `ICMPv6Type`, common.py 228-267. -/
def icmpv6Types : List Nat :=
  [1, 2, 3, 4, 100, 101, 128, 129, 130, 131, 132, 133, 134, 135, 136, 137, 138, 139, 140, 141, 142,
   143, 144, 145, 146, 147, 148, 149, 150, 151, 152, 153, 154, 155, 156, 157, 158, 200, 201]

/-- `ICMPv6TypeCodeMap`, common.py 306-319 (enumerations 139-149, 270-303). -/
def icmpv6Codes : Nat → Option CodeEnum
  | 1 => some ⟨"ICMPv6CodeDestinationUnreachable", [0, 1, 2, 3, 4, 5, 6, 7, 8]⟩
  | 128 => some ⟨"ICMPCodeEchoRequest", [0]⟩
  | 129 => some ⟨"ICMPCodeEchoReply", [0]⟩
  | 130 => some ⟨"ICMPv6CodeMulticastListenerQuery", [0]⟩
  | 131 => some ⟨"ICMPv6CodeMulticastListenerReport", [0]⟩
  | 132 => some ⟨"ICMPv6CodeMulticastListenerDone", [0]⟩
  | 133 => some ⟨"ICMPv6CodeRouterSolicitation", [0]⟩
  | 134 => some ⟨"ICMPv6CodeRouterAdvertisement", [0]⟩
  | 135 => some ⟨"ICMPv6CodeNeighborSolicitation", [0]⟩
  | 136 => some ⟨"ICMPv6CodeNeighborAdvertisement", [0]⟩
  | 137 => some ⟨"ICMPv6CodeRedirectMessage", [0]⟩
  | 143 => some ⟨"ICMPv6CodeVersion2MulticastListenerReport", [0]⟩
  | _ => none

/-- The tables of `ICMPv6`, icmpv6.py 32-35. -/
def icmp6 : ICMPKind ICMPv6Data where
  types := icmpv6Types
  codes := icmpv6Codes
  new := ICMPv6Data.new
  isA := ICMPv6Data.isA
  typeOf := ICMPv6Data.typeOf
  enc := ICMPv6Data.enc
  dec := ICMPv6Data.dec

/-- `ICMPv6()`, 31-39. -/
def ICMPMsg.default6 : ICMPMsg ICMPv6Data := ⟨128, 0, .echo false 0 0 [], 0⟩

/-- `_compute_checksum`, 58-68.  The checksum word of the message, zero, is left out. -/
def icmp6Checksum (m : ICMPMsg ICMPv6Data) (ip : IPv6) : Res Nat :=
  m.data.enc >>= fun d =>
  pack [.u 4, .x 3, .u 1, .u 1, .u 1] [.i (4 + d.length : Nat), .i 58, .i m.type, .i m.code] >>= fun p =>
  .ok (checksum (beEnc 16 ip.src.toNat ++ beEnc 16 ip.dst.toNat ++ p ++ d))

/-- `pre_serialize`, 70-73; the argument is the packet's first `IPv6` header, if any. -/
def icmp6PreSerialize (m : ICMPMsg ICMPv6Data) (ip : Option IPv6) : Res (ICMPMsg ICMPv6Data) :=
  match ip with
  | none => .error .assertion
  | some ip => icmp6Checksum m ip >>= fun c => .ok { m with csum := c }

/-- `to_bytes`, icmp.py 61-68 with `checksum()` of icmpv6.py 55-56: the stored checksum. -/
def icmp6ToBytes (m : ICMPMsg ICMPv6Data) : Res Bytes := icmp6.wire m m.csum

/-- `__eq__`, icmp.py 81-84. -/
def ICMPMsg.eq6 (a b : ICMPMsg ICMPv6Data) : Res Bool :=
  if a.type = b.type ∧ a.code = b.code then a.data.eq b.data else .ok false

theorem icmp6_lawful : icmp6.Lawful where
  new_isA := by
    intro t d h
    unfold icmp6 ICMPv6Data.new at h
    simp only at h
    split at h <;> cases h <;> decide
  new_type := by
    intro t d h
    unfold icmp6 ICMPv6Data.new at h
    simp only at h
    split at h <;> cases h <;> rfl
  type_mem := by
    intro d t h
    have key : t ∈ icmpv6Types ∧ (ICMPv6Data.new t).isSome = true := by
      cases d with
      | other => cases h
      | plain c o p => cases c <;> cases h <;> decide
      | echo r => cases r <;> cases h <;> decide
      | _ => cases h; decide
    refine ⟨key.1, ?_, key.2⟩
    have h' : d.typeOf = some t := h
    simp only [icmp6, ICMPv6Data.isA, h']
    simp
  code_zero := by
    intro t d h
    unfold icmp6 ICMPv6Data.new at h
    simp only at h
    split at h <;> cases h <;> exact ⟨_, rfl, by decide⟩

/-! ## The option loop -/

theorem ndStep_nd (raw : Bytes) : ndStep raw ≠ .error .diverges := by
  have hb : ∀ b i, byteAt b i ≠ .error .diverges := by
    intro b i; unfold byteAt; split <;> simp
  have hu : ∀ f b, unpack f b ≠ .error .diverges := by
    intro f b; unfold unpack; split <;> simp
  have bind_nd : ∀ {α β : Type} (x : Res α) (f : α → Res β), x ≠ .error .diverges →
      (∀ a, f a ≠ .error .diverges) → (x >>= f) ≠ .error .diverges := by
    intro α β x f hx hf
    cases x with
    | ok a => exact hf a
    | error e => simpa using hx
  have map_nd : ∀ {α β : Type} (x : Res α) (f : α → β), x ≠ .error .diverges →
      (f <$> x) ≠ .error .diverges := by
    intro α β x f hx
    cases x with
    | ok a => simp
    | error e => simpa using hx
  have he : ∀ a, EthAddr.mk' (.raw a) ≠ .error .diverges := by
    intro a; simp only [EthAddr.mk', EthAddr.parseArg, bind_ok]; split <;> simp
  have h1 : ∀ t b, decLladdr t b ≠ .error .diverges := by
    intro t b; unfold decLladdr
    generalize (if t = true then (2 : Int) else 1) = k
    split
    · simp
    · apply bind_nd _ _ (hu _ _)
      intro f; split
      · split
        · simp
        · exact bind_nd _ _ (he _) (fun _ => by simp)
      · simp
  have h6 : ∀ s a p, ipv6Network s a p ≠ .error .diverges := by
    intro s a p; unfold ipv6Network
    split
    · split
      · simp
      · split <;> simp
    · simp
  have h7 : ∀ b, ipv6OfBytes b ≠ .error .diverges := by
    intro b; unfold ipv6OfBytes; split <;> simp
  have h2 : ∀ b, decPfx b ≠ .error .diverges := by
    intro b; unfold decPfx; split
    · simp
    · apply bind_nd _ _ (hu _ _)
      intro f; split
      · split
        · simp
        · exact bind_nd _ _ (h7 _) (fun _ => bind_nd _ _ (h6 _ _ _) (by simp))
      · simp
  have h3 : ∀ b, decMtu b ≠ .error .diverges := by
    intro b; unfold decMtu; split
    · simp
    · apply bind_nd _ _ (hu _ _)
      intro f; split
      · split <;> simp
      · simp
  have h4 : ∀ b, decRedirected b ≠ .error .diverges := by
    intro b; unfold decRedirected; split
    · repeat' split
      all_goals simp
    · simp
  have h5 : ∀ t b, decOption t b ≠ .error .diverges := by
    intro t b; unfold decOption
    repeat' split
    · exact map_nd _ _ (h1 _ _)
    · exact map_nd _ _ (h1 _ _)
    · exact map_nd _ _ (h2 _)
    · exact map_nd _ _ (h4 _)
    · exact map_nd _ _ (h3 _)
    · simp
  unfold ndStep
  exact bind_nd _ _ (hb _ _) fun _ => bind_nd _ _ (hb _ _) fun _ => bind_nd _ _ (h5 _ _) (by simp)

theorem parseND_short {raw : Bytes} (h : raw.length < 8) : parseND raw = .ok [] := by
  rw [parseND]; simp [h]

theorem parseND_cons {raw : Bytes} {o : Option NDOpt} {n : Nat} (h8 : 8 ≤ raw.length)
    (h : ndStep raw = .ok (o, n)) (hn : n ≠ 0) :
    parseND raw = (o.toList ++ ·) <$> parseND (raw.drop n) := by
  rw [parseND]; simp [show ¬ raw.length < 8 by omega, h, hn]

theorem ndLoop_stuck {raw : Bytes} {o : Option NDOpt} (h8 : 8 ≤ raw.length)
    (h : ndStep raw = .ok (o, 0)) (fuel : Nat) (acc : List NDOpt) : ndLoop fuel raw acc = none := by
  induction fuel generalizing acc with
  | zero => rfl
  | succ fuel ih => simp only [ndLoop, if_pos h8, h, List.drop_zero]; exact ih _

theorem ndLoop_spec (raw : Bytes) (acc : List NDOpt) :
    (parseND raw = .error .diverges → ∀ fuel, ndLoop fuel raw acc = none) ∧
    (parseND raw ≠ .error .diverges → ∀ fuel, raw.length < fuel →
      ndLoop fuel raw acc = some ((acc ++ ·) <$> parseND raw)) := by
  fun_induction parseND raw generalizing acc with
  | case1 raw h =>
    refine ⟨(fun h => by cases h), fun _ fuel hf => ?_⟩
    cases fuel with
    | zero => omega
    | succ fuel => simp [ndLoop, show ¬ 8 ≤ raw.length by omega]
  | case2 raw h e he =>
    refine ⟨fun hd => absurd (by rw [he]; cases hd; rfl) (ndStep_nd raw), fun _ fuel hf => ?_⟩
    cases fuel with
    | zero => omega
    | succ fuel => simp [ndLoop, show 8 ≤ raw.length by omega, he]
  | case3 raw h o hst =>
    exact ⟨fun _ fuel => ndLoop_stuck (by omega) hst fuel acc, fun hc => absurd rfl hc⟩
  | case4 raw h o n hst hn ih =>
    obtain ⟨ih1, ih2⟩ := ih (acc ++ o.toList)
    constructor
    · intro hd fuel
      cases fuel with
      | zero => rfl
      | succ fuel =>
        simp only [ndLoop, if_pos (show 8 ≤ raw.length by omega), hst]
        apply ih1
        cases hr : parseND (raw.drop n) with
        | ok l => rw [hr] at hd; cases hd
        | error e => rw [hr] at hd; simpa using hd
    · intro hd fuel hf
      cases fuel with
      | zero => omega
      | succ fuel =>
        simp only [ndLoop, if_pos (show 8 ≤ raw.length by omega), hst]
        rw [ih2 ?_ fuel (by simp; omega)]
        · cases parseND (raw.drop n) <;> simp
        · intro hr; rw [hr] at hd; exact hd rfl

/-- The loop runs forever exactly when `parseND` says `diverges`. -/
theorem ndLoop_none_iff (raw : Bytes) :
    (∀ fuel, ndLoop fuel raw [] = none) ↔ parseND raw = .error .diverges := by
  obtain ⟨h1, h2⟩ := ndLoop_spec raw []
  constructor
  · intro hf
    by_cases hd : parseND raw = .error .diverges
    · exact hd
    · have := h2 hd (raw.length + 1) (by omega)
      rw [hf] at this; cases this
  · exact h1

/-- Otherwise it stops with the result of `parseND`. -/
theorem ndLoop_eq (raw : Bytes) (hd : parseND raw ≠ .error .diverges) (fuel : Nat)
    (hf : raw.length < fuel) : ndLoop fuel raw [] = some (parseND raw) := by
  rw [(ndLoop_spec raw []).2 hd fuel hf]
  cases parseND raw <;> simp

end SY
