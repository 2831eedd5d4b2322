import Verif.IPv4
import Verif.Udp

/-! # IPv6 header, extension headers and their options (`/repo/switchyard/lib/packet/ipv6.py`)

The commented-out mobility header (380-472) is not modelled: it is not code. -/

namespace SY

/-- `ipaddress.IPv6Address(value)` (Python library; text is not modelled).  An `IPv4Address`
object is converted through its text and rejected. -/
def ipv6Address : IPArg → Res (BitVec 128)
  | .addr (.v6 a) => .ok a
  | .addr (.v4 _) => .error .addressValue
  | .int v =>
    if 0 ≤ v ∧ v < (2 ^ 128 : Nat) then .ok (BitVec.ofNat 128 v.toNat) else .error .addressValue
  | .raw b => ipv6OfBytes b

/-! ## The fixed header -/

/-- `IPv6` object, ipv6.py 490-492.  `_extheaders` is always the empty list (506, never written
again) and is omitted. -/
structure IPv6 where
  tc : Int
  flow : Int
  ttl : Int
  next : Nat
  plen : Nat
  src : BitVec 128
  dst : BitVec 128
  deriving DecidableEq, Repr

/-- `_PACKFMT = '!BBHHBB16s16s'`, 493. -/
def IPv6.fmt : List Fld := [.u 1, .u 1, .u 2, .u 2, .u 1, .u 1, .s 16, .s 16]

/-- `IPv6()`, 498-507. -/
def IPv6.default : IPv6 := ⟨0, 0, 128, 58, 0, 0, 0⟩

/-- `trafficclass` setter, 554-556: no validation. -/
def IPv6.setTc (h : IPv6) (v : Int) : IPv6 := { h with tc := v }
/-- `flowlabel` setter, 562-564: no validation. -/
def IPv6.setFlow (h : IPv6) (v : Int) : IPv6 := { h with flow := v }
/-- `ttl`/`hoplimit` setters, 578-588: no range validation. -/
def IPv6.setTtl (h : IPv6) (v : Int) : IPv6 := { h with ttl := v }
/-- `nextheader` setter, 570-572. -/
def IPv6.setNext (h : IPv6) (v : Int) : Res IPv6 :=
  enumOf ipProtocols v >>= fun n => .ok { h with next := n }
/-- `src` setter, 594-596. -/
def IPv6.setSrc (h : IPv6) (v : IPArg) : Res IPv6 := ipv6Address v >>= fun a => .ok { h with src := a }
/-- `dst` setter, 602-604. -/
def IPv6.setDst (h : IPv6) (v : IPArg) : Res IPv6 := ipv6Address v >>= fun a => .ok { h with dst := a }

/-- `size`, 509-510. -/
def IPv6.size (_ : IPv6) : Nat := 40

/-- `pre_serialize`, 512-513. -/
def IPv6.preSerialize (h : IPv6) (tail : Bytes) : IPv6 := { h with plen := tail.length }

/-- `6 << 4 | trafficclass >> 4`, 517; a negative operand makes the disjunction negative (only
its sign matters, `struct.pack` rejects it). -/
def IPv6.octet0 (tc : Int) : Int := if 0 ≤ tc then ((6 <<< 4) ||| (tc.toNat >>> 4) : Nat) else -1

/-- `(trafficclass & 0x0f) << 4 | (flowlabel & 0xf0000) >> 16`, 518.  Masking with a constant
below `2^20` depends on the operand modulo `2^20` only (two's complement), hence the `%`. -/
def IPv6.octet1 (tc flow : Int) : Nat :=
  (((tc % 16).toNat &&& 0x0f) <<< 4) ||| (((flow % 1048576).toNat &&& 0xf0000) >>> 16)

/-- The arguments of `struct.pack`, 516-521. -/
def IPv6.vals (h : IPv6) : List Val :=
  [.i (IPv6.octet0 h.tc), .i (IPv6.octet1 h.tc h.flow), .i ((h.flow % 1048576).toNat &&& 0xffff : Nat),
   .i h.plen, .i h.next, .i h.ttl, .b (beEnc 16 h.src.toNat), .b (beEnc 16 h.dst.toNat)]

/-- `to_bytes`, 515-521. -/
def IPv6.toBytes (h : IPv6) : Res Bytes := pack IPv6.fmt h.vals

/-- The assignments of `from_bytes`, 530-538. -/
def IPv6.ofFields (f0 f1 f2 f3 f4 f5 : Int) (src dst : Bytes) : Res IPv6 :=
  ({ IPv6.default with
      tc := (((f0.toNat &&& 0x0f) <<< 4) ||| (f1.toNat >>> 4) : Nat)
      flow := (((f1.toNat &&& 0x0f) <<< 16) ||| f2.toNat : Nat)
      plen := f3.toNat } : IPv6).setNext f4 >>= fun h =>
  (h.setTtl f5).setSrc (.raw src) >>= fun h =>
  h.setDst (.raw dst)

/-- `from_bytes`, 523-538. -/
def IPv6.fromBytes (raw : Bytes) : Res (IPv6 × Bytes) :=
  if raw.length < 40 then .error .notEnoughData
  else
    unpack IPv6.fmt (raw.take 40) >>= fun fields =>
    match fields with
    | [.i f0, .i f1, .i f2, .i f3, .i f4, .i f5, .b src, .b dst] =>
      if f0.toNat >>> 4 ≠ 6 then .error .valueError
      else IPv6.ofFields f0 f1 f2 f3 f4 f5 src dst >>= fun h => .ok (h, raw.drop 40)
    | _ => .error .structError

/-- `__eq__`, 540-547: the payload length is not compared. -/
def IPv6.eq (h k : IPv6) : Bool :=
  decide (h.tc = k.tc) && decide (h.flow = k.flow) && decide (h.ttl = k.ttl) &&
  decide (h.next = k.next) && decide (h.src = k.src) && decide (h.dst = k.dst)

/-- Field ranges of RFC 2460. -/
def IPv6.WF (h : IPv6) : Prop :=
  0 ≤ h.tc ∧ h.tc < 256 ∧ 0 ≤ h.flow ∧ h.flow < 1048576 ∧ 0 ≤ h.ttl ∧ h.ttl < 256 ∧
  h.next ∈ ipProtocols ∧ h.plen < 65536

instance IPv6.decWF (h : IPv6) : Decidable h.WF := by unfold IPv6.WF; infer_instance

/-! ## Extension headers -/

/-- `IPv6ExtensionHeader.to_bytes`, 65-67; `self.nextheader.value` raises when no next header
was ever assigned. -/
def extBytes (next : Option Nat) (optlen : Int) : Res Bytes :=
  match next with
  | none => .error .attributeError
  | some n => pack [.u 1, .u 1] [.i n, .i optlen]

/-- `IPv6ExtensionHeader.from_bytes`, 69-78: next header, length octet, remaining bytes. -/
def extParse (mult : Nat) (raw : Bytes) : Res (Nat × Nat × Bytes) :=
  match raw with
  | nh :: l :: rest =>
    enumOf ipProtocols (nh.toNat : Int) >>= fun n =>
    if raw.length < l.toNat * mult then .error .generic else .ok (n, l.toNat, rest)
  | _ => .error .notEnoughData

/-- `IPv6RouteOption` object, 84-94.  `super().__init__` (29-31) resets `_optdatalen` to 0 after
line 92 has set it to 2. -/
structure RouteOpt where
  next : Option Nat
  optlen : Nat
  rtype : Nat
  segleft : Nat
  addr : BitVec 128
  deriving DecidableEq, Repr

/-- `IPv6RouteOption()`, 89-94. -/
def RouteOpt.default : RouteOpt := ⟨none, 0, 2, 1, 0⟩

/-- `nextheader`/`protocol` setters, 47-57. -/
def RouteOpt.setNext (h : RouteOpt) (v : Int) : Res RouteOpt :=
  enumOf ipProtocols v >>= fun n => .ok { h with next := some n }
/-- `address` setter, 103-105. -/
def RouteOpt.setAddr (h : RouteOpt) (v : IPArg) : Res RouteOpt :=
  ipv6Address v >>= fun a => .ok { h with addr := a }
/-- `size`, 40-41. -/
def RouteOpt.size (h : RouteOpt) : Nat := h.optlen

/-- `IPv6RouteOption.to_bytes`, 107-110. -/
def RouteOpt.toBytes (h : RouteOpt) : Res Bytes :=
  extBytes h.next h.optlen >>= fun c =>
  pack [.u 1, .u 1, .u 4] [.i h.rtype, .i h.segleft, .i 0] >>= fun p =>
  .ok (c ++ (p ++ beEnc 16 h.addr.toNat))

/-- `IPv6RouteOption.from_bytes`, 112-122. -/
def RouteOpt.fromBytes (raw : Bytes) : Res (RouteOpt × Bytes) :=
  extParse 8 raw >>= fun c =>
  byteAt c.2.2 0 >>= fun t =>
  byteAt c.2.2 1 >>= fun s =>
  if t = 2 then
    ipv6OfBytes ((c.2.2.drop 6).take 16) >>= fun a =>
    .ok (⟨some c.1, c.2.1, t.toNat, s.toNat, a⟩, c.2.2.drop 22)
  else .error .valueError

/-- `IPv6Fragment` object, 124-134. -/
structure Fragment where
  next : Option Nat
  optlen : Nat
  ident : Int
  offset : Int
  mf : Bool
  deriving DecidableEq, Repr

/-- `IPv6Fragment()`, 129-134. -/
def Fragment.default : Fragment := ⟨none, 0, 0, 0, false⟩

/-- `nextheader`/`protocol` setters, 47-57. -/
def Fragment.setNext (h : Fragment) (v : Int) : Res Fragment :=
  enumOf ipProtocols v >>= fun n => .ok { h with next := some n }
/-- `id` setter, 140-142. -/
def Fragment.setId (h : Fragment) (v : Int) : Fragment := { h with ident := v }
/-- `offset` setter, 148-150. -/
def Fragment.setOffset (h : Fragment) (v : Int) : Fragment := { h with offset := v }
/-- `mf` setter, 156-158. -/
def Fragment.setMf (h : Fragment) (v : Bool) : Fragment := { h with mf := v }
/-- `size`, 40-41. -/
def Fragment.size (h : Fragment) : Nat := h.optlen

/-- `to_bytes`, 163-166; `offset << 3 | int(mf)` is `offset * 8 + mf`. -/
def Fragment.toBytes (h : Fragment) : Res Bytes :=
  extBytes h.next h.optlen >>= fun c =>
  pack [.u 2, .u 4] [.i (h.offset * 8 + (if h.mf then 1 else 0)), .i h.ident] >>= fun p =>
  .ok (c ++ p)

/-- `from_bytes`, 168-177. -/
def Fragment.fromBytes (raw : Bytes) : Res (Fragment × Bytes) :=
  extParse 1 raw >>= fun c =>
  if c.2.2.length < 6 then .error .notEnoughData
  else
    unpack [.u 2, .u 4] (c.2.2.take 6) >>= fun fields =>
    match fields with
    | [.i o, .i x] =>
      .ok (⟨some c.1, c.2.1, x, (o.toNat >>> 3 : Nat), decide (o.toNat &&& 1 ≠ 0)⟩, c.2.2.drop 6)
    | _ => .error .structError

/-- The option classes of hop-by-hop and destination headers, 179-304.  `padN n` holds `_n`. -/
inductive TLV
  | pad1
  | padN (n : Int)
  | jumbo (len : Int)
  | tunnelLimit (limit : Int)
  | routerAlert (value : Int)
  | homeAddress (a : BitVec 128)
  deriving DecidableEq, Repr

/-- `PadN(n)`, 204-205: a pad of `n` bytes in all. -/
def TLV.mkPadN (n : Int) : TLV := .padN (n - 2)

/-- `to_bytes` of the option classes, 194-195, 207-208, 228-229, 249-250, 270-271, 291-292. -/
def TLV.toBytes : TLV → Res Bytes
  | .pad1 => .ok [0]
  | .padN n => pack [.u 1, .u 1] [.i 1, .i n] >>= fun b => .ok (b ++ zeros n.toNat)
  | .jumbo l => pack [.u 1, .u 1, .u 4] [.i 0xc2, .i 4, .i l]
  | .tunnelLimit l => pack [.u 1, .u 1, .u 1] [.i 4, .i 1, .i l]
  | .routerAlert v => pack [.u 1, .u 1, .u 2] [.i 5, .i 2, .i v]
  | .homeAddress a => pack [.u 1, .u 1] [.i 201, .i 16] >>= fun b => .ok (b ++ beEnc 16 a.toNat)

/-- `cls.from_bytes(raw=data)` through `_option_type_dict`, 308-315, 197-199, 214-218, 235-239,
256-259, 277-281, 298-301. -/
def tlvOf (t : UInt8) (data : Bytes) : Res TLV :=
  if t = 1 then .ok (.padN data.length)
  else if t = 194 then (if data.length = 4 then .ok (.jumbo (beDec data)) else .error .assertion)
  else if t = 4 then (if data.length = 1 then .ok (.tunnelLimit (beDec data)) else .error .assertion)
  else if t = 5 then (if data.length = 2 then .ok (.routerAlert (beDec data)) else .error .assertion)
  else if t = 201 then
    (if data.length = 16 then .ok (.homeAddress (BitVec.ofNat 128 (beDec data))) else .error .assertion)
  else .error .valueError

/-- One iteration of the loop of `_parseTLVOptions`, 361-375, on a non-empty `raw`. -/
def tlvStep (raw : Bytes) : Res (TLV × Nat) :=
  byteAt raw 0 >>= fun t =>
  if t = 0 then .ok (.pad1, 1)
  else
    byteAt raw 1 >>= fun l =>
    if raw.length < l.toNat + 2 then .error .notEnoughData
    else tlvOf t ((raw.drop 2).take l.toNat) >>= fun o => .ok (o, 2 + l.toNat)

/-- `_parseTLVOptions`, 359-375. -/
def parseTLVs (raw : Bytes) : Res (List TLV) := scan tlvStep raw

/-- `b''.join([o.to_bytes() for o in self._options])`, 325. -/
def tlvsBytes : List TLV → Res Bytes
  | [] => .ok []
  | o :: os => o.toBytes >>= fun b => tlvsBytes os >>= fun r => .ok (b ++ r)

/-- `IPv6HopOption` / `IPv6DestinationOption` object, 306-319, 377.  `_optdatalen` is omitted: it
is recomputed by `to_bytes` and `len()` does not use it (356-357). -/
structure HopOpt where
  next : Option Nat
  opts : List TLV
  deriving DecidableEq, Repr

/-- `IPv6HopOption()`, 317-319. -/
def HopOpt.default : HopOpt := ⟨none, []⟩

/-- `nextheader`/`protocol` setters, 47-57. -/
def HopOpt.setNext (h : HopOpt) (v : Int) : Res HopOpt :=
  enumOf ipProtocols v >>= fun n => .ok { h with next := some n }
/-- `add_option`, 344-347. -/
def HopOpt.addOption (h : HopOpt) (o : TLV) : HopOpt := { h with opts := h.opts ++ [o] }
/-- `__len__`, 356-357. -/
def HopOpt.size (h : HopOpt) : Nat := h.opts.length

/-- `to_bytes`, 324-332. -/
def HopOpt.toBytes (h : HopOpt) : Res Bytes :=
  tlvsBytes h.opts >>= fun x =>
  extBytes h.next (((x.length + 2) / 8 : Nat) - 1 : Int) >>= fun c =>
  .ok (c ++ x)

/-- `from_bytes`, 334-342. -/
def HopOpt.fromBytes (raw : Bytes) : Res (HopOpt × Bytes) :=
  extParse 8 raw >>= fun c =>
  parseTLVs (c.2.2.take ((c.2.1 + 1) * 8 - 2)) >>= fun os =>
  .ok (⟨some c.1, os⟩, c.2.2.drop ((c.2.1 + 1) * 8 - 2))

/-! ## Facts used by the property files -/

theorem octet0_nat {t : Nat} (h : t < 256) : IPv6.octet0 (t : Int) = ((96 + t / 16 : Nat) : Int) := by
  unfold IPv6.octet0
  rw [if_pos (by omega), Int.toNat_natCast, Nat.shiftRight_eq_div_pow,
    show (6 <<< 4 : Nat) = 2 ^ 4 * 6 from rfl, ← Nat.two_pow_add_eq_or_of_lt (by omega)]

theorem and_f0000 (x : Nat) : (x &&& 0xf0000) >>> 16 = x / 65536 % 16 := by
  rw [Nat.shiftRight_and_distrib, show (0xf0000 : Nat) >>> 16 = 2 ^ 4 - 1 from rfl,
    Nat.and_two_pow_sub_one_eq_mod, Nat.shiftRight_eq_div_pow]

theorem and_ffff (x : Nat) : x &&& 0xffff = x % 65536 := Nat.and_two_pow_sub_one_eq_mod x 16

theorem or_hi (k : Nat) (a : Nat) {b : Nat} (h : b < 2 ^ k) : (a <<< k) ||| b = a * 2 ^ k + b := by
  rw [Nat.shiftLeft_eq, Nat.mul_comm, ← Nat.two_pow_add_eq_or_of_lt h]

theorem octet1_nat {t f : Nat} (hf : f < 1048576) :
    IPv6.octet1 (t : Int) (f : Int) = t % 16 * 16 + f / 65536 := by
  unfold IPv6.octet1
  have e1 : ((t : Int) % 16).toNat = t % 16 := by omega
  have e2 : ((f : Int) % 1048576).toNat = f := by omega
  have hd : f / 65536 < 16 := by omega
  rw [e1, e2, and_f0000, and_0f, or_hi 4 _ (by omega), Nat.mod_eq_of_lt hd]
  omega

/-- The eight fields a well-formed header is packed into. -/
theorem IPv6.vals_wf {h : IPv6} (w : h.WF) : ∃ t f l : Nat, h.tc = t ∧ h.flow = f ∧ h.ttl = l ∧
    t < 256 ∧ f < 1048576 ∧ l < 256 ∧
    h.vals = [.i (96 + t / 16 : Nat), .i (t % 16 * 16 + f / 65536 : Nat), .i (f % 65536 : Nat),
      .i h.plen, .i h.next, .i l, .b (beEnc 16 h.src.toNat), .b (beEnc 16 h.dst.toNat)] := by
  obtain ⟨w1, w2, w3, w4, w5, w6, w7, w8⟩ := w
  obtain ⟨t, ht⟩ := Int.eq_ofNat_of_zero_le w1
  obtain ⟨f, hf⟩ := Int.eq_ofNat_of_zero_le w3
  obtain ⟨l, hl⟩ := Int.eq_ofNat_of_zero_le w5
  refine ⟨t, f, l, ht, hf, hl, by omega, by omega, by omega, ?_⟩
  unfold IPv6.vals
  rw [ht, hf, hl]
  have e2 : ((f : Int) % 1048576).toNat = f := by omega
  simp only [octet0_nat (show t < 256 by omega), octet1_nat (show f < 1048576 by omega), e2, and_ffff]

theorem IPv6.fits {h : IPv6} (w : h.WF) : Fits IPv6.fmt h.vals := by
  obtain ⟨t, f, l, _, _, _, h4, h5, h6, hv⟩ := IPv6.vals_wf w
  have hp := ipProtocols_lt w.2.2.2.2.2.2.1
  have hq := w.2.2.2.2.2.2.2
  rw [hv]
  simp [Fits, IPv6.fmt]
  omega

theorem IPv6.toBytes_ok {h : IPv6} (w : h.WF) :
    ∃ b, h.toBytes = .ok b ∧ b.length = 40 ∧
      ∀ rest, IPv6.fromBytes (b ++ rest) = .ok (h, rest) := by
  obtain ⟨b, hb⟩ := pack_ok (IPv6.fits w)
  have hl : b.length = 40 := length_pack hb
  refine ⟨b, hb, hl, fun rest => ?_⟩
  obtain ⟨u1, u2⟩ := unpack_take_append (IPv6.fits w) hb rest
  have u1' : unpack IPv6.fmt ((b ++ rest).take 40) = .ok h.vals := u1
  obtain ⟨t, f, l, h1, h2, h3, h4, h5, h6, hv⟩ := IPv6.vals_wf w
  unfold IPv6.fromBytes
  rw [if_neg (by simp [hl]), u1', hv]
  simp only [bind_ok, Int.toNat_natCast]
  have e1 : (96 + t / 16) >>> 4 = 6 := by rw [Nat.shiftRight_eq_div_pow]; omega
  have e2 : (((96 + t / 16) &&& 0x0f) <<< 4) ||| ((t % 16 * 16 + f / 65536) >>> 4) = t := by
    rw [and_0f, or_hi 4 _ (by rw [Nat.shiftRight_eq_div_pow]; omega), Nat.shiftRight_eq_div_pow]; omega
  have e3 : (((t % 16 * 16 + f / 65536) &&& 0x0f) <<< 16) ||| (f % 65536) = f := by
    rw [and_0f, or_hi 16 _ (by omega)]; omega
  have e4 : (b ++ rest).drop 40 = rest := by rw [← hl]; simp
  rw [if_neg (by rw [e1]; simp), e4]
  simp only [IPv6.ofFields, Int.toNat_natCast, e2, e3, IPv6.setNext, enumOf_nat w.2.2.2.2.2.2.1,
    bind_ok, IPv6.setTtl, IPv6.setSrc, IPv6.setDst, ipv6Address, ipv6OfBytes_enc]
  rw [← h1, ← h2, ← h3]

theorem IPv6.fromBytes_inv {raw : Bytes} {h : IPv6} {rest : Bytes}
    (hp : IPv6.fromBytes raw = .ok (h, rest)) :
    40 ≤ raw.length ∧ rest = raw.drop 40 ∧ h.WF ∧ h.toBytes = .ok (raw.take 40) := by
  unfold IPv6.fromBytes at hp
  split at hp
  · cases hp
  rename_i hlen
  have hl : (raw.take 40).length = 40 := by simp; omega
  rw [unpack, if_pos (show _ = calcsize IPv6.fmt from hl)] at hp
  generalize hr : raw.take 40 = r at *
  simp only [IPv6.fmt, unpackGo, bind_ok, List.drop_drop] at hp
  split at hp
  · cases hp
  rename_i hv
  simp only [ne_eq, Decidable.not_not, Int.toNat_natCast] at hv
  simp only [IPv6.ofFields, IPv6.setNext, IPv6.setTtl, IPv6.setSrc, IPv6.setDst, ipv6Address] at hp
  obtain ⟨h', hp1, hp2⟩ := bind_eq_ok.mp hp
  cases hp2
  obtain ⟨h1, hq1, hp1⟩ := bind_eq_ok.mp hp1
  obtain ⟨n, hn, hq1⟩ := bind_eq_ok.mp hq1
  cases hq1
  obtain ⟨h2, hq2, hp1⟩ := bind_eq_ok.mp hp1
  obtain ⟨s, hs, hq2⟩ := bind_eq_ok.mp hq2
  cases hq2
  obtain ⟨d, hd, hp1⟩ := bind_eq_ok.mp hp1
  cases hp1
  obtain ⟨hn1, hn2⟩ := enumOf_ok hn
  have ls : ((r.drop 8).take 16).length = 16 := by simp; omega
  have ld : ((r.drop 24).take 16).length = 16 := by simp; omega
  simp only [ipv6OfBytes] at hs hd
  rw [if_pos (by simpa using ls)] at hs
  rw [if_pos (by simpa using ld)] at hd
  cases hs; cases hd
  -- the six integer fields
  obtain ⟨a, ha⟩ : ∃ a, a = beDec (r.take 1) := ⟨_, rfl⟩
  obtain ⟨b, hb⟩ : ∃ b, b = beDec ((r.drop 1).take 1) := ⟨_, rfl⟩
  obtain ⟨c, hc⟩ : ∃ c, c = beDec ((r.drop 2).take 2) := ⟨_, rfl⟩
  obtain ⟨p, hpl⟩ : ∃ p, p = beDec ((r.drop 4).take 2) := ⟨_, rfl⟩
  obtain ⟨t, ht⟩ : ∃ t, t = beDec ((r.drop 7).take 1) := ⟨_, rfl⟩
  have bnd : ∀ i w, beDec ((r.drop i).take w) < 256 ^ w := by
    intro i w
    refine Nat.lt_of_lt_of_le (beDec_lt _) (Nat.pow_le_pow_right (by decide) ?_)
    simp; omega
  have la : a < 256 := by have := bnd 0 1; simpa [ha] using this
  have lb : b < 256 := by have := bnd 1 1; simpa [hb] using this
  have lc : c < 65536 := by have := bnd 2 2; simpa [hc] using this
  have lp : p < 65536 := by have := bnd 4 2; simpa [hpl] using this
  have lt : t < 256 := by have := bnd 7 1; simpa [ht] using this
  simp only [Nat.reduceAdd, ← ha, ← hb, ← hc, ← hpl, ← ht, Int.toNat_natCast] at hv hn2 ⊢
  have hv' : a / 16 = 6 := by rwa [Nat.shiftRight_eq_div_pow] at hv
  have e2 : ((a &&& 0x0f) <<< 4) ||| (b >>> 4) = a % 16 * 16 + b / 16 := by
    rw [and_0f, or_hi 4 _ (by rw [Nat.shiftRight_eq_div_pow]; omega), Nat.shiftRight_eq_div_pow]
  have e3 : ((b &&& 0x0f) <<< 16) ||| c = b % 16 * 65536 + c := by
    rw [and_0f, or_hi 16 _ (by omega)]
  rw [e2, e3]
  have wf : (IPv6.mk ((a % 16 * 16 + b / 16 : Nat) : Int) ((b % 16 * 65536 + c : Nat) : Int) (t : Int) n p
      (BitVec.ofNat 128 (beDec ((r.drop 8).take 16)))
      (BitVec.ofNat 128 (beDec ((r.drop 24).take 16)))).WF := by
    simp only [IPv6.WF]
    exact ⟨by omega, by omega, by omega, by omega, by omega, by omega, hn1, lp⟩
  refine ⟨by omega, trivial, wf, ?_⟩
  have e4 : ((b % 16 * 65536 + c : Nat) : Int) % 1048576 = ((b % 16 * 65536 + c : Nat) : Int) := by omega
  unfold IPv6.toBytes IPv6.vals
  simp only [octet0_nat (show a % 16 * 16 + b / 16 < 256 by omega), e4, Int.toNat_natCast, and_ffff,
    octet1_nat (show b % 16 * 65536 + c < 1048576 by omega)]
  have f0 : 96 + (a % 16 * 16 + b / 16) / 16 = a := by omega
  have f1 : (a % 16 * 16 + b / 16) % 16 * 16 + (b % 16 * 65536 + c) / 65536 = b := by omega
  have f2 : (b % 16 * 65536 + c) % 65536 = c := by omega
  rw [f0, f1, f2, enc_bv128_of_bytes ls, enc_bv128_of_bytes ld]
  have key := pack_unpackGo IPv6.fmt (by simp [NoPad, IPv6.fmt]) r hl
  rw [← key]
  simp only [IPv6.fmt, unpackGo, List.drop_drop, Nat.reduceAdd, ← ha, ← hb, ← hc, ← hpl, ← ht, hn2]

/-- Options that can be written: what the wire format can carry. -/
def TLV.WF : TLV → Prop
  | .pad1 => True
  | .padN n => 0 ≤ n ∧ n < 256
  | .jumbo l => 0 ≤ l ∧ l < 4294967296
  | .tunnelLimit l => 0 ≤ l ∧ l < 256
  | .routerAlert v => 0 ≤ v ∧ v < 65536
  | .homeAddress _ => True

instance TLV.decWF (o : TLV) : Decidable o.WF := by cases o <;> unfold TLV.WF <;> infer_instance

/-- Bytes occupied by an option on the wire. -/
def TLV.wireLen : TLV → Nat
  | .pad1 => 1
  | .padN n => 2 + n.toNat
  | .jumbo _ => 6
  | .tunnelLimit _ => 3
  | .routerAlert _ => 4
  | .homeAddress _ => 18

theorem enc1 (x : Nat) : beEnc 1 x = [UInt8.ofNat x] := by simp [beEnc]

theorem tlvStep_body {t : UInt8} {l : Nat} {d rest : Bytes} {o : TLV} (ht : t ≠ 0) (hl : l < 256)
    (hd : d.length = l) (ho : tlvOf t d = .ok o) :
    tlvStep (t :: UInt8.ofNat l :: (d ++ rest)) = .ok (o, 2 + l) := by
  have hn : (UInt8.ofNat l).toNat = l := by simp; omega
  unfold tlvStep
  simp only [byteAt, List.getElem?_cons_zero, List.getElem?_cons_succ, bind_ok, hn]
  rw [if_neg ht, if_neg (by simp; omega)]
  simp only [List.drop_succ_cons, List.drop_zero]
  rw [← hd, List.take_left, ho]; rfl

theorem TLV.toBytes_ok {o : TLV} (w : o.WF) :
    ∃ b, o.toBytes = .ok b ∧ b.length = o.wireLen ∧ 1 ≤ b.length ∧
      ∀ rest, tlvStep (b ++ rest) = .ok (o, b.length) := by
  cases o with
  | pad1 => exact ⟨[0], rfl, rfl, by simp, fun rest => rfl⟩
  | padN n =>
    obtain ⟨n, rfl⟩ := Int.eq_ofNat_of_zero_le w.1
    have hn : n < 256 := by have := w.2; omega
    refine ⟨1 :: UInt8.ofNat n :: zeros n, ?_, by simp [wireLen]; omega, by simp, fun rest => ?_⟩
    · rw [TLV.toBytes.eq_def]
      simp only [show (1 : Int) = ((1 : Nat) : Int) from rfl]
      rw [pack_cons_u (by decide), pack_cons_u (by omega)]
      simp [enc1]
    · have := tlvStep_body (t := 1) (l := n) (d := zeros n) (rest := rest) (by decide) hn (by simp)
        (o := .padN n) (by simp [tlvOf])
      simp only [List.cons_append, this, List.length_cons, length_zeros]
      rw [Nat.add_comm]
  | jumbo l =>
    obtain ⟨n, rfl⟩ := Int.eq_ofNat_of_zero_le w.1
    have hn : n < 256 ^ 4 := by have := w.2; omega
    refine ⟨194 :: UInt8.ofNat 4 :: beEnc 4 n, ?_, by simp [wireLen], by simp, fun rest => ?_⟩
    · rw [TLV.toBytes.eq_def]
      simp only [show (0xc2 : Int) = ((0xc2 : Nat) : Int) from rfl, show (4 : Int) = ((4 : Nat) : Int) from rfl]
      rw [pack_cons_u (by decide), pack_cons_u (by decide), pack_cons_u hn]
      simp [enc1]
    · have := tlvStep_body (t := 194) (l := 4) (d := beEnc 4 n) (rest := rest) (by decide) (by decide) (by simp)
        (o := .jumbo n) (by
          unfold tlvOf; rw [if_neg (by decide), if_pos rfl, if_pos (by simp), beDec_beEnc hn])
      simpa using this
  | tunnelLimit l =>
    obtain ⟨n, rfl⟩ := Int.eq_ofNat_of_zero_le w.1
    have hn : n < 256 ^ 1 := by have := w.2; omega
    refine ⟨4 :: UInt8.ofNat 1 :: beEnc 1 n, ?_, by simp [wireLen], by simp, fun rest => ?_⟩
    · rw [TLV.toBytes.eq_def]
      simp only [show (1 : Int) = ((1 : Nat) : Int) from rfl, show (4 : Int) = ((4 : Nat) : Int) from rfl]
      rw [pack_cons_u (by decide), pack_cons_u (by decide), pack_cons_u hn]
      simp [enc1]
    · have := tlvStep_body (t := 4) (l := 1) (d := beEnc 1 n) (rest := rest) (by decide) (by decide) (by simp)
        (o := .tunnelLimit n) (by
          unfold tlvOf; rw [if_neg (by decide), if_neg (by decide), if_pos rfl, if_pos (by simp),
            beDec_beEnc hn])
      simpa using this
  | routerAlert v =>
    obtain ⟨n, rfl⟩ := Int.eq_ofNat_of_zero_le w.1
    have hn : n < 256 ^ 2 := by have := w.2; omega
    refine ⟨5 :: UInt8.ofNat 2 :: beEnc 2 n, ?_, by simp [wireLen], by simp, fun rest => ?_⟩
    · rw [TLV.toBytes.eq_def]
      simp only [show (5 : Int) = ((5 : Nat) : Int) from rfl, show (2 : Int) = ((2 : Nat) : Int) from rfl]
      rw [pack_cons_u (by decide), pack_cons_u (by decide), pack_cons_u hn]
      simp [enc1]
    · have := tlvStep_body (t := 5) (l := 2) (d := beEnc 2 n) (rest := rest) (by decide) (by decide) (by simp)
        (o := .routerAlert n) (by
          unfold tlvOf; rw [if_neg (by decide), if_neg (by decide), if_neg (by decide), if_pos rfl,
            if_pos (by simp), beDec_beEnc hn])
      simpa using this
  | homeAddress a =>
    refine ⟨201 :: UInt8.ofNat 16 :: beEnc 16 a.toNat, ?_, by simp [wireLen], by simp, fun rest => ?_⟩
    · rw [TLV.toBytes.eq_def]
      simp only [show (201 : Int) = ((201 : Nat) : Int) from rfl, show (16 : Int) = ((16 : Nat) : Int) from rfl]
      rw [pack_cons_u (by decide), pack_cons_u (by decide)]
      simp [enc1]
    · have := tlvStep_body (t := 201) (l := 16) (d := beEnc 16 a.toNat) (rest := rest) (by decide) (by decide)
        (by simp) (o := .homeAddress a) (by
          unfold tlvOf; rw [if_neg (by decide), if_neg (by decide), if_neg (by decide), if_neg (by decide),
            if_pos rfl, if_pos (by simp), beDec_beEnc (bv128_lt a), BitVec.ofNat_toNat]
          simp)
      simpa using this

theorem tlvsBytes_ok {os : List TLV} (h : ∀ o ∈ os, o.WF) :
    ∃ b, tlvsBytes os = .ok b ∧ b.length = (os.map TLV.wireLen).sum ∧ parseTLVs b = .ok os := by
  induction os with
  | nil => exact ⟨[], rfl, rfl, scan_nil _⟩
  | cons o os ih =>
    obtain ⟨b, h1, h2, h3, h4⟩ := TLV.toBytes_ok (h o (by simp))
    obtain ⟨c, g1, g2, g3⟩ := ih (fun o ho => h o (by simp [ho]))
    refine ⟨b ++ c, by simp [tlvsBytes, h1, g1], by simp [h2, g2], ?_⟩
    rw [parseTLVs, scan_append h3 h4]
    rw [parseTLVs] at g3
    rw [g3]; rfl

theorem tlvOf_nd (t : UInt8) (d : Bytes) : tlvOf t d ≠ .error .diverges := by
  unfold tlvOf; repeat' split
  all_goals simp

theorem tlvStep_nd (b : Bytes) : tlvStep b ≠ .error .diverges := by
  unfold tlvStep byteAt
  intro h
  split at h
  · simp only [bind_ok] at h
    split at h
    · cases h
    · split at h
      · simp only [bind_ok] at h
        split at h
        · cases h
        · cases hq : tlvOf _ (List.take _ (List.drop 2 b)) with
          | ok o => rw [hq] at h; cases h
          | error e => rw [hq] at h; cases h; exact tlvOf_nd _ _ hq
      · cases h
  · cases h

theorem tlvStep_pos {b : Bytes} {o : TLV} {n : Nat} (h : tlvStep b = .ok (o, n)) : n ≠ 0 := by
  unfold tlvStep at h
  obtain ⟨t, _, h⟩ := bind_eq_ok.mp h
  split at h
  · cases h; decide
  · obtain ⟨l, _, h⟩ := bind_eq_ok.mp h
    split at h
    · cases h
    · obtain ⟨o', _, h⟩ := bind_eq_ok.mp h
      simp only [Except.ok.injEq, Prod.mk.injEq] at h
      omega

theorem extBytes_ok {n l : Nat} (hn : n ∈ ipProtocols) (hl : l < 256) :
    extBytes (some n) (l : Int) = .ok [UInt8.ofNat n, UInt8.ofNat l] := by
  have := ipProtocols_lt hn
  unfold extBytes
  simp only []
  rw [pack_cons_u (by omega), pack_cons_u (by omega)]
  simp [enc1]

theorem extParse_ok {m n l : Nat} (hn : n ∈ ipProtocols) (hl : l < 256) {rest : Bytes}
    (h : l * m ≤ rest.length + 2) :
    extParse m (UInt8.ofNat n :: UInt8.ofNat l :: rest) = .ok (n, l, rest) := by
  have hp := ipProtocols_lt hn
  have h1 : (UInt8.ofNat n).toNat = n := by simp; omega
  have h2 : (UInt8.ofNat l).toNat = l := by simp; omega
  simp only [extParse, h1, h2, enumOf_nat hn, bind_ok]
  rw [if_neg (by simp; omega)]

theorem extParse_inv {m : Nat} {raw : Bytes} {n l : Nat} {rest : Bytes}
    (h : extParse m raw = .ok (n, l, rest)) :
    n ∈ ipProtocols ∧ l < 256 ∧ l * m ≤ raw.length ∧ raw = UInt8.ofNat n :: UInt8.ofNat l :: rest := by
  unfold extParse at h
  split at h
  · rename_i a b r
    obtain ⟨n', hn, h⟩ := bind_eq_ok.mp h
    split at h
    · cases h
    · obtain ⟨h1, h2⟩ := enumOf_ok hn
      cases h
      refine ⟨h1, b.toNat_lt, by omega, ?_⟩
      have : a.toNat = n := by omega
      rw [← this]; simp
  · cases h

end SY
