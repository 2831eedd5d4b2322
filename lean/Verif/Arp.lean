import Verif.Ethernet

/-! # ARP (`/repo/switchyard/lib/packet/arp.py`) and its helpers (`util.py`) -/

namespace SY

/-- `Arp` object, arp.py 17-19. -/
structure Arp where
  hwtype : Nat
  prototype : Nat
  hwaddrlen : Nat
  protoaddrlen : Nat
  operation : Nat
  senderhwaddr : EthAddr
  senderprotoaddr : IPAddr
  targethwaddr : EthAddr
  targetprotoaddr : IPAddr
  deriving DecidableEq, Repr

/-- `_PACKFMT = '!HHBBH6s4s6s4s'`, arp.py 20. -/
def Arp.fmt : List Fld := [.u 2, .u 2, .u 1, .u 1, .u 2, .s 6, .s 4, .s 6, .s 4]

/-- `Arp()`, 23-33. -/
def Arp.default : Arp := ⟨1, 0x0800, 6, 4, 1, .any, .v4 0, .broadcast, .v4 0⟩

/-- `operation` setter, 88-90. -/
def Arp.setOperation (h : Arp) (v : Int) : Res Arp :=
  enumOf arpOperations v >>= fun o => .ok { h with operation := o }
/-- `senderhwaddr` setter, 96-98. -/
def Arp.setSenderHw (h : Arp) (v : EthArg) : Res Arp :=
  EthAddr.mk' v >>= fun a => .ok { h with senderhwaddr := a }
/-- `senderprotoaddr` setter, 104-106. -/
def Arp.setSenderProto (h : Arp) (v : IPArg) : Res Arp :=
  ipAddress v >>= fun a => .ok { h with senderprotoaddr := a }
/-- `targethwaddr` setter, 112-114. -/
def Arp.setTargetHw (h : Arp) (v : EthArg) : Res Arp :=
  EthAddr.mk' v >>= fun a => .ok { h with targethwaddr := a }
/-- `targetprotoaddr` setter, 120-122. -/
def Arp.setTargetProto (h : Arp) (v : IPArg) : Res Arp :=
  ipAddress v >>= fun a => .ok { h with targetprotoaddr := a }

/-- `size`, 35-36. -/
def Arp.size (_ : Arp) : Nat := calcsize Arp.fmt

/-- The values packed by `to_bytes`. -/
def Arp.vals (h : Arp) : List Val :=
  [.i h.hwtype, .i h.prototype, .i h.hwaddrlen, .i h.protoaddrlen, .i h.operation,
   .b h.senderhwaddr.raw, .b h.senderprotoaddr.packed, .b h.targethwaddr.raw,
   .b h.targetprotoaddr.packed]

/-- `to_bytes`, 41-45. -/
def Arp.toBytes (h : Arp) : Res Bytes := pack Arp.fmt h.vals

/-- The `try` body of `from_bytes`, 54-62. -/
def Arp.ofFields (hw pr hl pl op : Int) (sh sp th tp : Bytes) : Res Arp :=
  enumOf arpHwTypes hw >>= fun hw =>
  enumOf etherTypes pr >>= fun pr =>
  let h : Arp := { Arp.default with
    hwtype := hw, prototype := pr, hwaddrlen := hl.toNat, protoaddrlen := pl.toNat }
  h.setOperation op >>= fun h =>
  h.setSenderHw (.raw sh) >>= fun h =>
  h.setSenderProto (.raw sp) >>= fun h =>
  h.setTargetHw (.raw th) >>= fun h =>
  h.setTargetProto (.raw tp)

/-- `except Exception as e: raise Exception(...)`, 63-64. -/
def wrapException {α : Type} : Res α → Res α
  | .ok a => .ok a
  | .error _ => .error .generic

/-- `from_bytes`, 47-65. -/
def Arp.fromBytes (raw : Bytes) : Res (Arp × Bytes) :=
  if raw.length < 28 then .error .notEnoughData
  else
    unpack Arp.fmt (raw.take 28) >>= fun fields =>
    match fields with
    | [.i hw, .i pr, .i hl, .i pl, .i op, .b sh, .b sp, .b th, .b tp] =>
      wrapException (Arp.ofFields hw pr hl pl op sh sp th tp) >>= fun h => .ok (h, raw.drop 28)
    | _ => .error .structError

/-- `__eq__`, 67-74: address lengths are not compared. -/
def Arp.eq (h k : Arp) : Bool :=
  decide (h.hwtype = k.hwtype) && decide (h.prototype = k.prototype) &&
  decide (h.operation = k.operation) && decide (h.senderhwaddr.raw = k.senderhwaddr.raw) &&
  decide (h.senderprotoaddr = k.senderprotoaddr) &&
  decide (h.targethwaddr.raw = k.targethwaddr.raw) &&
  decide (h.targetprotoaddr = k.targetprotoaddr)

/-- `create_ip_arp_request(srchw, srcip, targetip)`, util.py 14-29.  The packet `ether + arp` is
the pair of its two headers. -/
def createIpArpRequest (srchw : EthArg) (srcip targetip : IPArg) : Res (Ethernet × Arp) :=
  Ethernet.default.setSrc srchw >>= fun e =>
  e.setDst (.addr .broadcast) >>= fun e =>
  e.setEthertype 0x0806 >>= fun e =>
  Arp.default.setOperation 1 >>= fun a =>
  a.setSenderHw srchw >>= fun a =>
  a.setSenderProto srcip >>= fun a =>
  a.setTargetHw (.addr .broadcast) >>= fun a =>
  a.setTargetProto targetip >>= fun a =>
  .ok (e, a)

/-- `create_ip_arp_reply(srchw, dsthw, srcip, targetip)`, util.py 3-12. -/
def createIpArpReply (srchw dsthw : EthArg) (srcip targetip : IPArg) : Res (Ethernet × Arp) :=
  createIpArpRequest srchw srcip targetip >>= fun (e, a) =>
  e.setDst dsthw >>= fun e =>
  a.setOperation 2 >>= fun a =>
  a.setTargetHw dsthw >>= fun a =>
  .ok (e, a)

/-! ## Facts used by the property files -/

/-- Four-byte protocol address. -/
def IPAddr.isV4 : IPAddr → Prop
  | .v4 _ => True
  | .v6 _ => False

instance (a : IPAddr) : Decidable a.isV4 := by cases a <;> (unfold IPAddr.isV4; infer_instance)

theorem IPAddr.length_packed_v4 {a : IPAddr} (h : a.isV4) : a.packed.length = 4 := by
  cases a with
  | v4 a => simp [IPAddr.packed]
  | v6 a => exact h.elim

theorem ipAddress_packed_v4 {a : IPAddr} (h : a.isV4) : ipAddress (.raw a.packed) = .ok a := by
  cases a with
  | v4 a => simp [IPAddr.packed]
  | v6 a => exact h.elim

/-- Well-formed IPv4-over-Ethernet ARP header. -/
def Arp.WF (h : Arp) : Prop :=
  h.hwtype ∈ arpHwTypes ∧ h.prototype ∈ etherTypes ∧ h.hwaddrlen < 256 ∧ h.protoaddrlen < 256 ∧
  h.operation ∈ arpOperations ∧ h.senderhwaddr.raw.length = 6 ∧ h.senderprotoaddr.isV4 ∧
  h.targethwaddr.raw.length = 6 ∧ h.targetprotoaddr.isV4

instance (h : Arp) : Decidable h.WF := by unfold Arp.WF; infer_instance

theorem Arp.fits {h : Arp} (w : h.WF) : Fits Arp.fmt h.vals := by
  obtain ⟨w1, w2, w3, w4, w5, w6, w7, w8, w9⟩ := w
  have h1 : h.hwtype < 65536 := by
    have : ∀ n ∈ arpHwTypes, n < 65536 := by decide
    exact this _ w1
  have h2 := etherTypes_lt w2
  have h5 : h.operation < 65536 := by
    have : ∀ n ∈ arpOperations, n < 65536 := by decide
    exact this _ w5
  simp [Fits, Arp.fmt, Arp.vals, w6, w8, IPAddr.length_packed_v4 w7, IPAddr.length_packed_v4 w9]
  omega

theorem Arp.toBytes_ok {h : Arp} (w : h.WF) : ∃ b, h.toBytes = .ok b ∧ b.length = 28 := by
  obtain ⟨b, hb⟩ := pack_ok (Arp.fits w)
  exact ⟨b, hb, length_pack hb⟩

theorem Arp.fromBytes_toBytes {h : Arp} (w : h.WF) {b : Bytes} (hb : h.toBytes = .ok b)
    (rest : Bytes) : Arp.fromBytes (b ++ rest) = .ok (h, rest) := by
  have hl : b.length = 28 := length_pack hb
  obtain ⟨h1, h2⟩ := unpack_take_append (Arp.fits w) hb rest
  have h1' : unpack Arp.fmt ((b ++ rest).take 28) = .ok h.vals := h1
  have h2' : (b ++ rest).drop 28 = rest := h2
  obtain ⟨w1, w2, w3, w4, w5, w6, w7, w8, w9⟩ := w
  unfold Arp.fromBytes
  rw [if_neg (by simp [hl]), h1', h2']
  simp only [Arp.vals, bind_ok, Arp.ofFields, Arp.setOperation, Arp.setSenderHw,
    Arp.setSenderProto, Arp.setTargetHw, Arp.setTargetProto, enumOf_nat w1, enumOf_nat w2,
    enumOf_nat w5, EthAddr.mk'_raw6 w6, EthAddr.mk'_raw6 w8, ipAddress_packed_v4 w7,
    ipAddress_packed_v4 w9, wrapException, Int.toNat_natCast]

theorem wrap_ok {α : Type} {r : Res α} {a : α} (h : wrapException r = .ok a) : r = .ok a := by
  cases r <;> simp_all [wrapException]

/-- Everything `Arp.fromBytes` accepts is well-formed and its values are the wire's. -/
theorem Arp.fromBytes_inv {raw rest : Bytes} {h : Arp} (hp : Arp.fromBytes raw = .ok (h, rest)) :
    28 ≤ raw.length ∧ rest = raw.drop 28 ∧ h.WF ∧ h.vals = unpackGo Arp.fmt (raw.take 28) := by
  unfold Arp.fromBytes at hp
  split at hp
  · cases hp
  rename_i hl
  have hl' : (raw.take 28).length = calcsize Arp.fmt := by
    simp [Arp.fmt, calcsize, Fld.size]; omega
  have hfit := fits_unpackGo Arp.fmt (raw.take 28) hl'
  rw [unpack, if_pos hl'] at hp
  simp only [Arp.fmt, unpackGo, bind_ok] at hp
  obtain ⟨h', he, hp⟩ := bind_eq_ok.mp hp
  have he := wrap_ok he
  cases hp
  simp only [Arp.fmt, unpackGo, Fits] at hfit
  obtain ⟨f1, f2, f3, f4, f5, f6, f7, f8, f9, _⟩ := hfit
  simp only [Arp.ofFields, Arp.setOperation, Arp.setSenderHw, Arp.setSenderProto,
    Arp.setTargetHw, Arp.setTargetProto, EthAddr.mk'_raw6 f6, EthAddr.mk'_raw6 f8, bind_ok] at he
  obtain ⟨t1, e1, he⟩ := bind_eq_ok.mp he
  obtain ⟨t2, e2, he⟩ := bind_eq_ok.mp he
  obtain ⟨x3, e3', he⟩ := bind_eq_ok.mp he
  obtain ⟨t3, e3, hx⟩ := bind_eq_ok.mp e3'
  cases hx
  simp only [ipAddress, if_pos f7, if_pos f9, bind_ok] at he
  cases he
  obtain ⟨m1, n1⟩ := enumOf_ok e1
  obtain ⟨m2, n2⟩ := enumOf_ok e2
  obtain ⟨m3, n3⟩ := enumOf_ok e3
  refine ⟨by omega, rfl, ⟨m1, m2, ?_, ?_, m3, f6, trivial, f8, trivial⟩, ?_⟩
  · obtain ⟨_, f3⟩ := f3
    simp only [Int.toNat_natCast]; omega
  · obtain ⟨_, f4⟩ := f4
    simp only [Int.toNat_natCast]; omega
  · simp only [Arp.vals, Arp.fmt, unpackGo, IPAddr.packed, enc_bv32_of_bytes f7,
      enc_bv32_of_bytes f9, n1, n2, n3, Int.toNat_natCast]

end SY
