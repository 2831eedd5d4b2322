import Verif.Common

/-! # Ethernet and 802.1Q headers (`/repo/switchyard/lib/packet/ethernet.py`) -/

namespace SY

/-- `Ethernet` object: slots `_src`, `_dst`, `_ethertype` (ethernet.py 97-98). -/
structure Ethernet where
  dst : EthAddr
  src : EthAddr
  ethertype : Nat
  deriving DecidableEq, Repr

/-- `_PACKFMT = '!6s6sH'`, ethernet.py 99. -/
def Ethernet.fmt : List Fld := [.s 6, .s 6, .u 2]

/-- `Ethernet()`, ethernet.py 110-113. -/
def Ethernet.default : Ethernet := ⟨.any, .any, 0x0800⟩

/-- `src` setter, 122-124. -/
def Ethernet.setSrc (h : Ethernet) (v : EthArg) : Res Ethernet :=
  EthAddr.mk' v >>= fun a => .ok { h with src := a }

/-- `dst` setter, 130-132. -/
def Ethernet.setDst (h : Ethernet) (v : EthArg) : Res Ethernet :=
  EthAddr.mk' v >>= fun a => .ok { h with dst := a }

/-- `ethertype` setter, 138-140. -/
def Ethernet.setEthertype (h : Ethernet) (v : Int) : Res Ethernet :=
  enumOf etherTypes v >>= fun t => .ok { h with ethertype := t }

/-- `size`, 115-116. -/
def Ethernet.size (_ : Ethernet) : Nat := calcsize Ethernet.fmt

/-- `to_bytes`, 142-147. -/
def Ethernet.toBytes (h : Ethernet) : Res Bytes :=
  pack Ethernet.fmt [.b h.dst.raw, .b h.src.raw, .i h.ethertype]

/-- `from_bytes`, 149-163, on a fresh object; returns the header and the unconsumed bytes. -/
def Ethernet.fromBytes (raw : Bytes) : Res (Ethernet × Bytes) :=
  if raw.length < 14 then .error .notEnoughData
  else
    unpack Ethernet.fmt (raw.take 14) >>= fun fields =>
    match fields with
    | [.b dst, .b src, .i et] =>
      Ethernet.default.setSrc (.raw src) >>= fun h =>
      h.setDst (.raw dst) >>= fun h =>
      h.setEthertype (if et ≤ 1500 then 0xFFFF else et) >>= fun h =>
      .ok (h, raw.drop 14)
    | _ => .error .structError

/-- `__eq__` against another `Ethernet`, 165-168 (addresses compared through the
`EthAddr` constructor). -/
def Ethernet.eq (h k : Ethernet) : Bool :=
  decide (h.src.raw = k.src.raw) && decide (h.dst.raw = k.dst.raw) &&
    decide (h.ethertype = k.ethertype)

/-- `Vlan` object, ethernet.py 27. -/
structure Vlan where
  vlanid : Nat
  pcp : Nat
  ethertype : Nat
  deriving DecidableEq, Repr

/-- `_PACKFMT = '!HH'`, 28. -/
def Vlan.fmt : List Fld := [.u 2, .u 2]

/-- `Vlan()`, 38-46. -/
def Vlan.default : Vlan := ⟨0, 0, 0x0800⟩

/-- `vlanid` setter, 52-54 (`int(value) & 0x0fff`, which for any Python int is the residue
modulo 4096). -/
def Vlan.setVlanid (h : Vlan) (v : Int) : Vlan := { h with vlanid := (v % 4096).toNat }

/-- `pcp` setter, 60-62 (`max(min(int(value),3),0)`). -/
def Vlan.setPcp (h : Vlan) (v : Int) : Vlan := { h with pcp := (max (min v 3) 0).toNat }

/-- `ethertype` setter, 68-70. -/
def Vlan.setEthertype (h : Vlan) (v : Int) : Res Vlan :=
  enumOf etherTypes v >>= fun t => .ok { h with ethertype := t }

/-- `size`, 90-91. -/
def Vlan.size (_ : Vlan) : Nat := calcsize Vlan.fmt

/-- `to_bytes`, 82-84. -/
def Vlan.toBytes (h : Vlan) : Res Bytes :=
  pack Vlan.fmt [.i ((h.pcp <<< 12) ||| h.vlanid : Nat), .i h.ethertype]

/-- `from_bytes`, 72-80. -/
def Vlan.fromBytes (raw : Bytes) : Res (Vlan × Bytes) :=
  if raw.length < 4 then .error .notEnoughData
  else
    unpack Vlan.fmt (raw.take 4) >>= fun fields =>
    match fields with
    | [.i tci, .i et] =>
      let h := Vlan.default.setVlanid tci
      let h := h.setPcp (((tci.toNat &&& 0xf000) >>> 12 : Nat) : Int)
      h.setEthertype et >>= fun h => .ok (h, raw.drop 4)
    | _ => .error .structError

/-- `__eq__` against another `Vlan`, 86-88: the priority is not compared. -/
def Vlan.eq (h k : Vlan) : Bool :=
  decide (h.vlanid = k.vlanid) && decide (h.ethertype = k.ethertype)

/-! ## Facts used by the property files -/

/-- Well-formed Ethernet header: six-byte addresses and an enumerated type. -/
def Ethernet.WF (h : Ethernet) : Prop :=
  h.dst.raw.length = 6 ∧ h.src.raw.length = 6 ∧ h.ethertype ∈ etherTypes

instance (h : Ethernet) : Decidable h.WF := by unfold Ethernet.WF; infer_instance

theorem etherTypes_lt {n : Nat} (h : n ∈ etherTypes) : n < 65536 := by
  have : ∀ n ∈ etherTypes, n < 65536 := by decide
  exact this n h

theorem Ethernet.fits {h : Ethernet} (w : h.WF) :
    Fits Ethernet.fmt [.b h.dst.raw, .b h.src.raw, .i h.ethertype] := by
  have := etherTypes_lt w.2.2
  simp [Fits, Ethernet.fmt, w.1, w.2.1]; omega

theorem Ethernet.toBytes_ok {h : Ethernet} (w : h.WF) :
    ∃ b, h.toBytes = .ok b ∧ b.length = 14 := by
  obtain ⟨b, hb⟩ := pack_ok (Ethernet.fits w)
  exact ⟨b, hb, length_pack hb⟩

theorem Ethernet.fromBytes_toBytes {h : Ethernet} (w : h.WF) (ht : 1500 < h.ethertype)
    {b : Bytes} (hb : h.toBytes = .ok b) (rest : Bytes) :
    Ethernet.fromBytes (b ++ rest) = .ok (h, rest) := by
  have hl : b.length = 14 := length_pack hb
  obtain ⟨h1, h2⟩ := unpack_take_append (Ethernet.fits w) hb rest
  have h1' : unpack Ethernet.fmt ((b ++ rest).take 14) =
      .ok [.b h.dst.raw, .b h.src.raw, .i h.ethertype] := h1
  have h2' : (b ++ rest).drop 14 = rest := h2
  unfold Ethernet.fromBytes
  rw [if_neg (by simp [hl]), h1', h2']
  simp only [bind_ok, Ethernet.setSrc, Ethernet.setDst, Ethernet.setEthertype,
    EthAddr.mk'_raw6 w.1, EthAddr.mk'_raw6 w.2.1]
  rw [if_neg (by omega), enumOf_nat w.2.2]
  rfl

/-- Everything `Ethernet.fromBytes` accepts. -/
theorem Ethernet.fromBytes_inv {raw rest : Bytes} {h : Ethernet}
    (hp : Ethernet.fromBytes raw = .ok (h, rest)) :
    14 ≤ raw.length ∧ rest = raw.drop 14 ∧ h.dst = ⟨raw.take 6⟩ ∧
      h.src = ⟨(raw.drop 6).take 6⟩ ∧ h.ethertype ∈ etherTypes ∧
      (let t := beDec ((raw.drop 12).take 2)
       if t ≤ 1500 then h.ethertype = 0xFFFF else h.ethertype = t) := by
  unfold Ethernet.fromBytes at hp
  split at hp
  · cases hp
  rename_i hl
  have hl' : (raw.take 14).length = calcsize Ethernet.fmt := by
    simp [Ethernet.fmt, calcsize, Fld.size]; omega
  rw [unpack, if_pos hl'] at hp
  simp only [Ethernet.fmt, unpackGo, bind_ok] at hp
  have l1 : ((raw.take 14).take 6).length = 6 := by simp; omega
  have l2 : (((raw.take 14).drop 6).take 6).length = 6 := by simp; omega
  simp only [Ethernet.setSrc, Ethernet.setDst, Ethernet.setEthertype, EthAddr.mk'_raw6 l1,
    EthAddr.mk'_raw6 l2, bind_ok] at hp
  obtain ⟨h', he, hp⟩ := bind_eq_ok.mp hp
  obtain ⟨t, ht, hp'⟩ := bind_eq_ok.mp he
  cases hp'
  cases hp
  have e1 : (raw.take 14).take 6 = raw.take 6 := by simp [List.take_take]
  have e2 : ((raw.take 14).drop 6).take 6 = (raw.drop 6).take 6 := by
    rw [List.drop_take, List.take_take]; simp
  have e3 : (((raw.take 14).drop 6).drop 6).take 2 = (raw.drop 12).take 2 := by
    rw [List.drop_drop, List.drop_take, List.take_take]; simp
  obtain ⟨m1, m2⟩ := enumOf_ok ht
  refine ⟨by omega, rfl, by rw [e1], by rw [e2], m1, ?_⟩
  rw [e3] at m2
  simp only
  split
  · rw [if_pos (by omega)] at m2; omega
  · rw [if_neg (by omega)] at m2; omega

/-- Values a `Vlan` object can hold (the setters enforce them). -/
def Vlan.WF (h : Vlan) : Prop := h.vlanid < 4096 ∧ h.pcp ≤ 3 ∧ h.ethertype ∈ etherTypes

instance (h : Vlan) : Decidable h.WF := by unfold Vlan.WF; infer_instance

theorem Vlan.tci_eq {p v : Nat} (h : v < 4096) : (p <<< 12) ||| v = p * 4096 + v := by
  rw [Nat.shiftLeft_eq, show p * 2 ^ 12 = 2 ^ 12 * p by omega,
    ← Nat.two_pow_add_eq_or_of_lt (by simpa using h)]

theorem Vlan.tci_hi (t : Nat) : (t &&& 0xf000) >>> 12 = (t / 4096) % 16 := by
  have : (t &&& 0xf000) >>> 12 = (t >>> 12) &&& 15 := by
    rw [Nat.shiftRight_and_distrib]; rfl
  rw [this, Nat.shiftRight_eq_div_pow]
  exact Nat.and_two_pow_sub_one_eq_mod _ 4

theorem Vlan.fits {h : Vlan} (w : h.WF) :
    Fits Vlan.fmt [.i ((h.pcp <<< 12) ||| h.vlanid : Nat), .i h.ethertype] := by
  have := etherTypes_lt w.2.2
  have h1 := w.1
  have h2 := w.2.1
  rw [Vlan.tci_eq w.1]
  simp [Fits, Vlan.fmt]; omega

theorem Vlan.toBytes_ok {h : Vlan} (w : h.WF) : ∃ b, h.toBytes = .ok b ∧ b.length = 4 := by
  obtain ⟨b, hb⟩ := pack_ok (Vlan.fits w)
  exact ⟨b, hb, length_pack hb⟩

theorem Vlan.fromBytes_toBytes {h : Vlan} (w : h.WF) {b : Bytes} (hb : h.toBytes = .ok b)
    (rest : Bytes) : Vlan.fromBytes (b ++ rest) = .ok (h, rest) := by
  have hl : b.length = 4 := length_pack hb
  obtain ⟨h1, h2⟩ := unpack_take_append (Vlan.fits w) hb rest
  have h1' : unpack Vlan.fmt ((b ++ rest).take 4) =
      .ok [.i ((h.pcp <<< 12) ||| h.vlanid : Nat), .i h.ethertype] := h1
  have h2' : (b ++ rest).drop 4 = rest := h2
  obtain ⟨w1, w2, w3⟩ := w
  unfold Vlan.fromBytes
  rw [if_neg (by simp [hl]), h1', h2']
  simp only [bind_ok, Vlan.setVlanid, Vlan.setPcp, Vlan.setEthertype, enumOf_nat w3,
    Vlan.tci_eq w1, Vlan.tci_hi, Int.toNat_natCast]
  obtain ⟨v, p, t⟩ := h
  simp only [Except.ok.injEq, Prod.mk.injEq, Vlan.mk.injEq, and_true]
  simp only at w1 w2
  omega

/-- Everything `Vlan.fromBytes` accepts. -/
theorem Vlan.fromBytes_inv {raw rest : Bytes} {h : Vlan}
    (hp : Vlan.fromBytes raw = .ok (h, rest)) :
    4 ≤ raw.length ∧ rest = raw.drop 4 ∧ h.vlanid = beDec (raw.take 2) % 4096 ∧
      h.pcp = min (beDec (raw.take 2) / 4096) 3 ∧ h.ethertype = beDec ((raw.drop 2).take 2) ∧
      h.ethertype ∈ etherTypes := by
  unfold Vlan.fromBytes at hp
  split at hp
  · cases hp
  rename_i hl
  have hl' : (raw.take 4).length = calcsize Vlan.fmt := by
    simp [Vlan.fmt, calcsize, Fld.size]; omega
  rw [unpack, if_pos hl'] at hp
  simp only [Vlan.fmt, unpackGo, bind_ok, Vlan.setVlanid, Vlan.setPcp, Vlan.setEthertype] at hp
  obtain ⟨h', he, hp⟩ := bind_eq_ok.mp hp
  obtain ⟨t, ht, hp'⟩ := bind_eq_ok.mp he
  cases hp'
  cases hp
  have e1 : (raw.take 4).take 2 = raw.take 2 := by simp [List.take_take]
  have e2 : ((raw.take 4).drop 2).take 2 = (raw.drop 2).take 2 := by
    rw [List.drop_take, List.take_take]; simp
  obtain ⟨m1, m2⟩ := enumOf_ok ht
  have hlt := beDec_lt (raw.take 2)
  have hlen : (raw.take 2).length = 2 := by simp; omega
  rw [hlen] at hlt
  rw [e2] at m2
  simp only [e1, Int.toNat_natCast, Vlan.tci_hi]
  refine ⟨by omega, trivial, by omega, by omega, by omega, m1⟩

end SY
