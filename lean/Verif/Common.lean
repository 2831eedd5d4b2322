import Verif.Checksum
import Verif.EthAddr

/-! # Enumerations (`/repo/switchyard/lib/packet/common.py`) and IP addresses

An `IntEnum` value is its integer; the enumeration is the list of its values and
`E(v)` raises `ValueError` for any other integer. -/

namespace SY

/-- `EtherType`, common.py 7-37 (aliases share a value). -/
def etherTypes : List Nat :=
  [0xFFFF, 0x05dc, 0x0800, 0x0806, 0x0842, 0x22F0, 0x22F3, 0x22EA, 0x8035, 0x8100, 0x8102, 0x8103,
   0x8137, 0x86dd, 0x8809, 0x8847, 0x8848, 0x888e, 0x88a8, 0x88a2, 0x88a4, 0x88bb, 0x88cc, 0x88e7,
   0x88f7]

/-- `ArpHwType`, 40-41. -/
def arpHwTypes : List Nat := [1]

/-- `ArpOperation`, 44-48. -/
def arpOperations : List Nat := [1, 2, 3, 4]

/-- `IPProtocol`, 51-77. -/
def ipProtocols : List Nat :=
  [0, 1, 2, 4, 6, 17, 41, 43, 44, 46, 47, 50, 51, 55, 56, 58, 59, 60, 88, 89, 94, 97, 132, 135,
   137, 140]

/-- `IPFragmentFlag`, 80-83. -/
def ipFragmentFlags : List Nat := [0, 2, 4]

/-- `IPOptionNumber`, 86-95. -/
def ipOptionNumbers : List Nat := [0, 1, 3, 4, 7, 9, 11, 12, 20]

/-- `ICMPType`, 98-113. -/
def icmpTypes : List Nat := [0, 3, 4, 5, 8, 9, 10, 11, 12, 13, 14, 15, 16, 17, 18]

/-- `E(v)` for an `IntEnum` with the given values. -/
def enumOf (tbl : List Nat) (v : Int) : Res Nat :=
  if 0 ≤ v ∧ v.toNat ∈ tbl then .ok v.toNat else .error .valueError

theorem enumOf_nat {tbl : List Nat} {n : Nat} (h : n ∈ tbl) : enumOf tbl (n : Int) = .ok n := by
  unfold enumOf; rw [if_pos ⟨by omega, by simpa using h⟩]; simp

theorem enumOf_ok {tbl : List Nat} {v : Int} {n : Nat} (h : enumOf tbl v = .ok n) :
    n ∈ tbl ∧ v = n := by
  unfold enumOf at h
  split at h
  · rename_i hc; cases h; exact ⟨hc.2, by omega⟩
  · cases h

/-- An `ipaddress.IPv4Address` or `IPv6Address` object (Python library). -/
inductive IPAddr
  | v4 (a : BitVec 32)
  | v6 (a : BitVec 128)
  deriving DecidableEq, Repr

/-- `int(addr)`. -/
def IPAddr.toNat : IPAddr → Nat
  | .v4 a => a.toNat
  | .v6 a => a.toNat

/-- `addr.packed`. -/
def IPAddr.packed : IPAddr → Bytes
  | .v4 a => beEnc 4 a.toNat
  | .v6 a => beEnc 16 a.toNat

/-- Arguments of `ip_address`: an address object, an integer or packed bytes.  Text is not
modelled (the parsing of dotted/colon notation is the Python library's). -/
inductive IPArg
  | addr (a : IPAddr)
  | int (v : Int)
  | raw (b : Bytes)

/-- `ipaddress.ip_address(value)`: IPv4 is tried first, then IPv6, else `ValueError`. -/
def ipAddress : IPArg → Res IPAddr
  | .addr a => .ok a
  | .int v =>
    if 0 ≤ v ∧ v < (2 ^ 32 : Nat) then .ok (.v4 (BitVec.ofNat 32 v.toNat))
    else if 0 ≤ v ∧ v < (2 ^ 128 : Nat) then .ok (.v6 (BitVec.ofNat 128 v.toNat))
    else .error .valueError
  | .raw b =>
    if b.length = 4 then .ok (.v4 (BitVec.ofNat 32 (beDec b)))
    else if b.length = 16 then .ok (.v6 (BitVec.ofNat 128 (beDec b)))
    else .error .valueError

/-- `IPv4Address(b)` for bytes. -/
def ipv4OfBytes (b : Bytes) : Res (BitVec 32) :=
  if b.length = 4 then .ok (BitVec.ofNat 32 (beDec b)) else .error .addressValue

/-- `IPv6Address(b)` for bytes. -/
def ipv6OfBytes (b : Bytes) : Res (BitVec 128) :=
  if b.length = 16 then .ok (BitVec.ofNat 128 (beDec b)) else .error .addressValue

theorem bv32_lt (a : BitVec 32) : a.toNat < 256 ^ 4 := by have := a.isLt; simpa using this
theorem bv128_lt (a : BitVec 128) : a.toNat < 256 ^ 16 := by have := a.isLt; simpa using this

@[simp] theorem ipv4OfBytes_enc (a : BitVec 32) : ipv4OfBytes (beEnc 4 a.toNat) = .ok a := by
  simp [ipv4OfBytes, beDec_beEnc (bv32_lt a)]

@[simp] theorem ipv6OfBytes_enc (a : BitVec 128) : ipv6OfBytes (beEnc 16 a.toNat) = .ok a := by
  simp [ipv6OfBytes, beDec_beEnc (bv128_lt a)]

@[simp] theorem ipAddress_enc4 (a : BitVec 32) : ipAddress (.raw (beEnc 4 a.toNat)) = .ok (.v4 a) := by
  simp [ipAddress, beDec_beEnc (bv32_lt a)]

theorem enc_bv32_of_bytes {b : Bytes} (h : b.length = 4) :
    beEnc 4 (BitVec.ofNat 32 (beDec b)).toNat = b := by
  have := beDec_lt b
  rw [h] at this
  rw [BitVec.toNat_ofNat, Nat.mod_eq_of_lt (by simpa using this), beEnc_beDec' h]

theorem enc_bv128_of_bytes {b : Bytes} (h : b.length = 16) :
    beEnc 16 (BitVec.ofNat 128 (beDec b)).toNat = b := by
  have := beDec_lt b
  rw [h] at this
  rw [BitVec.toNat_ofNat, Nat.mod_eq_of_lt (by simpa using this), beEnc_beDec' h]

end SY
