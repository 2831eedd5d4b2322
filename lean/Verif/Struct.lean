import Verif.Py

/-!
# Python's `struct` module in network byte order

The formats used by switchyard consist of unsigned big-endian integers (`B`, `H`, `I`, `Q`),
fixed byte strings (`6s`, `4s`, `16s`) and padding (`x`).  This file models
`struct.pack` / `struct.unpack` for such formats: range errors of `pack`, wrong-length
errors of `unpack`, padding and truncation of `s` items.
It models the Python library, not a file of `/repo`.
-/

namespace SY

/-- Big-endian encoding of the low `w` bytes of `n` (`int.to_bytes(w,'big')`). -/
def beEnc : Nat → Nat → Bytes
  | 0, _ => []
  | w+1, n => UInt8.ofNat (n / 256 ^ w) :: beEnc w n

/-- Big-endian value of a byte string (`int.from_bytes(b,'big')`). -/
def beDec : Bytes → Nat
  | [] => 0
  | b :: bs => b.toNat * 256 ^ bs.length + beDec bs

@[simp] theorem length_beEnc (w n : Nat) : (beEnc w n).length = w := by
  induction w with
  | zero => rfl
  | succ w ih => simp [beEnc, ih]

theorem beDec_lt (b : Bytes) : beDec b < 256 ^ b.length := by
  induction b with
  | nil => simp [beDec]
  | cons a bs ih =>
    have := a.toNat_lt
    simp only [beDec, List.length_cons, Nat.pow_succ]
    have h : a.toNat * 256 ^ bs.length ≤ 255 * 256 ^ bs.length :=
      Nat.mul_le_mul_right _ (by omega)
    omega

theorem beDec_beEnc_mod (w n : Nat) : beDec (beEnc w n) = n % 256 ^ w := by
  induction w with
  | zero => simp [beEnc, beDec, Nat.mod_one]
  | succ w ih =>
    simp only [beEnc, beDec, length_beEnc, ih]
    have h1 : (UInt8.ofNat (n / 256 ^ w)).toNat = (n / 256 ^ w) % 256 := by
      simp
    rw [h1, Nat.pow_succ, Nat.mod_mul, Nat.mul_comm]
    omega

theorem beDec_beEnc {w n : Nat} (h : n < 256 ^ w) : beDec (beEnc w n) = n := by
  rw [beDec_beEnc_mod, Nat.mod_eq_of_lt h]

theorem beEnc_add_mul (w n k : Nat) : beEnc w (k * 256 ^ w + n) = beEnc w n := by
  induction w generalizing k with
  | zero => rfl
  | succ w ih =>
    simp only [beEnc]
    congr 1
    · apply UInt8.toNat_inj.mp
      simp only [UInt8.toNat_ofNat', Nat.pow_succ]
      have : k * (256 ^ w * 256) + n = n + 256 ^ w * (k * 256) := by
        rw [Nat.add_comm, ← Nat.mul_assoc, Nat.mul_comm k, Nat.mul_assoc]
      rw [this, Nat.add_mul_div_left _ _ (Nat.pow_pos (by decide))]
      omega
    · rw [Nat.pow_succ, Nat.mul_comm (256 ^ w), ← Nat.mul_assoc]; exact ih _

theorem beEnc_beDec (b : Bytes) : beEnc b.length (beDec b) = b := by
  induction b with
  | nil => rfl
  | cons a bs ih =>
    simp only [beDec, List.length_cons, beEnc]
    congr 1
    · apply UInt8.toNat_inj.mp
      have h := beDec_lt bs
      simp only [UInt8.toNat_ofNat']
      rw [Nat.add_comm, Nat.add_mul_div_right _ _ (Nat.pow_pos (by decide)), Nat.div_eq_of_lt h]
      have := a.toNat_lt
      omega
    · rw [beEnc_add_mul]; exact ih

theorem beEnc_beDec' {w : Nat} {b : Bytes} (h : b.length = w) : beEnc w (beDec b) = b := by
  subst h; exact beEnc_beDec b

/-- A `struct` format item: unsigned integer of `w` bytes, `n`-byte string, `n` pad bytes. -/
inductive Fld
  | u (w : Nat)
  | s (n : Nat)
  | x (n : Nat)
  deriving DecidableEq, Repr

/-- A Python value given to `pack` / produced by `unpack`. -/
inductive Val
  | i (v : Int)
  | b (v : Bytes)
  deriving DecidableEq, Repr

/-- Size of an item. -/
def Fld.size : Fld → Nat
  | .u w => w
  | .s n => n
  | .x n => n

/-- `struct.calcsize`. -/
def calcsize : List Fld → Nat
  | [] => 0
  | f :: fs => f.size + calcsize fs

/-- `struct.pack('!' + fmt, *vals)`: integers out of range, a value of the wrong type, and a wrong
number of values raise `struct.error`; an `ns` item is truncated or zero-padded to `n` bytes. -/
def pack : List Fld → List Val → Res Bytes
  | [], [] => .ok []
  | [], _ :: _ => .error .structError
  | .x n :: fs, vs => (zeros n ++ ·) <$> pack fs vs
  | .u w :: fs, .i v :: vs =>
      if 0 ≤ v ∧ v < (256 ^ w : Nat) then (beEnc w v.toNat ++ ·) <$> pack fs vs
      else .error .structError
  | .s n :: fs, .b v :: vs => ((v ++ zeros (n - v.length)).take n ++ ·) <$> pack fs vs
  | .u _ :: _, _ => .error .structError
  | .s _ :: _, _ => .error .structError

/-- Decode items from a buffer already known to be long enough. -/
def unpackGo : List Fld → Bytes → List Val
  | [], _ => []
  | .x n :: fs, b => unpackGo fs (b.drop n)
  | .u w :: fs, b => .i (beDec (b.take w)) :: unpackGo fs (b.drop w)
  | .s n :: fs, b => .b (b.take n) :: unpackGo fs (b.drop n)

/-- `struct.unpack('!' + fmt, buf)`: raises `struct.error` unless the buffer has exactly the
size of the format. -/
def unpack (fs : List Fld) (b : Bytes) : Res (List Val) :=
  if b.length = calcsize fs then .ok (unpackGo fs b) else .error .structError

/-- Values that `pack` accepts for the format and does not truncate or pad. -/
def Fits : List Fld → List Val → Prop
  | [], [] => True
  | .x _ :: fs, vs => Fits fs vs
  | .u w :: fs, .i v :: vs => (0 ≤ v ∧ v < (256 ^ w : Nat)) ∧ Fits fs vs
  | .s n :: fs, .b v :: vs => v.length = n ∧ Fits fs vs
  | _, _ => False

/-- Packing values that fit never raises. -/
theorem pack_ok {fs : List Fld} {vs : List Val} (h : Fits fs vs) : ∃ b, pack fs vs = .ok b := by
  fun_induction Fits fs vs with
  | case1 => exact ⟨[], rfl⟩
  | case2 n fs vs ih =>
    obtain ⟨b, hb⟩ := ih h
    exact ⟨zeros n ++ b, by simp [pack, hb]⟩
  | case3 w fs v vs ih =>
    obtain ⟨b, hb⟩ := ih h.2
    exact ⟨beEnc w v.toNat ++ b, by simp only [pack, hb]; rw [if_pos h.1]; rfl⟩
  | case4 n fs v vs ih =>
    obtain ⟨b, hb⟩ := ih h.2
    exact ⟨_, by simp only [pack, hb]; rfl⟩
  | case5 => exact h.elim

theorem length_pack {fs : List Fld} {vs : List Val} {b : Bytes} (h : pack fs vs = .ok b) :
    b.length = calcsize fs := by
  fun_induction pack fs vs generalizing b with
  | case1 => cases h; rfl
  | case2 => cases h
  | case3 n fs vs ih =>
    obtain ⟨r, hr, rfl⟩ := map_eq_ok.mp h
    simp [calcsize, Fld.size, ih hr]
  | case4 w fs v vs hv ih =>
    obtain ⟨r, hr, rfl⟩ := map_eq_ok.mp h
    simp [calcsize, Fld.size, ih hr]
  | case5 => cases h
  | case6 n fs v vs ih =>
    obtain ⟨r, hr, rfl⟩ := map_eq_ok.mp h
    simp [calcsize, Fld.size, ih hr]
    omega
  | case7 => cases h
  | case8 => cases h

theorem unpackGo_pack {fs : List Fld} {vs : List Val} {b : Bytes} (hf : Fits fs vs)
    (h : pack fs vs = .ok b) : unpackGo fs b = vs := by
  fun_induction Fits fs vs generalizing b with
  | case1 => rfl
  | case2 n fs vs ih =>
    simp only [pack] at h
    obtain ⟨r, hr, rfl⟩ := map_eq_ok.mp h
    simp [unpackGo, ih hf hr]
  | case3 w fs v vs ih =>
    simp only [pack] at h
    rw [if_pos hf.1] at h
    obtain ⟨r, hr, rfl⟩ := map_eq_ok.mp h
    simp only [unpackGo]
    have h1 : (beEnc w v.toNat ++ r).take w = beEnc w v.toNat := by simp
    have h2 : (beEnc w v.toNat ++ r).drop w = r := by simp
    rw [h1, h2, ih hf.2 hr, beDec_beEnc (by omega)]
    congr 2
    omega
  | case4 n fs v vs ih =>
    simp only [pack] at h
    obtain ⟨r, hr, rfl⟩ := map_eq_ok.mp h
    obtain ⟨hn, hf⟩ := hf
    have e : (v ++ zeros (n - v.length)).take n = v := by
      subst hn; simp
    rw [e]
    simp only [unpackGo]
    subst hn
    simp [ih hf hr]
  | case5 => exact hf.elim

/-- `unpack(fmt, pack(fmt, *vals)) == vals`. -/
theorem unpack_pack {fs : List Fld} {vs : List Val} {b : Bytes} (hf : Fits fs vs)
    (h : pack fs vs = .ok b) : unpack fs b = .ok vs := by
  rw [unpack, if_pos (length_pack h), unpackGo_pack hf h]

/-- Formats without padding. -/
def NoPad : List Fld → Prop
  | [] => True
  | .x _ :: _ => False
  | _ :: fs => NoPad fs

theorem fits_unpackGo (fs : List Fld) (b : Bytes) (h : b.length = calcsize fs) :
    Fits fs (unpackGo fs b) := by
  induction fs generalizing b with
  | nil => trivial
  | cons f fs ih =>
    cases f with
    | x n =>
      simp only [unpackGo, Fits]
      exact ih _ (by simp only [List.length_drop, h, calcsize, Fld.size]; omega)
    | u w =>
      simp only [unpackGo, Fits]
      have hl : (b.take w).length = w := by
        simp only [List.length_take, h, calcsize, Fld.size]; omega
      have := beDec_lt (b.take w)
      rw [hl] at this
      exact ⟨⟨by omega, by exact_mod_cast this⟩,
        ih _ (by simp only [List.length_drop, h, calcsize, Fld.size]; omega)⟩
    | s n =>
      simp only [unpackGo, Fits]
      refine ⟨?_, ih _ (by simp only [List.length_drop, h, calcsize, Fld.size]; omega)⟩
      simp only [List.length_take, h, calcsize, Fld.size]; omega

theorem fits_unpack {fs : List Fld} {b : Bytes} {vs : List Val} (h : unpack fs b = .ok vs) :
    Fits fs vs := by
  unfold unpack at h
  split at h
  · cases h; exact fits_unpackGo fs b ‹_›
  · cases h

/-- `pack(fmt, *unpack(fmt, b)) == b` for formats without padding. -/
theorem pack_unpackGo (fs : List Fld) (hn : NoPad fs) (b : Bytes) (h : b.length = calcsize fs) :
    pack fs (unpackGo fs b) = .ok b := by
  induction fs generalizing b with
  | nil =>
    simp only [calcsize, List.length_eq_zero_iff] at h
    subst h; rfl
  | cons f fs ih =>
    cases f with
    | x n => exact hn.elim
    | u w =>
      have hl : (b.take w).length = w := by
        simp only [List.length_take, h, calcsize, Fld.size]; omega
      have hlt := beDec_lt (b.take w)
      rw [hl] at hlt
      simp only [unpackGo, pack]
      rw [if_pos ⟨by omega, by exact_mod_cast hlt⟩,
        ih hn _ (by simp only [List.length_drop, h, calcsize, Fld.size]; omega)]
      simp only [map_ok, Int.toNat_natCast]
      rw [beEnc_beDec' hl, List.take_append_drop]
    | s n =>
      have hl : (b.take n).length = n := by
        simp only [List.length_take, h, calcsize, Fld.size]; omega
      simp only [unpackGo, pack]
      rw [ih hn _ (by simp only [List.length_drop, h, calcsize, Fld.size]; omega)]
      simp only [map_ok, hl, Nat.sub_self]
      have : (List.take n b ++ zeros 0).take n = List.take n b := by simp [zeros, List.take_take]
      rw [this, List.take_append_drop]

theorem pack_unpack {fs : List Fld} {b : Bytes} {vs : List Val} (hn : NoPad fs)
    (h : unpack fs b = .ok vs) : pack fs vs = .ok b := by
  unfold unpack at h
  split at h
  · cases h; exact pack_unpackGo fs hn b ‹_›
  · cases h

/-- What `from_bytes` sees: the header bytes followed by anything. -/
theorem unpack_take_append {fs : List Fld} {vs : List Val} {b : Bytes} (hf : Fits fs vs)
    (h : pack fs vs = .ok b) (rest : Bytes) :
    unpack fs ((b ++ rest).take (calcsize fs)) = .ok vs ∧
      (b ++ rest).drop (calcsize fs) = rest := by
  have hl := length_pack h
  constructor
  · rw [← hl]; simpa using unpack_pack hf h
  · rw [← hl]; simp

theorem unpack_ok_of_le {fs : List Fld} {b : Bytes} (h : calcsize fs ≤ b.length) :
    unpack fs (b.take (calcsize fs)) = .ok (unpackGo fs (b.take (calcsize fs))) := by
  rw [unpack, if_pos (by simp only [List.length_take]; omega)]

@[simp] theorem pack_nil : pack [] [] = .ok [] := rfl

theorem pack_cons_u {w n : Nat} (h : n < 256 ^ w) (fs : List Fld) (vs : List Val) :
    pack (.u w :: fs) (.i n :: vs) = (beEnc w n ++ ·) <$> pack fs vs := by
  rw [pack.eq_4, if_pos ⟨by omega, by exact_mod_cast h⟩]; simp

theorem pack_cons_s {n : Nat} {b : Bytes} (h : b.length = n) (fs : List Fld) (vs : List Val) :
    pack (.s n :: fs) (.b b :: vs) = (b ++ ·) <$> pack fs vs := by
  subst h; rw [pack.eq_5]; simp [zeros]

theorem pack_cons_x (n : Nat) (fs : List Fld) (vs : List Val) :
    pack (.x n :: fs) vs = (zeros n ++ ·) <$> pack fs vs := by
  rw [pack.eq_3]

end SY
