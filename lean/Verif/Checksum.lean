import Verif.Struct

/-! # The Internet checksum (`/repo/switchyard/lib/packet/common.py`) -/

namespace SY

/-- `array.array('H', data)` on a little-endian host: 16-bit words, low byte first.  An odd
trailing byte is not part of the array (common.py 362-365: `data[:-1]`). -/
def leWords : Bytes → List Nat
  | a :: b :: r => (a.toNat + 256 * b.toNat) :: leWords r
  | _ => []

/-- The accumulation loop, common.py 367-374; `i` is the index of the first word of the list,
`skip` the word index to omit. -/
def sumWords (skip : Option Int) : Nat → List Nat → Nat
  | _, [] => 0
  | i, w :: ws => (if skip = some (i : Int) then 0 else w) + sumWords skip (i + 1) ws

/-- `struct.unpack('H', data[-1:]+b'\x00')[0]` when the length is odd, common.py 376-377. -/
def oddTail (data : Bytes) : Nat :=
  if data.length % 2 ≠ 0 then (data.getLast?.getD 0).toNat else 0

/-- `socket.ntohs` on a little-endian host: swap the two bytes. -/
def ntohs (x : Nat) : Nat := (x % 256) * 256 + x / 256

/-- `checksum(data, start, skip_word)`, common.py 352-384.  `~s & 0xffff` is
`0xffff - (s & 0xffff)` for a non-negative `s`.  The host is assumed little-endian
(`array('H')`, `struct 'H'` and `ntohs` all use the native order). -/
def checksum (data : Bytes) (start : Nat := 0) (skip : Option Int := none) : Nat :=
  let s := start + sumWords skip 0 (leWords data) + oddTail data
  let s1 := (s >>> 16) + (s &&& 0xffff)
  let s2 := s1 + (s1 >>> 16)
  ntohs (0xffff - (s2 &&& 0xffff))

/-! ## Auxiliary facts -/

/-- Sum of the big-endian 16-bit words of a byte string, odd tail padded with zero. -/
def beSum : Bytes → Nat
  | a :: b :: r => (a.toNat * 256 + b.toNat) + beSum r
  | [a] => a.toNat * 256
  | [] => 0

/-- The value the code accumulates. -/
def leSum (d : Bytes) : Nat := sumWords none 0 (leWords d) + oddTail d

theorem sumWords_none (i j : Nat) (ws : List Nat) : sumWords none i ws = sumWords none j ws := by
  induction ws generalizing i j with
  | nil => rfl
  | cons w ws ih => simp [sumWords, ih (i+1) (j+1)]

theorem leSum_cons2 (a b : UInt8) (r : Bytes) :
    leSum (a :: b :: r) = a.toNat + 256 * b.toNat + leSum r := by
  unfold leSum
  simp only [leWords, sumWords, oddTail, List.length_cons]
  rw [sumWords_none (0+1) 0]
  have : (r.length + 1 + 1) % 2 = r.length % 2 := by omega
  by_cases h : r.length % 2 = 0
  · simp [this, h]
  · have h' : r ≠ [] := by intro e; simp [e] at h
    have : (a :: b :: r).getLast? = r.getLast? := by
      cases r with
      | nil => exact absurd rfl h'
      | cons c r => simp [List.getLast?_cons_cons]
    simp [*]; omega

@[simp] theorem leSum_nil : leSum [] = 0 := rfl
@[simp] theorem leSum_one (a : UInt8) : leSum [a] = a.toNat := by
  simp [leSum, leWords, sumWords, oddTail]

theorem leSum_mod (d : Bytes) : leSum d % 65535 = (256 * beSum d) % 65535 := by
  fun_induction beSum d with
  | case1 a b r ih => rw [leSum_cons2]; omega
  | case2 a => simp; omega
  | case3 => rfl

theorem leSum_eq_zero (d : Bytes) : leSum d = 0 ↔ beSum d = 0 := by
  fun_induction beSum d with
  | case1 a b r ih => rw [leSum_cons2]; omega
  | case2 a => rw [leSum_one]; omega
  | case3 => simp

theorem leSum_le (d : Bytes) : leSum d ≤ 65535 * ((d.length + 1) / 2) := by
  fun_induction beSum d with
  | case1 a b r ih =>
    have := a.toNat_lt; have := b.toNat_lt
    rw [leSum_cons2]; simp only [List.length_cons]; omega
  | case2 a => have := a.toNat_lt; simp; omega
  | case3 => simp

theorem beSum_le (d : Bytes) : beSum d ≤ 65535 * ((d.length + 1) / 2) := by
  fun_induction beSum d with
  | case1 a b r ih =>
    have := a.toNat_lt; have := b.toNat_lt
    simp only [List.length_cons]; omega
  | case2 a => have := a.toNat_lt; simp; omega
  | case3 => simp

theorem beSum_append (a b : Bytes) (h : a.length % 2 = 0) :
    beSum (a ++ b) = beSum a + beSum b := by
  fun_induction beSum a with
  | case1 x y r ih =>
    have : r.length % 2 = 0 := by simp only [List.length_cons] at h; omega
    simp only [List.cons_append, beSum, ih this]; omega
  | case2 x => simp at h
  | case3 => simp

/-- The two-step folding of common.py 379-380, written with division. -/
def fold2 (s : Nat) : Nat :=
  let s1 := s / 65536 + s % 65536
  (s1 + s1 / 65536) % 65536

theorem checksum_eq_fold (d : Bytes) : checksum d = ntohs (65535 - fold2 (leSum d)) := by
  unfold checksum fold2 leSum
  simp only [Nat.zero_add, Nat.shiftRight_eq_div_pow]
  have h (x : Nat) : x &&& 65535 = x % 65536 := Nat.and_two_pow_sub_one_eq_mod x 16
  simp only [h, Nat.reducePow]

theorem fold2_spec {s : Nat} (h : s < 2 ^ 32) :
    fold2 s ≤ 65535 ∧ fold2 s % 65535 = s % 65535 ∧ (fold2 s = 0 ↔ s = 0) := by
  unfold fold2
  simp only
  obtain ⟨q, hq⟩ : ∃ q, q = s / 65536 := ⟨_, rfl⟩
  obtain ⟨r, hr⟩ : ∃ r, r = s % 65536 := ⟨_, rfl⟩
  have hs : s = 65536 * q + r := by omega
  have hq' : q < 65536 := by omega
  have hr' : r < 65536 := by omega
  rw [← hq, ← hr]
  by_cases hc : q + r < 65536
  · have : (q + r) / 65536 = 0 := by omega
    rw [this]; omega
  · have : (q + r) / 65536 = 1 := by omega
    have h2 : (q + r + 1) % 65536 = q + r + 1 - 65536 := by omega
    rw [this, h2]; omega

/-- `checksum`, through the big-endian sum. -/
theorem checksum_char {d : Bytes} (h : d.length ≤ 131074) :
    ∃ f, f ≤ 65535 ∧ f % 65535 = beSum d % 65535 ∧ (f = 0 ↔ beSum d = 0) ∧
      checksum d = 65535 - f := by
  have hle : leSum d < 2 ^ 32 := by have := leSum_le d; omega
  obtain ⟨h1, h2, h3⟩ := fold2_spec hle
  have h4 := leSum_mod d
  have h5 := leSum_eq_zero d
  refine ⟨ntohs (fold2 (leSum d)), ?_, ?_, ?_, ?_⟩
  · unfold ntohs; omega
  · unfold ntohs; omega
  · unfold ntohs; omega
  · rw [checksum_eq_fold]; unfold ntohs; omega

theorem checksum_lt (d : Bytes) : checksum d < 65536 := by
  rw [checksum_eq_fold]; unfold ntohs fold2; simp only; omega

/-- `checksum` is zero exactly when the big-endian sum is a non-zero multiple of 65535. -/
theorem checksum_eq_zero_iff {d : Bytes} (h : d.length ≤ 131074) :
    checksum d = 0 ↔ beSum d % 65535 = 0 ∧ beSum d ≠ 0 := by
  obtain ⟨f, h1, h2, h3, h4⟩ := checksum_char h
  rw [h4]; omega

/-- The value to be stored makes the sum a non-zero multiple of 65535. -/
theorem checksum_add_beSum {d : Bytes} (h : d.length ≤ 131074) :
    (checksum d + beSum d) % 65535 = 0 ∧ checksum d + beSum d ≠ 0 := by
  obtain ⟨f, h1, h2, h3, h4⟩ := checksum_char h
  rw [h4]; omega

/-- Sum of a two-byte big-endian encoding. -/
theorem beSum_beEnc2 {n : Nat} (h : n < 65536) (r : Bytes) :
    beSum (beEnc 2 n ++ r) = n + beSum r := by
  simp only [beEnc, List.cons_append, List.nil_append, beSum, UInt8.toNat_ofNat', Nat.reducePow]
  omega

/-- Storing the checksum, computed with the slot zero, into the slot makes the checksum of the
whole zero. -/
theorem checksum_store (pre post : Bytes) (hpre : pre.length % 2 = 0)
    (hlen : (pre ++ [0, 0] ++ post).length ≤ 131074) :
    checksum (pre ++ beEnc 2 (checksum (pre ++ [0, 0] ++ post)) ++ post) = 0 := by
  have hlt := checksum_lt (pre ++ [0, 0] ++ post)
  have hadd := checksum_add_beSum hlen
  have e1 : beSum (pre ++ [0, 0] ++ post) = beSum pre + beSum post := by
    rw [List.append_assoc, beSum_append _ _ hpre]; simp [beSum]
  have e2 : beSum (pre ++ beEnc 2 (checksum (pre ++ [0, 0] ++ post)) ++ post)
      = beSum pre + (checksum (pre ++ [0, 0] ++ post) + beSum post) := by
    rw [List.append_assoc, beSum_append _ _ hpre, beSum_beEnc2 hlt]
  rw [checksum_eq_zero_iff (by simp at hlen ⊢; omega), e2]
  rw [e1] at hadd
  omega

end SY
