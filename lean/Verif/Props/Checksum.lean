import Verif.Checksum

/-!
# Properties C01, C02, C03, C75: the Internet checksum

The specification below is RFC 1071's definition and does not mention the model.
-/

namespace SY.Props

/-- One's-complement (end-around carry) addition of 16-bit numbers, RFC 1071. -/
def ocAdd (a b : Nat) : Nat := if a + b ≥ 65536 then a + b - 65535 else a + b

/-- Network-order 16-bit words of a message; an odd last byte is padded with zero. -/
def netWords : Bytes → List Nat
  | a :: b :: r => (a.toNat * 256 + b.toNat) :: netWords r
  | [a] => [a.toNat * 256]
  | [] => []

/-- RFC 1071 checksum: complement of the one's-complement sum of the words. -/
def rfc1071 (d : Bytes) : Nat := 65535 - (netWords d).foldl ocAdd 0

theorem foldl_ocAdd (ws : List Nat) (h : ∀ w ∈ ws, w ≤ 65535) (a : Nat) (ha : a ≤ 65535) :
    ws.foldl ocAdd a ≤ 65535 ∧ ws.foldl ocAdd a % 65535 = (a + ws.sum) % 65535 ∧
      (ws.foldl ocAdd a = 0 ↔ a + ws.sum = 0) := by
  induction ws generalizing a with
  | nil => simp; exact ha
  | cons w ws ih =>
    have hw := h w (by simp)
    have := ih (fun w hw => h w (by simp [hw])) (ocAdd a w) (by unfold ocAdd; split <;> omega)
    simp only [List.foldl_cons, List.sum_cons]
    unfold ocAdd at this ⊢
    split at this <;> rename_i hc
    · rw [if_pos hc]; omega
    · rw [if_neg hc]; omega

theorem sum_netWords (d : Bytes) : (netWords d).sum = beSum d := by
  fun_induction netWords d with
  | case1 a b r ih => simp [beSum, ih]
  | case2 a => simp [beSum]
  | case3 => rfl

theorem netWords_le (d : Bytes) : ∀ w ∈ netWords d, w ≤ 65535 := by
  fun_induction netWords d with
  | case1 a b r ih =>
    intro w hw
    have := a.toNat_lt; have := b.toNat_lt
    simp only [List.mem_cons] at hw
    rcases hw with rfl | hw
    · omega
    · exact ih w hw
  | case2 a => intro w hw; have := a.toNat_lt; simp at hw; omega
  | case3 => intro w hw; simp at hw

/-- **C02**: for every message of at most 131074 bytes (any IP datagram with its
pseudo-header) the code's checksum is RFC 1071's. -/
theorem checksum_eq_rfc1071_partial (d : Bytes) (h : d.length ≤ 131074) :
    checksum d = rfc1071 d := by
  obtain ⟨f, h1, h2, h3, h4⟩ := checksum_char h
  obtain ⟨g1, g2, g3⟩ := foldl_ocAdd (netWords d) (netWords_le d) 0 (by omega)
  rw [sum_netWords] at g2 g3
  unfold rfc1071
  rw [h4]; omega

example : checksum [0x45, 0x00, 0x00, 0x3c, 0x1c] = rfc1071 [0x45, 0x00, 0x00, 0x3c, 0x1c] :=
  checksum_eq_rfc1071_partial _ (by decide)

theorem beSum_replicate (n : Nat) (r : Bytes) :
    beSum (List.replicate (2 * n) 255 ++ r) = 65535 * n + beSum r := by
  induction n with
  | zero => simp
  | succ n ih =>
    have : 2 * (n + 1) = (2 * n + 1) + 1 := by omega
    rw [this, List.replicate_succ, List.replicate_succ]
    simp only [List.cons_append, beSum, ih]
    simp; omega

theorem leSum_replicate (n : Nat) (r : Bytes) :
    leSum (List.replicate (2 * n) 255 ++ r) = 65535 * n + leSum r := by
  induction n with
  | zero => simp
  | succ n ih =>
    have : 2 * (n + 1) = (2 * n + 1) + 1 := by omega
    rw [this, List.replicate_succ, List.replicate_succ]
    simp only [List.cons_append, leSum_cons2, ih]
    simp; omega

theorem checksum_wrong_of_sums (d : Bytes) (h1 : leSum d = 65535 * 65538 + 1)
    (h2 : beSum d = 65535 * 65538 + 256) : checksum d ≠ rfc1071 d := by
  have h3 : checksum d = 65535 := by
    rw [checksum_eq_fold, h1]; decide
  obtain ⟨g1, g2, g3⟩ := foldl_ocAdd (netWords d) (netWords_le _) 0 (by omega)
  rw [sum_netWords, h2] at g2 g3
  unfold rfc1071
  omega

/-- A message on which two carry folds are not enough: `n` words `ffff` and one word `0001`
(in host order); the failure is at `n = 65538`, a message of 131078 bytes. -/
def bigMessage (n : Nat) : Bytes := List.replicate (2 * n) 255 ++ [1, 0]

theorem leSum_bigMessage (n : Nat) : leSum (bigMessage n) = 65535 * n + 1 := by
  unfold bigMessage; rw [leSum_replicate, leSum_cons2]; simp

theorem beSum_bigMessage (n : Nat) : beSum (bigMessage n) = 65535 * n + 256 := by
  unfold bigMessage; rw [beSum_replicate]; simp [beSum]

/-- **C02, limit**: without the size bound the equality is false; the code folds carries only
twice (the `while` loop is commented out at common.py 381-382). -/
theorem checksum_eq_rfc1071_violated : ¬ ∀ d : Bytes, checksum d = rfc1071 d :=
  fun hall => checksum_wrong_of_sums (bigMessage 65538) (leSum_bigMessage _) (beSum_bigMessage _)
    (hall _)

/-- **C01**: store the checksum, computed with the slot zero, big-endian into the slot; the
checksum of the result is zero. -/
theorem checksum_self_verifies (pre post : Bytes) (hpre : pre.length % 2 = 0)
    (hlen : (pre ++ [0, 0] ++ post).length ≤ 131074) :
    checksum (pre ++ beEnc 2 (checksum (pre ++ [0, 0] ++ post)) ++ post) = 0 :=
  checksum_store pre post hpre hlen

example : checksum ([0x45, 0x00, 0x12, 0x34] ++ beEnc 2 (checksum ([0x45, 0x00, 0x12, 0x34] ++ [0, 0] ++ [7]))
    ++ [7]) = 0 := checksum_self_verifies _ _ (by decide) (by decide)

/-- Word `k` of the data replaced by zero (the odd trailing byte is not a word). -/
def zeroWord : Nat → Bytes → Bytes
  | 0, _ :: _ :: r => 0 :: 0 :: r
  | k+1, a :: b :: r => a :: b :: zeroWord k r
  | _, r => r

theorem length_zeroWord (k : Nat) (d : Bytes) : (zeroWord k d).length = d.length := by
  fun_induction zeroWord k d <;> simp_all

theorem getLast_zeroWord (k : Nat) (d : Bytes) (h : d.length % 2 ≠ 0) :
    (zeroWord k d).getLast? = d.getLast? := by
  fun_induction zeroWord k d with
  | case1 a b r =>
    cases r with
    | nil => simp at h
    | cons c r => simp [List.getLast?_cons_cons]
  | case2 k a b r ih =>
    have hr : r.length % 2 ≠ 0 := by simp only [List.length_cons] at h; omega
    have hne : r ≠ [] := by intro e; simp [e] at hr
    have hne' : zeroWord k r ≠ [] := by
      intro e; have := length_zeroWord k r; rw [e] at this
      exact hne (List.length_eq_zero_iff.mp this.symm)
    obtain ⟨c, r', hc⟩ := List.exists_cons_of_ne_nil hne
    obtain ⟨c', r'', hc'⟩ := List.exists_cons_of_ne_nil hne'
    have := ih hr
    rw [hc'] at this ⊢
    rw [hc] at this ⊢
    simpa [List.getLast?_cons_cons] using this
  | case3 => rfl

theorem sumWords_skip (k i : Nat) (d : Bytes) :
    sumWords (some ((k + i : Nat) : Int)) i (leWords d) = sumWords none 0 (leWords (zeroWord k d)) := by
  fun_induction zeroWord k d generalizing i with
  | case1 a b r =>
    simp only [leWords, sumWords]
    have h0 : ∀ j, i < j → sumWords (some ((i : Nat) : Int)) j (leWords r) = sumWords none 0 (leWords r) := by
      intro j hj
      generalize leWords r = ws
      induction ws generalizing j with
      | nil => rfl
      | cons w ws ih =>
        simp only [sumWords]
        rw [if_neg (by simp; omega), ih (j+1) (by omega), sumWords_none (0+1) 0]
        simp
    simp
    rw [h0 _ (by omega), sumWords_none (0+1) 0]
  | case2 k a b r ih =>
    simp only [leWords, sumWords]
    rw [if_neg (by simp; omega)]
    have := ih (i+1)
    have e : k + 1 + i = k + (i + 1) := by omega
    rw [e, this, sumWords_none (0+1) 0]
    simp
  | case3 k r h1 h2 =>
    have : leWords r = [] := by
      match k, r, h1, h2 with
      | _, [], _, _ => rfl
      | _, [a], _, _ => rfl
      | 0, a :: b :: r, h1, _ => exact (h1 a b r rfl rfl).elim
      | k+1, a :: b :: r, _, h2 => exact (h2 k a b r rfl rfl).elim
    simp [this, sumWords]

/-- **C03**: skipping word `k` is the same as zeroing it. -/
theorem checksum_skip_word (d : Bytes) (k : Nat) :
    checksum d 0 (some (k : Int)) = checksum (zeroWord k d) := by
  unfold checksum
  have h := sumWords_skip k 0 d
  simp only [Nat.add_zero] at h
  have h2 : oddTail (zeroWord k d) = oddTail d := by
    unfold oddTail
    rw [length_zeroWord]
    split
    · rw [getLast_zeroWord k d ‹_›]
    · rfl
  simp only [h, h2]

/-- Beyond the data `zeroWord` changes nothing, so the skip has no effect there. -/
theorem checksum_skip_word_outside (d : Bytes) (k : Nat) (h : d.length ≤ 2 * k) :
    checksum d 0 (some (k : Int)) = checksum d := by
  rw [checksum_skip_word]
  congr 1
  fun_induction zeroWord k d with
  | case1 a b r => simp at h
  | case2 k a b r ih => rw [ih (by simp only [List.length_cons] at h; omega)]
  | case3 => rfl

example : checksum [0x45, 0, 0xab, 0xcd, 9] 0 (some 1) = checksum [0x45, 0, 0, 0, 9] :=
  checksum_skip_word _ 1

/-- **C75**: corrupting exactly one byte of a message that verifies makes it fail
verification. -/
theorem checksum_detects_byte_error (pre post : Bytes) (x y : UInt8)
    (hlen : (pre ++ x :: post).length ≤ 131074) (hv : checksum (pre ++ x :: post) = 0)
    (hxy : x ≠ y) : checksum (pre ++ y :: post) ≠ 0 := by
  have hne : x.toNat ≠ y.toNat := fun h => hxy (UInt8.toNat_inj.mp h)
  have hx := x.toNat_lt
  have hy := y.toNat_lt
  have key : ∀ pre : Bytes, ∃ c, (∀ z : UInt8, beSum (pre ++ z :: post) = c + 256 * z.toNat) ∨
      (∀ z : UInt8, beSum (pre ++ z :: post) = c + z.toNat) := by
    intro pre
    fun_induction beSum pre with
    | case1 a b r ih =>
      obtain ⟨c, hc | hc⟩ := ih
      · exact ⟨a.toNat * 256 + b.toNat + c, Or.inl (fun z => by
          simp only [List.cons_append, beSum, hc]; omega)⟩
      · exact ⟨a.toNat * 256 + b.toNat + c, Or.inr (fun z => by
          simp only [List.cons_append, beSum, hc]; omega)⟩
    | case2 a => exact ⟨a.toNat * 256 + beSum post, Or.inr (fun z => by
          simp only [List.cons_append, List.nil_append, beSum]; omega)⟩
    | case3 =>
      cases post with
      | nil => exact ⟨0, Or.inl (fun z => by simp [beSum]; omega)⟩
      | cons p post => exact ⟨p.toNat + beSum post, Or.inl (fun z => by
          simp only [List.nil_append, beSum]; omega)⟩
  have hlen' : (pre ++ y :: post).length ≤ 131074 := by simpa using hlen
  rw [checksum_eq_zero_iff hlen] at hv
  rw [Ne, checksum_eq_zero_iff hlen']
  obtain ⟨c, hc | hc⟩ := key pre
  · rw [hc] at hv ⊢; omega
  · rw [hc] at hv ⊢; omega

example : checksum ([1] ++ 2 :: [0xfe, 0xfd]) = 0 ∧ checksum ([1] ++ 3 :: [0xfe, 0xfd]) ≠ 0 :=
  ⟨by decide, checksum_detects_byte_error [1] [0xfe, 0xfd] 2 3 (by decide) (by decide) (by decide)⟩

/-- **C98**: the second argument is a number added to the sum: with it the checksum is that of the
data with a word of this value (low byte first) in front. -/
theorem checksum_start_word (d : Bytes) (k : Nat) (h : k < 65536) :
    checksum d k = checksum (UInt8.ofNat (k % 256) :: UInt8.ofNat (k / 256) :: d) := by
  unfold checksum
  have h1 : (UInt8.ofNat (k % 256)).toNat + 256 * (UInt8.ofNat (k / 256)).toNat = k := by
    rw [UInt8.toNat_ofNat', UInt8.toNat_ofNat']; omega
  have h2 : oddTail (UInt8.ofNat (k % 256) :: UInt8.ofNat (k / 256) :: d) = oddTail d := by
    unfold oddTail
    cases d with
    | nil => simp
    | cons x d =>
      have : (x :: d).length % 2 = (UInt8.ofNat (k % 256) :: UInt8.ofNat (k / 256) :: x :: d).length % 2 := by
        simp only [List.length_cons]; omega
      rw [← this, List.getLast?_cons_cons, List.getLast?_cons_cons]
  have h3 : leWords (UInt8.ofNat (k % 256) :: UInt8.ofNat (k / 256) :: d) = k :: leWords d := by
    simp only [leWords]
    rw [show ((UInt8.ofNat (k % 256)).toNat + 256 * (UInt8.ofNat (k / 256)).toNat) = k from h1]
  rw [h2, h3]
  simp only [sumWords]
  rw [sumWords_none (0 + 1) 0]
  simp only [Nat.zero_add, reduceCtorEq, if_false, Nat.add_assoc]

example : checksum [0x12, 0x34] 0x0201 = checksum [0x01, 0x02, 0x12, 0x34] :=
  checksum_start_word [0x12, 0x34] 0x0201 (by decide)

/-- **C98**: the documentation calls this argument the byte offset at which the data start; it is not. -/
theorem checksum_start_offset_violated : ¬ ∀ (d : Bytes) (k : Nat), checksum d k = checksum (d.drop k) :=
  fun h => absurd (h [1, 2, 3, 4] 2) (by decide)

end SY.Props
