import Verif.Units

/-! # Properties of capacity and delay texts: C66, C67, C93 -/

namespace SY.Props
open SY

/-! ## Rounding -/

theorem roundHalfEven_bounds (p q : Nat) (hq : 0 < q) :
    2 * p ≤ 2 * (roundHalfEven p q * q) + q ∧ 2 * (roundHalfEven p q * q) ≤ 2 * p + q := by
  have h := Nat.div_add_mod p q
  have hlt := Nat.mod_lt p hq
  have e1 : (p / q + 1) * q = q * (p / q) + q := by rw [Nat.add_mul, Nat.mul_comm]; omega
  have e2 : p / q * q = q * (p / q) := Nat.mul_comm _ _
  unfold roundHalfEven
  split
  · omega
  · split
    · omega
    · split <;> omega

theorem roundHalfEven_exact (n q : Nat) (hq : 0 < q) : roundHalfEven (n * q) q = n := by
  unfold roundHalfEven
  rw [Nat.mul_mod_left, Nat.mul_div_cancel _ hq]
  simp [hq]

theorem roundHalfEven_scale (p q c : Nat) (hc : 0 < c) : roundHalfEven (p * c) (q * c) = roundHalfEven p q := by
  unfold roundHalfEven
  rw [Nat.mul_div_mul_right _ _ hc, Nat.mul_mod_mul_right]
  have h1 : (2 * (p % q * c) < q * c) ↔ (2 * (p % q) < q) := by
    rw [← Nat.mul_assoc]; exact Nat.mul_lt_mul_right hc
  have h2 : (q * c < 2 * (p % q * c)) ↔ (q < 2 * (p % q)) := by
    rw [← Nat.mul_assoc]; exact Nat.mul_lt_mul_right hc
  simp only [h1, h2]

/-- Only the quotient matters (for quotients of at least 1). -/
theorem toDouble_scale (p q c : Nat) (hc : 0 < c) (h : q ≤ p) (hp : 0 < p) : toDouble (p * c) (q * c) = toDouble p q := by
  have hpc : p * c ≠ 0 := by have := Nat.mul_pos hp hc; omega
  have he : floatExp (p * c) (q * c) = floatExp p q := by
    unfold floatExp
    rw [if_pos h, if_pos (Nat.mul_le_mul_right c h), Nat.mul_div_mul_right _ _ hc]
  unfold toDouble
  have hp0 : ¬ p = 0 := by omega
  rw [if_neg hpc, if_neg hp0, he]
  split
  · rw [Nat.mul_right_comm, roundHalfEven_scale _ _ _ hc]
  · rw [Nat.mul_right_comm q, roundHalfEven_scale _ _ _ hc]

theorem toDouble_ge_one {p q : Nat} (h : q ≤ p) (hq : 0 < q) (hb : p / q < 2 ^ 53) :
    ∃ s, toDouble p q = (roundHalfEven (p * 2 ^ s) q, 2 ^ s) ∧ s ≤ 52 ∧ 2 ^ 52 ≤ p / q * 2 ^ s := by
  have hpos : 0 < p / q := Nat.div_pos h hq
  have hl : (p / q).log2 ≤ 52 := by
    have := (Nat.log2_lt (by omega : p / q ≠ 0)).mpr hb
    omega
  have h2 : 2 ^ (p / q).log2 ≤ p / q := Nat.log2_self_le (by omega)
  have hs : (52 - floatExp p q).toNat = 52 - (p / q).log2 := by
    unfold floatExp; rw [if_pos h]; omega
  refine ⟨52 - (p / q).log2, ?_, by omega, ?_⟩
  · unfold toDouble
    rw [if_neg (by omega : ¬ p = 0), if_pos (by unfold floatExp; rw [if_pos h]; omega), hs]
  · calc 2 ^ 52 = 2 ^ (p / q).log2 * 2 ^ (52 - (p / q).log2) := by rw [← Nat.pow_add]; congr 1; omega
      _ ≤ _ := Nat.mul_le_mul_right _ h2

/-- Integers below `2^53` are doubles. -/
theorem toDouble_int {n : Nat} (h : n < 2 ^ 53) : (toDouble n 1).1 = n * (toDouble n 1).2 ∧ 0 < (toDouble n 1).2 := by
  by_cases h0 : n = 0
  · subst h0; decide
  · obtain ⟨s, hs, _, _⟩ := toDouble_ge_one (p := n) (q := 1) (by omega) (by omega) (by rw [Nat.div_one]; exact h)
    rw [hs]
    have := roundHalfEven_exact (n * 2 ^ s) 1 (by omega)
    rw [Nat.mul_one] at this
    exact ⟨this, Nat.pow_pos (by omega)⟩

/-- An exact fraction that is an integer below `2^53` stays what it is. -/
theorem toDouble_fraction_int {n d : Nat} (hd : 0 < d) (h : n < 2 ^ 53) (h0 : 0 < n) :
    toDouble (n * d) d = toDouble n 1 := by
  have := toDouble_scale n 1 d hd (by omega) h0
  rwa [Nat.one_mul] at this

/-- Rounding `b / d` to a double, multiplying by `d` and rounding again gives `b` or a number just next
to it. -/
theorem double_round_trip (b d : Nat) (hd : 0 < d) (hbd : d ≤ b) (hb2 : 2 ≤ b) (hb : b < 10 ^ 15) :
    bwCompute (b, d) (d, 1) = b ∨ bwCompute (b, d) (d, 1) + 1 = b := by
  have hq : b / d < 2 ^ 53 := Nat.lt_of_le_of_lt (Nat.div_le_self _ _) (by omega)
  obtain ⟨s, hs, hs52, hse⟩ := toDouble_ge_one hbd hd hq
  have hbnd := roundHalfEven_bounds (b * 2 ^ s) d hd
  have hP : 0 < 2 ^ s := Nat.pow_pos (by omega)
  have hdb : d * 2 ^ 52 ≤ b * 2 ^ s := by
    calc d * 2 ^ 52 ≤ d * (b / d * 2 ^ s) := Nat.mul_le_mul_left _ hse
      _ = d * (b / d) * 2 ^ s := (Nat.mul_assoc _ _ _).symm
      _ ≤ b * 2 ^ s := Nat.mul_le_mul_right _ (Nat.mul_div_le b d)
  have hbP : b * 2 ^ s < 2 ^ 50 * 2 ^ s := Nat.mul_lt_mul_of_pos_right (by omega) hP
  have hd4 : 4 * d < 2 ^ s := by omega
  generalize hm : roundHalfEven (b * 2 ^ s) d = m at hs hbnd
  have h2P : 2 * 2 ^ s ≤ b * 2 ^ s := Nat.mul_le_mul_right _ hb2
  have hle : 2 ^ s ≤ m * d := by omega
  have hquot : m * d / 2 ^ s ≤ b := by
    have : m * d < (b + 1) * 2 ^ s := by rw [Nat.add_mul]; omega
    exact Nat.le_of_lt_succ ((Nat.div_lt_iff_lt_mul hP).mpr this)
  obtain ⟨t, ht, ht52, hte⟩ := toDouble_ge_one hle hP (by omega : m * d / 2 ^ s < 2 ^ 53)
  have hbnd2 := roundHalfEven_bounds (m * d * 2 ^ t) (2 ^ s) hP
  have hQ : 0 < 2 ^ t := Nat.pow_pos (by omega)
  have hQ4 : 4 < 2 ^ t := by
    have h1 : m * d / 2 ^ s * 2 ^ t ≤ (2 ^ 50 - 1) * 2 ^ t := Nat.mul_le_mul_right _ (by omega)
    omega
  have hcomp : bwCompute (b, d) (d, 1) = roundHalfEven (m * d * 2 ^ t) (2 ^ s) / 2 ^ t := by
    unfold bwCompute
    simp only [hs, ht, Nat.mul_one]
  rw [hcomp]
  generalize roundHalfEven (m * d * 2 ^ t) (2 ^ s) = r at *
  generalize 2 ^ s = P at *
  generalize 2 ^ t = Q at *
  have e1 : 4 * (d * Q) ≤ P * Q := by
    rw [← Nat.mul_assoc]; exact Nat.mul_le_mul_right Q (by omega)
  have e2 : 4 * P ≤ P * Q := by rw [Nat.mul_comm 4]; exact Nat.mul_le_mul_left P (by omega)
  have e3 : 2 * (b * P * Q) ≤ 2 * (m * d * Q) + d * Q := by
    have := Nat.mul_le_mul_right Q hbnd.1
    rw [Nat.add_mul, Nat.mul_assoc 2, Nat.mul_assoc 2] at this
    exact this
  have e4 : 2 * (m * d * Q) ≤ 2 * (b * P * Q) + d * Q := by
    have := Nat.mul_le_mul_right Q hbnd.2
    rw [Nat.add_mul, Nat.mul_assoc 2, Nat.mul_assoc 2] at this
    exact this
  have eX : 0 < P * Q := Nat.mul_pos hP hQ
  have e5 : b * P * Q = b * Q * P := Nat.mul_right_comm _ _ _
  have e6 : P * Q = Q * P := Nat.mul_comm _ _
  have hup : r < (b + 1) * Q := by
    have : r * P < (b + 1) * Q * P := by rw [Nat.add_mul, Nat.add_mul, Nat.one_mul]; omega
    exact Nat.lt_of_mul_lt_mul_right this
  have hlo : b * Q ≤ r + Q := by
    have : b * Q * P ≤ (r + Q) * P := by rw [Nat.add_mul]; omega
    exact Nat.le_of_mul_le_mul_right this hP
  have h1 : r / Q < b + 1 := (Nat.div_lt_iff_lt_mul hQ).mpr hup
  have h2 : b ≤ r / Q + 1 := by
    have : b * Q / Q ≤ (r + Q) / Q := Nat.div_le_div_right hlo
    rwa [Nat.mul_div_cancel _ hQ, Nat.add_div_right _ hQ] at this
  omega

/-! ## Texts of numbers -/

theorem takeWhile_append_stop {α : Type} (p : α → Bool) (a : List α) (c : α) (b : List α) (ha : ∀ x ∈ a, p x = true)
    (hc : p c = false) : (a ++ c :: b).takeWhile p = a ∧ (a ++ c :: b).dropWhile p = c :: b := by
  induction a with
  | nil => simp [hc]
  | cons x a ih =>
    have := ih fun y hy => ha y (List.mem_cons_of_mem _ hy)
    simp [List.takeWhile_cons, List.dropWhile_cons, ha x List.mem_cons_self, this]

theorem takeWhile_all {α : Type} (p : α → Bool) (a : List α) (ha : ∀ x ∈ a, p x = true) :
    a.takeWhile p = a ∧ a.dropWhile p = [] := by
  induction a with
  | nil => exact ⟨rfl, rfl⟩
  | cons x a ih =>
    have := ih fun y hy => ha y (List.mem_cons_of_mem _ hy)
    simp [List.takeWhile_cons, List.dropWhile_cons, ha x List.mem_cons_self, this]

theorem natText_digits (n : Nat) : ∀ c ∈ natText n, c.isDigit = true :=
  fun _ hc => Nat.isDigit_of_mem_toDigits (by decide) (by decide) hc

theorem natText_val (n : Nat) : digitsVal (natText n) = n := Nat.ofDigitChars_ten_toDigits

theorem natText_ne_nil (n : Nat) : natText n ≠ [] := Nat.toDigits_ne_nil

theorem isDigit_numChar {c : Char} (h : c.isDigit = true) : isNumChar c = true := by simp [isNumChar, h]

theorem isDigit_not_space {c : Char} (h : c.isDigit = true) : isSpace c = false := by
  simp only [Char.isDigit, Bool.and_eq_true, decide_eq_true_eq] at h
  have h1 : 48 ≤ c.toNat := h.1
  have h2 : c ≠ ' ' := by rintro rfl; revert h1; decide
  simp only [isSpace, Bool.or_eq_false_iff, Bool.and_eq_false_iff, decide_eq_false_iff_not]
  exact ⟨⟨h2, .inr (by omega)⟩, .inr (by omega)⟩

/-- Splitting a text into number and rest. -/
theorem numberAndRest_of (v : List Char) (u : Char) (us : List Char) (c : Char) (v' : List Char) (hv : v = c :: v')
    (hd : c.isDigit = true) (hn : ∀ x ∈ v, isNumChar x = true) (hu : isSpace u = false) :
    numberAndRest (v ++ ' ' :: u :: us) = some (v, u :: us) := by
  have h1 : (v ++ ' ' :: u :: us).dropWhile isSpace = v ++ ' ' :: u :: us := by
    rw [hv, List.cons_append, List.dropWhile_cons, if_neg (by rw [isDigit_not_space hd]; decide)]
  obtain ⟨h2, h3⟩ := takeWhile_append_stop isNumChar v ' ' (u :: us) hn rfl
  unfold numberAndRest
  rw [h1, h2, h3, if_neg (by rw [hv]; simp)]
  rw [List.dropWhile_cons, if_pos (show isSpace ' ' = true by decide), List.dropWhile_cons,
    if_neg (by rw [hu]; decide)]

theorem parseDecimal_nat (n : Nat) : parseDecimal (natText n) = .ok (n, 1) := by
  unfold parseDecimal
  rw [(takeWhile_all _ _ (natText_digits n)).2]
  simp [natText_ne_nil, natText_val]

theorem dropLast_zeros (l : List Char) :
    ∃ t, l = (l.reverse.dropWhile (· = '0')).reverse ++ List.replicate t '0' := by
  have : ∀ m : List Char, ∃ t, m = List.replicate t '0' ++ m.dropWhile (· = '0') := by
    intro m
    induction m with
    | nil => exact ⟨0, rfl⟩
    | cons c m ih =>
      obtain ⟨t, ht⟩ := ih
      by_cases hc : c = '0'
      · refine ⟨t + 1, ?_⟩
        simp only [List.dropWhile_cons, hc, decide_true, if_true, List.replicate_succ, List.cons_append]
        rw [← ht]
      · exact ⟨0, by simp [List.dropWhile_cons, hc]⟩
  obtain ⟨t, ht⟩ := this l.reverse
  refine ⟨t, ?_⟩
  have := congrArg List.reverse ht
  simpa using this

/-- The fraction text stands for the fraction. -/
theorem fracText_val (w r : Nat) (hr : r < 10 ^ w) (hw : 0 < w) :
    ∃ t, (fracText w r).length + t = w ∧ digitsVal (fracText w r) * 10 ^ t = r ∧
      ∀ c ∈ fracText w r, c.isDigit = true := by
  have hlen : (natText r).length ≤ w := (Nat.length_toDigits_le_iff (by decide) hw).mpr hr
  obtain ⟨t, ht⟩ := dropLast_zeros (List.replicate (w - (natText r).length) '0' ++ natText r)
  have ht' : List.replicate (w - (natText r).length) '0' ++ natText r = fracText w r ++ List.replicate t '0' := ht
  refine ⟨t, ?_, ?_, ?_⟩
  · have := congrArg List.length ht'
    simp only [List.length_append, List.length_replicate] at this
    omega
  · have := congrArg digitsVal ht'
    simp only [digitsVal, Nat.ofDigitChars_append, Nat.ofDigitChars_replicate_zero, Nat.mul_zero] at this
    rw [show Nat.ofDigitChars 10 (natText r) 0 = r from natText_val r] at this
    rw [Nat.mul_comm]
    exact this.symm
  · intro c hc
    have : c ∈ List.replicate (w - (natText r).length) '0' ++ natText r := by
      rw [ht']; exact List.mem_append_left _ hc
    rcases List.mem_append.mp this with h | h
    · rw [(List.mem_replicate.mp h).2]; rfl
    · exact natText_digits r c h

/-- Parsing a number with a fraction. -/
theorem parseDecimal_frac (i : Nat) (f : List Char) (hf : ∀ c ∈ f, c.isDigit = true) :
    parseDecimal (natText i ++ '.' :: f) = .ok (i * 10 ^ f.length + digitsVal f, 10 ^ f.length) := by
  obtain ⟨h1, h2⟩ := takeWhile_append_stop Char.isDigit (natText i) '.' f (natText_digits i) rfl
  unfold parseDecimal
  rw [h2]
  simp only [h1]
  rw [if_pos]
  · simp only [digitsVal, Nat.ofDigitChars_append]
    rw [show Nat.ofDigitChars 10 (natText i) 0 = i from natText_val i, Nat.ofDigitChars_eq_ofDigitChars_zero, Nat.mul_comm]
  · simp only [Bool.and_eq_true, List.all_eq_true, Bool.or_eq_true, decide_eq_true_eq]
    exact ⟨hf, .inl (natText_ne_nil i)⟩

/-- The text of a value, with a unit after it, comes back as number and unit. -/
theorem bwValue_parse (b k : Nat) (u : Char) (us : List Char) (hu : isSpace u = false) :
    ∃ p q c, 0 < c ∧ p * c = b ∧ q * c = 10 ^ k ∧
      numberAndRest (bwValue b k ++ ' ' :: u :: us) = some (bwValue b k, u :: us) ∧
      parseDecimal (bwValue b k) = .ok (p, q) := by
  unfold bwValue
  split
  · rename_i h0
    obtain ⟨c, v, hv⟩ := List.exists_cons_of_ne_nil (natText_ne_nil (b / 10 ^ k))
    refine ⟨b / 10 ^ k, 1, 10 ^ k, Nat.pow_pos (by omega), Nat.div_mul_cancel (Nat.dvd_of_mod_eq_zero h0),
      by omega, ?_, parseDecimal_nat _⟩
    exact numberAndRest_of _ u us c v hv (natText_digits _ c (by rw [hv]; exact List.mem_cons_self))
      (fun x hx => isDigit_numChar (natText_digits _ x hx)) hu
  · rename_i h0
    have hk : 0 < k := by
      rcases Nat.eq_zero_or_pos k with rfl | h
      · simp [Nat.mod_one] at h0
      · exact h
    obtain ⟨t, ht1, ht2, ht3⟩ := fracText_val k (b % 10 ^ k) (Nat.mod_lt _ (Nat.pow_pos (by omega))) hk
    obtain ⟨c, v, hv⟩ := List.exists_cons_of_ne_nil (natText_ne_nil (b / 10 ^ k))
    have hpow : 10 ^ (fracText k (b % 10 ^ k)).length * 10 ^ t = 10 ^ k := by rw [← Nat.pow_add, ht1]
    refine ⟨_, _, 10 ^ t, Nat.pow_pos (by omega), ?_, hpow, ?_, parseDecimal_frac _ _ ht3⟩
    · rw [Nat.add_mul, Nat.mul_assoc, hpow, ht2, Nat.mul_comm]
      exact Nat.div_add_mod b (10 ^ k)
    · refine numberAndRest_of _ u us c (v ++ '.' :: fracText k (b % 10 ^ k)) (by rw [hv]; rfl)
        (natText_digits _ c (by rw [hv]; exact List.mem_cons_self)) ?_ hu
      intro x hx
      rcases List.mem_append.mp hx with h | h
      · exact isDigit_numChar (natText_digits _ x h)
      · rcases List.mem_cons.mp h with rfl | h
        · rfl
        · exact isDigit_numChar (ht3 x h)

/-! ## C66: capacities -/

/-- What the text of a capacity is read back as. -/
def bwBack (b : Nat) : Res (Option Nat) := humanizeBandwidth b >>= unhumanizeBandwidth

theorem bwBack_eq (b : Nat) (hb : b < 10 ^ 15) : ∃ k p q c, 0 < c ∧ p * c = b ∧ q * c = 10 ^ k ∧
    (b = 0 ∨ 10 ^ k ≤ b) ∧ k % 3 = 0 ∧ bwBack b = .ok (some (bwCompute (p, q) (10 ^ k, 1))) := by
  have key : ∀ (k : Nat) (u : Char) (us : List Char), isSpace u = false → bwUnit b = .ok (u :: us, k) →
      bwScale (u :: us ++ "/s".toList) = (10 ^ k, 1) →
      ∃ p q c, 0 < c ∧ p * c = b ∧ q * c = 10 ^ k ∧ bwBack b = .ok (some (bwCompute (p, q) (10 ^ k, 1))) := by
    intro k u us hu h1 h2
    obtain ⟨p, q, c, hc, e1, e2, e3, e4⟩ := bwValue_parse b k u (us ++ "/s".toList) hu
    refine ⟨p, q, c, hc, e1, e2, ?_⟩
    unfold bwBack humanizeBandwidth
    rw [h1]
    simp only [map_ok, bind_ok, List.append_assoc, List.cons_append]
    unfold unhumanizeBandwidth
    rw [e3]
    simp only [e4, map_ok]
    simp only [List.cons_append] at h2
    rw [h2]
  by_cases h1 : b < 1000
  · obtain ⟨p, q, c, hh⟩ := key 0 'b' "its".toList rfl (by simp [bwUnit, h1]) rfl
    exact ⟨0, p, q, c, hh.1, hh.2.1, hh.2.2.1, by omega, by omega, hh.2.2.2⟩
  by_cases h2 : b < 1000000
  · obtain ⟨p, q, c, hh⟩ := key 3 'K' "b".toList rfl (by simp [bwUnit, h1, h2]) rfl
    exact ⟨3, p, q, c, hh.1, hh.2.1, hh.2.2.1, by omega, by omega, hh.2.2.2⟩
  by_cases h3 : b < 1000000000
  · obtain ⟨p, q, c, hh⟩ := key 6 'M' "b".toList rfl (by simp [bwUnit, h1, h2, h3]) rfl
    exact ⟨6, p, q, c, hh.1, hh.2.1, hh.2.2.1, by omega, by omega, hh.2.2.2⟩
  by_cases h4 : b < 1000000000000
  · obtain ⟨p, q, c, hh⟩ := key 9 'G' "b".toList rfl (by simp [bwUnit, h1, h2, h3, h4]) rfl
    exact ⟨9, p, q, c, hh.1, hh.2.1, hh.2.2.1, by omega, by omega, hh.2.2.2⟩
  · obtain ⟨p, q, c, hh⟩ := key 12 'T' "b".toList rfl (by simp [bwUnit, h1, h2, h3, h4]; omega) rfl
    exact ⟨12, p, q, c, hh.1, hh.2.1, hh.2.2.1, by omega, by omega, hh.2.2.2⟩

theorem bwCompute_scale (p q c : Nat) (sc : Nat × Nat) (hc : 0 < c) (h : q ≤ p) (hp : 0 < p) :
    bwCompute (p * c, q * c) sc = bwCompute (p, q) sc := by
  unfold bwCompute
  simp only [toDouble_scale p q c hc h hp]

theorem bwCompute_exact (n d : Nat) (hd : 0 < d) (hn : 0 < n) (h : n * d < 2 ^ 53) : bwCompute (n * d, d) (d, 1) = n * d := by
  have hnd : n ≤ n * d := Nat.le_mul_of_pos_right n hd
  have h1 := toDouble_fraction_int (n := n) hd (by omega) hn
  obtain ⟨h2, h3⟩ := toDouble_int (n := n) (by omega)
  obtain ⟨h4, h5⟩ := toDouble_int h
  unfold bwCompute
  simp only [h1]
  generalize (toDouble n 1).2 = Q at *
  rw [h2, show n * Q * d = n * d * Q from Nat.mul_right_comm _ _ _,
    toDouble_fraction_int h3 h (by omega), h4, Nat.mul_one, Nat.mul_div_cancel _ h5]

/-- A capacity of `n` bits, kilobits, megabits, gigabits or terabits per second comes back exactly. -/
theorem bandwidth_roundtrip_partial (n k : Nat) (hn : n < 1000) (hk : k ∈ [0, 3, 6, 9, 12]) :
    bwBack (n * 10 ^ k) = .ok (some (n * 10 ^ k)) := by
  have hk12 : 10 ^ k ≤ 10 ^ 12 := Nat.pow_le_pow_right (by omega) (by simp at hk; omega)
  have hb : n * 10 ^ k < 10 ^ 15 := by
    have := Nat.mul_le_mul (Nat.le_of_lt_succ hn) hk12
    omega
  obtain ⟨j, p, q, c, hc, h1, h2, h3, h4, h5⟩ := bwBack_eq _ hb
  rw [h5]
  congr 2
  by_cases hn0 : n = 0
  · subst hn0
    have hp : p = 0 := by
      rw [Nat.zero_mul] at h1
      rcases Nat.mul_eq_zero.mp h1 with h | h <;> omega
    subst hp
    simp [bwCompute, toDouble]
  · have hpos : 0 < n * 10 ^ k := Nat.mul_pos (by omega) (Nat.pow_pos (by omega))
    have hp : 0 < p := by
      rcases Nat.eq_zero_or_pos p with h | h
      · rw [h, Nat.zero_mul] at h1; omega
      · exact h
    have hjb : 10 ^ j ≤ n * 10 ^ k := by omega
    have hqp : q ≤ p := Nat.le_of_mul_le_mul_right (by rw [h1, h2]; exact hjb) hc
    rw [← bwCompute_scale p q c _ hc hqp hp, h1, h2]
    have hdvd : ∃ m, 0 < m ∧ n * 10 ^ k = m * 10 ^ j := by
      have hlt : 10 ^ j < 10 ^ (k + 3) := by
        rw [Nat.pow_add]
        have := (Nat.mul_lt_mul_right (a := 10 ^ k) (Nat.pow_pos (by omega))).mpr hn
        omega
      have hjk : j < k + 3 := (Nat.pow_lt_pow_iff_right (by omega)).mp hlt
      have hk3 : k % 3 = 0 := by simp at hk; omega
      have hle : j ≤ k := by omega
      refine ⟨n * 10 ^ (k - j), Nat.mul_pos (by omega) (Nat.pow_pos (by omega)), ?_⟩
      rw [Nat.mul_assoc, ← Nat.pow_add, Nat.sub_add_cancel hle]
    obtain ⟨m, hm, e⟩ := hdvd
    rw [e]
    exact bwCompute_exact m (10 ^ j) (Nat.pow_pos (by omega)) hm (by rw [← e]; omega)

example : bwBack (155 * 10 ^ 6) = .ok (some 155000000) ∧ humanizeBandwidth 155000000 = .ok "155 Mb/s".toList := by
  decide +kernel

/-- Every capacity below `10^15` comes back as itself or as one bit per second less. -/
theorem bandwidth_near_partial (b : Nat) (hb : b < 10 ^ 15) :
    ∃ r, bwBack b = .ok (some r) ∧ (r = b ∨ r + 1 = b) := by
  by_cases h : b < 1000
  · have := bandwidth_roundtrip_partial b 0 h (by simp)
    rw [Nat.pow_zero, Nat.mul_one] at this
    exact ⟨b, this, .inl rfl⟩
  · obtain ⟨j, p, q, c, hc, h1, h2, h3, h4, h5⟩ := bwBack_eq b hb
    refine ⟨_, h5, ?_⟩
    have hp : 0 < p := by
      rcases Nat.eq_zero_or_pos p with h' | h'
      · rw [h', Nat.zero_mul] at h1; omega
      · exact h'
    have hjb : 10 ^ j ≤ b := by omega
    have hqp : q ≤ p := Nat.le_of_mul_le_mul_right (by rw [h1, h2]; exact hjb) hc
    rw [← bwCompute_scale p q c _ hc hqp hp, h1, h2]
    exact double_round_trip b (10 ^ j) (Nat.pow_pos (by omega)) hjb (by omega) hb

/-- False of the code: 1001 bits per second print as `1.001 Kb/s`, which is read as 1000. -/
theorem bandwidth_roundtrip_violated : humanizeBandwidth 1001 = .ok "1.001 Kb/s".toList ∧
    bwBack 1001 = .ok (some 1000) := by decide +kernel

/-- Capacities of `10^15` and more raise. -/
theorem bandwidth_too_large (b : Nat) : 10 ^ 15 ≤ b ↔ humanizeBandwidth b = .error .generic := by
  constructor
  · intro h
    simp [humanizeBandwidth, bwUnit, show ¬ b < 1000 by omega, show ¬ b < 1000000 by omega,
      show ¬ b < 1000000000 by omega, show ¬ b < 1000000000000 by omega, show ¬ b < 1000000000000000 by omega]
  · intro h
    rcases Nat.lt_or_ge b (10 ^ 15) with hb | hb
    · obtain ⟨_, _, _, _, _, _, _, _, _, h5⟩ := bwBack_eq b hb
      unfold bwBack at h5
      rw [h] at h5
      cases h5
    · exact hb

/-! ## C67: delays -/

/-- What the text of a delay is read back as. -/
def delayBack (k : Nat) : Res (Option (Nat × Nat)) := unhumanizeDelay (humanizeDelay k)

/-- The fraction `x` of a second is `k` microseconds. -/
def IsMicros (x : Nat × Nat) (k : Nat) : Prop := 0 < x.2 ∧ x.1 * 1000000 = k * x.2

theorem unhumanizeDelay_nat (n : Nat) (u : Char) (us : List Char) (hu : isSpace u = false)
    (hw : ∀ c ∈ u :: us, isWord c = true) :
    unhumanizeDelay (natText n ++ ' ' :: u :: us) = .ok ((delayDivisor (u :: us)).map fun d => (n, d)) := by
  obtain ⟨c, v, hv⟩ := List.exists_cons_of_ne_nil (natText_ne_nil n)
  have := numberAndRest_of (natText n) u us c v hv (natText_digits _ c (by rw [hv]; exact List.mem_cons_self))
      (fun x hx => isDigit_numChar (natText_digits _ x hx)) hu
  unfold unhumanizeDelay
  rw [this]
  simp only [parseDecimal_nat, bind_ok, (takeWhile_all _ _ hw).1]
  cases delayDivisor (u :: us) with
  | none => rfl
  | some d => simp

/-- Exactly which delays come back: whole seconds, and one millisecond.  All others come back as `None`. -/
theorem delay_roundtrip_iff (k : Nat) :
    ((∃ x, delayBack k = .ok (some x) ∧ IsMicros x k) ↔ k % 1000000 = 0 ∨ k = 1000) ∧
    (¬ (k % 1000000 = 0 ∨ k = 1000) → delayBack k = .ok none) := by
  have micro : 0 < k % 1000 → delayBack k = .ok none := by
    intro h
    unfold delayBack humanizeDelay
    rw [if_pos h, List.append_assoc]
    split
    · exact unhumanizeDelay_nat k 'µ' "secs".toList rfl (by decide)
    · exact unhumanizeDelay_nat k 'µ' "sec".toList rfl (by decide)
  have milli : k % 1000 = 0 → 0 < k / 1000 % 1000 → 1 < k / 1000 → delayBack k = .ok none := by
    intro h0 h h1
    unfold delayBack humanizeDelay
    rw [if_neg (by omega), if_pos h, if_pos h1, List.append_assoc]
    exact unhumanizeDelay_nat (k / 1000) 'm' "secs".toList rfl (by decide)
  have one : k = 1000 → delayBack k = .ok (some (1, 1000)) := by
    rintro rfl; decide +kernel
  have zero : k = 0 → delayBack k = .ok (some (0, 10)) := by
    rintro rfl; decide +kernel
  have secs : k % 1000000 = 0 → 0 < k → delayBack k = .ok (some (k / 1000000, 1)) := by
    intro h h0
    unfold delayBack humanizeDelay
    rw [if_neg (by omega), if_neg (by omega), if_pos (by omega), List.append_assoc]
    split
    · exact unhumanizeDelay_nat (k / 1000000) 's' "ecs".toList rfl (by decide)
    · exact unhumanizeDelay_nat (k / 1000000) 's' "ec".toList rfl (by decide)
  have none_of : ¬ (k % 1000000 = 0 ∨ k = 1000) → delayBack k = .ok none := by
    intro h
    rcases Nat.eq_zero_or_pos (k % 1000) with h0 | h0
    · exact milli h0 (by omega) (by omega)
    · exact micro h0
  refine ⟨⟨?_, ?_⟩, none_of⟩
  · rintro ⟨x, hx, _⟩
    by_cases h : k % 1000000 = 0 ∨ k = 1000
    · exact h
    · rw [none_of h] at hx; cases hx
  · rintro (h | h)
    · rcases Nat.eq_zero_or_pos k with h0 | h0
      · exact ⟨_, zero h0, by decide, by simp [h0]⟩
      · exact ⟨_, secs h h0, Nat.one_pos, by simp only; omega⟩
    · exact ⟨_, one h, by decide, by simp [h]⟩

/-- Whole seconds come back. -/
theorem delay_roundtrip_partial (n : Nat) : ∃ x, delayBack (n * 1000000) = .ok (some x) ∧ IsMicros x (n * 1000000) :=
  (delay_roundtrip_iff _).1.mpr (.inl (by omega))

/-- False of the code: the texts `humanize_delay` makes for milli- and microseconds are not among those
`unhumanize_delay` knows. -/
theorem delay_roundtrip_violated : humanizeDelay 5000 = "5 msecs".toList ∧ delayBack 5000 = .ok none ∧
    humanizeDelay 1 = "1 µsec".toList ∧ delayBack 1 = .ok none := by decide +kernel

/-! ## C93: the documented spellings -/

/-- The documented units of delays (117-120), with what one unit is in microseconds. -/
def delayUnit (u : List Char) (micros : Nat) : Prop :=
  (micros = 1 ∧ (u = "us".toList ∨ u = "usec".toList ∨ ∃ t, u = "micros".toList ++ t)) ∨
  (micros = 1000 ∧ (u = "ms".toList ∨ u = "msec".toList ∨ ∃ t, u = "millisec".toList ++ t)) ∨
  (micros = 1000000 ∧ (u = "s".toList ∨ ∃ t, u = "sec".toList ++ t))

theorem delayDivisor_unit (u : List Char) (m : Nat) (h : delayUnit u m) : ∃ d, delayDivisor u = some d ∧ m * d = 1000000 := by
  have pre : ∀ p t : List Char, p.isPrefixOf (p ++ t) = true := fun p t => by simp
  rcases h with ⟨rfl, h⟩ | ⟨rfl, h⟩ | ⟨rfl, h⟩
  · rcases h with rfl | rfl | ⟨t, rfl⟩
    · exact ⟨_, rfl, rfl⟩
    · exact ⟨_, rfl, rfl⟩
    · refine ⟨10 ^ 6, ?_, rfl⟩
      unfold delayDivisor
      rw [if_neg (by simp), if_pos (.inr (.inr (pre _ t)))]
  · rcases h with rfl | rfl | ⟨t, rfl⟩
    · exact ⟨_, rfl, rfl⟩
    · exact ⟨_, rfl, rfl⟩
    · exact ⟨10 ^ 3, rfl, rfl⟩
  · rcases h with rfl | ⟨t, rfl⟩
    · exact ⟨_, rfl, rfl⟩
    · refine ⟨1, rfl, rfl⟩

/-- Every documented spelling of a delay, `n` and a unit, is read as `n` units. -/
theorem delay_units (n m : Nat) (u : List Char) (h : delayUnit u m) (hw : ∀ c ∈ u, isWord c = true) :
    ∃ x, unhumanizeDelay (natText n ++ ' ' :: u) = .ok (some x) ∧ IsMicros x (n * m) := by
  obtain ⟨d, hd, hm⟩ := delayDivisor_unit u m h
  cases u with
  | nil =>
    rcases h with ⟨_, h⟩ | ⟨_, h⟩ | ⟨_, h⟩
    · rcases h with h | h | ⟨t, h⟩ <;> cases h
    · rcases h with h | h | ⟨t, h⟩ <;> cases h
    · rcases h with h | ⟨t, h⟩ <;> cases h
  | cons a us =>
    have ha : isSpace a = false := by
      have := hw a List.mem_cons_self
      rcases h with ⟨_, h⟩ | ⟨_, h⟩ | ⟨_, h⟩
      · rcases h with h | h | ⟨t, h⟩ <;> cases h <;> rfl
      · rcases h with h | h | ⟨t, h⟩ <;> cases h <;> rfl
      · rcases h with h | ⟨t, h⟩ <;> cases h <;> rfl
    refine ⟨(n, d), ?_, ?_, ?_⟩
    · rw [unhumanizeDelay_nat n a us ha hw, hd]; rfl
    · rcases Nat.eq_zero_or_pos d with h0 | h0
      · rw [h0] at hm; omega
      · exact h0
    · simp only; rw [Nat.mul_assoc, hm]

example : delayUnit "milliseconds".toList 1000 ∧ ∀ c ∈ "milliseconds".toList, isWord c = true :=
  ⟨.inr (.inl ⟨rfl, .inr (.inr ⟨"onds".toList, rfl⟩)⟩), by decide⟩

/-- The documented units of capacities (45-52): the first letter in either case gives the scale, a second
letter `B` means bytes, what follows is ignored. -/
theorem bandwidth_units (n k : Nat) (a b : Char) (rest : List Char)
    (ha : (k = 3 ∧ (a = 'k' ∨ a = 'K')) ∨ (k = 6 ∧ (a = 'm' ∨ a = 'M')) ∨ (k = 9 ∧ (a = 'g' ∨ a = 'G')) ∨
      (k = 12 ∧ (a = 't' ∨ a = 'T'))) (hn : 0 < n) (hlt : n * 10 ^ k < 2 ^ 53) :
    unhumanizeBandwidth (natText n ++ ' ' :: a :: b :: rest) =
      .ok (some (n * 10 ^ k * if b = 'B' then 8 else 1)) := by
  obtain ⟨c, v, hv⟩ := List.exists_cons_of_ne_nil (natText_ne_nil n)
  have hsp : isSpace a = false := by
    rcases ha with ⟨_, rfl | rfl⟩ | ⟨_, rfl | rfl⟩ | ⟨_, rfl | rfl⟩ | ⟨_, rfl | rfl⟩ <;> rfl
  have hnr := numberAndRest_of (natText n) a (b :: rest) c v hv
      (natText_digits _ c (by rw [hv]; exact List.mem_cons_self))
      (fun x hx => isDigit_numChar (natText_digits _ x hx)) hsp
  have hmul : bwMultiplier a = 10 ^ k := by
    rcases ha with ⟨rfl, rfl | rfl⟩ | ⟨rfl, rfl | rfl⟩ | ⟨rfl, rfl | rfl⟩ | ⟨rfl, rfl | rfl⟩ <;> rfl
  unfold unhumanizeBandwidth
  rw [hnr]
  simp only [parseDecimal_nat, map_ok, bwScale, hmul]
  have hnle : n ≤ n * 10 ^ k := Nat.le_mul_of_pos_right n (Nat.pow_pos (by omega))
  obtain ⟨h2, h3⟩ := toDouble_int (n := n) (by omega)
  obtain ⟨h4, h5⟩ := toDouble_int hlt
  unfold bwCompute
  simp only
  generalize (toDouble n 1).2 = Q at *
  rw [h2, show n * Q * 10 ^ k = n * 10 ^ k * Q from Nat.mul_right_comm _ _ _,
    toDouble_fraction_int h3 hlt (by omega), h4]
  congr 2
  rw [Nat.mul_right_comm, Nat.mul_div_cancel _ h5]

example : unhumanizeBandwidth "10 MByte per sec".toList = .ok (some 80000000) := by decide +kernel

/-- False of the code: a unit that is not known does not give `None` but capacity 0, and `B/s` is read as
bits per second. -/
theorem bandwidth_units_violated : unhumanizeBandwidth "5 Pb/s".toList = .ok (some 0) ∧
    unhumanizeBandwidth "5 B/s".toList = .ok (some 5) := by decide +kernel

end SY.Props
