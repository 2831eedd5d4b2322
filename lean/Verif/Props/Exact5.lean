import Verif.Props.Show
import Verif.Props.Serve
import Verif.Props.Units

/-! # Further exact statements: labels of links (C199), ends of programs (C197) -/

namespace SY.Props
open SY

/-- A nonzero fraction below `2^33` is rounded to a multiple of some `2^-s` with `s ≥ 20`. -/
theorem toDouble_fine {p q : Nat} (hp : 0 < p) (hq : 0 < q) (h : p < 2 ^ 33 * q) :
    ∃ s, toDouble p q = (roundHalfEven (p * 2 ^ s) q, 2 ^ s) ∧ 20 ≤ s := by
  by_cases hpq : q ≤ p
  · have hd : p / q < 2 ^ 33 := (Nat.div_lt_iff_lt_mul hq).mpr h
    obtain ⟨s, hs, _, h2⟩ := toDouble_ge_one hpq hq (by omega)
    refine ⟨s, hs, ?_⟩
    apply Nat.le_of_not_lt
    intro hlt
    have h3 : 2 ^ s ≤ 2 ^ 19 := Nat.pow_le_pow_right (by omega) (by omega)
    have : p / q * 2 ^ s ≤ (2 ^ 33 - 1) * 2 ^ 19 := Nat.mul_le_mul (by omega) h3
    omega
  · refine ⟨(52 - floatExp p q).toNat, ?_, ?_⟩
    · unfold toDouble
      rw [if_neg (by omega), if_pos (by unfold floatExp; rw [if_neg hpq]; omega)]
    · unfold floatExp; rw [if_neg hpq]; omega

theorem roundHalfEven_near {m n q : Nat} (h1 : 2 * m < 2 * (n * q) + q) (h2 : 2 * (n * q) < 2 * m + q) :
    roundHalfEven m q = n := by
  have hq : 0 < q := by omega
  have hb := roundHalfEven_bounds m q hq
  generalize roundHalfEven m q = r at *
  have a : r * q < (n + 1) * q := by rw [Nat.add_mul]; omega
  have b : n * q < (r + 1) * q := by rw [Nat.add_mul]; omega
  have := Nat.lt_of_mul_lt_mul_right a
  have := Nat.lt_of_mul_lt_mul_right b
  omega

/-- A delay of `k` microseconds, given as any fraction of seconds, is printed as `k` microseconds: the
rounding to a double does not show. -/
theorem delayMicros_exact {p q k : Nat} (hq : 0 < q) (h : p * 10 ^ 6 = k * q) (hk : k < 2 ^ 33 * 10 ^ 6) :
    delayMicros p q = k := by
  by_cases hp : p = 0
  · rw [hp, Nat.zero_mul] at h
    have : k = 0 := by
      rcases Nat.mul_eq_zero.mp h.symm with h | h
      · exact h
      · omega
    rw [hp, this, delayMicros, toDouble, if_pos rfl]
    rfl
  have hlt : p < 2 ^ 33 * q := by
    have h1 : k * q < 2 ^ 33 * 10 ^ 6 * q := Nat.mul_lt_mul_of_pos_right hk hq
    have h2 : 2 ^ 33 * 10 ^ 6 * q = 2 ^ 33 * q * 10 ^ 6 := Nat.mul_right_comm _ _ _
    rw [← h, h2] at h1
    exact Nat.lt_of_mul_lt_mul_right h1
  obtain ⟨s, hs, h20⟩ := toDouble_fine (by omega) hq hlt
  have hb := roundHalfEven_bounds (p * 2 ^ s) q hq
  unfold delayMicros
  rw [hs]
  have hP : 2 ^ 20 ≤ 2 ^ s := Nat.pow_le_pow_right (by omega) h20
  generalize roundHalfEven (p * 2 ^ s) q = m at *
  generalize 2 ^ s = P at *
  have e : p * P * 10 ^ 6 = k * P * q := by
    rw [Nat.mul_right_comm, h, Nat.mul_right_comm]
  have e2 : m * q * 10 ^ 6 = m * 10 ^ 6 * q := Nat.mul_right_comm _ _ _
  have a1 : 2 * (m * 10 ^ 6) ≤ 2 * (k * P) + 10 ^ 6 := by
    apply Nat.le_of_mul_le_mul_right (c := q) _ hq
    rw [Nat.add_mul, Nat.mul_assoc 2, Nat.mul_assoc 2]
    omega
  have a2 : 2 * (k * P) ≤ 2 * (m * 10 ^ 6) + 10 ^ 6 := by
    apply Nat.le_of_mul_le_mul_right (c := q) _ hq
    rw [Nat.add_mul, Nat.mul_assoc 2, Nat.mul_assoc 2]
    omega
  exact roundHalfEven_near (by dsimp only; omega) (by dsimp only; omega)

/-- **C199**, delays: a link's delay of a whole number of microseconds, up to 2^33 seconds, is shown as
exactly that, in the largest of microseconds, milliseconds and seconds that divides it. -/
theorem label_delay_exact (other : Int × Nat → List Char) (p q k : Nat) (hq : 0 < q) (h : p * 10 ^ 6 = k * q)
    (hk : k < 2 ^ 33 * 10 ^ 6) :
    delayText other ((p : Int), q) =
      if k = 0 then "0.0 sec".toList
      else if k % 1000 ≠ 0 then natText k ++ (if k = 1 then " µsec".toList else " µsecs".toList)
      else if k % 1000000 ≠ 0 then natText (k / 1000) ++ (if k = 1000 then " msec".toList else " msecs".toList)
      else natText (k / 1000000) ++ (if k = 1000000 then " sec".toList else " secs".toList) := by
  have he := delayMicros_exact hq h hk
  have hc : ¬ ((p : Int) < 0 ∨ 2 ^ 33 * 10 ^ 6 ≤ delayMicros (p : Int).toNat q ∨
      ((p : Int) ≠ 0 ∧ delayMicros (p : Int).toNat q = 0)) := by
    simp only [Int.toNat_natCast, he]
    intro hc
    rcases hc with hc | hc | ⟨hc, h0⟩
    · omega
    · omega
    · subst h0
      rw [Nat.zero_mul] at h
      exact hc (by omega)
  unfold delayText
  dsimp only
  rw [if_neg hc, Int.toNat_natCast, he]
  have l1 : " µsec".toList ++ ['s'] = " µsecs".toList := by decide
  have l2 : " msec".toList ++ ['s'] = " msecs".toList := by decide
  have l3 : " sec".toList ++ ['s'] = " secs".toList := by decide
  unfold humanizeDelay
  by_cases h0 : k = 0
  · subst h0; rfl
  rw [if_neg h0]
  by_cases h1 : k % 1000 = 0
  · rw [if_neg (by omega), if_neg (by omega : ¬ k % 1000 ≠ 0)]
    by_cases h2 : k % 1000000 = 0
    · rw [if_neg (by omega), if_neg (by omega : ¬ k % 1000000 ≠ 0), if_pos (by omega)]
      by_cases h3 : k = 1000000
      · rw [if_pos h3, if_neg (by omega), List.append_nil]
      · rw [if_neg h3, if_pos (by omega), List.append_assoc, l3]
    · rw [if_pos (by omega), if_pos h2]
      by_cases h3 : k = 1000
      · rw [if_pos h3, if_neg (by omega), List.append_nil]
      · rw [if_neg h3, if_pos (by omega), List.append_assoc, l2]
  · rw [if_pos (by omega), if_pos h1]
    by_cases h3 : k = 1
    · rw [if_pos h3, if_neg (by omega), List.append_nil]
    · rw [if_neg h3, if_pos (by omega), List.append_assoc, l1]

/-- 200 ms, given as 0.2 s; 8589934591.999999 s is the largest delay covered. -/
example (other : Int × Nat → List Char) :
    delayText other ((1 : Nat), 5) = "200 msecs".toList ∧
    delayText other ((8589934591999999 : Nat), 1000000) = "8589934591999999 µsecs".toList := by
  rw [label_delay_exact other 1 5 200000 (by decide) (by decide) (by decide),
    label_delay_exact other 8589934591999999 1000000 8589934591999999 (by decide) (by decide) (by decide)]
  decide

/-- **C199**, capacities that are not negative are shown as `humanize_bandwidth` shows them (C93), and
negative ones in bits. -/
theorem label_capacity (n : Nat) :
    (∀ s, humanizeBandwidth n = .ok s → capText n = s) ∧
    capText (-((n : Int) + 1)) = '-' :: natText (n + 1) ++ " bits/s".toList := by
  constructor
  · intro s hs
    unfold capText
    rw [if_neg (by omega), Int.toNat_natCast, hs]
  · unfold capText
    rw [if_pos (by omega)]
    unfold intText
    rw [if_neg (by omega), show (- -((n : Int) + 1)).toNat = n + 1 by omega]

/-- **C197**: a program that handles packets without raising `Shutdown` itself never lets `Shutdown`
escape: when the scenario is over it returns. -/
theorem serve_catches_shutdown {σ : Type} (h : Handler σ) (k : Nat) (st : σ) (n : TestNet)
    (hs : ∀ st d p n, (h st d p n).2 ≠ .error .shutdown) : (serve h k st n).2 ≠ some .shutdown := by
  induction k generalizing st n with
  | zero => simp [serve]
  | succ k ih =>
    unfold serve
    split
    · exact ih _ _
    · simp
    · rename_i e h1 h2
      intro hx
      simp only [Option.some.injEq] at hx
      subst hx
      exact h1 rfl
    · rename_i r _
      split
      · rename_i n'' e he
        intro hx
        simp only [Option.some.injEq] at hx
        subst hx
        exact hs _ _ _ _ (by rw [he])
      · exact ih _ _

end SY.Props
