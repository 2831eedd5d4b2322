import Verif.Pcap
import Verif.Props.Units
import Verif.Props.IPText

/-! # Times in capture files (C132) -/

namespace SY.Props

open SY

/-- A fraction that a double can hold is not changed by rounding it to a double. -/
theorem toDouble_exact {a b r k : Nat} (ha : 0 < a) (hb : 0 < b) (hr : r < 2 ^ 53) (h : a * 2 ^ k = r * b) :
    (toDouble a b).1 * b = a * (toDouble a b).2 ∧ 0 < (toDouble a b).2 ∧ 2 ^ k ∣ (toDouble a b).2 := by
  have key : ∃ s : Nat, (52 - floatExp a b) = (s : Int) ∧ k ≤ s := by
    unfold floatExp
    split
    · rename_i hba
      have hpos : 0 < a / b := Nat.div_pos hba hb
      have h2 : 2 ^ (a / b).log2 ≤ a / b := Nat.log2_self_le (by omega)
      have h3 : 2 ^ (a / b).log2 * b ≤ a := (Nat.le_div_iff_mul_le hb).mp h2
      have h4 : 2 ^ ((a / b).log2 + k) * b ≤ r * b := by
        rw [← h, Nat.pow_add, Nat.mul_right_comm]; exact Nat.mul_le_mul_right _ h3
      have h5 : 2 ^ ((a / b).log2 + k) < 2 ^ 53 := Nat.lt_of_le_of_lt (Nat.le_of_mul_le_mul_right h4 hb) hr
      have h6 := (Nat.pow_lt_pow_iff_right (by decide : 1 < 2)).mp h5
      exact ⟨52 - (a / b).log2, by omega, by omega⟩
    · rename_i hba
      have hlt : (b - 1) / a < 2 ^ (((b - 1) / a).log2 + 1) := Nat.lt_log2_self
      generalize ((b - 1) / a).log2 = l at hlt ⊢
      have h3 : b - 1 < 2 ^ (l + 1) * a := (Nat.div_lt_iff_lt_mul ha).mp hlt
      have h4 : b ≤ 2 ^ (l + 1) * a := by omega
      have h5 : a * 2 ^ k < a * 2 ^ (l + 54) := by
        rw [h]
        have e : 2 ^ (l + 54) = 2 ^ 53 * 2 ^ (l + 1) := by rw [← Nat.pow_add]; congr 1; omega
        calc r * b ≤ r * (2 ^ (l + 1) * a) := Nat.mul_le_mul_left _ h4
          _ < 2 ^ 53 * (2 ^ (l + 1) * a) := Nat.mul_lt_mul_of_pos_right hr (Nat.mul_pos (Nat.two_pow_pos _) ha)
          _ = a * 2 ^ (l + 54) := by rw [e, ← Nat.mul_assoc, Nat.mul_comm]
      have h6 := (Nat.pow_lt_pow_iff_right (by decide : 1 < 2)).mp (Nat.lt_of_mul_lt_mul_left h5)
      exact ⟨53 + l, by omega, by omega⟩
  obtain ⟨s, hs, hks⟩ := key
  unfold toDouble
  rw [if_neg (by omega), if_pos (by omega), hs]
  simp only [Int.toNat_natCast]
  have e : a * 2 ^ s = r * 2 ^ (s - k) * b := by
    have : 2 ^ s = 2 ^ k * 2 ^ (s - k) := by rw [← Nat.pow_add]; congr 1; omega
    rw [this, ← Nat.mul_assoc, h, Nat.mul_right_comm]
  rw [e, roundHalfEven_exact _ _ hb]
  exact ⟨e ▸ rfl, Nat.two_pow_pos _, Nat.pow_dvd_pow 2 hks⟩

/-- Rounding a fraction below 2^53 to a double: no whole number is passed on the way down, and the change is
at most half a unit of the last place. -/
theorem toDouble_floor {a b : Nat} (hb : 0 < b) (h20 : a < 2 ^ 20 * b) :
    a / b ≤ (toDouble a b).1 / (toDouble a b).2 ∧ 0 < (toDouble a b).2 ∧
    (toDouble a b).1 * b * 2 ^ 34 ≤ a * (toDouble a b).2 * 2 ^ 34 + b * (toDouble a b).2 := by
  by_cases ha : a = 0
  · subst ha; simp [toDouble]
  have key : ∃ s : Nat, (52 - floatExp a b) = (s : Int) ∧ 33 ≤ s := by
    unfold floatExp
    split
    · have hd : a / b < 2 ^ 20 := (Nat.div_lt_iff_lt_mul hb).mpr h20
      rename_i hba
      have hpos : 0 < a / b := Nat.div_pos hba hb
      have hl : (a / b).log2 < 20 := (Nat.log2_lt (by omega)).mpr hd
      exact ⟨52 - (a / b).log2, by omega, by omega⟩
    · generalize ((b - 1) / a).log2 = l
      exact ⟨53 + l, by omega, by omega⟩
  obtain ⟨s, hs, h33⟩ := key
  unfold toDouble
  rw [if_neg ha, if_pos (by omega), hs]
  simp only [Int.toNat_natCast]
  have hp : 0 < 2 ^ s := Nat.two_pow_pos s
  obtain ⟨b1, b2⟩ := roundHalfEven_bounds (a * 2 ^ s) b hb
  generalize hR : roundHalfEven (a * 2 ^ s) b = R at b1 b2 ⊢
  refine ⟨?_, hp, ?_⟩
  · rw [Nat.le_div_iff_mul_le hp, ← hR]
    have h1 : a / b * 2 ^ s ≤ a * 2 ^ s / b := by
      rw [Nat.le_div_iff_mul_le hb, Nat.mul_right_comm]
      exact Nat.mul_le_mul_right _ (Nat.div_mul_le_self a b)
    unfold roundHalfEven
    repeat' split
    all_goals omega
  · have e : 2 ^ 33 ≤ 2 ^ s := Nat.pow_le_pow_right (by decide) h33
    have h2 : R * b * 2 ^ 34 ≤ (a * 2 ^ s * 2 + b) * 2 ^ 33 := by
      have : R * b * 2 ^ 34 = (2 * (R * b)) * 2 ^ 33 := by
        rw [show (2 : Nat) ^ 34 = 2 * 2 ^ 33 by decide, ← Nat.mul_assoc, Nat.mul_comm (R * b) 2]
      rw [this]
      exact Nat.mul_le_mul_right _ (by omega)
    calc R * b * 2 ^ 34 ≤ (a * 2 ^ s * 2 + b) * 2 ^ 33 := h2
      _ = a * 2 ^ s * 2 ^ 34 + b * 2 ^ 33 := by
        rw [Nat.add_mul, Nat.mul_assoc (a * 2 ^ s)]
      _ ≤ _ := Nat.add_le_add_left (Nat.mul_le_mul_left _ e) _

/-- A fraction `p / 2 ^ k` that a double holds. -/
def IsDouble (t : Nat × Nat) : Prop := ∃ k, t.2 = 2 ^ k ∧ t.1 < 2 ^ 53

theorem mod_isDouble {t : Nat × Nat} (h : IsDouble t) : t.1 % t.2 < 2 ^ 53 :=
  let ⟨_, _, h⟩ := h
  Nat.lt_of_le_of_lt (Nat.mod_le _ _) h

/-- The microseconds of a time: never more than 2^-34 above, less than one below the exact value. -/
theorem split_bounds {t : Nat × Nat} (h : IsDouble t) :
    (splitTime t).1 = t.1 / t.2 ∧
    1000000 * (t.1 % t.2) < ((splitTime t).2 + 1) * t.2 ∧
    (splitTime t).2 * t.2 * 2 ^ 34 ≤ 1000000 * (t.1 % t.2) * 2 ^ 34 + t.2 := by
  have hm := mod_isDouble h
  obtain ⟨k, hk, hp⟩ := h
  have hq : 0 < t.2 := hk ▸ Nat.two_pow_pos k
  refine ⟨rfl, ?_⟩
  unfold splitTime
  simp only
  have hr : t.1 % t.2 < t.2 := Nat.mod_lt _ hq
  generalize t.1 % t.2 = r at hm hr ⊢
  generalize t.2 = q at *
  by_cases h0 : r = 0
  · subst h0; simp [toDouble]; exact hq
  obtain ⟨e1, e2, _⟩ := toDouble_exact (a := r) (b := q) (r := r) (k := k) (by omega) hq hm (by rw [hk])
  generalize toDouble r q = f at e1 e2 ⊢
  obtain ⟨f1, f2⟩ := f
  simp only at e1 e2 ⊢
  have hlt : 1000000 * f1 < 2 ^ 20 * f2 := by
    have : f1 * q < f2 * q := by rw [e1, Nat.mul_comm]; exact Nat.mul_lt_mul_of_pos_left hr e2
    have := Nat.lt_of_mul_lt_mul_right this
    omega
  obtain ⟨g1, g2, g3⟩ := toDouble_floor e2 hlt
  generalize toDouble (1000000 * f1) f2 = u at g1 g2 g3 ⊢
  obtain ⟨u1, u2⟩ := u
  simp only at g1 g2 g3 ⊢
  have hfl : 1000000 * f1 < (u1 / u2 + 1) * f2 := (Nat.div_lt_iff_lt_mul e2).mp (by omega)
  constructor
  · have : 1000000 * f1 * q < (u1 / u2 + 1) * f2 * q := Nat.mul_lt_mul_of_pos_right hfl hq
    rw [Nat.mul_assoc, e1, ← Nat.mul_assoc, Nat.mul_right_comm _ f2 q] at this
    exact Nat.lt_of_mul_lt_mul_right this
  · have hd : u1 / u2 * u2 ≤ u1 := Nat.div_mul_le_self _ _
    generalize u1 / u2 = n at hd ⊢
    -- n * u2 * f2 * 2^34 ≤ 1000000 * f1 * u2 * 2^34 + f2 * u2
    have s1 : n * f2 * 2 ^ 34 * u2 ≤ (1000000 * f1 * 2 ^ 34 + f2) * u2 := by
      calc n * f2 * 2 ^ 34 * u2 = n * u2 * f2 * 2 ^ 34 := by ac_rfl
        _ ≤ u1 * f2 * 2 ^ 34 := Nat.mul_le_mul_right _ (Nat.mul_le_mul_right _ hd)
        _ ≤ _ := g3
        _ = _ := by rw [Nat.add_mul]; ac_rfl
    have s2 := Nat.le_of_mul_le_mul_right s1 g2
    have s3 : n * q * 2 ^ 34 * f2 ≤ (1000000 * r * 2 ^ 34 + q) * f2 := by
      calc n * q * 2 ^ 34 * f2 = n * f2 * 2 ^ 34 * q := by ac_rfl
        _ ≤ (1000000 * f1 * 2 ^ 34 + f2) * q := Nat.mul_le_mul_right _ s2
        _ = 1000000 * (f1 * q) * 2 ^ 34 + f2 * q := by rw [Nat.add_mul]; ac_rfl
        _ = _ := by rw [e1, Nat.add_mul]; ac_rfl
    exact Nat.le_of_mul_le_mul_right s3 e2

/-- The microseconds are below a million. -/
theorem split_usec {t : Nat × Nat} (h : IsDouble t) : (splitTime t).2 < 1000000 := by
  obtain ⟨_, _, hu⟩ := split_bounds h
  have hm := mod_isDouble h
  obtain ⟨k, hk, hp⟩ := h
  have hq : 0 < t.2 := hk ▸ Nat.two_pow_pos k
  have hr : t.1 % t.2 < t.2 := Nat.mod_lt _ hq
  generalize t.1 % t.2 = r at *
  generalize (splitTime t).2 = n at *
  rw [hk] at hu hr
  apply Nat.lt_of_not_le
  intro hn
  have h1 : 1000000 * 2 ^ k * 2 ^ 34 ≤ n * 2 ^ k * 2 ^ 34 :=
    Nat.mul_le_mul_right _ (Nat.mul_le_mul_right _ hn)
  by_cases hk53 : k ≤ 53
  · have h2 : 2 ^ k ≤ 2 ^ 53 := Nat.pow_le_pow_right (by decide) hk53
    omega
  · have h2 : 2 ^ 54 ≤ 2 ^ k := Nat.pow_le_pow_right (by decide) (by omega)
    omega

end SY.Props
