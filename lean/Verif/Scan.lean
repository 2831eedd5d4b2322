import Verif.Py

/-! # The option-scanning loop

`IPOptionList.from_bytes` (`/repo/switchyard/lib/packet/ipv4.py` 289-307) and
`ICMPv6OptionList.from_bytes` (`icmpv6.py` 347-367) are both loops of the shape

    i = 0
    while i < len(raw):
        obj, eaten = step(raw[i:])
        opts.append(obj)
        i += eaten

`scanLoop` is that loop with explicit fuel, `scan` is the total function it computes, with the
non-terminating case made explicit; `scanLoop_none_iff` and `scanLoop_eq_scan` relate them. -/

namespace SY

variable {α : Type}

/-- The loop, literally; `none` means that it is still running when the fuel is used up. -/
def scanLoop (step : Bytes → Res (α × Nat)) : Nat → Bytes → Nat → List α → Option (Res (List α))
  | 0, _, _, _ => none
  | fuel+1, raw, i, acc =>
    if i < raw.length then
      match step (raw.drop i) with
      | .error e => some (.error e)
      | .ok (o, eaten) => scanLoop step fuel raw (i + eaten) (acc ++ [o])
    else some (.ok acc)

/-- The result of the loop; `diverges` when an iteration eats nothing. -/
def scan (step : Bytes → Res (α × Nat)) (raw : Bytes) : Res (List α) :=
  if _h : raw = [] then .ok []
  else
    match step raw with
    | .error e => .error e
    | .ok (o, eaten) =>
      if _h0 : eaten = 0 then .error .diverges
      else (o :: ·) <$> scan step (raw.drop eaten)
termination_by raw.length
decreasing_by
  have : 0 < raw.length := List.length_pos_iff.mpr ‹_›
  simp only [List.length_drop]; omega

theorem scan_nil (step : Bytes → Res (α × Nat)) : scan step [] = .ok [] := by
  rw [scan]; simp

theorem scan_cons {step : Bytes → Res (α × Nat)} {raw : Bytes} {o : α} {n : Nat}
    (hr : raw ≠ []) (h : step raw = .ok (o, n)) (hn : n ≠ 0) :
    scan step raw = (o :: ·) <$> scan step (raw.drop n) := by
  rw [scan]; simp [hr, h, hn]

theorem scanLoop_stuck {step : Bytes → Res (α × Nat)} {raw : Bytes} {i : Nat} {o : α}
    (hi : i < raw.length) (h : step (raw.drop i) = .ok (o, 0)) (fuel : Nat) (acc : List α) :
    scanLoop step fuel raw i acc = none := by
  induction fuel generalizing acc with
  | zero => rfl
  | succ fuel ih => simp only [scanLoop, if_pos hi, h, Nat.add_zero]; exact ih _

theorem scanLoop_spec (step : Bytes → Res (α × Nat)) (hs : ∀ b, step b ≠ .error .diverges)
    (raw : Bytes) (k i : Nat) (hk : raw.length - i ≤ k) (acc : List α) :
    (scan step (raw.drop i) = .error .diverges → ∀ fuel, scanLoop step fuel raw i acc = none) ∧
    (scan step (raw.drop i) ≠ .error .diverges → ∀ fuel, k < fuel →
      scanLoop step fuel raw i acc = some ((acc ++ ·) <$> scan step (raw.drop i))) := by
  induction k generalizing i acc with
  | zero =>
    have hd : raw.drop i = [] := List.drop_eq_nil_of_le (by omega)
    rw [hd, scan_nil]
    refine ⟨(fun h => by cases h), fun _ fuel hf => ?_⟩
    cases fuel with
    | zero => omega
    | succ fuel => simp [scanLoop, show ¬ i < raw.length by omega]
  | succ k ih =>
    by_cases hi : i < raw.length
    · have hd : raw.drop i ≠ [] := by
        intro h; have := congrArg List.length h; simp at this; omega
      cases hst : step (raw.drop i) with
      | error e =>
        have hsc : scan step (raw.drop i) = .error e := by rw [scan]; simp [hd, hst]
        rw [hsc]
        refine ⟨fun h => absurd (by rw [hst]; cases h; rfl) (hs (raw.drop i)), fun _ fuel hf => ?_⟩
        cases fuel with
        | zero => omega
        | succ fuel => simp [scanLoop, if_pos hi, hst]
      | ok p =>
        obtain ⟨o, n⟩ := p
        by_cases hn : n = 0
        · subst hn
          have hsc : scan step (raw.drop i) = .error .diverges := by rw [scan]; simp [hd, hst]
          rw [hsc]
          exact ⟨fun _ fuel => scanLoop_stuck hi hst fuel acc, fun h => absurd rfl h⟩
        · have hsc := scan_cons hd hst hn
          rw [List.drop_drop] at hsc
          obtain ⟨ih1, ih2⟩ := ih (i + n) (by omega) (acc ++ [o])
          rw [hsc]
          constructor
          · intro h fuel
            cases fuel with
            | zero => rfl
            | succ fuel =>
              simp only [scanLoop, if_pos hi, hst]
              apply ih1
              cases hr : scan step (raw.drop (i + n)) with
              | ok l => rw [hr] at h; cases h
              | error e => rw [hr] at h; simpa using h
          · intro h fuel hf
            cases fuel with
            | zero => omega
            | succ fuel =>
              simp only [scanLoop, if_pos hi, hst]
              rw [ih2 ?_ fuel (by omega)]
              · cases scan step (raw.drop (i + n)) <;> simp
              · intro hr; rw [hr] at h; exact h rfl
    · have hd : raw.drop i = [] := List.drop_eq_nil_of_le (by omega)
      rw [hd, scan_nil]
      refine ⟨(fun h => by cases h), fun _ fuel hf => ?_⟩
      cases fuel with
      | zero => omega
      | succ fuel => simp [scanLoop, hi]

/-- The loop runs forever exactly when `scan` says `diverges`. -/
theorem scanLoop_none_iff (step : Bytes → Res (α × Nat)) (hs : ∀ b, step b ≠ .error .diverges)
    (raw : Bytes) :
    (∀ fuel, scanLoop step fuel raw 0 [] = none) ↔ scan step raw = .error .diverges := by
  have h := scanLoop_spec step hs raw raw.length 0 (by omega) []
  rw [List.drop_zero] at h
  constructor
  · intro hf
    by_cases hd : scan step raw = .error .diverges
    · exact hd
    · have := h.2 hd (raw.length + 1) (by omega)
      rw [hf] at this; cases this
  · exact h.1

/-- Otherwise it stops after at most one iteration per byte with the result of `scan`. -/
theorem scanLoop_eq_scan (step : Bytes → Res (α × Nat)) (hs : ∀ b, step b ≠ .error .diverges)
    (raw : Bytes) (hd : scan step raw ≠ .error .diverges) (fuel : Nat) (hf : raw.length < fuel) :
    scanLoop step fuel raw 0 [] = some (scan step raw) := by
  have h := (scanLoop_spec step hs raw raw.length 0 (by omega) []).2
  rw [List.drop_zero] at h
  rw [h hd fuel hf]
  cases scan step raw <;> simp

/-- Scanning stops if no iteration on a suffix of the input eats nothing. -/
theorem scan_terminates {step : Bytes → Res (α × Nat)} (hs : ∀ b, step b ≠ .error .diverges)
    (raw : Bytes) (h : ∀ i o, step (raw.drop i) ≠ .ok (o, 0)) :
    scan step raw ≠ .error .diverges := by
  fun_induction scan step raw with
  | case1 => simp
  | case2 raw hr e he => intro h'; cases h'; exact hs _ he
  | case3 raw hr o n => exact absurd ‹_› (h 0 o)
  | case4 raw hr o n hst hn ih =>
    have := ih (fun i o => by rw [List.drop_drop]; exact h _ o)
    intro h'
    cases hq : scan step (raw.drop n) with
    | ok l => rw [hq] at h'; cases h'
    | error e => rw [hq] at h'; cases h'; exact this hq

/-- A serialised element in front of anything is read back and scanning continues after it. -/
theorem scan_append {step : Bytes → Res (α × Nat)} {o : α} {b : Bytes} (h1 : 1 ≤ b.length)
    (h : ∀ rest, step (b ++ rest) = .ok (o, b.length)) (rest : Bytes) :
    scan step (b ++ rest) = (o :: ·) <$> scan step rest := by
  have hne : b ++ rest ≠ [] := by
    intro hc; have := congrArg List.length hc; rw [List.length_append, List.length_nil] at this; omega
  rw [scan_cons hne (h rest) (by omega)]
  simp

end SY
