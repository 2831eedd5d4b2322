import Verif.Json
import Verif.Props.IPText

/-! # JSON texts are read back

What `json.loads` makes of the text that `json.dumps` wrote, and of a part of it. -/

namespace SY.Props

open SY

/-! ## Strings -/

theorem hexVal_digit (n : Nat) (h : n < 16) : jsonHexVal (jsonHexDigit n) = some n := by
  have key : ∀ n : Fin 16, jsonHexVal (jsonHexDigit n) = some n.val := by decide +kernel
  exact key ⟨n, h⟩

theorem readHex4_text (n : Nat) (h : n < 65536) (r : List Char) : readHex4 (jsonHex4 n ++ r) = .ok (n, r) := by
  simp only [jsonHex4, List.cons_append, List.nil_append, readHex4,
    hexVal_digit (n / 4096 % 16) (by omega), hexVal_digit (n / 256 % 16) (by omega), hexVal_digit (n / 16 % 16) (by omega),
    hexVal_digit (n % 16) (by omega)]
  congr 2
  omega

theorem readHex4_short (r : List Char) (h : r.length < 4) : readHex4 r = .error .valueError := by
  match r, h with
  | [], _ => rfl
  | [_], _ => rfl
  | [_, _], _ => rfl
  | [_, _, _], _ => rfl
  | _ :: _ :: _ :: _ :: _, h => simp at h; omega

theorem jsonHex4_length (n : Nat) : (jsonHex4 n).length = 4 := rfl

theorem char_code (c : Char) : c.toNat < 0xd800 ∨ 0xe000 ≤ c.toNat ∧ c.toNat < 0x110000 := by
  have h := c.valid
  simp only [UInt32.isValidChar, Nat.isValidChar] at h
  show c.val.toNat < 0xd800 ∨ 0xe000 ≤ c.val.toNat ∧ c.val.toNat < 0x110000
  omega

theorem ofNat_code (c : Char) : Char.ofNat c.toNat = c := Char.ofNat_toNat c

/-- One character is read back. -/
theorem scanStr_char (c : Char) (f : Nat) (r : List Char) :
    scanStr (f + 1) (jsonChar c ++ r) = scanStr f r >>= fun y => .ok (c :: y.1, y.2) := by
  have hc := char_code c
  unfold jsonChar
  split
  · rename_i h; subst h; simp [scanStr, readEscape, jsonEscape, bind_ok]
  split
  · rename_i h; subst h; simp [scanStr, readEscape, jsonEscape, bind_ok]
  split
  · rename_i h; subst h; simp [scanStr, readEscape, jsonEscape, bind_ok]
  split
  · rename_i h; subst h; simp [scanStr, readEscape, jsonEscape, bind_ok]
  split
  · rename_i h; subst h; simp [scanStr, readEscape, jsonEscape, bind_ok]
  split
  · rename_i h
    obtain rfl : c = Char.ofNat 12 := by rw [← h, ofNat_code]
    simp [scanStr, readEscape, jsonEscape, bind_ok]
  split
  · rename_i h
    obtain rfl : c = Char.ofNat 8 := by rw [← h, ofNat_code]
    simp [scanStr, readEscape, jsonEscape, bind_ok]
  split
  · rename_i h1 h2 _ _ _ _ _ h3
    simp only [List.cons_append, List.nil_append, scanStr, if_neg h1, if_neg h2, if_neg (show ¬ c.toNat < 32 by omega)]
  split
  · rename_i h3
    simp only [List.cons_append, scanStr, if_neg (show ('\\' : Char) ≠ '"' by decide), if_true, readEscape]
    rw [readHex4_text _ h3, bind_ok, readCode, if_neg (by simp only; omega), if_neg (by simp only; omega), bind_ok, ofNat_code]
  · rename_i h3
    simp only [List.cons_append, List.append_assoc, scanStr, if_neg (show ('\\' : Char) ≠ '"' by decide), if_true, readEscape]
    rw [readHex4_text _ (by omega), bind_ok, readCode, if_pos (by simp only; omega)]
    simp only [readLow]
    rw [readHex4_text _ (by omega), bind_ok, if_pos (by simp only; omega), bind_ok]
    simp only
    rw [show 65536 + (0xd800 + (c.toNat - 65536) / 1024 - 0xd800) * 1024 + (0xdc00 + (c.toNat - 65536) % 1024 - 0xdc00) = c.toNat by
      omega, ofNat_code]

theorem jsonChar_length (c : Char) : 0 < (jsonChar c).length := by
  unfold jsonChar
  repeat' split
  all_goals simp

/-- A string is read back. -/
theorem scanStr_text (s : List Char) : ∀ (f : Nat) (r : List Char), (jsonTail s).length ≤ f →
    scanStr f (jsonTail s ++ r) = .ok (s, r) := by
  induction s with
  | nil =>
    intro f r hf
    obtain ⟨f, rfl⟩ : ∃ g, f = g + 1 := ⟨f - 1, by simp [jsonTail] at hf; omega⟩
    simp [jsonTail, scanStr]
  | cons c s ih =>
    intro f r hf
    have hl := jsonChar_length c
    simp only [jsonTail, List.length_append] at hf
    obtain ⟨f, rfl⟩ : ∃ g, f = g + 1 := ⟨f - 1, by omega⟩
    rw [jsonTail, List.append_assoc, scanStr_char, ih f r (by omega), bind_ok]

/-- The forms in which a character is written. -/
theorem jsonChar_cases (c : Char) : jsonChar c = [c] ∨ (∃ x, jsonChar c = ['\\', x]) ∨
    (∃ n, jsonChar c = '\\' :: 'u' :: jsonHex4 n) ∨
    ∃ hi lo, 0xd800 ≤ hi ∧ hi < 0xdc00 ∧ jsonChar c = '\\' :: 'u' :: (jsonHex4 hi ++ '\\' :: 'u' :: jsonHex4 lo) := by
  have hc := char_code c
  generalize h : jsonChar c = t
  unfold jsonChar at h
  split at h
  · exact .inr (.inl ⟨_, h.symm⟩)
  split at h
  · exact .inr (.inl ⟨_, h.symm⟩)
  split at h
  · exact .inr (.inl ⟨_, h.symm⟩)
  split at h
  · exact .inr (.inl ⟨_, h.symm⟩)
  split at h
  · exact .inr (.inl ⟨_, h.symm⟩)
  split at h
  · exact .inr (.inl ⟨_, h.symm⟩)
  split at h
  · exact .inr (.inl ⟨_, h.symm⟩)
  split at h
  · exact .inl h.symm
  split at h
  · exact .inr (.inr (.inl ⟨_, h.symm⟩))
  · exact .inr (.inr (.inr ⟨_, _, by omega, by omega, h.symm⟩))

/-- A part of a character is refused. -/
theorem scanStr_char_cut (c : Char) (f k : Nat) (h0 : 0 < k) (hk : k < (jsonChar c).length) :
    scanStr (f + 1) ((jsonChar c).take k) = .error .valueError := by
  have he : ∀ r, readEscape r = .error .valueError → scanStr (f + 1) ('\\' :: r) = .error .valueError := by
    intro r hr
    simp only [scanStr, if_neg (show ('\\' : Char) ≠ '"' by decide), if_true, hr]
    rfl
  obtain ⟨k, rfl⟩ : ∃ j, k = j + 1 := ⟨k - 1, by omega⟩
  rcases jsonChar_cases c with h | ⟨x, h⟩ | ⟨n, h⟩ | ⟨hi, lo, h1, h2, h⟩
  · rw [h] at hk; simp at hk
  · rw [h] at hk ⊢
    obtain rfl : k = 0 := by simp at hk; omega
    exact he [] rfl
  · rw [h] at hk ⊢
    simp only [List.length_cons, jsonHex4_length] at hk
    rw [List.take_succ_cons]
    refine he _ ?_
    cases k with
    | zero => rfl
    | succ k =>
      simp only [List.take_succ_cons, readEscape, if_true]
      rw [readHex4_short _ (by simp only [List.length_take, jsonHex4_length]; omega)]
      rfl
  · rw [h] at hk ⊢
    simp only [List.length_cons, List.length_append, jsonHex4_length] at hk
    rw [List.take_succ_cons]
    refine he _ ?_
    cases k with
    | zero => rfl
    | succ k =>
      simp only [List.take_succ_cons, readEscape, if_true]
      rcases Nat.lt_or_ge k 4 with h4 | h4
      · rw [readHex4_short _ (by simp only [List.length_take]; omega)]
        rfl
      · rw [List.take_append, List.take_of_length_le (by rw [jsonHex4_length]; omega), readHex4_text _ (by omega), bind_ok,
          readCode, if_pos ⟨h1, h2⟩]
        simp only [jsonHex4_length]
        generalize hj : k - 4 = j
        match j with
        | 0 => rfl
        | 1 => rfl
        | j + 2 =>
          simp only [List.take_succ_cons, readLow]
          rw [readHex4_short _ (by simp only [List.length_take, jsonHex4_length]; omega)]
          rfl

/-- A part of a string is refused. -/
theorem scanStr_cut (s : List Char) : ∀ (f k : Nat), k < (jsonTail s).length → k < f →
    scanStr f ((jsonTail s).take k) = .error .valueError := by
  induction s with
  | nil =>
    intro f k hk hf
    obtain rfl : k = 0 := by simp [jsonTail] at hk; omega
    obtain ⟨f, rfl⟩ : ∃ g, f = g + 1 := ⟨f - 1, by omega⟩
    rfl
  | cons c s ih =>
    intro f k hk hf
    obtain ⟨f, rfl⟩ : ∃ g, f = g + 1 := ⟨f - 1, by omega⟩
    have hl := jsonChar_length c
    rw [jsonTail, List.length_append] at hk
    rw [jsonTail, List.take_append]
    rcases Nat.lt_or_ge k (jsonChar c).length with h | h
    · rw [Nat.sub_eq_zero_of_le (Nat.le_of_lt h), List.take_zero, List.append_nil]
      rcases Nat.eq_zero_or_pos k with rfl | h0
      · rfl
      · exact scanStr_char_cut c f k h0 h
    · rw [List.take_of_length_le h, scanStr_char, ih f _ (by omega) (by omega)]
      rfl

/-! ## Numbers -/

/-- Characters of numbers. -/
def isNumPart (c : Char) : Bool := c.isDigit || c = '-' || c = '+' || c = '.' || c = 'e' || c = 'E'

/-- No number goes on here. -/
def NumEnd (r : List Char) : Prop := ∀ c, r.head? = some c → isNumPart c = false

theorem numEnd_ne {c : Char} {r : List Char} (h : NumEnd (c :: r)) : c.isDigit = false ∧ c ≠ '-' ∧ c ≠ '+' ∧ c ≠ '.' ∧ c ≠ 'e' ∧
    c ≠ 'E' := by
  have := h c rfl
  simp only [isNumPart, Bool.or_eq_false_iff, decide_eq_false_iff_not] at this
  obtain ⟨⟨⟨⟨⟨h1, h2⟩, h3⟩, h4⟩, h5⟩, h6⟩ := this
  exact ⟨h1, h2, h3, h4, h5, h6⟩

theorem digits_append {rest : List Char} (h : NumEnd rest) (r : List Char) :
    digits (r ++ rest) = digits r ∧ afterDigits (r ++ rest) = afterDigits r ++ rest := by
  unfold digits afterDigits
  induction r with
  | nil =>
    cases rest with
    | nil => exact ⟨rfl, rfl⟩
    | cons c q => simp [(numEnd_ne h).1]
  | cons c r ih =>
    by_cases hc : c.isDigit = true
    · simp [hc, ih.1, ih.2]
    · simp [hc]

theorem expSign_append {rest : List Char} (h : NumEnd rest) (r : List Char) :
    expSign (r ++ rest) = ((expSign r).1, (expSign r).2 ++ rest) := by
  cases r with
  | nil =>
    cases rest with
    | nil => rfl
    | cons c q =>
      have := numEnd_ne h
      simp [expSign, this]
  | cons c r => simp only [List.cons_append, expSign]; split <;> rfl

theorem numFrac_append {rest : List Char} (h : NumEnd rest) (r : List Char) :
    numFrac (r ++ rest) = ((numFrac r).1, (numFrac r).2 ++ rest) := by
  cases r with
  | nil =>
    cases rest with
    | nil => rfl
    | cons c q =>
      have := numEnd_ne h
      simp [numFrac, this]
  | cons c r =>
    obtain ⟨h1, h2⟩ := digits_append h r
    simp only [List.cons_append, numFrac, h1, h2]; split <;> rfl

theorem numExp_append {rest : List Char} (h : NumEnd rest) (r : List Char) :
    numExp (r ++ rest) = ((numExp r).1, (numExp r).2 ++ rest) := by
  cases r with
  | nil =>
    cases rest with
    | nil => rfl
    | cons c q =>
      have := numEnd_ne h
      simp [numExp, this]
  | cons c r =>
    obtain ⟨h1, h2⟩ := digits_append h (expSign r).2
    simp only [List.cons_append, numExp, expSign_append h, h1, h2]; split <;> rfl

theorem numWhole_append {rest : List Char} (h : NumEnd rest) (r : List Char) (w : List Char × List Char)
    (hw : numWhole r = some w) : numWhole (r ++ rest) = some (w.1, w.2 ++ rest) := by
  cases r with
  | nil => cases hw
  | cons c r =>
    obtain ⟨h1, h2⟩ := digits_append h r
    simp only [List.cons_append, numWhole, h1, h2] at hw ⊢
    split at hw
    · rename_i h3; cases hw; rw [if_pos h3]
    · rename_i h4
      split at hw
      · rename_i h3; cases hw; rw [if_neg h4, if_pos h3]
      · cases hw

/-- What follows a number does not change what is read, if no number goes on there. -/
theorem scanNumber_append {rest : List Char} (h : NumEnd rest) (t : List Char) (x : Json × List Char)
    (hx : scanNumber t = some x) : scanNumber (t ++ rest) = some (x.1, x.2 ++ rest) := by
  unfold scanNumber at hx ⊢
  cases t with
  | nil => cases hx
  | cons c t =>
    have hs : numSign (c :: t ++ rest) = ((numSign (c :: t)).1, (numSign (c :: t)).2 ++ rest) := by
      simp only [List.cons_append, numSign]; split <;> rfl
    rw [hs]
    cases hw : numWhole (numSign (c :: t)).2 with
    | none => rw [hw] at hx; cases hx
    | some w =>
      rw [hw] at hx
      simp only at hx ⊢
      rw [numWhole_append h _ w hw]
      simp only [numFrac_append h, numExp_append h]
      cases hx
      rfl

theorem digits_split (s : List Char) : s = digits s ++ afterDigits s ∧ ∀ c ∈ digits s, isNumPart c = true := by
  refine ⟨List.takeWhile_append_dropWhile.symm, fun c hc => ?_⟩
  have : c.isDigit = true := List.all_eq_true.mp List.all_takeWhile c hc
  simp [isNumPart, this]

theorem numSign_split (s : List Char) : s = (numSign s).1 ++ (numSign s).2 ∧ ∀ c ∈ (numSign s).1, isNumPart c = true := by
  cases s with
  | nil => exact ⟨rfl, by simp [numSign]⟩
  | cons c r =>
    simp only [numSign]
    split
    · rename_i h; subst h; exact ⟨rfl, by simp [isNumPart]⟩
    · exact ⟨rfl, by simp⟩

theorem expSign_split (s : List Char) : s = (expSign s).1 ++ (expSign s).2 ∧ ∀ c ∈ (expSign s).1, isNumPart c = true := by
  cases s with
  | nil => exact ⟨rfl, by simp [expSign]⟩
  | cons c r =>
    simp only [expSign]
    split
    · rename_i h; exact ⟨rfl, by rcases h with rfl | rfl <;> simp [isNumPart]⟩
    · exact ⟨rfl, by simp⟩

theorem numFrac_split (s : List Char) : s = (numFrac s).1 ++ (numFrac s).2 ∧ ∀ c ∈ (numFrac s).1, isNumPart c = true := by
  cases s with
  | nil => exact ⟨rfl, by simp [numFrac]⟩
  | cons c r =>
    obtain ⟨h1, h2⟩ := digits_split r
    simp only [numFrac]
    split
    · rename_i h
      refine ⟨by rw [h.1, List.cons_append, ← h1], ?_⟩
      simp only [List.forall_mem_cons]
      exact ⟨by decide, h2⟩
    · exact ⟨rfl, by simp⟩

theorem numExp_split (s : List Char) : s = (numExp s).1 ++ (numExp s).2 ∧ ∀ c ∈ (numExp s).1, isNumPart c = true := by
  cases s with
  | nil => exact ⟨rfl, by simp [numExp]⟩
  | cons c r =>
    obtain ⟨h1, h2⟩ := expSign_split r
    obtain ⟨h3, h4⟩ := digits_split (expSign r).2
    simp only [numExp]
    split
    · rename_i h
      refine ⟨by rw [List.cons_append, List.append_assoc, ← h3, ← h1], ?_⟩
      simp only [List.forall_mem_cons, List.forall_mem_append]
      exact ⟨by rcases h.1 with rfl | rfl <;> decide, h2, h4⟩
    · exact ⟨rfl, by simp⟩

theorem numWhole_split (s : List Char) (w : List Char × List Char) (h : numWhole s = some w) :
    s = w.1 ++ w.2 ∧ (∀ c ∈ w.1, isNumPart c = true) ∧ w.1 ≠ [] := by
  cases s with
  | nil => cases h
  | cons c r =>
    obtain ⟨h1, h2⟩ := digits_split r
    simp only [numWhole] at h
    split at h
    · rename_i hc; subst hc; cases h; exact ⟨rfl, by simp [isNumPart], by simp⟩
    · split at h
      · rename_i hc
        cases h
        refine ⟨by simp only [List.cons_append]; rw [← h1], ?_, by simp⟩
        simp only [List.forall_mem_cons]
        exact ⟨by simp [isNumPart, hc], h2⟩
      · cases h

/-- A number that is read is a beginning of the text, of characters of numbers. -/
theorem scanNumber_split (s : List Char) (x : Json × List Char) (h : scanNumber s = some x) :
    ∃ u, s = u ++ x.2 ∧ u ≠ [] ∧ ∀ c ∈ u, isNumPart c = true := by
  unfold scanNumber at h
  cases hw : numWhole (numSign s).2 with
  | none => rw [hw] at h; cases h
  | some w =>
    rw [hw] at h
    cases h
    obtain ⟨a1, a2⟩ := numSign_split s
    obtain ⟨b1, b2, b3⟩ := numWhole_split _ w hw
    obtain ⟨c1, c2⟩ := numFrac_split w.2
    obtain ⟨d1, d2⟩ := numExp_split (numFrac w.2).2
    refine ⟨(numSign s).1 ++ (w.1 ++ ((numFrac w.2).1 ++ (numExp (numFrac w.2).2).1)), ?_, by simp [b3], ?_⟩
    · simp only [List.append_assoc]
      rw [← d1, ← c1, ← b1, ← a1]
    · simp only [List.forall_mem_append]
      exact ⟨a2, b2, c2, d2⟩

theorem scan_natText (n : Nat) : numWhole (natText n) = some (natText n, []) := by
  have hd : ∀ c ∈ natText n, c.isDigit = true := fun c hc => by
    cases h : c.isDigit with
    | true => rfl
    | false => exact absurd hc (natText_not_mem n c h)
  have hh := toDigits_head n
  cases ht : natText n with
  | nil => rw [ht] at hh; simp at hh; exact absurd ht (by simp [natText])
  | cons c r =>
    rw [ht] at hd hh
    have hr : digits r = r ∧ afterDigits r = [] := by
      have : ∀ x ∈ r, x.isDigit = true := fun x hx => hd x (by simp [hx])
      exact takeWhile_all _ _ this
    simp only [numWhole]
    split
    · rename_i hc
      subst hc
      simp only [List.length_cons, List.head?_cons, ne_eq, not_true_eq_false, or_false] at hh
      have : r = [] := by cases r with
        | nil => rfl
        | cons => simp at hh
      rw [this]
    · rw [if_pos (hd c (by simp)), hr.1, hr.2]

/-- Integers are read back. -/
theorem scanNumber_int (n : Int) : scanNumber (intText n) = some (.int n, []) := by
  have hm (m : Nat) : numSign (natText m) = ([], natText m) := by
    cases ht : natText m with
    | nil => rfl
    | cons c r =>
      have : c ≠ '-' := fun e => natText_not_mem m '-' (by decide) (by rw [ht, e]; simp)
      simp [numSign, this]
  by_cases h : 0 ≤ n
  · rw [intText, if_pos h, scanNumber, hm]
    simp only [scan_natText, numFrac, numExp, numValue, and_self, if_true, digitsVal_natText]
    rw [Int.toNat_of_nonneg h]
  · rw [intText, if_neg h, scanNumber]
    simp only [numSign, if_true, scan_natText, numFrac, numExp, numValue, and_self, digitsVal_natText, List.cons_ne_nil, if_false]
    rw [Int.toNat_of_nonneg (by omega), Int.neg_neg]

/-! ## Values -/

/-- The keys of a dictionary. -/
def _root_.SY.JFields.keys : JFields → List (List Char)
  | .nil => []
  | .cons k _ l => k :: l.keys

mutual
/-- Floats are written as numbers that are not integers, and dictionaries have every key once. -/
def _root_.SY.Json.WF : Json → Prop
  | .float t => scanNumber t = some (.float t, [])
  | .arr l => l.WF
  | .obj l => l.WF ∧ l.keys.Nodup
  | .null => True
  | .bool _ => True
  | .int _ => True
  | .str _ => True
def _root_.SY.JList.WF : JList → Prop
  | .nil => True
  | .cons v l => v.WF ∧ l.WF
def _root_.SY.JFields.WF : JFields → Prop
  | .nil => True
  | .cons _ v l => v.WF ∧ l.WF
end

/-- The text of a value cannot begin like this. -/
def GoodHead (s : List Char) : Prop := ∀ c, s.head? = some c → isJsonSpace c = false ∧ c ≠ ']' ∧ c ≠ '}'

theorem goodHead_take {s : List Char} (h : GoodHead s) (k : Nat) : GoodHead (s.take k) := by
  intro c hc
  cases k with
  | zero => simp at hc
  | succ k =>
    cases s with
    | nil => simp at hc
    | cons d r => exact h c hc

theorem goodHead_append {s : List Char} (h : GoodHead s) (hs : s ≠ []) (r : List Char) : GoodHead (s ++ r) := by
  cases s with
  | nil => exact absurd rfl hs
  | cons d q => exact h

theorem goodHead_skip {s : List Char} (h : GoodHead s) : skipSpace s = s := by
  cases s with
  | nil => rfl
  | cons c r =>
    have := (h c rfl).1
    simp [skipSpace, this]

theorem numPart_head {c : Char} (h : isNumPart c = true) : isJsonSpace c = false ∧ c ≠ ']' ∧ c ≠ '}' ∧ c ≠ '"' ∧ c ≠ '{' ∧
    c ≠ '[' ∧ c ≠ 'n' ∧ c ≠ 't' ∧ c ≠ 'f' ∧ c ≠ ',' := by
  have key : ∀ d ∈ [' ', '\t', '\n', '\r', ']', '}', '"', '{', '[', 'n', 't', 'f', ','], isNumPart d = false := by decide +kernel
  have hn : ∀ d ∈ [' ', '\t', '\n', '\r', ']', '}', '"', '{', '[', 'n', 't', 'f', ','], c ≠ d := by
    rintro d hd rfl
    rw [key c hd] at h; cases h
  simp only [List.forall_mem_cons] at hn
  obtain ⟨a1, a2, a3, a4, a5, a6, a7, a8, a9, a10, a11, a12, a13, _⟩ := hn
  refine ⟨?_, a5, a6, a7, a8, a9, a10, a11, a12, a13⟩
  simp [isJsonSpace, a1, a2, a3, a4]

/-- A number is read as such. -/
theorem scanValue_number (f : Nat) (s : List Char) (x : Json × List Char) (h : scanNumber s = some x) :
    scanValue (f + 1) s = .ok x := by
  obtain ⟨u, hu, hne, hp⟩ := scanNumber_split s x h
  cases u with
  | nil => exact absurd rfl hne
  | cons c u =>
    obtain ⟨_, _, _, h1, h2, h3, h4, h5, h6, _⟩ := numPart_head (hp c (by simp))
    have e : ∀ (d : Char) (t : List Char), c ≠ d → (d :: t).isPrefixOf s = false := by
      intro d t hd
      rw [hu]
      simp only [List.cons_append, List.isPrefixOf, Bool.and_eq_false_iff, beq_eq_false_iff_ne]
      exact .inl (Ne.symm hd)
    have hw : scanWord s = .ok x := by
      unfold scanWord
      rw [show "null".toList = 'n' :: "ull".toList from rfl, show "true".toList = 't' :: "rue".toList from rfl,
        show "false".toList = 'f' :: "alse".toList from rfl, e _ _ h4, e _ _ h5, e _ _ h6, h]
      rfl
    rw [hu] at hw ⊢
    simp only [List.cons_append, scanValue, if_neg h1, if_neg h2, if_neg h3]
    exact hw

theorem scanValue_arr (f : Nat) (r : List Char) (h : GoodHead r) :
    scanValue (f + 1) ('[' :: r) = scanValue f r >>= fun x => scanMore f x.2 >>= fun y => .ok (.arr (.cons x.1 y.1), y.2) := by
  simp only [scanValue, if_neg (show ('[' : Char) ≠ '"' by decide), if_neg (show ('[' : Char) ≠ '{' by decide), if_true,
    goodHead_skip h]
  split
  · rename_i q hq
    exact absurd rfl (h ']' rfl).2.1
  · rfl

theorem scanValue_obj (f : Nat) (r : List Char) (h : GoodHead r) :
    scanValue (f + 1) ('{' :: r) = scanKey r >>= fun k => scanValue f k.2 >>= fun x => scanMoreFields f x.2 >>= fun y =>
      .ok (.obj (JFields.nil.onto (.cons k.1 x.1 y.1)), y.2) := by
  simp only [scanValue, if_neg (show ('{' : Char) ≠ '"' by decide), if_true, goodHead_skip h]
  split
  · rename_i q hq
    exact absurd rfl (h '}' rfl).2.2
  · rfl

theorem scanMore_comma (f : Nat) (r : List Char) (h : GoodHead r) :
    scanMore (f + 1) (',' :: ' ' :: r) =
      scanValue f r >>= fun x => scanMore f x.2 >>= fun y => .ok (.cons x.1 y.1, y.2) := by
  have : skipSpace (',' :: ' ' :: r) = ',' :: ' ' :: r := rfl
  simp only [scanMore, this]
  have : skipSpace (' ' :: r) = skipSpace r := rfl
  rw [this, goodHead_skip h]

theorem scanMoreFields_comma (f : Nat) (r : List Char) (h : GoodHead r) :
    scanMoreFields (f + 1) (',' :: ' ' :: r) = scanKey r >>= fun k => scanValue f k.2 >>= fun x => scanMoreFields f x.2 >>= fun y =>
      .ok (.cons k.1 x.1 y.1, y.2) := by
  have : skipSpace (',' :: ' ' :: r) = ',' :: ' ' :: r := rfl
  simp only [scanMoreFields, this]
  have : skipSpace (' ' :: r) = skipSpace r := rfl
  rw [this, goodHead_skip h]

theorem goodHead_str (k : List Char) : GoodHead (jsonStr k) := by
  intro c hc
  simp only [jsonStr, List.head?_cons, Option.some.injEq] at hc
  subst hc
  decide

/-- A key is read back. -/
theorem scanKey_text (k q : List Char) (hq : GoodHead q) : scanKey (jsonStr k ++ (':' :: ' ' :: q)) = .ok (k, q) := by
  simp only [jsonStr, List.cons_append, scanKey, if_true]
  rw [scanStr_text k _ _ (by simp only [List.length_append]; omega), bind_ok]
  have h1 : skipSpace (':' :: ' ' :: q) = ':' :: ' ' :: q := rfl
  have h2 : skipSpace (' ' :: q) = skipSpace q := rfl
  simp only [h1, h2, goodHead_skip hq]

theorem goodHead_text (v : Json) (h : v.WF) : GoodHead v.text ∧ v.text ≠ [] := by
  have hn : ∀ (t : List Char) (x : Json × List Char), scanNumber t = some x → GoodHead t ∧ t ≠ [] := by
    intro t x ht
    obtain ⟨u, hu, hne, hp⟩ := scanNumber_split t x ht
    cases u with
    | nil => exact absurd rfl hne
    | cons c u =>
      rw [hu]
      refine ⟨fun d hd => ?_, by simp⟩
      cases hd
      obtain ⟨h1, h2, h3, _⟩ := numPart_head (hp c (by simp))
      exact ⟨h1, h2, h3⟩
  have hc : ∀ (c : Char) (r : List Char), isJsonSpace c = false ∧ c ≠ ']' ∧ c ≠ '}' → GoodHead (c :: r) ∧ c :: r ≠ [] :=
    fun c r hc => ⟨fun d hd => by cases hd; exact hc, by simp⟩
  cases v with
  | null => exact hc 'n' _ (by decide)
  | bool b => cases b <;> exact hc _ _ (by decide)
  | int n => exact hn _ _ (scanNumber_int n)
  | float t => exact hn _ _ h
  | str s => exact ⟨goodHead_str s, by simp [Json.text, jsonStr]⟩
  | arr l => cases l <;> exact hc '[' _ (by decide)
  | obj l => cases l <;> exact hc '{' _ (by decide)

theorem numEnd_more (l : JList) (r : List Char) : NumEnd (l.more ++ r) := by
  cases l <;> (intro c hc; simp only [JList.more, List.cons_append, List.head?_cons, Option.some.injEq] at hc; subst hc; decide)

theorem numEnd_moreFields (l : JFields) (r : List Char) : NumEnd (l.more ++ r) := by
  cases l <;> (intro c hc; simp only [JFields.more, List.cons_append, List.head?_cons, Option.some.injEq] at hc; subst hc; decide)

/-! Dictionaries -/

/-- One dictionary after the other. -/
def _root_.SY.JFields.append : JFields → JFields → JFields
  | .nil, m => m
  | .cons k v l, m => .cons k v (l.append m)

theorem put_new (d : JFields) (k : List Char) (v : Json) (h : k ∉ d.keys) : d.put k v = d.append (.cons k v .nil) := by
  match d with
  | .nil => rfl
  | .cons k' v' l =>
    simp only [JFields.keys, List.mem_cons, not_or] at h
    simp only [JFields.put, if_neg (Ne.symm h.1), JFields.append, put_new l k v h.2]

theorem append_keys (d m : JFields) : (d.append m).keys = d.keys ++ m.keys := by
  match d with
  | .nil => rfl
  | .cons k v l => simp only [JFields.append, JFields.keys, append_keys l m, List.cons_append]

theorem append_assoc_fields (a b c : JFields) : (a.append b).append c = a.append (b.append c) := by
  match a with
  | .nil => rfl
  | .cons k v l => simp only [JFields.append, append_assoc_fields l b c]

theorem append_nil_fields (a : JFields) : a.append .nil = a := by
  match a with
  | .nil => rfl
  | .cons k v l => simp only [JFields.append, append_nil_fields l]

theorem onto_new (l : JFields) : ∀ d : JFields, (d.keys ++ l.keys).Nodup → d.onto l = d.append l := by
  match l with
  | .nil => intro d _; exact (append_nil_fields d).symm
  | .cons k v l =>
    intro d h
    simp only [JFields.keys] at h
    have hk : k ∉ d.keys := fun hk => by
      have := (List.nodup_append.1 h).2.2 k hk k (by simp)
      exact this rfl
    rw [JFields.onto, put_new d k v hk, onto_new l _ (by
      rw [append_keys]; simpa [JFields.keys, List.append_assoc] using h), append_assoc_fields]
    rfl

/-! ## What is written is read -/

mutual
theorem scan_value (v : Json) (h : v.WF) (f : Nat) (rest : List Char) (hf : v.text.length < f) (hr : NumEnd rest) :
    scanValue f (v.text ++ rest) = .ok (v, rest) := by
  obtain ⟨f, rfl⟩ : ∃ g, f = g + 1 := ⟨f - 1, by omega⟩
  match v, h with
  | .null, _ => rfl
  | .bool true, _ => rfl
  | .bool false, _ => rfl
  | .int n, _ => exact scanValue_number f _ _ (scanNumber_append hr _ _ (scanNumber_int n))
  | .float t, h => exact scanValue_number f _ _ (scanNumber_append hr _ _ h)
  | .str s, _ =>
    simp only [Json.text, jsonStr, List.cons_append, scanValue, if_true]
    rw [scanStr_text s _ _ (by simp only [List.length_append]; omega), bind_ok]
  | .arr .nil, _ => rfl
  | .obj .nil, _ => rfl
  | .arr (.cons v l), h =>
    simp only [Json.WF, JList.WF] at h
    obtain ⟨g1, g2⟩ := goodHead_text v h.1
    simp only [Json.text, List.length_cons, List.length_append] at hf
    simp only [Json.text, List.cons_append, List.append_assoc]
    rw [scanValue_arr f _ (goodHead_append g1 g2 _), scan_value v h.1 f _ (by omega) (numEnd_more l rest), bind_ok,
      scan_more l h.2 f rest (by omega), bind_ok]
  | .obj (.cons k v l), h =>
    simp only [Json.WF, JFields.WF] at h
    obtain ⟨g1, g2⟩ := goodHead_text v h.1.1
    simp only [Json.text, List.length_cons, List.length_append] at hf
    simp only [Json.text, List.cons_append, List.append_assoc]
    rw [scanValue_obj f _ (goodHead_append (goodHead_str k) (by simp [jsonStr]) _), scanKey_text k _ (goodHead_append g1 g2 _),
      bind_ok, scan_value v h.1.1 f _ (by omega) (numEnd_moreFields l rest), bind_ok,
      scan_moreFields l h.1.2 f rest (by omega), bind_ok, onto_new _ _ (by simpa [JFields.keys] using h.2)]
    rfl
theorem scan_more (l : JList) (h : l.WF) (f : Nat) (rest : List Char) (hf : l.more.length < f) :
    scanMore f (l.more ++ rest) = .ok (l, rest) := by
  obtain ⟨f, rfl⟩ : ∃ g, f = g + 1 := ⟨f - 1, by omega⟩
  match l, h with
  | .nil, _ => rfl
  | .cons v l, h =>
    simp only [JList.WF] at h
    obtain ⟨g1, g2⟩ := goodHead_text v h.1
    simp only [JList.more, List.length_cons, List.length_append] at hf
    simp only [JList.more, List.cons_append, List.append_assoc]
    rw [scanMore_comma f _ (goodHead_append g1 g2 _), scan_value v h.1 f _ (by omega) (numEnd_more l rest), bind_ok,
      scan_more l h.2 f rest (by omega), bind_ok]
theorem scan_moreFields (l : JFields) (h : l.WF) (f : Nat) (rest : List Char) (hf : l.more.length < f) :
    scanMoreFields f (l.more ++ rest) = .ok (l, rest) := by
  obtain ⟨f, rfl⟩ : ∃ g, f = g + 1 := ⟨f - 1, by omega⟩
  match l, h with
  | .nil, _ => rfl
  | .cons k v l, h =>
    simp only [JFields.WF] at h
    obtain ⟨g1, g2⟩ := goodHead_text v h.1
    simp only [JFields.more, List.length_cons, List.length_append] at hf
    simp only [JFields.more, List.cons_append, List.append_assoc]
    rw [scanMoreFields_comma f _ (goodHead_append (goodHead_str k) (by simp [jsonStr]) _),
      scanKey_text k _ (goodHead_append g1 g2 _), bind_ok, scan_value v h.1 f _ (by omega) (numEnd_moreFields l rest), bind_ok,
      scan_moreFields l h.2 f rest (by omega), bind_ok]
end

/-! ## A part of what is written -/

/-- Nothing goes on here but a number. -/
def NumLeft (q : List Char) : Prop := ∀ c, q.head? = some c → isNumPart c = true

theorem stuck_more {q : List Char} (h : NumLeft q) (f : Nat) :
    scanMore (f + 1) q = .error .valueError ∧ scanMoreFields (f + 1) q = .error .valueError := by
  cases q with
  | nil => exact ⟨rfl, rfl⟩
  | cons c r =>
    obtain ⟨h1, h2, h3, _, _, _, _, _, _, h4⟩ := numPart_head (h c rfl)
    have hs : skipSpace (c :: r) = c :: r := by simp [skipSpace, h1]
    simp only [scanMore, scanMoreFields, hs]
    constructor
    · split
      · rename_i e; cases e; exact absurd rfl h2
      · rename_i e; cases e; exact absurd rfl h4
      · rfl
    · split
      · rename_i e; cases e; exact absurd rfl h3
      · rename_i e; cases e; exact absurd rfl h4
      · rfl

/-- A part of a number can be a number: `1` of `12`. -/
def isNumber : Json → Bool
  | .int _ => true
  | .float _ => true
  | _ => false

/-- A part of `v` is refused, or `v` is a number and a number has been read. -/
def CutOk (v : Json) (r : Res (Json × List Char)) : Prop :=
  r = .error .valueError ∨ (isNumber v = true ∧ ∃ w q, r = .ok (w, q) ∧ NumLeft q)

theorem cut_number (t : List Char) (v : Json) (hv : isNumber v = true) (h : scanNumber t = some (v, [])) (k f : Nat) :
    CutOk v (scanValue (f + 1) (t.take k)) := by
  obtain ⟨u, hu, _, hp⟩ := scanNumber_split t _ h
  rw [List.append_nil] at hu
  have hall : ∀ c ∈ t.take k, isNumPart c = true := fun c hc => hp c (hu ▸ List.mem_of_mem_take hc)
  generalize t.take k = s at hall
  cases hs : scanNumber s with
  | some x =>
    rw [scanValue_number f s x hs]
    obtain ⟨u', hu', _, _⟩ := scanNumber_split s x hs
    refine .inr ⟨hv, x.1, x.2, rfl, fun c hc => hall c ?_⟩
    rw [hu']
    exact List.mem_append_right _ (List.mem_of_mem_head? hc)
  | none =>
    cases s with
    | nil => exact .inl rfl
    | cons c r =>
      left
      have hc := hall c (by simp)
      obtain ⟨_, _, _, h1, h2, h3, h4, h5, h6, _⟩ := numPart_head hc
      have hN : c ≠ 'N' := by rintro rfl; exact absurd hc (by decide)
      have hI : c ≠ 'I' := by rintro rfl; exact absurd hc (by decide)
      have e : ∀ (d : Char) (t : List Char), c ≠ d → (d :: t).isPrefixOf (c :: r) = false := by
        intro d t hd
        simp only [List.isPrefixOf, Bool.and_eq_false_iff, beq_eq_false_iff_ne]
        exact .inl (Ne.symm hd)
      have e2 : ('-' :: 'I' :: "nfinity".toList).isPrefixOf (c :: r) = false := by
        cases r with
        | nil => simp [List.isPrefixOf]
        | cons d r =>
          have : d ≠ 'I' := by rintro rfl; exact absurd (hall 'I' (by simp)) (by decide)
          simp only [List.isPrefixOf, Bool.and_eq_false_iff, beq_eq_false_iff_ne]
          exact .inr (.inl (Ne.symm this))
      simp only [scanValue, if_neg h1, if_neg h2, if_neg h3]
      unfold scanWord
      rw [show "null".toList = 'n' :: "ull".toList from rfl, show "true".toList = 't' :: "rue".toList from rfl,
        show "false".toList = 'f' :: "alse".toList from rfl, show "NaN".toList = 'N' :: "aN".toList from rfl,
        show "Infinity".toList = 'I' :: "nfinity".toList from rfl,
        show "-Infinity".toList = '-' :: 'I' :: "nfinity".toList from rfl, e _ _ h4, e _ _ h5, e _ _ h6, hs, e _ _ hN, e _ _ hI, e2]
      rfl

theorem take_append_cases (a b : List Char) (j : Nat) :
    (j < a.length ∧ (a ++ b).take j = a.take j) ∨ (a.length ≤ j ∧ (a ++ b).take j = a ++ b.take (j - a.length)) := by
  rw [List.take_append]
  rcases Nat.lt_or_ge j a.length with h | h
  · exact .inl ⟨h, by rw [Nat.sub_eq_zero_of_le (Nat.le_of_lt h), List.take_zero, List.append_nil]⟩
  · exact .inr ⟨h, by rw [List.take_of_length_le h]⟩

theorem numEnd_take {s : List Char} (h : NumEnd s) (k : Nat) : NumEnd (s.take k) := by
  intro c hc
  cases k with
  | zero => simp at hc
  | succ k =>
    cases s with
    | nil => simp at hc
    | cons d r => exact h c hc

/-- A value and what follows it in a list or a dictionary. -/
theorem cut_after {β : Type} (v : Json) (hv : v.WF) (m : List Char) (hm : NumEnd m) (next : List Char → Res β) (f j : Nat)
    (hj : j < (v.text ++ m).length) (hf : j < f)
    (hcut : ∀ k, k < v.text.length → k < f → CutOk v (scanValue f (v.text.take k)))
    (hstuck : ∀ q, NumLeft q → next q = .error .valueError)
    (hmore : ∀ k, k < m.length → k < f → next (m.take k) = .error .valueError) (g : Json → β → Res γ) :
    (scanValue f ((v.text ++ m).take j) >>= fun x => next x.2 >>= g x.1) = .error .valueError := by
  rw [List.length_append] at hj
  rcases take_append_cases v.text m j with ⟨h, e⟩ | ⟨h, e⟩
  · rw [e]
    rcases hcut j h hf with h1 | ⟨_, w, q, h1, h2⟩
    · rw [h1]; rfl
    · rw [h1, bind_ok]
      simp only [hstuck q h2]
      rfl
  · rw [e, scan_value v hv f _ (by omega) (numEnd_take hm _), bind_ok]
    simp only [hmore (j - v.text.length) (by omega) (by omega)]
    rfl

/-- A part of a key and a value. -/
theorem cut_key (k q : List Char) (hq : GoodHead q) (j : Nat) :
    scanKey ((jsonStr k ++ (':' :: ' ' :: q)).take j) = .error .valueError ∨
    scanKey ((jsonStr k ++ (':' :: ' ' :: q)).take j) = .ok (k, q.take (j - ((jsonStr k).length + 2))) := by
  rcases take_append_cases (jsonStr k) (':' :: ' ' :: q) j with ⟨h, e⟩ | ⟨h, e⟩
  · rw [e]
    left
    cases j with
    | zero => rfl
    | succ j =>
      simp only [jsonStr, List.length_cons] at h
      simp only [jsonStr, List.take_succ_cons, scanKey, if_true]
      rw [scanStr_cut k _ j (by omega) (by simp only [List.length_take]; omega)]
      rfl
  · rw [e]
    generalize hi : j - (jsonStr k).length = i
    match i with
    | 0 =>
      left
      simp only [jsonStr, List.cons_append, List.take_zero, scanKey, if_true]
      rw [scanStr_text k _ _ (by simp), bind_ok]
      rfl
    | 1 =>
      right
      simp only [jsonStr, List.cons_append, List.take_succ_cons, List.take_zero, scanKey, if_true]
      rw [scanStr_text k _ _ (by simp only [List.length_append]; omega), bind_ok]
      simp only [jsonStr, List.length_cons] at hi ⊢
      rw [show j - ((jsonTail k).length + 1 + 2) = 0 by omega]
      rfl
    | i + 2 =>
      right
      simp only [List.take_succ_cons]
      rw [scanKey_text k _ (goodHead_take hq i), show j - ((jsonStr k).length + 2) = i by omega]

/-- The entry of a dictionary and what follows. -/
theorem cut_field {β : Type} (k : List Char) (v : Json) (hv : v.WF) (m : List Char) (hm : NumEnd m) (next : List Char → Res β)
    (f j : Nat) (hj : j < (jsonStr k ++ (':' :: ' ' :: (v.text ++ m))).length) (hf : j < f)
    (hcut : ∀ k, k < v.text.length → k < f → CutOk v (scanValue f (v.text.take k)))
    (hstuck : ∀ q, NumLeft q → next q = .error .valueError)
    (hmore : ∀ k, k < m.length → k < f → next (m.take k) = .error .valueError) (g : List Char → Json → β → Res γ) :
    (scanKey ((jsonStr k ++ (':' :: ' ' :: (v.text ++ m))).take j) >>= fun y => scanValue f y.2 >>= fun x => next x.2 >>= g y.1 x.1) =
      .error .valueError := by
  obtain ⟨g1, g2⟩ := goodHead_text v hv
  rcases cut_key k (v.text ++ m) (goodHead_append g1 g2 m) j with h | h
  · rw [h]; rfl
  · rw [h, bind_ok]
    have hpos : 0 < v.text.length := List.length_pos_iff.2 g2
    simp only [List.length_append, List.length_cons] at hj
    exact cut_after v hv m hm next f _ (by simp only [List.length_append]; omega) (by omega) hcut hstuck hmore (g k)

mutual
theorem cut_value (v : Json) (h : v.WF) (f k : Nat) (hk : k < v.text.length) (hf : k < f) : CutOk v (scanValue f (v.text.take k)) := by
  obtain ⟨f, rfl⟩ : ∃ g, f = g + 1 := ⟨f - 1, by omega⟩
  match v, h with
  | .null, _ =>
    left
    have : k = 0 ∨ k = 1 ∨ k = 2 ∨ k = 3 := by simp [Json.text] at hk; omega
    rcases this with rfl | rfl | rfl | rfl <;> rfl
  | .bool true, _ =>
    left
    have : k = 0 ∨ k = 1 ∨ k = 2 ∨ k = 3 := by simp [Json.text] at hk; omega
    rcases this with rfl | rfl | rfl | rfl <;> rfl
  | .bool false, _ =>
    left
    have : k = 0 ∨ k = 1 ∨ k = 2 ∨ k = 3 ∨ k = 4 := by simp [Json.text] at hk; omega
    rcases this with rfl | rfl | rfl | rfl | rfl <;> rfl
  | .int n, _ => exact cut_number _ _ rfl (scanNumber_int n) k f
  | .float t, h => exact cut_number _ _ rfl h k f
  | .str s, _ =>
    left
    cases k with
    | zero => rfl
    | succ k =>
      simp only [Json.text, jsonStr, List.length_cons] at hk
      simp only [Json.text, jsonStr, List.take_succ_cons, scanValue, if_true]
      rw [scanStr_cut s _ k (by omega) (by simp only [List.length_take]; omega)]
      rfl
  | .arr .nil, _ =>
    left
    have : k = 0 ∨ k = 1 := by simp [Json.text] at hk; omega
    rcases this with rfl | rfl
    · rfl
    · obtain ⟨f, rfl⟩ : ∃ g, f = g + 1 := ⟨f - 1, by omega⟩
      rfl
  | .obj .nil, _ =>
    left
    have : k = 0 ∨ k = 1 := by simp [Json.text] at hk; omega
    rcases this with rfl | rfl
    · rfl
    · obtain ⟨f, rfl⟩ : ∃ g, f = g + 1 := ⟨f - 1, by omega⟩
      rfl
  | .arr (.cons v l), h =>
    left
    simp only [Json.WF, JList.WF] at h
    obtain ⟨g1, g2⟩ := goodHead_text v h.1
    cases k with
    | zero => rfl
    | succ k =>
      simp only [Json.text, List.length_cons] at hk
      simp only [Json.text, List.take_succ_cons]
      rw [scanValue_arr f _ (goodHead_take (goodHead_append g1 g2 _) k)]
      obtain ⟨f', rfl⟩ : ∃ g, f = g + 1 := ⟨f - 1, by omega⟩
      exact cut_after v h.1 l.more (by simpa using numEnd_more l []) (scanMore (f' + 1)) _ k (by omega) (by omega)
        (fun i h1 h2 => cut_value v h.1 (f' + 1) i h1 h2) (fun q hq => (stuck_more hq f').1)
        (fun i h1 h2 => cut_more l h.2 (f' + 1) i h1 h2) (fun a y => .ok (Json.arr (JList.cons a y.1), y.2))
  | .obj (.cons key v l), h =>
    left
    simp only [Json.WF, JFields.WF] at h
    cases k with
    | zero => rfl
    | succ k =>
      simp only [Json.text, List.length_cons] at hk
      simp only [Json.text, List.take_succ_cons]
      rw [scanValue_obj f _ (goodHead_take (goodHead_append (goodHead_str key) (by simp [jsonStr]) _) k)]
      obtain ⟨f', rfl⟩ : ∃ g, f = g + 1 := ⟨f - 1, by omega⟩
      exact cut_field key v h.1.1 l.more (by simpa using numEnd_moreFields l []) (scanMoreFields (f' + 1)) _ k
        (by simp only [List.length_append, List.length_cons] at hk ⊢; omega) (by omega)
        (fun i h1 h2 => cut_value v h.1.1 (f' + 1) i h1 h2) (fun q hq => (stuck_more hq f').2)
        (fun i h1 h2 => cut_moreFields l h.1.2 (f' + 1) i h1 h2)
        (fun a b y => .ok (Json.obj (JFields.nil.onto (JFields.cons a b y.1)), y.2))
theorem cut_more (l : JList) (h : l.WF) (f k : Nat) (hk : k < l.more.length) (hf : k < f) :
    scanMore f (l.more.take k) = .error .valueError := by
  obtain ⟨f, rfl⟩ : ∃ g, f = g + 1 := ⟨f - 1, by omega⟩
  match l, h with
  | .nil, _ =>
    obtain rfl : k = 0 := by simp [JList.more] at hk; omega
    rfl
  | .cons v l, h =>
    simp only [JList.WF] at h
    obtain ⟨g1, g2⟩ := goodHead_text v h.1
    match k with
    | 0 => rfl
    | 1 =>
      obtain ⟨f, rfl⟩ : ∃ g, f = g + 1 := ⟨f - 1, by omega⟩
      rfl
    | k + 2 =>
      simp only [JList.more, List.length_cons] at hk
      simp only [JList.more, List.take_succ_cons]
      rw [scanMore_comma f _ (goodHead_take (goodHead_append g1 g2 _) k)]
      obtain ⟨f', rfl⟩ : ∃ g, f = g + 1 := ⟨f - 1, by omega⟩
      exact cut_after v h.1 l.more (by simpa using numEnd_more l []) (scanMore (f' + 1)) _ k (by omega) (by omega)
        (fun i h1 h2 => cut_value v h.1 (f' + 1) i h1 h2) (fun q hq => (stuck_more hq f').1)
        (fun i h1 h2 => cut_more l h.2 (f' + 1) i h1 h2) (fun a y => .ok (JList.cons a y.1, y.2))
theorem cut_moreFields (l : JFields) (h : l.WF) (f k : Nat) (hk : k < l.more.length) (hf : k < f) :
    scanMoreFields f (l.more.take k) = .error .valueError := by
  obtain ⟨f, rfl⟩ : ∃ g, f = g + 1 := ⟨f - 1, by omega⟩
  match l, h with
  | .nil, _ =>
    obtain rfl : k = 0 := by simp [JFields.more] at hk; omega
    rfl
  | .cons key v l, h =>
    simp only [JFields.WF] at h
    match k with
    | 0 => rfl
    | 1 =>
      obtain ⟨f, rfl⟩ : ∃ g, f = g + 1 := ⟨f - 1, by omega⟩
      rfl
    | k + 2 =>
      simp only [JFields.more, List.length_cons] at hk
      simp only [JFields.more, List.take_succ_cons]
      rw [scanMoreFields_comma f _ (goodHead_take (goodHead_append (goodHead_str key) (by simp [jsonStr]) _) k)]
      obtain ⟨f', rfl⟩ : ∃ g, f = g + 1 := ⟨f - 1, by omega⟩
      exact cut_field key v h.1 l.more (by simpa using numEnd_moreFields l []) (scanMoreFields (f' + 1)) _ k
        (by simp only [List.length_append, List.length_cons] at hk ⊢; omega) (by omega)
        (fun i h1 h2 => cut_value v h.1 (f' + 1) i h1 h2) (fun q hq => (stuck_more hq f').2)
        (fun i h1 h2 => cut_moreFields l h.2 (f' + 1) i h1 h2) (fun a b y => .ok (JFields.cons a b y.1, y.2))
end

/-! ## What is written is read, and nothing less -/

theorem text_head (v : Json) (h : v.WF) : v.text.head? ≠ some (Char.ofNat 0xfeff) := by
  match v, h with
  | .null, _ => decide
  | .bool true, _ => decide
  | .bool false, _ => decide
  | .int n, h =>
    obtain ⟨u, h1, h2, h3⟩ := scanNumber_split _ _ (scanNumber_int n)
    rw [List.append_nil] at h1
    intro e
    rw [Json.text] at e
    exact absurd (h3 _ (h1 ▸ List.mem_of_mem_head? e)) (by decide)
  | .float t, h =>
    obtain ⟨u, h1, h2, h3⟩ := scanNumber_split _ _ h
    rw [List.append_nil] at h1
    intro e
    exact absurd (h3 _ (h1 ▸ List.mem_of_mem_head? e)) (by decide)
  | .str s, _ => simp only [Json.text, jsonStr, List.head?_cons]; decide
  | .arr .nil, _ => simp only [Json.text, List.head?_cons]; decide
  | .obj .nil, _ => simp only [Json.text, List.head?_cons]; decide
  | .arr (.cons _ _), _ => simp only [Json.text, List.head?_cons]; decide
  | .obj (.cons _ _ _), _ => simp only [Json.text, List.head?_cons]; decide

/-- **C208**: `json.loads(json.dumps(v))` is `v`, for every `v` made of `None`, booleans, integers, finite floats, texts, lists and
dictionaries with texts as keys. -/
theorem json_roundtrip (v : Json) (h : v.WF) : jsonLoads v.text = .ok v := by
  have := scan_value v h (v.text.length + 1) [] (by omega) (by intro c hc; cases hc)
  rw [List.append_nil] at this
  rw [jsonLoads, if_neg (text_head v h), goodHead_skip (goodHead_text v h).1, this]
  rfl

/-- **C208**: no proper part of what is written, unless that is a number, is read as anything. -/
theorem json_cut (v : Json) (h : v.WF) (hn : isNumber v = false) (k : Nat) (hk : k < v.text.length) :
    jsonLoads (v.text.take k) = .error .valueError := by
  have hl : (v.text.take k).length = k := by rw [List.length_take]; omega
  have h1 : (v.text.take k).head? ≠ some (Char.ofNat 0xfeff) := by
    intro e
    cases k with
    | zero => simp at e
    | succ k =>
      apply text_head v h
      rw [← e]
      cases v.text <;> rfl
  rw [jsonLoads, if_neg h1, goodHead_skip (goodHead_take (goodHead_text v h).1 k), hl]
  rcases cut_value v h (k + 1) k hk (by omega) with h2 | ⟨h2, _⟩
  · rw [h2]; rfl
  · rw [h2] at hn; cases hn

/-- A part of a number can be read as another number. -/
example : jsonLoads ((Json.int 12).text.take 1) = .ok (.int 1) := by rfl

end SY.Props
