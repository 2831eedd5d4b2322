import Verif.SetAttr
import Verif.Props.IPText

/-!
# Numbers given as text

`int(text)`, which the setters of some attributes call (C215), against a description of the texts that stand for numbers.
-/

namespace SY.Props

open SY

/-- A number without its sign, as Python takes it: digits, with single underscores between digits. -/
def DecBody (s : List Char) : Prop :=
  s ≠ [] ∧ s.head? ≠ some '_' ∧ s.getLast? ≠ some '_' ∧ (∀ c ∈ s, c.isDigit = true ∨ c = '_') ∧ ¬ ['_', '_'] <:+: s

/-- The number that digits with underscores stand for. -/
def decVal (s : List Char) : Nat := digitsVal (s.filter (· ≠ '_'))

theorem isDigit_iff (c : Char) : ('0' ≤ c ∧ c ≤ '9') ↔ c.isDigit = true := by
  simp only [Char.isDigit, Bool.and_eq_true, decide_eq_true_eq, Char.le_def, ge_iff_le]

theorem scanDec_iff (n : Nat) (s : List Char) : ∀ acc,
    (scanDec .afterDigit acc s = some n ↔ s.getLast? ≠ some '_' ∧ (∀ c ∈ s, c.isDigit = true ∨ c = '_') ∧
      ¬ ['_', '_'] <:+: s ∧ n = Nat.ofDigitChars 10 (s.filter (· ≠ '_')) acc) ∧
    (scanDec .start acc s = some n ↔ s ≠ [] ∧ s.head? ≠ some '_' ∧ s.getLast? ≠ some '_' ∧ (∀ c ∈ s, c.isDigit = true ∨ c = '_') ∧
      ¬ ['_', '_'] <:+: s ∧ n = Nat.ofDigitChars 10 (s.filter (· ≠ '_')) acc) := by
  induction s with
  | nil =>
    intro acc
    constructor
    · constructor
      · intro h
        cases h
        exact ⟨(by simp), (by simp), (by simp), rfl⟩
      · rintro ⟨_, _, _, h⟩
        rw [h]
        rfl
    · simp [scanDec]
  | cons c r ih =>
    intro acc
    have hinf : ['_', '_'] <:+: c :: r ↔ (c = '_' ∧ r.head? = some '_') ∨ ['_', '_'] <:+: r := by
      rw [List.infix_cons_iff]
      constructor
      · rintro (h | h)
        · cases r with
          | nil => simp at h
          | cons d r => simp at h; exact .inl ⟨h.1.symm, by rw [h.2]; rfl⟩
        · exact .inr h
      · rintro (⟨rfl, h⟩ | h)
        · cases r with
          | nil => cases h
          | cons d r => cases h; exact .inl (by simp)
        · exact .inr h
    by_cases hc : c = '_'
    · subst hc
      have hlast : ('_' :: r).getLast? ≠ some '_' ↔ r ≠ [] ∧ r.getLast? ≠ some '_' := by
        cases r with
        | nil => simp
        | cons d r => simp [List.getLast?_cons_cons]
      constructor
      · simp only [scanDec, if_true]
        rw [if_neg (by decide), (ih acc).2, hlast, hinf]
        simp only [List.mem_cons, forall_eq_or_imp, or_true, true_and, ne_eq, not_true_eq_false, decide_false, Bool.false_eq_true,
          not_false_eq_true, List.filter_cons_of_neg, not_or]
        constructor
        · rintro ⟨h1, h2, h3, h4, h5, h6⟩; exact ⟨⟨h1, h3⟩, h4, ⟨h2, h5⟩, h6⟩
        · rintro ⟨⟨h1, h3⟩, h4, ⟨h2, h5⟩, h6⟩; exact ⟨h1, h2, h3, h4, h5, h6⟩
      · simp [scanDec]
    · have hlast : (c :: r).getLast? ≠ some '_' ↔ r.getLast? ≠ some '_' := by
        cases r with
        | nil => simp [hc]
        | cons d r => simp [List.getLast?_cons_cons]
      have hfil : (c :: r).filter (· ≠ '_') = c :: r.filter (· ≠ '_') := by simp [hc]
      have hstep : ∀ st, scanDec st acc (c :: r) = if c.isDigit = true then scanDec .afterDigit (acc * 10 + (c.toNat - 48)) r else none := by
        intro st
        simp only [scanDec, hc, if_false, isDigit_iff]
      have key : (if c.isDigit = true then scanDec .afterDigit (acc * 10 + (c.toNat - 48)) r else none) = some n ↔
          (c :: r).getLast? ≠ some '_' ∧ (∀ x ∈ c :: r, x.isDigit = true ∨ x = '_') ∧
          ¬ ['_', '_'] <:+: c :: r ∧ n = Nat.ofDigitChars 10 ((c :: r).filter (· ≠ '_')) acc := by
        rw [hlast, hinf, hfil, Nat.ofDigitChars_cons]
        by_cases hd : c.isDigit = true
        · rw [if_pos hd, (ih _).1]
          simp [hc, hd, Nat.mul_comm]
        · rw [if_neg hd]
          simp [hc, hd]
      constructor
      · rw [hstep]; exact key
      · rw [hstep, key]
        simp [hc]

theorem scanDec_body (s : List Char) (n : Nat) : scanDec .start 0 s = some n ↔ DecBody s ∧ n = decVal s := by
  rw [(scanDec_iff n s 0).2]
  unfold DecBody decVal digitsVal
  constructor
  · rintro ⟨h1, h2, h3, h4, h5, h6⟩; exact ⟨⟨h1, h2, h3, h4, h5⟩, h6⟩
  · rintro ⟨⟨h1, h2, h3, h4, h5⟩, h6⟩; exact ⟨h1, h2, h3, h4, h5, h6⟩

/-- A text as a number: white space around it, at most one sign, then the digits. -/
def IntText (s : List Char) (n : Int) : Prop :=
  ∃ pre sign body post, s = pre ++ sign ++ body ++ post ∧ pre.all isPySpace = true ∧ post.all isPySpace = true ∧ DecBody body ∧
    ((sign = [] ∧ n = decVal body) ∨ (sign = ['+'] ∧ n = decVal body) ∨ (sign = ['-'] ∧ n = -(decVal body : Int)))

theorem taken_all {p : Char → Bool} (s : List Char) : (s.takeWhile p).all p = true := by
  induction s with
  | nil => rfl
  | cons x s ih =>
    rw [List.takeWhile_cons]
    cases h : p x
    · rfl
    · simp [h, ih]

theorem dropWhile_all {p : Char → Bool} {a b : List Char} (ha : a.all p = true) : (a ++ b).dropWhile p = b.dropWhile p := by
  induction a with
  | nil => rfl
  | cons x a ih =>
    simp only [List.all_cons, Bool.and_eq_true] at ha
    simp [ha.1, ih ha.2]

/-- What `strip` takes off. -/
theorem pyStrip_split (s : List Char) : ∃ pre post, s = pre ++ pyStrip s ++ post ∧ pre.all isPySpace = true ∧ post.all isPySpace = true := by
  refine ⟨s.takeWhile isPySpace, ((s.dropWhile isPySpace).reverse.takeWhile isPySpace).reverse, ?_, ?_, ?_⟩
  · unfold pyStrip
    rw [List.append_assoc, ← List.reverse_append, List.takeWhile_append_dropWhile, List.reverse_reverse,
      List.takeWhile_append_dropWhile]
  · exact taken_all _
  · rw [List.all_reverse]; exact taken_all _

theorem pyStrip_pad {pre core post : List Char} (h1 : pre.all isPySpace = true) (h2 : post.all isPySpace = true)
    {a b : Char} (ha : core.head? = some a) (ha' : isPySpace a = false) (hb : core.getLast? = some b) (hb' : isPySpace b = false) :
    pyStrip (pre ++ core ++ post) = core := by
  unfold pyStrip
  rw [List.append_assoc, dropWhile_all h1]
  have e1 : (core ++ post).dropWhile isPySpace = core ++ post := by
    cases core with
    | nil => cases ha
    | cons x core => cases ha; simp [ha']
  rw [e1, List.reverse_append, dropWhile_all (by rw [List.all_reverse]; exact h2)]
  have e2 : core.reverse.dropWhile isPySpace = core.reverse := by
    have : core.reverse.head? = some b := by rw [List.head?_reverse]; exact hb
    cases hr : core.reverse with
    | nil => rw [hr] at this; cases this
    | cons x t => rw [hr] at this; cases this; simp [hb']
  rw [e2, List.reverse_reverse]

theorem decBody_ends {s : List Char} (h : DecBody s) : ∃ a b, s.head? = some a ∧ s.getLast? = some b ∧ a.isDigit = true ∧ b.isDigit = true := by
  obtain ⟨h1, h2, h3, h4, _⟩ := h
  cases hh : s.head? with
  | none => exact absurd (List.head?_eq_none_iff.mp hh) h1
  | some a =>
    cases hl : s.getLast? with
    | none => exact absurd (List.getLast?_eq_none_iff.mp hl) h1
    | some b =>
      refine ⟨a, b, rfl, rfl, ?_, ?_⟩
      · rcases h4 a (List.mem_of_mem_head? hh) with h | h
        · exact h
        · rw [hh, h] at h2; exact absurd rfl h2
      · rcases h4 b (List.mem_of_mem_getLast? hl) with h | h
        · exact h
        · rw [hl, h] at h3; exact absurd rfl h3

theorem digit_no_space {c : Char} (h : c.isDigit = true) : isPySpace c = false := by
  have h := (isDigit_iff c).mpr h
  have h1 : 48 ≤ c.toNat := h.1
  unfold isPySpace
  have hs : c ≠ ' ' := by rintro rfl; revert h1; decide
  simp [hs]
  omega

theorem signedDec_iff (s : List Char) (n : Int) : signedDec s = some n ↔
    ∃ sign body, s = sign ++ body ∧ DecBody body ∧
      ((sign = [] ∧ n = decVal body) ∨ (sign = ['+'] ∧ n = decVal body) ∨ (sign = ['-'] ∧ n = -(decVal body : Int))) := by
  have pos : ∀ r : List Char, (scanDec .start 0 r).map Int.ofNat = some n ↔ DecBody r ∧ n = decVal r := by
    intro r
    cases h : scanDec .start 0 r with
    | none =>
      constructor
      · intro h; cases h
      · rintro ⟨h1, _⟩
        rw [(scanDec_body r (decVal r)).mpr ⟨h1, rfl⟩] at h
        cases h
    | some m =>
      obtain ⟨h1, rfl⟩ := (scanDec_body r m).mp h
      simp [h1, eq_comm]
  have neg : ∀ r : List Char, (scanDec .start 0 r).map (fun n => -Int.ofNat n) = some n ↔ DecBody r ∧ n = -(decVal r : Int) := by
    intro r
    cases h : scanDec .start 0 r with
    | none =>
      constructor
      · intro h; cases h
      · rintro ⟨h1, _⟩
        rw [(scanDec_body r (decVal r)).mpr ⟨h1, rfl⟩] at h
        cases h
    | some m =>
      obtain ⟨h1, rfl⟩ := (scanDec_body r m).mp h
      simp [h1, eq_comm]
  have start : ∀ {r : List Char}, DecBody r → ∃ a t, r = a :: t ∧ a ≠ '+' ∧ a ≠ '-' := by
    intro r h
    obtain ⟨a, b, h1, _, h3, _⟩ := decBody_ends h
    cases r with
    | nil => cases h1
    | cons x t =>
      cases h1
      exact ⟨a, t, rfl, by rintro rfl; revert h3; decide, by rintro rfl; revert h3; decide⟩
  unfold signedDec
  split
  · rename_i r
    rw [pos]
    constructor
    · rintro ⟨h1, h2⟩; exact ⟨['+'], r, rfl, h1, .inr (.inl ⟨rfl, h2⟩)⟩
    · rintro ⟨sign, body, e, hb, (⟨rfl, h⟩ | ⟨rfl, h⟩ | ⟨rfl, h⟩)⟩
      · obtain ⟨a, t, rfl, h1, _⟩ := start hb
        cases e; exact absurd rfl h1
      · cases e; exact ⟨hb, h⟩
      · cases e
  · rename_i r
    rw [neg]
    constructor
    · rintro ⟨h1, h2⟩; exact ⟨['-'], r, rfl, h1, .inr (.inr ⟨rfl, h2⟩)⟩
    · rintro ⟨sign, body, e, hb, (⟨rfl, h⟩ | ⟨rfl, h⟩ | ⟨rfl, h⟩)⟩
      · obtain ⟨a, t, rfl, _, h1⟩ := start hb
        cases e; exact absurd rfl h1
      · cases e
      · cases e; exact ⟨hb, h⟩
  · rename_i h1 h2
    rw [pos]
    constructor
    · rintro ⟨h1, h2⟩; exact ⟨[], s, rfl, h1, .inl ⟨rfl, h2⟩⟩
    · rintro ⟨sign, body, e, hb, (⟨rfl, h⟩ | ⟨rfl, h⟩ | ⟨rfl, h⟩)⟩
      · cases e; exact ⟨hb, h⟩
      · exact absurd e (h1 body)
      · exact absurd e (h2 body)

/-- **C215**: the texts that `int` takes, and their numbers; for any other it raises `ValueError`. -/
theorem int_of_text (s : List Char) :
    (∀ n, intOfChars s = .ok n ↔ IntText s n) ∧ (∀ e, intOfChars s = .error e ↔ e = .valueError ∧ ¬ ∃ n, IntText s n) := by
  have key : ∀ n, signedDec (pyStrip s) = some n ↔ IntText s n := by
    intro n
    rw [signedDec_iff]
    constructor
    · rintro ⟨sign, body, e, hb, h⟩
      obtain ⟨pre, post, e2, h1, h2⟩ := pyStrip_split s
      exact ⟨pre, sign, body, post, by rw [e2, e]; simp, h1, h2, hb, h⟩
    · rintro ⟨pre, sign, body, post, e, h1, h2, hb, h⟩
      refine ⟨sign, body, ?_, hb, h⟩
      obtain ⟨a, b, ha, hl, hda, hdb⟩ := decBody_ends hb
      have e : s = pre ++ (sign ++ body) ++ post := by rw [e]; simp
      have hlast : (sign ++ body).getLast? = some b := by
        rw [List.getLast?_append, hl]; rfl
      rw [e]
      rcases h with ⟨rfl, _⟩ | ⟨rfl, _⟩ | ⟨rfl, _⟩
      · exact pyStrip_pad h1 h2 ha (digit_no_space hda) hlast (digit_no_space hdb)
      · exact pyStrip_pad (a := '+') h1 h2 rfl (by decide) hlast (digit_no_space hdb)
      · exact pyStrip_pad (a := '-') h1 h2 rfl (by decide) hlast (digit_no_space hdb)
  unfold intOfChars
  cases h : signedDec (pyStrip s) with
  | none =>
    have hno : ¬ ∃ n, IntText s n := by
      rintro ⟨n, hn⟩
      rw [(key n).mpr hn] at h
      cases h
    refine ⟨fun n => ⟨fun h => (by cases h), fun h => absurd ⟨n, h⟩ hno⟩, fun e => ⟨fun h => (by cases h; exact ⟨rfl, hno⟩), ?_⟩⟩
    rintro ⟨rfl, _⟩
    rfl
  | some m =>
    have hm := (key m).mp h
    refine ⟨fun n => ⟨fun h => (by cases h; exact hm), fun hn => ?_⟩, fun e => ⟨fun h => (by cases h), fun h' => absurd ⟨m, hm⟩ h'.2⟩⟩
    rw [(key n).mpr hn] at h
    cases h
    rfl

/-- **C215**: a number can be given as its decimal text. -/
theorem int_of_int (n : Int) : PyVal.intArg (some (.text (intText n))) = .ok n := by
  have hb : ∀ m : Nat, DecBody (natText m) := by
    intro m
    have hd := natText_digits m
    refine ⟨natText_ne_nil m, ?_, ?_, fun c hc => .inl (hd c hc), ?_⟩
    · intro h; exact absurd (hd _ (List.mem_of_mem_head? h)) (by decide)
    · intro h; exact absurd (hd _ (List.mem_of_mem_getLast? h)) (by decide)
    · intro h; exact absurd (hd '_' (h.subset (by simp))) (by decide)
  have hv : ∀ m : Nat, decVal (natText m) = m := by
    intro m
    unfold decVal
    rw [List.filter_eq_self.mpr, digitsVal_natText]
    intro c hc
    have := natText_digits m c hc
    simp only [ne_eq, decide_not, Bool.not_eq_true', decide_eq_false_iff_not]
    rintro rfl
    revert this
    decide
  refine ((int_of_text _).1 n).mpr ?_
  unfold intText
  by_cases h : 0 ≤ n
  · rw [if_pos h]
    exact ⟨[], [], natText n.toNat, [], by simp, rfl, rfl, hb _, .inl ⟨rfl, by rw [hv]; omega⟩⟩
  · rw [if_neg h]
    exact ⟨[], ['-'], natText (-n).toNat, [], by simp, rfl, rfl, hb _, .inr (.inr ⟨rfl, by rw [hv]; omega⟩)⟩

example : intOfChars " -1_000\n".toList = .ok (-1000) ∧ intOfChars "1__0".toList = .error .valueError ∧
    intOfChars "0x10".toList = .error .valueError ∧ intOfChars "- 5".toList = .error .valueError := by decide

end SY.Props
