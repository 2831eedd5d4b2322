import Verif.Py

/-! # Text and floating-point numbers

Text is a list of characters.  `isspace`, `\s`, `\d`, `\w` and `lower` are modelled for ASCII and the micro
sign. -/

namespace SY

/-- `c.isspace()` for ASCII. -/
def isSpace (c : Char) : Bool := c = ' ' || (9 ≤ c.toNat && c.toNat ≤ 13) || (28 ≤ c.toNat && c.toNat ≤ 31)

/-- `s.strip()`. -/
def strip (s : List Char) : List Char := ((s.dropWhile isSpace).reverse.dropWhile isSpace).reverse

/-- `\w` for ASCII and the micro sign. -/
def isWord (c : Char) : Bool := c.isAlpha || c.isDigit || c = '_' || c = 'µ'

/-- `str(n)` for a nonnegative `int`. -/
def natText (n : Nat) : List Char := Nat.toDigits 10 n

/-- The number a text of digits stands for. -/
def digitsVal (s : List Char) : Nat := Nat.ofDigitChars 10 s 0

/-- `p / q` rounded to the nearest integer, ties to even. -/
def roundHalfEven (p q : Nat) : Nat :=
  if 2 * (p % q) < q then p / q
  else if q < 2 * (p % q) then p / q + 1
  else if (p / q) % 2 = 0 then p / q else p / q + 1

/-- The exponent `e` with `2^e ≤ p / q < 2^(e+1)`. -/
def floatExp (p q : Nat) : Int := if q ≤ p then ((p / q).log2 : Int) else -(((q - 1) / p).log2 + 1 : Int)

/-- The IEEE 754 double nearest to `p / q` (ties to even), as a fraction.  Every operation on doubles is
modelled as the exact result followed by this.  Overflow and subnormal numbers are not modelled. -/
def toDouble (p q : Nat) : Nat × Nat :=
  if p = 0 then (0, 1)
  else if 0 ≤ 52 - floatExp p q then
    (roundHalfEven (p * 2 ^ (52 - floatExp p q).toNat) q, 2 ^ (52 - floatExp p q).toNat)
  else (roundHalfEven p (q * 2 ^ (floatExp p q - 52).toNat) * 2 ^ (floatExp p q - 52).toNat, 1)

/-- A decimal number `[\d.]+` as an exact fraction: `float` accepts it if it has a digit and at most one
point. -/
def parseDecimal (s : List Char) : Res (Nat × Nat) :=
  match s.dropWhile Char.isDigit with
  | [] => if s = [] then .error .valueError else .ok (digitsVal s, 1)
  | '.' :: b =>
    if b.all Char.isDigit && (s.takeWhile Char.isDigit ≠ [] || b ≠ []) then
      .ok (digitsVal (s.takeWhile Char.isDigit ++ b), 10 ^ b.length)
    else .error .valueError
  | _ => .error .valueError

end SY
