import Verif.Text

/-! # Link capacities and delays as text: switchyard/lib/topo/util.py

Line numbers without a file name refer to that file.

A capacity is a nonnegative number of bits per second.  In the format of line 38 a `float` that is
`bits / divisor` with `bits < 10^15` prints as the exact decimal expansion of that quotient: the expansion
has at most 15 significant digits, and no two such decimals have the same nearest double.

A delay is a whole number of microseconds `k`, standing for the double nearest to `k / 10^6`; below `2^33`
seconds line 88 prints it as exactly `k / 10^6`. -/

namespace SY

/-- The units of lines 15-31 with their divisors, as powers of ten. -/
def bwUnit (bits : Nat) : Res (List Char × Nat) :=
  if bits < 1000 then .ok ("bits".toList, 0)
  else if bits < 1000000 then .ok ("Kb".toList, 3)
  else if bits < 1000000000 then .ok ("Mb".toList, 6)
  else if bits < 1000000000000 then .ok ("Gb".toList, 9)
  else if bits < 1000000000000000 then .ok ("Tb".toList, 12)
  else .error .generic

/-- The digits of `r < 10^w` with leading zeros up to width `w`, without trailing zeros. -/
def fracText (w r : Nat) : List Char :=
  ((List.replicate (w - (natText r).length) '0' ++ natText r).reverse.dropWhile (· = '0')).reverse

/-- Lines 33-36 and the format of 38: `bits / 10^k` as text. -/
def bwValue (bits k : Nat) : List Char :=
  if bits % 10 ^ k = 0 then natText (bits / 10 ^ k)
  else natText (bits / 10 ^ k) ++ '.' :: fracText k (bits % 10 ^ k)

/-- `humanize_bandwidth`, 3-38. -/
def humanizeBandwidth (bits : Nat) : Res (List Char) :=
  (fun u => bwValue bits u.2 ++ ' ' :: u.1 ++ "/s".toList) <$> bwUnit bits

/-- `[\d\.]`. -/
def isNumChar (c : Char) : Bool := c.isDigit || c = '.'

/-- The part `\s*([\d\.]+)\s*` of the regular expressions 59 and 127: the number and what follows. -/
def numberAndRest (s : List Char) : Option (List Char × List Char) :=
  if (s.dropWhile isSpace).takeWhile isNumChar = [] then none
  else some ((s.dropWhile isSpace).takeWhile isNumChar,
    ((s.dropWhile isSpace).dropWhile isNumChar).dropWhile isSpace)

/-- `multipliers.get(units[0].lower(), 0)`, 64 and 67. -/
def bwMultiplier (c : Char) : Nat :=
  if c.toLower = 'b' then 1
  else if c.toLower = 'k' then 10 ^ 3
  else if c.toLower = 'm' then 10 ^ 6
  else if c.toLower = 'g' then 10 ^ 9
  else if c.toLower = 't' then 10 ^ 12
  else 0

/-- Lines 65-70: the multiplier, and 8 for bytes. -/
def bwScale (units : List Char) : Nat × Nat :=
  match units with
  | [] => (1, 1)
  | [c] => (bwMultiplier c, 1)
  | c :: d :: _ => (bwMultiplier c, if d = 'B' then 8 else 1)

/-- `int(value * mult * bits)`, 72, for the decimal `x`: `float(value)` is the nearest double, the first
product is rounded, the second is exact (a multiplication by 1 or 8). -/
def bwCompute (x : Nat × Nat) (sc : Nat × Nat) : Nat :=
  (toDouble ((toDouble x.1 x.2).1 * sc.1) (toDouble x.1 x.2).2).1 * sc.2 /
    (toDouble ((toDouble x.1 x.2).1 * sc.1) (toDouble x.1 x.2).2).2

/-- `unhumanize_bandwidth`, 40-72, for a text without line breaks (an `int` is returned unchanged). -/
def unhumanizeBandwidth (s : List Char) : Res (Option Nat) :=
  match numberAndRest s with
  | none => .ok none
  | some (v, units) => (fun x => some (bwCompute x (bwScale units))) <$> parseDecimal v

/-- `humanize_delay`, 78-110, for a delay of `k` microseconds. -/
def humanizeDelay (k : Nat) : List Char :=
  if 0 < k % 1000 then natText k ++ " µsec".toList ++ (if 1 < k then ['s'] else [])
  else if 0 < k / 1000 % 1000 then natText (k / 1000) ++ " msec".toList ++ (if 1 < k / 1000 then ['s'] else [])
  else if 0 < k / 1000000 then natText (k / 1000000) ++ " sec".toList ++ (if 1 < k / 1000000 then ['s'] else [])
  else "0.0 sec".toList

/-- Lines 132-141: the divisor for a unit. -/
def delayDivisor (units : List Char) : Option Nat :=
  if units = [] then some 1
  else if units = "us".toList ∨ units = "usec".toList ∨ "micros".toList.isPrefixOf units then some (10 ^ 6)
  else if units = "ms".toList ∨ units = "msec".toList ∨ "millis".toList.isPrefixOf units then some (10 ^ 3)
  else if units = "s".toList ∨ "sec".toList.isPrefixOf units then some 1
  else none

/-- `unhumanize_delay`, 112-142 (a `float` is returned unchanged): the delay in seconds as the exact fraction
that line 142 computes, before rounding. -/
def unhumanizeDelay (s : List Char) : Res (Option (Nat × Nat)) :=
  match numberAndRest s with
  | none => .ok none
  | some (v, rest) =>
    parseDecimal v >>= fun x =>
    match delayDivisor (rest.takeWhile isWord) with
    | none => .ok none
    | some d => .ok (some (x.1, x.2 * d))

end SY
