import Verif.Struct

/-! # MAC addresses (`/repo/switchyard/lib/address/__init__.py` 25-151)

Text is a list of characters; `int(s, base=16)` is modelled for ASCII text (other Unicode
digits, which Python also accepts, are not modelled: they are rejected here). -/

namespace SY

/-- Value of one hexadecimal digit. -/
def hexVal (c : Char) : Option Nat :=
  if '0' ≤ c ∧ c ≤ '9' then some (c.toNat - 48)
  else if 'a' ≤ c ∧ c ≤ 'f' then some (c.toNat - 87)
  else if 'A' ≤ c ∧ c ≤ 'F' then some (c.toNat - 55)
  else none

/-- Scanner state of Python's integer parser. -/
inductive IntSt
  | start      -- a digit is required
  | afterDigit -- digit, underscore or end
  | afterPfx   -- digit or underscore
  deriving DecidableEq

/-- Digits of `int(s, 16)` after sign and prefix, single underscores allowed between digits. -/
def scanHex : IntSt → Nat → List Char → Option Nat
  | .afterDigit, acc, [] => some acc
  | _, _, [] => none
  | st, acc, c :: r =>
    if c = '_' then (if st = .start then none else scanHex .start acc r)
    else match hexVal c with
      | some d => scanHex .afterDigit (acc * 16 + d) r
      | none => none

/-- ASCII characters for which `str.isspace()` holds. -/
def isPySpace (c : Char) : Bool :=
  c = ' ' || (9 ≤ c.toNat && c.toNat ≤ 13) || (28 ≤ c.toNat && c.toNat ≤ 31)

/-- `str.strip()`. -/
def pyStrip (s : List Char) : List Char :=
  ((s.dropWhile isPySpace).reverse.dropWhile isPySpace).reverse

/-- The part of `int(s, base=16)` after the sign: an optional prefix `0x`, then digits. -/
def intBody (t : List Char) : Option Nat :=
  match t with
  | '0' :: 'x' :: r => scanHex .afterPfx 0 r
  | '0' :: 'X' :: r => scanHex .afterPfx 0 r
  | t => scanHex .start 0 t

/-- `int(s, base=16)`; `none` is `ValueError`. -/
def pyInt16 (s : List Char) : Option Int :=
  match pyStrip s with
  | '+' :: r => (intBody r).map Int.ofNat
  | '-' :: r => (intBody r).map (fun n => -Int.ofNat n)
  | r => (intBody r).map Int.ofNat

/-- `str.count(c)` for a one-character string. -/
def countChar (c : Char) (s : List Char) : Nat := (s.filter (· = c)).length

/-- `str.split(c)` for a one-character separator. -/
def splitChar (c : Char) : List Char → List (List Char)
  | [] => [[]]
  | a :: r =>
    if a = c then [] :: splitChar c r
    else match splitChar c r with
      | [] => [[a]]
      | p :: ps => (a :: p) :: ps

/-- `bytes([v0, v1, ...])`: every value must be in 0..255. -/
def pyBytes : List Int → Res Bytes
  | [] => .ok []
  | v :: vs => if 0 ≤ v ∧ v < 256 then (UInt8.ofNat v.toNat :: ·) <$> pyBytes vs
               else .error .valueError

/-- `[int(val, base=16) for val in parts]`. -/
def pyInts16 : List (List Char) → Res (List Int)
  | [] => .ok []
  | p :: ps => match pyInt16 p with
    | some v => (v :: ·) <$> pyInts16 ps
    | none => .error .valueError

/-- An `EthAddr` object: the slot `__value` (address/__init__.py 29). -/
structure EthAddr where
  raw : Bytes
  deriving DecidableEq, Repr

/-- Arguments the constructor distinguishes (39-50); `other` is any other Python object. -/
inductive EthArg
  | none
  | raw (b : Bytes)
  | addr (a : EthAddr)
  | text (s : List Char)
  | other
  deriving DecidableEq

/-- `bytes([int(val,base=16) for val in addr.split(sep)])`, line 49. -/
def EthAddr.parseSep (sep : Char) (s : List Char) : Res Bytes := do
  let is ← pyInts16 (splitChar sep s)
  pyBytes is

/-- The value computed by the branches of `EthAddr.__init__`, address/__init__.py 37-50;
`none` is Python's `None`. -/
def EthAddr.parseArg : EthArg → Res (Option Bytes)
  | .raw b => .ok (some (b.take 6))
  | .addr a => .ok (some a.raw)
  | .none => .ok (some (zeros 6))
  | .text s =>
    if countChar ':' s = 5 then some <$> EthAddr.parseSep ':' s
    else if countChar '-' s = 5 then some <$> EthAddr.parseSep '-' s
    else .ok Option.none
  | .other => .ok Option.none

/-- `EthAddr.__init__`, address/__init__.py 31-54; an empty or absent value raises. -/
def EthAddr.mk' (arg : EthArg) : Res EthAddr :=
  EthAddr.parseArg arg >>= fun v =>
    match v with
    | some (b :: bs) => .ok ⟨b :: bs⟩
    | _ => .error .runtimeError

/-- `self.__value[i]`. -/
def byteAt (b : Bytes) (i : Nat) : Res UInt8 :=
  match b[i]? with
  | some v => .ok v
  | none => .error .indexError

/-- `isBridgeFiltered`, 56-69 (`and` short-circuits). -/
def EthAddr.isBridgeFiltered (a : EthAddr) : Res Bool := do
  if (← byteAt a.raw 0) ≠ 0x01 then return false
  if (← byteAt a.raw 1) ≠ 0x80 then return false
  if (← byteAt a.raw 2) ≠ 0xC2 then return false
  if (← byteAt a.raw 3) ≠ 0x00 then return false
  if (← byteAt a.raw 4) ≠ 0x00 then return false
  return decide ((← byteAt a.raw 5) ≤ 0x0F)

/-- `isLocal`, 81-85. -/
def EthAddr.isLocal (a : EthAddr) : Res Bool := do
  return ((← byteAt a.raw 0) &&& 2) ≠ 0

/-- `isGlobal`, 75-79. -/
def EthAddr.isGlobal (a : EthAddr) : Res Bool := do
  return !(← a.isLocal)

/-- `isMulticast`, 95-99. -/
def EthAddr.isMulticast (a : EthAddr) : Res Bool := do
  return ((← byteAt a.raw 0) &&& 1) ≠ 0

/-- Lower-case hexadecimal digit. -/
def hexChar (n : Nat) : Char := if n < 10 then Char.ofNat (48 + n) else Char.ofNat (87 + n)

/-- `'{:02x}'.format(x)` for a byte. -/
def fmt02x (x : UInt8) : List Char := [hexChar (x.toNat / 16), hexChar (x.toNat % 16)]

/-- `sep.join(parts)`. -/
def joinChar (sep : Char) : List (List Char) → List Char
  | [] => []
  | [p] => p
  | p :: q :: ps => p ++ sep :: joinChar sep (q :: ps)

/-- `toStr`, 126-131. -/
def EthAddr.toStr (a : EthAddr) (sep : Char := ':') : List Char :=
  joinChar sep (a.raw.map fmt02x)

/-- Python's `<` on `bytes`: lexicographic. -/
def bytesLt : Bytes → Bytes → Bool
  | [], [] => false
  | [], _ :: _ => true
  | _ :: _, [] => false
  | a :: as, b :: bs => if a < b then true else if b < a then false else bytesLt as bs

/-- `__eq__`, 136-138: the other operand goes through the constructor, which may raise. -/
def EthAddr.eqArg (a : EthAddr) (arg : EthArg) : Res Bool := do
  let o ← EthAddr.mk' arg
  return decide (a.raw = o.raw)

/-- `__lt__`, 140-142. -/
def EthAddr.ltArg (a : EthAddr) (arg : EthArg) : Res Bool := do
  let o ← EthAddr.mk' arg
  return bytesLt a.raw o.raw

/-- `SpecialEthAddr.ETHER_BROADCAST`, 177. -/
def EthAddr.broadcast : EthAddr := ⟨[255, 255, 255, 255, 255, 255]⟩

/-- `EthAddr()`, 43-44. -/
def EthAddr.any : EthAddr := ⟨zeros 6⟩

/-- The constructor on six (or more) raw bytes. -/
theorem EthAddr.mk'_raw6 {b : Bytes} (h : b.length = 6) : EthAddr.mk' (.raw b) = .ok ⟨b⟩ := by
  have : b.take 6 = b := by rw [← h, List.take_length]
  cases b with
  | nil => simp at h
  | cons x xs => simp only [EthAddr.mk', EthAddr.parseArg, bind_ok, this]

theorem EthAddr.mk'_addr {a : EthAddr} (h : a.raw ≠ []) : EthAddr.mk' (.addr a) = .ok a := by
  obtain ⟨r⟩ := a
  cases r with
  | nil => exact absurd rfl h
  | cons x xs => rfl

end SY
