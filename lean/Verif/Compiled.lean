import Verif.Scenario
import Verif.Text

/-! # Compiled scenario files

`/repo/switchyard/lib/testing.py` 931-973 with the text in the file: base64 as in CPython's `binascii` (the decoder that is not
strict, which `base64.b64decode` uses).  `bz2`, `sha512` and `pickle` are parameters. -/

namespace SY

/-- The alphabet of base64 (RFC 4648, table 1). -/
def b64Alphabet : List Char := "ABCDEFGHIJKLMNOPQRSTUVWXYZabcdefghijklmnopqrstuvwxyz0123456789+/".toList

/-- The character of six bits. -/
def b64Char (n : Nat) : Char := b64Alphabet.getD n '='

/-- The six bits of a character, if it is one of the alphabet. -/
def b64Val (c : Char) : Option Nat := b64Alphabet.idxOf? c

/-- `base64.b64encode`, testing.py 949. -/
def b64Encode : Bytes → List Char
  | [] => []
  | [a] => [b64Char (a.toNat / 4), b64Char (a.toNat % 4 * 16), '=', '=']
  | [a, b] => [b64Char (a.toNat / 4), b64Char (a.toNat % 4 * 16 + b.toNat / 16), b64Char (b.toNat % 16 * 4), '=']
  | a :: b :: c :: r =>
    b64Char (a.toNat / 4) :: b64Char (a.toNat % 4 * 16 + b.toNat / 16) ::
      b64Char (b.toNat % 16 * 4 + c.toNat / 64) :: b64Char (c.toNat % 64) :: b64Encode r

/-- The byte that is complete when six more bits arrive in position `quad` after the bits `left`. -/
def b64Out (quad left v : Nat) : Bytes :=
  match quad with
  | 0 => []
  | 1 => [UInt8.ofNat (left * 4 + v / 16)]
  | 2 => [UInt8.ofNat (left * 16 + v / 4)]
  | _ => [UInt8.ofNat (left * 64 + v)]

/-- The bits that are left then. -/
def b64Left (quad v : Nat) : Nat :=
  match quad with
  | 0 => v
  | 1 => v % 16
  | 2 => v % 4
  | _ => 0

/-- `binascii.a2b_base64`: characters outside the alphabet are skipped, and reading ends at the padding that
fills a group of four. -/
def b64Loop (quad left pads : Nat) (out : Bytes) : List Char → Res Bytes
  | [] => if quad = 0 then .ok out else .error .valueError
  | c :: cs =>
    if c = '=' then
      if 2 ≤ quad then
        if 4 ≤ quad + (pads + 1) then .ok out else b64Loop quad left (pads + 1) out cs
      else b64Loop quad left pads out cs
    else
      match b64Val c with
      | none => b64Loop quad left pads out cs
      | some v => b64Loop ((quad + 1) % 4) (b64Left quad v) 0 (out ++ b64Out quad left v) cs

/-- `base64.b64decode` of a text, testing.py 964: `ValueError` if there are other characters than ASCII. -/
def b64Decode (t : List Char) : Res Bytes :=
  if t.all (fun c => c.toNat < 128) then b64Loop 0 0 0 [] t else .error .valueError

/-- `bz2`, `sha512` and `pickle` for objects of a type. -/
structure Tools (α : Type) where
  compress : Bytes → Bytes
  decompress : Bytes → Res Bytes
  sha512 : Bytes → Bytes
  dumps : α → Bytes
  loads : Bytes → Res α

/-- What `compile_scenario` writes, testing.py 942-949. -/
def compiledText (t : Tools α) (s : α) : List Char := b64Encode (t.compress (sealFile t.sha512 (t.dumps s)))

/-- `uncompile_scenario` of a file with this text, testing.py 962-973.  Blanks that are not ASCII, which `strip`
also removes at the ends, are not modelled. -/
def uncompileText (t : Tools α) (text : List Char) : Res α :=
  b64Decode (strip text) >>= fun z =>
  t.decompress z >>= fun raw =>
  openFile t.sha512 raw >>= fun b =>
  t.loads b

/-- The output file while `compile_scenario` runs, testing.py 939-951: before `open` it is what it was; `open` empties it; then
characters are written, which arrive in the file in pieces. -/
inductive CompilePoint
  | before
  | written (n : Nat)

/-- The contents of the file if the process dies there (`none`: there is no file). -/
def fileAt (old : Option (List Char)) (text : List Char) : CompilePoint → Option (List Char)
  | .before => old
  | .written n => some (text.take n)

end SY
