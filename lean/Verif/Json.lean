import Verif.Str

/-! # JSON texts

`json.dumps` and `json.loads` as `/repo/switchyard/lib/topo/topobuild.py` 271 and 278 call them, modelled from CPython's `json`
(`encoder.py`, `decoder.py`, `scanner.py`): default separators, `ensure_ascii`, strict strings.  A float is represented by the text
it is written with; lone surrogates, which are no characters in Lean, are refused. -/

namespace SY

mutual
/-- What JSON can express. -/
inductive Json
  | null
  | bool (b : Bool)
  | int (n : Int)
  | float (t : List Char)
  | str (s : List Char)
  | arr (l : JList)
  | obj (l : JFields)
/-- The elements of a list. -/
inductive JList
  | nil
  | cons (v : Json) (l : JList)
/-- The entries of a dictionary. -/
inductive JFields
  | nil
  | cons (k : List Char) (v : Json) (l : JFields)
end

/-! ## Writing -/

/-- A hexadecimal digit in small letters. -/
def jsonHexDigit (n : Nat) : Char := "0123456789abcdef".toList.getD n '0'

/-- `'{0:04x}'.format(n)` for `n` below 65536. -/
def jsonHex4 (n : Nat) : List Char :=
  [jsonHexDigit (n / 4096 % 16), jsonHexDigit (n / 256 % 16), jsonHexDigit (n / 16 % 16), jsonHexDigit (n % 16)]

/-- One character of a string, `py_encode_basestring_ascii`. -/
def jsonChar (c : Char) : List Char :=
  if c = '"' then ['\\', '"']
  else if c = '\\' then ['\\', '\\']
  else if c = '\n' then ['\\', 'n']
  else if c = '\r' then ['\\', 'r']
  else if c = '\t' then ['\\', 't']
  else if c.toNat = 12 then ['\\', 'f']
  else if c.toNat = 8 then ['\\', 'b']
  else if 32 ≤ c.toNat ∧ c.toNat ≤ 126 then [c]
  else if c.toNat < 65536 then '\\' :: 'u' :: jsonHex4 c.toNat
  else '\\' :: 'u' :: (jsonHex4 (0xd800 + (c.toNat - 65536) / 1024) ++
    '\\' :: 'u' :: jsonHex4 (0xdc00 + (c.toNat - 65536) % 1024))

/-- The characters of a string and the quotation mark that ends it. -/
def jsonTail : List Char → List Char
  | [] => ['"']
  | c :: s => jsonChar c ++ jsonTail s

/-- A string in quotation marks. -/
def jsonStr (s : List Char) : List Char := '"' :: jsonTail s

mutual
/-- `json.dumps(v)`, topobuild.py 271. -/
def Json.text : Json → List Char
  | .null => "null".toList
  | .bool true => "true".toList
  | .bool false => "false".toList
  | .int n => intText n
  | .float t => t
  | .str s => jsonStr s
  | .arr .nil => ['[', ']']
  | .arr (.cons v l) => '[' :: (v.text ++ l.more)
  | .obj .nil => ['{', '}']
  | .obj (.cons k v l) => '{' :: (jsonStr k ++ (':' :: ' ' :: (v.text ++ l.more)))
/-- The elements after the first, and the end. -/
def JList.more : JList → List Char
  | .nil => [']']
  | .cons v l => ',' :: ' ' :: (v.text ++ l.more)
/-- The entries after the first, and the end. -/
def JFields.more : JFields → List Char
  | .nil => ['}']
  | .cons k v l => ',' :: ' ' :: (jsonStr k ++ (':' :: ' ' :: (v.text ++ l.more)))
end

/-! ## Reading -/

/-- White space. -/
def isJsonSpace (c : Char) : Bool := c = ' ' || c = '\t' || c = '\n' || c = '\r'

/-- White space is skipped. -/
def skipSpace (s : List Char) : List Char := s.dropWhile isJsonSpace

/-- The value of a hexadecimal digit. -/
def jsonHexVal (c : Char) : Option Nat :=
  if '0' ≤ c ∧ c ≤ '9' then some (c.toNat - 48)
  else if 'a' ≤ c ∧ c ≤ 'f' then some (c.toNat - 87)
  else if 'A' ≤ c ∧ c ≤ 'F' then some (c.toNat - 55)
  else none

/-- Four hexadecimal digits. -/
def readHex4 : List Char → Res (Nat × List Char)
  | a :: b :: c :: d :: r =>
    match jsonHexVal a, jsonHexVal b, jsonHexVal c, jsonHexVal d with
    | some a, some b, some c, some d => .ok (((a * 16 + b) * 16 + c) * 16 + d, r)
    | _, _, _, _ => .error .valueError
  | _ => .error .valueError

/-- The second half of a surrogate pair. -/
def readLow (hi : Nat) : List Char → Res (Char × List Char)
  | '\\' :: 'u' :: r => readHex4 r >>= fun y =>
    if 0xdc00 ≤ y.1 ∧ y.1 < 0xe000 then .ok (Char.ofNat (65536 + (hi - 0xd800) * 1024 + (y.1 - 0xdc00)), y.2)
    else .error .valueError
  | _ => .error .valueError

/-- The characters that can follow a backslash, other than `u`. -/
def jsonEscape (c : Char) : Option Char :=
  if c = '"' then some '"'
  else if c = '\\' then some '\\'
  else if c = '/' then some '/'
  else if c = 'b' then some (Char.ofNat 8)
  else if c = 'f' then some (Char.ofNat 12)
  else if c = 'n' then some '\n'
  else if c = 'r' then some '\r'
  else if c = 't' then some '\t'
  else none

/-- The character with this code. -/
def readCode (x : Nat × List Char) : Res (Char × List Char) :=
  if 0xd800 ≤ x.1 ∧ x.1 < 0xdc00 then readLow x.1 x.2
  else if 0xdc00 ≤ x.1 ∧ x.1 < 0xe000 then .error .valueError
  else .ok (Char.ofNat x.1, x.2)

/-- What follows a backslash. -/
def readEscape : List Char → Res (Char × List Char)
  | [] => .error .valueError
  | c :: r =>
    if c = 'u' then readHex4 r >>= readCode
    else
      match jsonEscape c with
      | some d => .ok (d, r)
      | none => .error .valueError

/-- `py_scanstring` after the opening quotation mark, with enough steps. -/
def scanStr : Nat → List Char → Res (List Char × List Char)
  | 0, _ => .error .diverges
  | _ + 1, [] => .error .valueError
  | f + 1, c :: r =>
    if c = '"' then .ok ([], r)
    else if c = '\\' then
      readEscape r >>= fun x => scanStr f x.2 >>= fun y => .ok (x.1 :: y.1, y.2)
    else if c.toNat < 32 then .error .valueError
    else scanStr f r >>= fun y => .ok (c :: y.1, y.2)

/-- The digits at the beginning. -/
def digits (s : List Char) : List Char := s.takeWhile Char.isDigit

/-- What follows them. -/
def afterDigits (s : List Char) : List Char := s.dropWhile Char.isDigit

/-- `-?` in `NUMBER_RE`. -/
def numSign : List Char → List Char × List Char
  | [] => ([], [])
  | c :: r => if c = '-' then (['-'], r) else ([], c :: r)

/-- `0|[1-9]\d*` in `NUMBER_RE`. -/
def numWhole : List Char → Option (List Char × List Char)
  | [] => none
  | c :: r =>
    if c = '0' then some (['0'], r)
    else if c.isDigit then some (c :: digits r, afterDigits r)
    else none

/-- `(\.\d+)?` in `NUMBER_RE`. -/
def numFrac : List Char → List Char × List Char
  | [] => ([], [])
  | c :: r => if c = '.' ∧ digits r ≠ [] then ('.' :: digits r, afterDigits r) else ([], c :: r)

/-- `[-+]?` in `NUMBER_RE`. -/
def expSign : List Char → List Char × List Char
  | [] => ([], [])
  | c :: r => if c = '-' ∨ c = '+' then ([c], r) else ([], c :: r)

/-- `([eE][-+]?\d+)?` in `NUMBER_RE`. -/
def numExp : List Char → List Char × List Char
  | [] => ([], [])
  | c :: r =>
    if (c = 'e' ∨ c = 'E') ∧ digits (expSign r).2 ≠ [] then
      (c :: ((expSign r).1 ++ digits (expSign r).2), afterDigits (expSign r).2)
    else ([], c :: r)

/-- An integer if there is neither fraction nor exponent. -/
def numValue (sign whole frac exp : List Char) : Json :=
  if frac = [] ∧ exp = [] then .int (if sign = [] then digitsVal whole else -(digitsVal whole : Int))
  else .float (sign ++ (whole ++ (frac ++ exp)))

/-- A number at the beginning of the text. -/
def scanNumber (s : List Char) : Option (Json × List Char) :=
  match numWhole (numSign s).2 with
  | none => none
  | some w =>
    some (numValue (numSign s).1 w.1 (numFrac w.2).1 (numExp (numFrac w.2).2).1, (numExp (numFrac w.2).2).2)

/-- The constants and numbers, `py_make_scanner`. -/
def scanWord (s : List Char) : Res (Json × List Char) :=
  if "null".toList.isPrefixOf s then .ok (.null, s.drop 4)
  else if "true".toList.isPrefixOf s then .ok (.bool true, s.drop 4)
  else if "false".toList.isPrefixOf s then .ok (.bool false, s.drop 5)
  else
    match scanNumber s with
    | some x => .ok x
    | none =>
      if "NaN".toList.isPrefixOf s then .ok (.float "NaN".toList, s.drop 3)
      else if "Infinity".toList.isPrefixOf s then .ok (.float "Infinity".toList, s.drop 8)
      else if "-Infinity".toList.isPrefixOf s then .ok (.float "-Infinity".toList, s.drop 9)
      else .error .valueError

/-- The key of an entry, up to the value, `JSONObject`. -/
def scanKey : List Char → Res (List Char × List Char)
  | [] => .error .valueError
  | c :: r =>
    if c = '"' then scanStr (r.length + 1) r >>= fun x =>
      match skipSpace x.2 with
      | ':' :: q => .ok (x.1, skipSpace q)
      | _ => .error .valueError
    else .error .valueError

/-- An entry put into a dictionary. -/
def JFields.put : JFields → List Char → Json → JFields
  | .nil, k, v => .cons k v .nil
  | .cons k' v' l, k, v => if k' = k then .cons k v l else .cons k' v' (l.put k v)

/-- `dict(pairs)`: the last entry of a key counts. -/
def JFields.onto (d : JFields) : JFields → JFields
  | .nil => d
  | .cons k v l => (d.put k v).onto l

mutual
/-- A value at the beginning of the text, `scan_once`, with enough steps. -/
def scanValue : Nat → List Char → Res (Json × List Char)
  | 0, _ => .error .diverges
  | _ + 1, [] => .error .valueError
  | f + 1, c :: r =>
    if c = '"' then scanStr (r.length + 1) r >>= fun x => .ok (.str x.1, x.2)
    else if c = '{' then
      match skipSpace r with
      | '}' :: q => .ok (.obj .nil, q)
      | q => scanKey q >>= fun k => scanValue f k.2 >>= fun x => scanMoreFields f x.2 >>= fun y =>
          .ok (.obj (JFields.nil.onto (.cons k.1 x.1 y.1)), y.2)
    else if c = '[' then
      match skipSpace r with
      | ']' :: q => .ok (.arr .nil, q)
      | q => scanValue f q >>= fun x => scanMore f x.2 >>= fun y => .ok (.arr (.cons x.1 y.1), y.2)
    else scanWord (c :: r)
/-- What follows an element, `JSONArray`. -/
def scanMore : Nat → List Char → Res (JList × List Char)
  | 0, _ => .error .diverges
  | f + 1, s =>
    match skipSpace s with
    | ']' :: q => .ok (.nil, q)
    | ',' :: q => scanValue f (skipSpace q) >>= fun x => scanMore f x.2 >>= fun y => .ok (.cons x.1 y.1, y.2)
    | _ => .error .valueError
/-- What follows an entry, `JSONObject`. -/
def scanMoreFields : Nat → List Char → Res (JFields × List Char)
  | 0, _ => .error .diverges
  | f + 1, s =>
    match skipSpace s with
    | '}' :: q => .ok (.nil, q)
    | ',' :: q => scanKey (skipSpace q) >>= fun k => scanValue f k.2 >>= fun x => scanMoreFields f x.2 >>= fun y =>
        .ok (.cons k.1 x.1 y.1, y.2)
    | _ => .error .valueError
end

/-- `json.loads(s)`, topobuild.py 278. -/
def jsonLoads (s : List Char) : Res Json :=
  if s.head? = some (Char.ofNat 0xfeff) then .error .valueError
  else scanValue (s.length + 1) (skipSpace s) >>= fun x => if skipSpace x.2 = [] then .ok x.1 else .error .valueError

end SY
