import Verif.Common
import Verif.Text

/-! # IP addresses as text (Python's `ipaddress` module)

Addresses with a prefix length (`IPv4Interface`, `IPv6Interface`) and their textual forms, as far as the
modelled code uses them. -/

namespace SY

/-- An `IPv4Interface` or `IPv6Interface`: equality is equality of address and network. -/
structure IPIface where
  addr : IPAddr
  plen : Nat
  deriving DecidableEq, Repr

/-- `max_prefixlen`. -/
def IPAddr.maxPlen : IPAddr → Nat
  | .v4 _ => 32
  | .v6 _ => 128

/-- `str(IPv4Address)`. -/
def ipv4Text (a : BitVec 32) : List Char := joinChar '.' ((beEnc 4 a.toNat).map fun x => natText x.toNat)

/-- The state of the loop of `_compress_hextets`: start and length of the best run of zeros, and start and
length of the current one. -/
structure ZeroRuns where
  bestStart : Nat
  bestLen : Nat
  start : Nat
  len : Nat

/-- One turn of the loop of `_compress_hextets`. -/
def ZeroRuns.step (r : ZeroRuns) (i : Nat) (h : List Char) : ZeroRuns :=
  if h = ['0'] then
    if r.bestLen < r.len + 1 then
      ⟨if r.len = 0 then i else r.start, r.len + 1, if r.len = 0 then i else r.start, r.len + 1⟩
    else { r with start := if r.len = 0 then i else r.start, len := r.len + 1 }
  else { r with len := 0 }

/-- The loop of `_compress_hextets` from index `i` on. -/
def zeroRuns (r : ZeroRuns) (i : Nat) : List (List Char) → ZeroRuns
  | [] => r
  | h :: hs => zeroRuns (r.step i h) (i + 1) hs

/-- The end of `_compress_hextets`: the run `[s, s+n)` is replaced by an empty part, with a further one at
either end of the address. -/
def compressAt (hs : List (List Char)) (s n : Nat) : List (List Char) :=
  (if s = 0 then [[]] else []) ++ hs.take s ++ [[]] ++ hs.drop (s + n) ++ (if s + n = hs.length then [[]] else [])

/-- `_compress_hextets`. -/
def compressHextets (hs : List (List Char)) : List (List Char) :=
  if 1 < (zeroRuns ⟨0, 0, 0, 0⟩ 0 hs).bestLen then
    compressAt hs (zeroRuns ⟨0, 0, 0, 0⟩ 0 hs).bestStart (zeroRuns ⟨0, 0, 0, 0⟩ 0 hs).bestLen
  else hs

/-- The eight 16-bit groups in hexadecimal. -/
def hextets (a : BitVec 128) : List (List Char) :=
  (List.range 8).map fun i => Nat.toDigits 16 (a.toNat / 65536 ^ (7 - i) % 65536)

/-- `str(IPv6Address)`. -/
def ipv6Text (a : BitVec 128) : List Char := joinChar ':' (compressHextets (hextets a))

/-- `str(ip_address)`. -/
def IPAddr.text : IPAddr → List Char
  | .v4 a => ipv4Text a
  | .v6 a => ipv6Text a

/-- `str(ip_interface)`. -/
def IPIface.text (x : IPIface) : List Char := x.addr.text ++ '/' :: natText x.plen

/-- `_parse_octet`: one to three digits without a leading zero, at most 255. -/
def octetVal (s : List Char) : Option UInt8 :=
  if s ≠ [] ∧ s.all Char.isDigit = true ∧ s.length ≤ 3 ∧ (s.length = 1 ∨ s.head? ≠ some '0') ∧ digitsVal s ≤ 255 then
    some (UInt8.ofNat (digitsVal s))
  else none

/-- `[parse_octet(x) for x in …]`. -/
def octetVals : List (List Char) → Option Bytes
  | [] => some []
  | s :: ss => (octetVal s).bind fun b => (octetVals ss).map (b :: ·)

/-- `IPv4Address(text)`. -/
def ipv4Parse (s : List Char) : Option (BitVec 32) :=
  if (splitChar '.' s).length = 4 then (octetVals (splitChar '.' s)).map fun b => BitVec.ofNat 32 (beDec b) else none

/-- The netmask of a prefix length. -/
def maskOf (p : Nat) : Nat := 2 ^ 32 - 2 ^ (32 - p)

/-- `_prefix_from_ip_string`: a netmask, or else a host mask. -/
def plenOfMask (m : Nat) : Option Nat :=
  match (List.range 33).find? (fun p => maskOf p = m) with
  | some p => some p
  | none => (List.range 33).find? (fun p => maskOf p = 2 ^ 32 - 1 - m)

/-- `IPv4Interface._make_netmask(text)`. -/
def plenParse (s : List Char) : Option Nat :=
  if s ≠ [] ∧ s.all Char.isDigit = true ∧ digitsVal s ≤ 32 then some (digitsVal s)
  else (ipv4Parse s).bind fun m => plenOfMask m.toNat

/-- `ip_interface(text)` for text in IPv4 notation. -/
def ipv4IfaceParse (s : List Char) : Option IPIface :=
  match splitChar '/' s with
  | [a] => (ipv4Parse a).map fun x => ⟨.v4 x, 32⟩
  | [a, p] => (ipv4Parse a).bind fun x => (plenParse p).map fun n => ⟨.v4 x, n⟩
  | _ => none

/-! ## IPv6 notation (`_ip_int_from_string`); zone names (`%eth0`) are not modelled -/

/-- Digits of a hexadecimal number, all of which have to be hexadecimal digits. -/
def hexDigits (acc : Nat) : List Char → Option Nat
  | [] => some acc
  | c :: cs => (hexVal c).bind fun d => hexDigits (acc * 16 + d) cs

/-- `_parse_hextet`: one to four hexadecimal digits. -/
def hextetVal (s : List Char) : Option Nat := if s = [] ∨ 4 < s.length then none else hexDigits 0 s

/-- `_parse_hextet` for each of some groups. -/
def hextetVals : List (List Char) → Option (List Nat)
  | [] => some []
  | s :: ss => (hextetVal s).bind fun v => (hextetVals ss).map (v :: ·)

/-- The number with these 16-bit groups. -/
def groupsVal (acc : Nat) : List Nat → Nat
  | [] => acc
  | v :: vs => groupsVal (acc * 65536 + v) vs

/-- The positions, other than the first and the last, of empty parts. -/
def skipIndices (i : Nat) : List (List Char) → List Nat
  | [] => []
  | [_] => []
  | p :: ps => if i ≠ 0 ∧ p = [] then i :: skipIndices (i + 1) ps else skipIndices (i + 1) ps

/-- The number of parts before an empty part at `k`: none if the first one is empty too. -/
def partsHi (ps : List (List Char)) (k : Nat) : Nat := if ps.head? = some [] then k - 1 else k

/-- The number of parts after an empty part at `k`: none if the last one is empty too. -/
def partsLo (ps : List (List Char)) (k : Nat) : Nat :=
  if ps.getLast? = some [] then ps.length - k - 1 - 1 else ps.length - k - 1

/-- The groups when there is an empty part at `k`. -/
def skipGroups (ps : List (List Char)) (k : Nat) : Option (List Nat) :=
  if (ps.head? = some [] ∧ partsHi ps k ≠ 0) ∨ (ps.getLast? = some [] ∧ partsLo ps k ≠ 0) ∨ 8 ≤ partsHi ps k + partsLo ps k then none
  else
    (hextetVals (ps.take (partsHi ps k))).bind fun hi =>
      (hextetVals (ps.drop (ps.length - partsLo ps k))).map fun lo =>
        hi ++ List.replicate (8 - (partsHi ps k + partsLo ps k)) 0 ++ lo

/-- The groups when all eight are there. -/
def allGroups (ps : List (List Char)) : Option (List Nat) :=
  if ps.length ≠ 8 ∨ ps.head? = some [] ∨ ps.getLast? = some [] then none else hextetVals ps

/-- `_ip_int_from_string` after the text was split: at most one `::`. -/
def ipv6Groups (ps : List (List Char)) : Option (List Nat) :=
  match skipIndices 0 ps with
  | [] => allGroups ps
  | [k] => skipGroups ps k
  | _ => none

/-- A last part in dotted-quad notation is replaced by two groups. -/
def quadGroups (ps : List (List Char)) : Option (List (List Char)) :=
  match ps.getLast? with
  | some q =>
    if q.contains '.' then
      (ipv4Parse q).map fun a => ps.dropLast ++ [Nat.toDigits 16 (a.toNat / 65536), Nat.toDigits 16 (a.toNat % 65536)]
    else some ps
  | none => some ps

/-- `IPv6Address(text)`: three to nine parts. -/
def ipv6Parse (s : List Char) : Option (BitVec 128) :=
  if (splitChar ':' s).length < 3 then none
  else
    (quadGroups (splitChar ':' s)).bind fun ps =>
      if 9 < ps.length then none else (ipv6Groups ps).map fun vs => BitVec.ofNat 128 (groupsVal 0 vs)

/-- `ip_address(text)`: IPv4 is tried first. -/
def ipAddressText (s : List Char) : Res IPAddr :=
  match ipv4Parse s with
  | some a => .ok (.v4 a)
  | none =>
    match ipv6Parse s with
    | some a => .ok (.v6 a)
    | none => .error .valueError

/-- `IPv6Interface._make_netmask(text)`: digits only. -/
def plenParse6 (s : List Char) : Option Nat :=
  if s ≠ [] ∧ s.all Char.isDigit = true ∧ digitsVal s ≤ 128 then some (digitsVal s) else none

/-- `ip_interface(text)` for text in IPv6 notation. -/
def ipv6IfaceParse (s : List Char) : Option IPIface :=
  match splitChar '/' s with
  | [a] => (ipv6Parse a).map fun x => ⟨.v6 x, 128⟩
  | [a, p] => (ipv6Parse a).bind fun x => (plenParse6 p).map fun n => ⟨.v6 x, n⟩
  | _ => none

/-- `ip_interface(text)`: IPv4 is tried first. -/
def ifaceParse (s : List Char) : Option IPIface := (ipv4IfaceParse s).or (ipv6IfaceParse s)

/-- What `ip_interface` and `Interface.assign_ipaddr` distinguish. -/
inductive IPIfArg
  | none
  | iface (x : IPIface)
  | addr (a : IPAddr)
  | text (s : List Char)
  | other

/-- `ip_interface(value)`. -/
def ipInterface : IPIfArg → Res IPIface
  | .iface x => .ok x
  | .addr a => .ok ⟨a, a.maxPlen⟩
  | .text s =>
    match ifaceParse s with
    | some x => .ok x
    | none => .error .valueError
  | .none => .error .valueError
  | .other => .error .valueError

end SY
