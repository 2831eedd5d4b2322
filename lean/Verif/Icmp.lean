import Verif.Udp

/-! # ICMP (`/repo/switchyard/lib/packet/icmp.py`)

`ICMPv6` (icmpv6.py 24-89) inherits the type/code/data machinery of `ICMP` and only replaces its
tables, so that machinery is modelled once, over an `ICMPKind` holding the tables. -/

namespace SY

/-- An `IntEnum` class of ICMP codes: its name (its identity) and its values. -/
structure CodeEnum where
  name : String
  vals : List Nat
  deriving DecidableEq, Repr

/-- The tables of an ICMP flavour; `D` is the type of data objects.  icmp.py 32-35, icmpv6.py 32-35. -/
structure ICMPKind (D : Type) where
  /-- `_valid_types`: the values of the type enumeration. -/
  types : List Nat
  /-- `_valid_codes_map`. -/
  codes : Nat → Option CodeEnum
  /-- `_classtype_from_icmptype(t)()`: a new data object of the class registered for `t`;
  `none` when no class is registered (the map gives `None`). -/
  new : Nat → Option D
  /-- `issubclass(d.__class__, _classtype_from_icmptype(t))`. -/
  isA : D → Nat → Bool
  /-- `_icmptype_from_classtype(d.__class__)`. -/
  typeOf : D → Option Nat
  /-- `d.to_bytes()`. -/
  enc : D → Res Bytes
  /-- `_classtype_from_icmptype(t)().from_bytes(raw)`. -/
  dec : Nat → Bytes → Res D

/-- `ICMP` object, icmp.py 25-27 (the four table slots are the `ICMPKind`). -/
structure ICMPMsg (D : Type) where
  type : Nat
  code : Nat
  data : D
  csum : Nat
  deriving DecidableEq, Repr

/-- Argument of the `icmpcode` setter: an `IntEnum` member, a plain `int`, or anything else
(which 111-118 silently ignores). -/
inductive CodeArg
  | enum (cls : String) (v : Nat)
  | int (v : Int)
  | other

/-- Argument of the `icmpdata` setter: an `ICMPData` object or something else. -/
inductive DataArg (D : Type)
  | obj (d : D)
  | notData

namespace ICMPKind
variable {D : Type} (K : ICMPKind D)

/-- `icmptype` setter, last part, 104-109. -/
def finishType (m : ICMPMsg D) (t : Nat) : ICMPMsg D × Option PyErr :=
  match K.codes t with
  | none => ({ m with type := t }, some .keyError)
  | some e => if 0 ∈ e.vals then ({ m with type := t, code := 0 }, none) else ({ m with type := t }, none)

/-- `icmptype` setter, 94-109, with the nested `self.icmpdata = cls()` (141-146), which calls the
`icmptype` setter again.  A setter may raise after changing the object, so the result is the new
object and the exception, if any.  The number bounds the nesting; the tables never need more
than two levels (`setType_ne_diverges`). -/
def setTypeN : Nat → ICMPMsg D → Int → ICMPMsg D × Option PyErr
  | 0, m, _ => (m, some .diverges)
  | n+1, m, v =>
    match enumOf K.types v with
    | .error e => (m, some e)
    | .ok t =>
      match K.new t with
      | none => (m, some .typeError)
      | some fresh =>
        if K.isA m.data t then K.finishType m t
        else
          match K.typeOf fresh with
          | none => ({ m with data := fresh }, some .valueError)
          | some t' =>
            match setTypeN n { m with data := fresh } t' with
            | (m2, some e) => (m2, some e)
            | (m2, none) => K.finishType m2 t

/-- `icmptype` setter, 94-109. -/
def setType (m : ICMPMsg D) (v : Int) : ICMPMsg D × Option PyErr := K.setTypeN 2 m v

/-- `icmpcode` setter, 111-123.  `xcode in EnumClass` tests membership in that class (Python
before 3.12). -/
def setCode (m : ICMPMsg D) (a : CodeArg) : ICMPMsg D × Option PyErr :=
  match a, K.codes m.type with
  | .other, _ => (m, none)
  | _, none => (m, some .keyError)
  | .enum c v, some e =>
    if c = e.name ∧ v ∈ e.vals then ({ m with code := v }, none) else (m, some .valueError)
  | .int v, some e =>
    match enumOf e.vals v with
    | .ok c => ({ m with code := c }, none)
    | .error x => (m, some x)

/-- `icmpdata` setter, 141-146: the object is stored before its type is looked up; an
unregistered class gives `None`, on which the `icmptype` setter raises `ValueError`. -/
def setData (m : ICMPMsg D) (a : DataArg D) : ICMPMsg D × Option PyErr :=
  match a with
  | .notData => (m, some .generic)
  | .obj d =>
    match K.typeOf d with
    | none => ({ m with data := d }, some .valueError)
    | some t => K.setType { m with data := d } t

/-- `_PACKFMT = '!BBH'`, 28. -/
def fmt : List Fld := [.u 1, .u 1, .u 2]

/-- Type, code, checksum and data bytes: the body of `to_bytes`, 68, and of `checksum`, 58. -/
def wire (m : ICMPMsg D) (csum : Nat) : Res Bytes :=
  pack fmt [.i m.type, .i m.code, .i csum] >>= fun h =>
  K.enc m.data >>= fun d =>
  .ok (h ++ d)

/-- `checksum()`, 57-59 (ICMP for IPv4). -/
def computeChecksum (m : ICMPMsg D) : Res Nat := SY.checksum <$> K.wire m 0

/-- `to_bytes`, 61-68, with the checksum of IPv4's ICMP. -/
def toBytes (m : ICMPMsg D) : Res Bytes :=
  K.computeChecksum m >>= fun c => K.wire m c

/-- `size`, 54-55. -/
def size (m : ICMPMsg D) : Res Nat := K.enc m.data >>= fun d => .ok (calcsize fmt + d.length)

/-- `from_bytes`, 70-79, into a new object. -/
def fromBytes (raw : Bytes) : Res (ICMPMsg D × Bytes) :=
  if raw.length < 4 then .error .notEnoughData
  else
    unpack fmt (raw.take 4) >>= fun fields =>
    match fields with
    | [.i t, .i c, .i s] =>
      enumOf K.types t >>= fun t =>
      match K.codes t with
      | none => .error .keyError
      | some e =>
        enumOf e.vals c >>= fun c =>
        match K.new t with
        | none => .error .typeError
        | some _ =>
          K.dec t (raw.drop 4) >>= fun d =>
          K.size ⟨t, c, d, s.toNat⟩ >>= fun n =>
          .ok (⟨t, c, d, s.toNat⟩, raw.drop n)
    | _ => .error .structError

/-- What the tables have to satisfy for the setters to keep an object coherent. -/
structure Lawful : Prop where
  new_isA : ∀ t d, K.new t = some d → K.isA d t = true
  new_type : ∀ t d, K.new t = some d → K.typeOf d = some t
  type_mem : ∀ d t, K.typeOf d = some t → t ∈ K.types ∧ K.isA d t = true ∧ (K.new t).isSome = true
  code_zero : ∀ t d, K.new t = some d → ∃ e, K.codes t = some e ∧ 0 ∈ e.vals

variable {K}

theorem finishType_ok (L : K.Lawful) {m : ICMPMsg D} {t : Nat} {d : D} (h : K.new t = some d) :
    K.finishType m t = ({ m with type := t, code := 0 }, none) := by
  obtain ⟨e, he, h0⟩ := L.code_zero t d h
  simp only [finishType, he, if_pos h0]

/-- The `icmptype` setter in one line: an unknown or classless type raises and changes nothing;
otherwise type and code are set and the data object is kept if it is of the right class, else
replaced by a new one. -/
theorem setType_eq (L : K.Lawful) (m : ICMPMsg D) (v : Int) :
    K.setType m v =
      match enumOf K.types v with
      | .error e => (m, some e)
      | .ok t =>
        match K.new t with
        | none => (m, some .typeError)
        | some d => (⟨t, 0, if K.isA m.data t then m.data else d, m.csum⟩, none) := by
  unfold setType setTypeN
  cases hv : enumOf K.types v with
  | error e => rfl
  | ok t =>
    simp only
    cases hn : K.new t with
    | none => rfl
    | some d =>
      simp only
      by_cases hi : K.isA m.data t = true
      · rw [if_pos hi, finishType_ok L hn]; simp [hi]
      · rw [if_neg hi, L.new_type t d hn]
        have ht := (L.type_mem d t (L.new_type t d hn)).1
        simp only [setTypeN, enumOf_nat ht, hn, L.new_isA t d hn, if_true, finishType_ok L hn]
        simp [hi]

theorem setType_ne_diverges (L : K.Lawful) (m : ICMPMsg D) (v : Int) :
    (K.setType m v).2 ≠ some .diverges := by
  rw [setType_eq L]
  unfold enumOf
  split <;> rename_i h
  · split at h <;> cases h; simp
  · split at h
    · cases h; split <;> simp
    · cases h

theorem setData_registered (L : K.Lawful) (m : ICMPMsg D) (d : D) (t : Nat) (h : K.typeOf d = some t) :
    K.setData m (.obj d) = (⟨t, 0, d, m.csum⟩, none) := by
  obtain ⟨h1, h2, h3⟩ := L.type_mem d t h
  obtain ⟨d0, h0⟩ := Option.isSome_iff_exists.mp h3
  simp only [setData, h, setType_eq L, enumOf_nat h1, h0, h2, if_true]

end ICMPKind

/-! ## Data objects of IPv4's ICMP -/

/-- The data classes without fields of their own, icmp.py 425-444. -/
inductive PlainICMP
  | routerAdvertisement | routerSolicitation | parameterProblem | timestamp | timestampReply
  | informationRequest | informationReply
  deriving DecidableEq, Repr

/-- `ICMPType` value whose class this is, common.py 98-113. -/
def PlainICMP.type : PlainICMP → Nat
  | .routerAdvertisement => 9 | .routerSolicitation => 10 | .parameterProblem => 12
  | .timestamp => 13 | .timestampReply => 14 | .informationRequest => 15 | .informationReply => 16

/-- An `ICMPData` object, icmp.py 149-444.  `other` is `ICMPData` itself or a direct subclass not
registered for any type.  Attributes that no method reads are omitted: `_nexthopmtu` of
`ICMPTimeExceeded` (347), `_rawpayload` of the address-mask messages is kept because `data` reads
it. -/
inductive ICMPData
  | other (payload : Bytes)
  | plain (c : PlainICMP) (payload : Bytes)
  | quench (payload : Bytes)
  | redirect (addr : BitVec 32) (payload : Bytes)
  | unreach (origdgramlen nexthopmtu : Int) (payload : Bytes)
  | echo (reply : Bool) (ident seq : Int) (payload : Bytes)
  | exceeded (origdgramlen : Int) (payload : Bytes)
  | mask (reply : Bool) (ident seq : Int) (addr : BitVec 32) (payload : Bytes)
  deriving DecidableEq, Repr

namespace ICMPData

/-- `ICMPTypeFromClass(d.__class__)`, 458-466. -/
def typeOf : ICMPData → Option Nat
  | .other _ => none
  | .plain c _ => some c.type
  | .quench _ => some 4
  | .redirect .. => some 5
  | .unreach .. => some 3
  | .echo false .. => some 8
  | .echo true .. => some 0
  | .exceeded .. => some 11
  | .mask false .. => some 17
  | .mask true .. => some 18

/-- `ICMPClassFromType(t)()`, 447-456, and the constructors. -/
def new : Nat → Option ICMPData
  | 0 => some (.echo true 0 0 [])
  | 3 => some (.unreach 0 0 [])
  | 4 => some (.quench [])
  | 5 => some (.redirect 0 [])
  | 8 => some (.echo false 0 0 [])
  | 9 => some (.plain .routerAdvertisement [])
  | 10 => some (.plain .routerSolicitation [])
  | 11 => some (.exceeded 0 [])
  | 12 => some (.plain .parameterProblem [])
  | 13 => some (.plain .timestamp [])
  | 14 => some (.plain .timestampReply [])
  | 15 => some (.plain .informationRequest [])
  | 16 => some (.plain .informationReply [])
  | 17 => some (.mask false 0 0 0 [])
  | 18 => some (.mask true 0 0 0 [])
  | _ => none

/-- `issubclass(d.__class__, ICMPClassFromType(t))`: the class itself, or the two subclassings
329 (`ICMPEchoReply` of `ICMPEchoRequest`) and 422 (`ICMPAddressMaskReply` of
`ICMPAddressMaskRequest`). -/
def isA (d : ICMPData) (t : Nat) : Bool :=
  d.typeOf == some t || (t == 8 && d.typeOf == some 0) || (t == 17 && d.typeOf == some 18)

/-- The `data` attribute, 171-173. -/
def payload : ICMPData → Bytes
  | .other p | .plain _ p | .quench p | .redirect _ p | .unreach _ _ p | .echo _ _ _ p
  | .exceeded _ p | .mask _ _ _ _ p => p

/-- `to_bytes` of each class: 165, 198, 212, 241, 301, 338, 381. -/
def enc : ICMPData → Res Bytes
  | .other p => .ok p
  | .plain _ p => .ok p
  | .quench p => .ok (zeros 4 ++ p)
  | .redirect a p => .ok (beEnc 4 a.toNat ++ p)
  | .unreach o n p => (· ++ p) <$> pack [.x 1, .u 1, .u 2] [.i o, .i n]
  | .echo _ i s p => (· ++ p) <$> pack [.u 2, .u 2] [.i i, .i s]
  | .exceeded o p => (· ++ p) <$> pack [.x 1, .u 1, .u 2] [.i o, .i 0]
  | .mask _ i s a _ => (· ++ beEnc 4 a.toNat) <$> pack [.u 2, .u 2] [.i i, .i s]

/-- `from_bytes` of the echo classes, 291-299.  The message of the error for short data has two
placeholders and one argument, so `str.format` raises `IndexError` instead. -/
def decEcho (reply : Bool) (raw : Bytes) : Res ICMPData :=
  if raw.length < 4 then .error .indexError
  else
    unpack [.u 2, .u 2] (raw.take 4) >>= fun f =>
    match f with
    | [.i i, .i s] => .ok (.echo reply i s (raw.drop 4))
    | _ => .error .structError

/-- `from_bytes` of the address-mask classes, 385-392. -/
def decMask (reply : Bool) (raw : Bytes) : Res ICMPData :=
  if raw.length < 4 then .error .notEnoughData
  else
    unpack [.u 2, .u 2] (raw.take 4) >>= fun f =>
    match f with
    | [.i i, .i s] =>
      ipv4OfBytes ((raw.drop 4).take 4) >>= fun a => .ok (.mask reply i s a [])
    | _ => .error .structError

/-- `from_bytes` of `ICMPDestinationUnreachable` 244-250 and `ICMPTimeExceeded` 342-348. -/
def decUnreach (exceeded : Bool) (raw : Bytes) : Res ICMPData :=
  if raw.length < 4 then .error .notEnoughData
  else
    unpack [.x 1, .u 1, .u 2] (raw.take 4) >>= fun f =>
    match f with
    | [.i o, .i n] => .ok (if exceeded then .exceeded o (raw.drop 4) else .unreach o n (raw.drop 4))
    | _ => .error .structError

/-- `from_bytes` of `ICMPRedirect`, 215-220. -/
def decRedirect (raw : Bytes) : Res ICMPData :=
  if raw.length < 4 then .error .notEnoughData
  else .ok (.redirect (BitVec.ofNat 32 (beDec (raw.take 4))) (raw.drop 4))

/-- `from_bytes` of `ICMPSourceQuench`, 201-204. -/
def decQuench (raw : Bytes) : Res ICMPData :=
  if raw.length < 4 then .error .notEnoughData else .ok (.quench (raw.drop 4))

/-- `ICMPClassFromType(t)().from_bytes(raw)`. -/
def dec (t : Nat) (raw : Bytes) : Res ICMPData :=
  match new t with
  | some (.echo r _ _ _) => decEcho r raw
  | some (.unreach _ _ _) => decUnreach false raw
  | some (.exceeded _ _) => decUnreach true raw
  | some (.quench _) => decQuench raw
  | some (.redirect _ _) => decRedirect raw
  | some (.mask r _ _ _ _) => decMask r raw
  | some (.plain c _) => .ok (.plain c raw)
  | some (.other _) => .ok (.other raw)
  | none => .error .typeError

/-- `__eq__`, 182-183 and 308-311 (the left operand's method; an echo object compared with data
that has no `identifier` raises `AttributeError`). -/
def eq (a b : ICMPData) : Res Bool :=
  match a, b with
  | .echo _ i s p, .echo _ i' s' p' => .ok (decide (i = i') && decide (s = s') && decide (p = p'))
  | .echo _ i s p, .mask _ i' s' _ p' => .ok (decide (i = i') && decide (s = s') && decide (p = p'))
  | .echo .., _ => .error .attributeError
  | a, b => .ok (decide (a.payload = b.payload))

end ICMPData

/-- `ICMPTypeCodeMap`, common.py 116-225. -/
def icmpCodes : Nat → Option CodeEnum
  | 0 => some ⟨"ICMPCodeEchoReply", [0]⟩
  | 3 => some ⟨"ICMPCodeDestinationUnreachable", [0, 1, 2, 3, 4, 5, 6, 7, 8, 9, 10, 11, 12, 13, 14, 15]⟩
  | 4 => some ⟨"ICMPCodeSourceQuench", [0]⟩
  | 5 => some ⟨"ICMPCodeRedirect", [0, 1, 2, 3]⟩
  | 8 => some ⟨"ICMPCodeEchoRequest", [0]⟩
  | 9 => some ⟨"ICMPCodeRouterAdvertisement", [0]⟩
  | 10 => some ⟨"ICMPCodeRouterSolicitation", [0]⟩
  | 11 => some ⟨"ICMPCodeTimeExceeded", [0, 1]⟩
  | 12 => some ⟨"ICMPCodeParameterProblem", [0, 1, 2]⟩
  | 13 => some ⟨"ICMPCodeTimestamp", [0]⟩
  | 14 => some ⟨"ICMPCodeTimestampReply", [0]⟩
  | 15 => some ⟨"ICMPCodeInformationRequest", [0]⟩
  | 16 => some ⟨"ICMPCodeInformationReply", [0]⟩
  | 17 => some ⟨"ICMPCodeAddressMaskRequest", [0]⟩
  | 18 => some ⟨"ICMPCodeAddressMaskReply", [0]⟩
  | _ => none

/-- The tables of `ICMP`, icmp.py 32-35. -/
def icmp4 : ICMPKind ICMPData where
  types := icmpTypes
  codes := icmpCodes
  new := ICMPData.new
  isA := ICMPData.isA
  typeOf := ICMPData.typeOf
  enc := ICMPData.enc
  dec := ICMPData.dec

/-- `ICMP()`, 31-39. -/
def ICMPMsg.default4 : ICMPMsg ICMPData := ⟨8, 0, .echo false 0 0 [], 0⟩

/-- `__eq__`, 81-84. -/
def ICMPMsg.eq4 (a b : ICMPMsg ICMPData) : Res Bool :=
  if a.type = b.type ∧ a.code = b.code then a.data.eq b.data else .ok false

theorem icmp4_lawful : icmp4.Lawful where
  new_isA := by
    intro t d h
    unfold icmp4 ICMPData.new at h
    simp only at h
    split at h <;> cases h <;> decide
  new_type := by
    intro t d h
    unfold icmp4 ICMPData.new at h
    simp only at h
    split at h <;> cases h <;> rfl
  type_mem := by
    intro d t h
    have key : t ∈ icmpTypes ∧ (ICMPData.new t).isSome = true := by
      cases d with
      | other => cases h
      | plain c p => cases c <;> cases h <;> decide
      | echo r => cases r <;> cases h <;> decide
      | mask r => cases r <;> cases h <;> decide
      | _ => cases h; decide
    refine ⟨key.1, ?_, key.2⟩
    have h' : d.typeOf = some t := h
    simp only [icmp4, ICMPData.isA, h']
    simp
  code_zero := by
    intro t d h
    unfold icmp4 ICMPData.new at h
    simp only at h
    split at h <;> cases h <;> exact ⟨_, rfl, by decide⟩

end SY
