import Verif.Icmp

/-! # Data objects shared between ICMP messages

An `ICMP` object (`/repo/switchyard/lib/packet/icmp.py` 25) holds a reference to its data object.  The `icmpdata` setter (145)
stores the object it is given without copying it, and the `icmptype` setter (101) keeps the object if its class fits the new
type.  Here messages are objects over a store of data objects; the setters of `Verif.Icmp` are written again over references.
`ICMPv6` inherits them all. -/

namespace SY

/-- An `ICMP` object, icmp.py 25-27: its data is a reference. -/
structure MsgObj where
  type : Nat
  code : Nat
  ref : Nat
  csum : Nat

/-- The data objects, and the number of the next new one. -/
structure DataMem (D : Type) where
  heap : Nat → D
  fresh : Nat

/-- Making a data object. -/
def DataMem.alloc {D : Type} (s : DataMem D) (d : D) : DataMem D :=
  ⟨fun r => if r = s.fresh then d else s.heap r, s.fresh + 1⟩

/-- Changing a data object in place. -/
def DataMem.change {D : Type} (s : DataMem D) (r : Nat) (f : D → D) : DataMem D :=
  ⟨fun x => if x = r then f (s.heap x) else s.heap x, s.fresh⟩

/-- What a message shows. -/
def MsgObj.view {D : Type} (s : DataMem D) (o : MsgObj) : ICMPMsg D := ⟨o.type, o.code, s.heap o.ref, o.csum⟩

namespace ICMPKind
variable {D : Type} (K : ICMPKind D)

/-- `icmptype` setter, last part, 104-109. -/
def finishRef (o : MsgObj) (t : Nat) : MsgObj × Option PyErr :=
  match K.codes t with
  | none => ({ o with type := t }, some .keyError)
  | some e => if 0 ∈ e.vals then ({ o with type := t, code := 0 }, none) else ({ o with type := t }, none)

/-- `icmptype` setter, 94-109, as `setTypeN`: `cls()` (103) makes a new object only if the class of the present one does
not fit. -/
def setTypeRefN : Nat → DataMem D → MsgObj → Int → DataMem D × MsgObj × Option PyErr
  | 0, s, o, _ => (s, o, some .diverges)
  | n+1, s, o, v =>
    match enumOf K.types v with
    | .error e => (s, o, some e)
    | .ok t =>
      match K.new t with
      | none => (s, o, some .typeError)
      | some d =>
        if K.isA (s.heap o.ref) t then (s, K.finishRef o t)
        else
          match K.typeOf d with
          | none => (s.alloc d, { o with ref := s.fresh }, some .valueError)
          | some t' =>
            match setTypeRefN n (s.alloc d) { o with ref := s.fresh } t' with
            | (s2, o2, some e) => (s2, o2, some e)
            | (s2, o2, none) => (s2, K.finishRef o2 t)

/-- `icmptype` setter, 94-109. -/
def setTypeRef (s : DataMem D) (o : MsgObj) (v : Int) : DataMem D × MsgObj × Option PyErr := K.setTypeRefN 2 s o v

/-- `icmpcode` setter, 111-123: it has to do with type and code only. -/
def setCodeRef (s : DataMem D) (o : MsgObj) (a : CodeArg) : MsgObj × Option PyErr :=
  ({ o with code := (K.setCode (o.view s) a).1.code }, (K.setCode (o.view s) a).2)

/-- `icmpdata` setter, 141-146, given the data object `r`: the object itself is stored. -/
def setDataRef (s : DataMem D) (o : MsgObj) (r : Nat) : DataMem D × MsgObj × Option PyErr :=
  match K.typeOf (s.heap r) with
  | none => (s, { o with ref := r }, some .valueError)
  | some t => K.setTypeRef s { o with ref := r } t

end ICMPKind

/-- A program's actions on messages.  `make`: a new message, with the type, code and data of its constructor (31-52) or as
read from bytes (70-79, which makes a new data object); `copy`: `deepcopy` of a message; `type`, `code`: assignments;
`give`: assignment of a data object made for it; `share`: `a.icmpdata = b.icmpdata`; `edit`: any change of the attributes of
`a.icmpdata`.  Messages have the numbers in which they were made. -/
inductive ShareOp (D : Type)
  | make (m : ICMPMsg D)
  | copy (i : Nat)
  | type (i : Nat) (v : Int)
  | code (i : Nat) (a : CodeArg)
  | give (i : Nat) (d : D)
  | share (i j : Nat)
  | edit (i : Nat) (f : D → D)

/-- The messages of a program over the data objects. -/
structure MsgMem (D : Type) where
  store : DataMem D
  msgs : List MsgObj

/-- A message added, with a data object of its own. -/
def MsgMem.add {D : Type} (s : MsgMem D) (m : ICMPMsg D) : MsgMem D :=
  ⟨s.store.alloc m.data, s.msgs ++ [⟨m.type, m.code, s.store.fresh, m.csum⟩]⟩

/-- Message `i` replaced. -/
def MsgMem.put {D : Type} (s : MsgMem D) (i : Nat) (r : DataMem D × MsgObj × Option PyErr) : MsgMem D :=
  ⟨r.1, s.msgs.set i r.2.1⟩

/-- One action, whatever it raises being caught; an action on a message that does not exist does nothing. -/
def MsgMem.step {D : Type} (K : ICMPKind D) (s : MsgMem D) : ShareOp D → MsgMem D
  | .make m => s.add m
  | .copy i =>
    match s.msgs[i]? with
    | none => s
    | some o => s.add (o.view s.store)
  | .type i v =>
    match s.msgs[i]? with
    | none => s
    | some o => s.put i (K.setTypeRef s.store o v)
  | .code i a =>
    match s.msgs[i]? with
    | none => s
    | some o => s.put i (s.store, K.setCodeRef s.store o a)
  | .give i d =>
    match s.msgs[i]? with
    | none => s
    | some o => s.put i (K.setDataRef (s.store.alloc d) o s.store.fresh)
  | .share i j =>
    match s.msgs[i]?, s.msgs[j]? with
    | some o, some p => s.put i (K.setDataRef s.store o p.ref)
    | _, _ => s
  | .edit i f =>
    match s.msgs[i]? with
    | none => s
    | some o => ⟨s.store.change o.ref f, s.msgs⟩

/-- What the messages show. -/
def MsgMem.views {D : Type} (s : MsgMem D) : List (ICMPMsg D) := s.msgs.map (MsgObj.view s.store)

end SY
