import Verif.EthAddr
import Verif.OfSwitch

/-! # Ethernet addresses as keys: `__eq__` and `__hash__` in `/repo/switchyard/lib/address/__init__.py`

Python's own dictionaries and lists are written out as far as they use these two methods.  Objects are `EthArg`,
the kinds of objects that `EthAddr` distinguishes.  Line numbers refer to address/__init__.py. -/

namespace SY

/-- `hash()` of the objects that are not addresses: any functions. -/
structure PyHash where
  raw : Bytes → Int
  text : List Char → Int
  none : Int
  other : Int

/-- `hash(x)`; for an address line 144-145. -/
def keyHash (H : PyHash) : EthArg → Int
  | .addr a => H.raw a.raw
  | .raw b => H.raw b
  | .text s => H.text s
  | .none => H.none
  | .other => H.other

/-- `x == y`: `EthAddr.__eq__` (136-138) if one of them is an address (the other classes leave the answer to it),
otherwise equality of values of the same kind. -/
def keyEq (x y : EthArg) : Res Bool :=
  match x, y with
  | .addr a, y => a.eqArg y
  | x, .addr b => b.eqArg x
  | x, y => .ok (decide (x = y))

variable {V : Type}

/-- The value stored in a `dict` for a key: items of equal hash are compared with it.  Simplified: they are looked at
in the order of insertion. -/
def kdFind (H : PyHash) : List (EthArg × V) → EthArg → Res (Option V)
  | [], _ => .ok none
  | (k', v) :: d, k =>
    if keyHash H k' = keyHash H k then
      keyEq k' k >>= fun b => if b then .ok (some v) else kdFind H d k
    else kdFind H d k

/-- `d[k] = v`; an existing item keeps its key. -/
def kdSet (H : PyHash) : List (EthArg × V) → EthArg → V → Res (List (EthArg × V))
  | [], k, v => .ok [(k, v)]
  | (k', v') :: d, k, v =>
    if keyHash H k' = keyHash H k then
      keyEq k' k >>= fun b =>
        if b then .ok ((k', v) :: d) else kdSet H d k v >>= fun r => .ok ((k', v') :: r)
    else kdSet H d k v >>= fun r => .ok ((k', v') :: r)

/-- `del d[k]`. -/
def kdDel (H : PyHash) : List (EthArg × V) → EthArg → Res (List (EthArg × V))
  | [], _ => .error .keyError
  | (k', v') :: d, k =>
    if keyHash H k' = keyHash H k then
      keyEq k' k >>= fun b => if b then .ok d else kdDel H d k >>= fun r => .ok ((k', v') :: r)
    else kdDel H d k >>= fun r => .ok ((k', v') :: r)

/-- `x in l` for a list: the items are compared in turn. -/
def listIn : List EthArg → EthArg → Res Bool
  | [], _ => .ok false
  | y :: l, x => keyEq y x >>= fun b => if b then .ok true else listIn l x

/-- `TableEntry.__eq__`, openflow/ofswitch.py 155-156. -/
def FlowEntry.same (e f : FlowEntry) : Bool := decide (e.priority = f.priority)

/-- `TableEntry.__hash__`, openflow/ofswitch.py 158-159 (`hash()` reduces it modulo 2^61 - 1; cookies below that are
unchanged). -/
def FlowEntry.hash (e : FlowEntry) : Int := e.cookie % (2 ^ 61 - 1)

end SY
