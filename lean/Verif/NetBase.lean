import Verif.Interface

/-! # The network object: switchyard/llnetbase.py and the arguments of user code (syinit.py)

Line numbers without a file name refer to llnetbase.py. -/

namespace SY

/-- What the up/down callback was called with. -/
structure UpDown where
  callback : Nat
  intf : Iface
  up : Bool
  deriving DecidableEq, Repr

/-- `LLNetBase`, 48-56.  A callback is a number; `notes` are the calls made so far. -/
structure NetBase where
  callback : Option Nat
  devinfo : Dict (List Char) Iface
  notes : List UpDown

/-- A call of the callback, if there is one. -/
def NetBase.notify (n : NetBase) (i : Iface) (up : Bool) : NetBase :=
  match n.callback with
  | some c => { n with notes := n.notes ++ [⟨c, i, up⟩] }
  | none => n

/-- `set_devupdown_callback`, 58-67. -/
def NetBase.setCallback (n : NetBase) (c : Option Nat) : NetBase := { n with callback := c }

/-- `intf_down`, 69-76 (the argument is a device name). -/
def NetBase.intfDown (n : NetBase) (name : List Char) : NetBase :=
  match n.devinfo.get? name with
  | some i => n.notify i false
  | none => n

/-- `intf_up`, 78-89. -/
def NetBase.intfUp (n : NetBase) (i : Iface) : NetBase × Option PyErr :=
  match n.devinfo.get? i.name with
  | some _ => (n, some .valueError)
  | none => ({ n with devinfo := n.devinfo.set i.name i }.notify i true, none)

/-- `interfaces`, 91-97. -/
def NetBase.interfaces (n : NetBase) : List Iface := n.devinfo.map Prod.snd

/-- `interface_by_name`, 105-111. -/
def NetBase.byName (n : NetBase) (name : List Char) : Res Iface :=
  match n.devinfo.get? name with
  | some i => .ok i
  | none => .error .keyError

/-- `raise KeyError` if the loop found nothing. -/
def foundOr (x : Option Iface) : Res Iface :=
  match x with
  | some i => .ok i
  | none => .error .keyError

/-- `interface_by_ipaddr`, 119-128.  Addresses are compared by their texts. -/
def NetBase.byIp (n : NetBase) (v : IPArg) : Res Iface :=
  ipAddress v >>= fun a => foundOr (n.interfaces.find? fun i => i.ips.any fun x => x.addr.text = a.text)

/-- The loop of `interface_by_macaddr`, 141-143. -/
def findMac (a : EthAddr) : List Iface → Res Iface
  | [] => .error .keyError
  | i :: is => i.ethaddr.eqArg (.addr a) >>= fun b => if b then .ok i else findMac a is

/-- `interface_by_macaddr`, 136-144. -/
def NetBase.byMac (n : NetBase) (v : EthArg) : Res Iface :=
  EthAddr.mk' v >>= fun a => findMac a n.interfaces

/-- `_lookup_devname`, 189-193. -/
def NetBase.lookupDevname (n : NetBase) (num : Int) : Res (List Char) :=
  match n.devinfo.find? (fun x => x.2.ifnum = num) with
  | some x => .ok x.1
  | none => .error .keyError

/-- `s.split()`: the parts between runs of white space; the current part is given in reverse. -/
def splitWords (cur : List Char) : List Char → List (List Char)
  | [] => if cur = [] then [] else [cur.reverse]
  | c :: s =>
    if isSpace c then (if cur = [] then splitWords [] s else cur.reverse :: splitWords [] s)
    else splitWords (c :: cur) s

/-- The arguments of user code: positional ones and keywords. -/
structure CodeArgs where
  args : List (List Char)
  kwargs : Dict (List Char) (List Char)
  deriving DecidableEq

/-- One turn of the loop in `_parse_codeargs`, syinit.py 33-38. -/
def CodeArgs.add (c : CodeArgs) (a : List Char) : Res CodeArgs :=
  if '=' ∈ a then
    match splitChar '=' a with
    | [k, v] => .ok { c with kwargs := c.kwargs.set k v }
    | _ => .error .valueError
  else .ok { c with args := c.args ++ [a] }

/-- The loop of `_parse_codeargs`, syinit.py 33-38. -/
def parseWords (c : CodeArgs) : List (List Char) → Res CodeArgs
  | [] => .ok c
  | a :: as => c.add a >>= fun c => parseWords c as

/-- `_parse_codeargs`, syinit.py 25-40; `none` is any argument that is not a string. -/
def parseCodeargs (s : Option (List Char)) : Res CodeArgs :=
  match s with
  | some s => parseWords ⟨[], []⟩ (splitWords [] s)
  | none => .ok ⟨[], []⟩

/-- The signature of the entry function, as far as lines 18-22 look at it or Python does at the call: the
names of its parameters (`co_argcount` of them), how many of the last ones have defaults, its keyword-only parameters, each
with whether it has a default, and whether it has `*args` and `**kwargs`. -/
structure Signature where
  params : List (List Char)
  defaults : Nat
  kwonly : List (List Char × Bool)
  star : Bool
  kw : Bool

/-- How user code is called: with the network object, positional arguments and keywords. -/
structure UserCall where
  args : List (List Char)
  kwargs : Dict (List Char) (List Char)
  deriving DecidableEq

/-- `_start_usercode`, 12-46: the call made, if any, and the number of warnings logged. -/
def startUsercode (f : Signature) (c : CodeArgs) : Res UserCall × Nat :=
  ((if f.params.length < 1 then .error .runtimeError
    else if f.star && f.kw then .ok ⟨c.args, c.kwargs⟩
    else if f.star then .ok ⟨c.args, []⟩
    else if f.kw then .ok ⟨[], c.kwargs⟩
    else .ok ⟨[], []⟩),
   (if c.args ≠ [] ∧ f.star = false then 1 else 0) + (if c.kwargs ≠ [] ∧ f.kw = false then 1 else 0))

end SY
