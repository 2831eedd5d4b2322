import Verif.Matcher
import Verif.IPText

/-! # Working with options: ipv4.py 60-156, 158-170, 228-269, 284-361; icmpv6.py 338-419; ipv6.py 349-354

Line numbers without a file name refer to ipv4.py.  The bytes of the options are in `Verif/IPv4Opt.lean` and
`Verif/Icmpv6.lean`; here are the constructors and the methods by which programs change options and lists of
them. -/

namespace SY

/-! ## Routing options -/

/-- An `IPOptionXRouting` object, 60-138: number, pointer and addresses. -/
structure RouteOption where
  optnum : Nat
  ptr : Nat
  addrs : List (BitVec 32)
  deriving DecidableEq, Repr

/-- The object as an option. -/
def RouteOption.toOpt (o : RouteOption) : IPOpt := .routing o.optnum o.ptr o.addrs

/-- The three classes, 141-153. -/
inductive RouteClass
  | loose | strict | record
  deriving DecidableEq, Repr

/-- The option numbers given at 143, 148 and 153 (common.py `IPOptionNumber`). -/
def RouteClass.optnum : RouteClass → Nat
  | .loose => 3
  | .record => 7
  | .strict => 9

/-- The constructors, 63-68 and 141-153, with an integer. -/
def RouteOption.new (c : RouteClass) (numaddrs : Int) : Res RouteOption :=
  if numaddrs < 1 ∨ numaddrs > 9 then .error .generic
  else .ok ⟨c.optnum, 4, List.replicate numaddrs.toNat 0⟩

/-- Setter of `pointer` with an integer, 98-103. -/
def RouteOption.setPointer (o : RouteOption) (v : Int) : Res RouteOption :=
  if 0 ≤ v / 4 - 1 ∧ v / 4 - 1 < o.addrs.length then .ok { o with ptr := v.toNat } else .error .valueError

/-- What may be assigned to an element: an `IPv4Address`, text, or any other object. -/
inductive RouteArg
  | addr (a : BitVec 32)
  | text (s : List Char)
  | other
  deriving DecidableEq

/-- `IPv4Address(addr)`, 122. -/
def RouteArg.value : RouteArg → Res (BitVec 32)
  | .addr a => .ok a
  | .text s => (ipv4Parse s).elim (.error .addressValue) .ok
  | .other => .error .valueError

/-- Index normalisation and check of 109-112, 118-121, 125-128 and 333-352. -/
def optIndex (len : Nat) (i : Int) : Res Nat := (pyIndex len i).elim (.error .indexError) .ok

/-- `opt[index]`, 108-113. -/
def RouteOption.get (o : RouteOption) (i : Int) : Res (BitVec 32) := optIndex o.addrs.length i >>= fun k => listIndex o.addrs k

/-- `opt[index] = addr`, 115-122: the class of the value is looked at first, the text is read last. -/
def RouteOption.set (o : RouteOption) (i : Int) (a : RouteArg) : Res RouteOption :=
  if a = .other then .error .valueError
  else optIndex o.addrs.length i >>= fun k => a.value >>= fun x => .ok { o with addrs := o.addrs.set k x }

/-- `del opt[index]`, 124-129.  The pointer stays as it is. -/
def RouteOption.del (o : RouteOption) (i : Int) : Res RouteOption :=
  optIndex o.addrs.length i >>= fun k => .ok { o with addrs := o.addrs.eraseIdx k }

/-- Operations on a routing option. -/
inductive RouteOp
  | pointer (v : Int)
  | set (i : Int) (a : RouteArg)
  | del (i : Int)

/-- One operation. -/
def RouteOption.apply (o : RouteOption) : RouteOp → Res RouteOption
  | .pointer v => o.setPointer v
  | .set i a => o.set i a
  | .del i => o.del i

/-- Operations one after the other; one that raises leaves the option as it was. -/
def RouteOption.run (o : RouteOption) : List RouteOp → RouteOption
  | [] => o
  | op :: ops =>
    match o.apply op with
    | .ok o' => o'.run ops
    | .error _ => o.run ops

/-! ## The other constructors -/

/-- `IPOptionTimestamp()`, 161-167. -/
def newTimestamp : IPOpt := .timestamp 5 1 (List.replicate 4 (some 0, 0))

/-- `IPOptionRouterAlert()`, 257-259, with 232-237. -/
def newRouterAlert : IPOpt := .fourB 20 0 0x80

/-- `IPOptionMTUProbe()`, 262-264. -/
def newMTUProbe : IPOpt := .fourB 11 1500 0

/-- `IPOptionMTUReply()`, 267-269. -/
def newMTUReply : IPOpt := .fourB 12 1500 0

/-- `IPOptionNoOperation()`, 51-53. -/
def newNoOperation : IPOpt := .single 1

/-- `IPOptionEndOfOptionList()`, 56-58. -/
def newEndOfOptionList : IPOpt := .single 0

/-- Setter of `flag` of a timestamp option, 178-180; the other classes have none. -/
def IPOpt.setFlag (v : Int) : IPOpt → IPOpt
  | .timestamp p _ es => .timestamp p v es
  | o => o

/-! ## Lists of options -/

/-- `IPOptionList.append` and `ICMPv6OptionList.append`, 323-327 and icmpv6.py 376-381: `none` is an object
of another class, for which `err` is raised. -/
def optAppend {α : Type} (err : PyErr) (l : List α) (v : Option α) : Res (List α) :=
  match v with
  | some x => .ok (l ++ [x])
  | none => .error err

/-- `__getitem__` with an integer, 332-337 and icmpv6.py 387-392. -/
def optGet {α : Type} (l : List α) (i : Int) : Res α := optIndex l.length i >>= fun k => listIndex l k

/-- `__setitem__`, 339-347 and icmpv6.py 401-410. -/
def optSet {α : Type} (l : List α) (i : Int) (v : Option α) : Res (List α) :=
  match v with
  | some x => optIndex l.length i >>= fun k => .ok (l.set k x)
  | none => .error .valueError

/-- `__delitem__`, 349-355 and icmpv6.py 412-418. -/
def optDel {α : Type} (l : List α) (i : Int) : Res (List α) := optIndex l.length i >>= fun k => .ok (l.eraseIdx k)

/-- `raw_length()` of an `IPOptionList`, 357-358. -/
def optsRawLength (os : List IPOpt) : Res Nat := optsToBytes os >>= fun b => .ok b.length

/-- `raw_length()` of an `ICMPv6OptionList`, icmpv6.py 420-421. -/
def ndRawLength (os : List NDOpt) : Res Nat := ndBytes os >>= fun b => .ok b.length

/-- Operations on a list of options. -/
inductive ListOp (α : Type)
  | append (v : Option α)
  | set (i : Int) (v : Option α)
  | del (i : Int)

/-- One operation; `err` is what `append` raises for objects of other classes: `Exception` for an
`IPOptionList`, `TypeError` for an `ICMPv6OptionList`. -/
def ListOp.apply {α : Type} (err : PyErr) (l : List α) : ListOp α → Res (List α)
  | .append v => optAppend err l v
  | .set i v => optSet l i v
  | .del i => optDel l i

/-- Operations one after the other; one that raises changes nothing. -/
def optRun {α : Type} (err : PyErr) (l : List α) : List (ListOp α) → List α
  | [] => l
  | op :: ops =>
    match op.apply err l with
    | .ok l' => optRun err l' ops
    | .error _ => optRun err l ops

/-- The class of an ICMPv6 option (icmpv6.py 146-283), and the classes these are derived from. -/
inductive NDClass
  | source | target | prefixInfo | mtu | redirected | linkLayer | option
  deriving DecidableEq, Repr

/-- `obj.__class__`. -/
def NDOpt.klass : NDOpt → NDClass
  | .lladdr false _ => .source
  | .lladdr true _ => .target
  | .pfx .. => .prefixInfo
  | .mtu _ => .mtu
  | .redirected _ => .redirected

/-- `ICMPv6OptionList.__getitem__` with a class, icmpv6.py 393-397. -/
def ndGetClass (l : List NDOpt) (c : NDClass) : Res NDOpt :=
  match l.find? fun o => o.klass = c with
  | some o => .ok o
  | none => .error .indexError

/-- `IPv6HopOption.__getitem__` with an integer, ipv6.py 349-354: no negative numbers. -/
def HopOpt.get (h : HopOpt) (i : Int) : Res TLV :=
  if 0 ≤ i ∧ i < h.opts.length then listIndex h.opts i else .error .indexError

end SY
