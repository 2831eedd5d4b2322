import Verif.OfSwitch

/-! # Building a switch-features reply and sets of flags (`switchyard/lib/openflow/openflow10.py`)

The same lines are in openflow13.py.  A set of flags is a list of the members of its enumeration, in the order of the
enumeration; the sets are kept apart from each other in the objects, so one suffices. -/

namespace SY

/-- `OpenflowSwitchFeaturesReply.__init__`, 1474-1481. -/
def OfFeatures.new : OfFeatures := ⟨zeros 8, 0, 1, [], [], []⟩

/-- What is assigned to `dpid`, `dpid_low48` or `dpid_high16`. -/
inductive DpidArg
  | bytes (b : Bytes)
  | addr (a : EthAddr)
  | other
  deriving DecidableEq, Repr

/-- The `dpid` setter, 1517-1524. -/
def OfFeatures.setDpid (f : OfFeatures) : DpidArg → Res OfFeatures
  | .bytes b => padDpid b >>= fun d => .ok { f with dpid := d }
  | _ => .error .valueError

/-- The `dpid_low48` getter, 1526-1528. -/
def OfFeatures.low48 (f : OfFeatures) : Bytes := (f.dpid.take 8).drop 2

/-- The `dpid_high16` getter, 1542-1544. -/
def OfFeatures.high16 (f : OfFeatures) : Bytes := f.dpid.take 2

/-- The `dpid_low48` setter, 1530-1540: for six bytes it evaluates `value.raw`, which `bytes` do not have. -/
def OfFeatures.setLow48 (f : OfFeatures) : DpidArg → Res OfFeatures
  | .addr a => .ok { f with dpid := f.high16 ++ a.raw }
  | .bytes b => if b.length ≠ 6 then .error .valueError else .error .attributeError
  | .other => .error .valueError

/-- The `dpid_high16` setter, 1546-1554. -/
def OfFeatures.setHigh16 (f : OfFeatures) : DpidArg → Res OfFeatures
  | .bytes b => if b.length ≠ 2 then .error .valueError else .ok { f with dpid := b ++ f.low48 }
  | _ => .error .valueError

/-- The `nbuffers` setter, 1560-1566. -/
def OfFeatures.setNbuffers (f : OfFeatures) (v : Int) : Res OfFeatures :=
  if 0 ≤ v ∧ v < 2 ^ 32 then .ok { f with nbuffers := v.toNat } else .error .valueError

/-- The `ntables` setter, 1572-1578. -/
def OfFeatures.setNtables (f : OfFeatures) (v : Int) : Res OfFeatures :=
  checkTables v >>= fun n => .ok { f with ntables := n }

/-- An assignment to the features. -/
inductive FeatOp
  | dpid (v : DpidArg)
  | low48 (v : DpidArg)
  | high16 (v : DpidArg)
  | nbuffers (v : Int)
  | ntables (v : Int)
  deriving DecidableEq, Repr

/-- The assignment, 1517-1578. -/
def OfFeatures.assign (f : OfFeatures) : FeatOp → Res OfFeatures
  | .dpid v => f.setDpid v
  | .low48 v => f.setLow48 v
  | .high16 v => f.setHigh16 v
  | .nbuffers v => f.setNbuffers v
  | .ntables v => f.setNtables v

/-- A program that makes assignments and goes on after those that raise. -/
def OfFeatures.assigns (f : OfFeatures) : List FeatOp → OfFeatures
  | [] => f
  | o :: os => OfFeatures.assigns ((f.assign o).toOption.getD f) os

/-- A call that changes a set of flags: `add_config`, `add_state`, `add_curr`, …, 231-300, `set_flag`, 1401-1405,
`add_capabilities`, `add_actions`, 1592-1626, `set_config`, `set_mask`, `set_advertise` of a port modification, 1866-1896;
and the assignment to `capabilities` or `actions`, 1584-1590 and 1608-1614, which adds a member as well. -/
inductive FlagOp
  | add (v : Int)
  | assign (v : Int)
  | clear
  deriving DecidableEq, Repr

/-- The call, on the set and its enumeration. -/
def flagStep (enum s : List Nat) : FlagOp → List Nat × Option PyErr
  | .clear => ([], none)
  | .add v | .assign v =>
    match enumOf enum v with
    | .ok n => (setAdd enum s n, none)
    | .error e => (s, some e)

/-- A program that goes on after calls that raise. -/
def flagRun (enum s : List Nat) : List FlagOp → List Nat
  | [] => s
  | o :: os => flagRun enum (flagStep enum s o).1 os

end SY
