import Verif.Sim
import Verif.Units
import Verif.Str

/-! # What the simulator's command line shows and offers

The command `show` (73-90, 61-71, 447-489) and the completion of words (92-143) in `/repo/switchyard/sim/cli.py`; line
numbers without a file name refer to that file.  The drawing of the topology and the help texts are not modelled. -/

namespace SY

/-- `word.startswith(w)`. -/
def pre (w : Name) (word : String) : Bool := w.isPrefixOf word.toList

/-- `' '.join(ws)`. -/
def unwords (ws : List Name) : Name := joinChar ' ' ws

/-! ## Labels of links -/

/-- `humanize_capacity`, topo/util.py 3-38; below zero the unit is bits (15-17). -/
def capText (n : Int) : List Char :=
  if n < 0 then intText n ++ " bits/s".toList
  else
    match humanizeBandwidth n.toNat with
    | .ok s => s
    | .error _ => []

/-- `'{:1.06f}'.format(delay)`, topo/util.py 88: the delay, as a double, in whole microseconds. -/
def delayMicros (p q : Nat) : Nat := roundHalfEven ((toDouble p q).1 * 10 ^ 6) (toDouble p q).2

/-- `humanize_delay`, topo/util.py 78-110.  `other` is the text for negative delays, for those from 2^33 seconds on and
for those that are not zero but less than half a microsecond. -/
def delayText (other : Int × Nat → List Char) (d : Int × Nat) : List Char :=
  if d.1 < 0 ∨ 2 ^ 33 * 10 ^ 6 ≤ delayMicros d.1.toNat d.2 ∨ (d.1 ≠ 0 ∧ delayMicros d.1.toNat d.2 = 0) then other d
  else humanizeDelay (delayMicros d.1.toNat d.2)

/-- The value of `d['label']` as text, topobuild.py 265.  For a node called `label` it is first the name of an interface
(250-251); capacities and delays are never stored there. -/
def Attr.shown (other : Int × Nat → List Char) : Attr → List Char
  | .label c d => capText c ++ ' ' :: delayText other d
  | .ifname s => s
  | .cap _ => []
  | .delay _ => []

/-! ## `show` -/

/-- What is printed, whether that is a complaint, and the exception raised after that. -/
structure CliShown where
  lines : List (List Char)
  complaint : Bool
  err : Option PyErr
  deriving DecidableEq, Repr

/-- `__printlink`, 462-463, after `getLink`. -/
def showLink (other : Int × Nat → List Char) (t : Topo) (l : Name × Name) : Res (List Char) :=
  t.getEdge l.1 l.2 >>= fun d =>
  match d.get? labelKey with
  | none => .error .keyError
  | some a => .ok (l.1 ++ " <-> ".toList ++ l.2 ++ " (".toList ++ a.shown other ++ ")".toList)

/-- Lines printed until one of them raises. -/
def printAll : List (Res (List Char)) → List (List Char) × Option PyErr
  | [] => ([], none)
  | .error e :: _ => ([], some e)
  | .ok l :: ls => (l :: (printAll ls).1, (printAll ls).2)

/-- What was printed by a loop. -/
def CliShown.ofLines (r : List (List Char) × Option PyErr) : CliShown := ⟨r.1, false, r.2⟩

/-- A complaint. -/
def CliShown.bad (s : List Char) : CliShown := ⟨[s], true, none⟩

/-- `edges_from`, topobuild.py 190-191. -/
def Topo.edgesFrom (t : Topo) (n : Name) : List (Name × Name) := (t.neighbors n).map fun m => (n, m)

/-- `__show_links`, 465-478. -/
def showLinks (other : Int × Nat → List Char) (t : Topo) : List Name → CliShown
  | [] => .ofLines (printAll (t.links.map (showLink other t)))
  | n :: _ =>
    if t.hasNode n then .ofLines (printAll ((t.edgesFrom n).map (showLink other t)))
    else .bad ("Can't show links for unknown node ".toList ++ n)

/-- `cls.__name__`. -/
def NodeKind.cls : NodeKind → List Char
  | .host => "Host".toList
  | .switch => "Switch".toList
  | .router => "Router".toList

/-- Insertion into a sorted list of pairs with different names. -/
def insertKey {β : Type} (x : Name × β) : List (Name × β) → List (Name × β)
  | [] => [x]
  | y :: ys => if nameLe x.1 y.1 then x :: y :: ys else y :: insertKey x ys

/-- `sorted` for pairs with different names in front. -/
def sortKeys {β : Type} : List (Name × β) → List (Name × β)
  | [] => []
  | x :: xs => insertKey x (sortKeys xs)

/-- Line 455. -/
def pluralS (n : Nat) : List Char := if n = 1 then [] else ['s']

/-- Line 456. -/
def nodeLine (n : Name) (nd : TNode) : List Char :=
  "Node ".toList ++ n ++ " is a ".toList ++ nd.kind.cls ++ " and has ".toList ++ natText nd.ifs.length ++
    " interface".toList ++ pluralS nd.ifs.length ++ ":".toList

/-- `__show_nodes`, 447-460. -/
def showNodes (t : Topo) : List Name → CliShown
  | [] => ⟨[unwords t.nodes.keys], false, none⟩
  | n :: _ =>
    match t.nodes.get? n with
    | some nd => ⟨nodeLine n nd :: (sortKeys nd.ifs).map fun x => '\t' :: x.2.text, false, none⟩
    | none => .bad ("Node ".toList ++ n ++ " does not exist.".toList)

/-- The name of the class, 792. -/
def MonClass.text : MonClass → List Char
  | .pcapMonitor => "PcapMonitor".toList
  | .interactiveMonitor => "InteractiveMonitor".toList
  | .codeMonitor => "CodeMonitor".toList

/-- Insertion into a sorted list without repetitions. -/
def insertSet (x : Name) : List Name → List Name
  | [] => [x]
  | y :: ys => if x = y then y :: ys else if nameLe x y then x :: y :: ys else y :: insertSet x ys

/-- `sorted(d.keys())`, 69, where `d` has these keys, with repetitions. -/
def sortSet : List Name → List Name
  | [] => []
  | x :: xs => insertSet x (sortSet xs)

/-- The nodes of 63: all, or those named. -/
def monSelected (args : List Name) (n : Name) : Bool := args.isEmpty || args.contains n

/-- Lines 70-71 for one node. -/
def monLine (mons : Dict (Name × Name) MonClass) (n : Name) : List Char :=
  n ++ ": ".toList ++ unwords ((sortKeys ((mons.filter fun x => x.1.1 = n).map fun x => (x.1.2, x.2))).map fun x =>
    x.1 ++ " (".toList ++ x.2.text ++ ")".toList)

/-- `__show_monitors`, 61-71. -/
def showMonitors (mons : Dict (Name × Name) MonClass) (args : List Name) : CliShown :=
  ⟨(sortSet ((mons.map fun x => x.1.1).filter (monSelected args))).map (monLine mons), false, none⟩

/-- `do_show`, 73-90. -/
def showCmd (other : Int × Nat → List Char) (t : Topo) (mons : Dict (Name × Name) MonClass) : List Name → CliShown
  | [] => .bad "Not enough arguments to show ('help show' for more info)".toList
  | w :: ws =>
    if pre w "links" then showLinks other t ws
    else if pre w "nodes" then showNodes t ws
    else if pre w "topology" then ⟨["Close window in order to proceed".toList], false, none⟩
    else if pre w "monitor" then showMonitors mons ws
    else if w = ['?'] then ⟨[], false, none⟩
    else .bad ("Invalid show subcommand ".toList ++ w)

/-! ## Completion -/

/-- `__do_completion`, 92-100. -/
def doCompletion (matched unmatched : Name) : List (Name × List Name) → List Name
  | [] => []
  | (cmd, next) :: m => if matched = cmd then next.filter (unmatched.isPrefixOf ·) else doCompletion matched unmatched m

/-- The commands with a completion method, 102-143. -/
inductive Completer
  | unmonitor | monitor | remove | add | set | show
  deriving DecidableEq, Repr

/-- `'{} {}'.format(x, y)`, 121. -/
def pairWords (l : Name × Name) : Name := l.1 ++ ' ' :: l.2

/-- Line 109. -/
def monWays : List Name := ["debug".toList, "dump".toList, "code".toList]

/-- The methods `complete_…`, 102-143: `matched` is `line[:begidx]`, `unmatched` the beginning of the word to be
completed.  Line 142 adds a node view to a list, a `TypeError`. -/
def complete (t : Topo) (mons : Dict (Name × Name) MonClass) (matched unmatched : Name) : Completer → Res (List Name)
  | .unmonitor =>
    .ok (doCompletion matched unmatched
      [("unmonitor ".toList, ["all".toList, "any".toList, "node".toList]),
       ("unmonitor node ".toList, mons.map fun x => x.1.1)])
  | .monitor =>
    .ok (doCompletion matched unmatched
      ([("monitor ".toList, ["all".toList, "any".toList, "node".toList]), ("monitor all ".toList, monWays),
        ("monitor any ".toList, monWays), ("monitor node ".toList, t.nodes.keys)] ++
       t.nodes.keys.map fun n => ("monitor node ".toList ++ n ++ " ".toList, monWays)))
  | .remove =>
    .ok (doCompletion matched unmatched
      [("remove ".toList, ["node".toList, "link".toList]), ("remove node ".toList, t.nodes.keys),
       ("remove link ".toList, t.links.map pairWords)])
  | .add =>
    .ok (doCompletion matched unmatched
      [("add ".toList, ["host".toList, "router".toList, "switch".toList, "link".toList])])
  | .set =>
    .ok (doCompletion matched unmatched
      [("set ".toList, ["node".toList, "link".toList]), ("set node ".toList, t.nodes.keys),
       ("set link ".toList, t.links.map Prod.fst)])
  | .show => .error .typeError

end SY
