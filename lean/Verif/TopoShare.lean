import Verif.TopoSave

/-! # Node objects shared between topologies

In `/repo/switchyard/lib/topo/topobuild.py` the graph of a topology holds references to node objects (131).  `union` (409)
makes a new graph with new attribute dictionaries for nodes and links, but with the node objects of the old ones (networkx
copies attribute dictionaries without copying the values).  Here topologies are objects over a store of node objects, and every
operation works on the node objects its topology refers to.  The label of a node (130) is in fact in the graph; it is never
changed by these operations. -/

namespace SY

/-- A `Topology` object: all but the node objects (`nodes` and `nextIf` of `graph` are not used), and the references to
these by name. -/
structure TopoObj where
  graph : Topo
  refs : Dict Name Nat

/-- The node objects, the number of the next new one, the topologies, and the counter of interface.py 17. -/
structure TopoMem where
  heap : Nat → TNode
  fresh : Nat
  topos : List TopoObj
  nextIf : Int

/-- What a topology shows. -/
def TopoMem.view (m : TopoMem) (o : TopoObj) : Topo :=
  { o.graph with nodes := o.refs.map fun x => (x.1, m.heap x.2), nextIf := m.nextIf }

/-- Assignment to the slots of a node object. -/
def heapSet (h : Nat → TNode) (r : Nat) (nd : TNode) : Nat → TNode := fun x => if x = r then nd else h x

/-- The effect on node objects: those of known nodes are changed in place (48-53, 342-345), a new node gets a new
object (131).  The references afterwards. -/
def storeNodes (refs : Dict Name Nat) : List (Name × TNode) → (Nat → TNode) → Nat → ((Nat → TNode) × Nat) × Dict Name Nat
  | [], h, f => ((h, f), [])
  | (n, nd) :: l, h, f =>
    match refs.get? n with
    | some r => ((storeNodes refs l (heapSet h r nd) f).1, (n, r) :: (storeNodes refs l (heapSet h r nd) f).2)
    | none => ((storeNodes refs l (heapSet h f nd) (f + 1)).1, (n, f) :: (storeNodes refs l (heapSet h f nd) (f + 1)).2)

/-- The state after the topology with number `i` has become `t`. -/
def TopoMem.put (m : TopoMem) (i : Nat) (o : TopoObj) (t : Topo) : TopoMem :=
  ⟨(storeNodes o.refs t.nodes m.heap m.fresh).1.1, (storeNodes o.refs t.nodes m.heap m.fresh).1.2,
   m.topos.set i ⟨{ t with nodes := [] }, (storeNodes o.refs t.nodes m.heap m.fresh).2⟩, t.nextIf⟩

/-- A method of the topology with number `i`, topobuild.py 174-353, as in `Topo.step`. -/
def TopoMem.act (m : TopoMem) (i : Nat) (op : TopoOp) : TopoMem :=
  match m.topos[i]? with
  | none => m
  | some o => m.put i o ((m.view o).step op).1

/-- `union` without renaming, 409-411, of two topologies; nothing changes if it raises. -/
def TopoMem.unite (m : TopoMem) (i j : Nat) : TopoMem :=
  match m.topos[i]?, m.topos[j]? with
  | some a, some b =>
    match (m.view a).joinWith (m.view b) with
    | .error _ => m
    | .ok u => { m with topos := m.topos ++ [⟨{ u with nodes := [] }, a.refs ++ b.refs⟩] }
  | _, _ => m

/-- What a program does with topologies. -/
inductive MemOp
  | new (name : List Char) (autoMacs : Bool)
  | act (i : Nat) (op : TopoOp)
  | unite (i j : Nat)

/-- One operation; `Topology(name, auto_macs=…)` is topobuild.py 85-94. -/
def TopoMem.step (m : TopoMem) : MemOp → TopoMem
  | .new name b => { m with topos := m.topos ++ [⟨Topo.init name b 0, []⟩] }
  | .act i op => m.act i op
  | .unite i j => m.unite i j

/-- A history. -/
def TopoMem.run (m : TopoMem) (ops : List MemOp) : TopoMem := ops.foldl TopoMem.step m

/-- A program starts without topologies. -/
def TopoMem.start : TopoMem := ⟨fun _ => ⟨[], .host, 0, []⟩, 0, [], 0⟩

/-- The topology with number `i`, as it shows itself. -/
def TopoMem.topo? (m : TopoMem) (i : Nat) : Option Topo := m.topos[i]?.map m.view

end SY
