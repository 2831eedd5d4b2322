import Verif.Topo
import Verif.NetBase

/-! # Saving, restoring, renaming and joining topologies

`/repo/switchyard/lib/topo/topobuild.py`, lines 16-29, 60-81, 85-94, 267-287 and 355-411; line numbers without a
file name refer to that file.  The functions of networkx (2.x) these call are modelled from its
documentation and source: `node_link_data`, `node_link_graph`, `relabel_nodes`, `union`.

The saved form is the object `json.dumps` is given; its text, what `json.loads` makes of it and the file are in `Verif.TopoFile`. -/

namespace SY

/-- `G.edges(data=True)`: the links in the order and with the ends as `links` lists them, with their
attribute dictionaries. -/
def Topo.listed (t : Topo) : List Edge :=
  t.links.filterMap fun x => (t.edges.find? fun e => e.joins x.1 x.2).map fun e => ⟨x.1, x.2, e.attrs⟩

/-! ## Saving -/

/-- A node in the saved form: its id, `label`, `type`, and in `nodeobj` the texts of its interfaces
(60-62, 80-81). -/
structure SavedNode where
  id : Name
  label : Name
  kind : NodeKind
  ifs : Dict Name (List Char)
  deriving DecidableEq

/-- The saved form: the name in `graph`, `nodes`, and `links`, each link being a dictionary. -/
structure Saved where
  name : List Char
  nodes : List SavedNode
  links : List (Dict Name Attr)
  deriving DecidableEq

def sourceKey : Name := "source".toList
def targetKey : Name := "target".toList

/-- `node_link_data`: the ends of a link are put into its dictionary.  A node name is a text like the name of
an interface. -/
def Edge.saved (e : Edge) : Dict Name Attr := (e.attrs.set sourceKey (.ifname e.a)).set targetKey (.ifname e.b)

/-- `node_link_data` for a node, with `Node.asDict`, 60-62. -/
def savedNode (x : Name × TNode) : SavedNode :=
  ⟨x.1, x.2.label, x.2.kind, x.2.ifs.map fun y => (y.1, y.2.text)⟩

/-- `serialize`, 267-271. -/
def Topo.save (t : Topo) : Saved := ⟨t.name, t.nodes.map savedNode, t.listed.map Edge.saved⟩

/-! ## Restoring -/

/-- Lines 26-28 for one address. -/
def readIfAddr (i : Iface) (w : List Char) : Res Iface :=
  match splitChar ':' w with
  | [_, a] =>
    match i.assignIp (.text a) with
    | (i', none) => .ok i'
    | (_, some e) => .error e
  | _ => .error .valueError

/-- The loop of lines 26-28. -/
def readIfAddrs (i : Iface) : List (List Char) → Res Iface
  | [] => .ok i
  | w :: ws => readIfAddr i w >>= fun i => readIfAddrs i ws

/-- Lines 23-28; `next` is the interface counter. -/
def readIface (next : Int) (name text : List Char) : Res (Int × Iface) :=
  match splitWords [] text with
  | _ :: m :: ws =>
    Iface.new next name (.text (m.drop 4)) none .unknown >>= fun x =>
    readIfAddrs x.2 ws >>= fun i => .ok (x.1, i)
  | _ => .error .indexError

/-- The loop of lines 22-29. -/
def readIfaces (next : Int) (d : Dict Name Iface) : List (Name × List Char) → Res (Int × Dict Name Iface)
  | [] => .ok (next, d)
  | x :: xs => readIface next x.1 x.2 >>= fun y => readIfaces y.1 (d.set x.1 y.2) xs

/-- Lines 280-285: the nodes are replaced one by one. -/
def readNodes (next : Int) (d : Dict Name TNode) : List SavedNode → Res (Int × Dict Name TNode)
  | [] => .ok (next, d)
  | s :: ss =>
    readIfaces next [] s.ifs >>= fun y => readNodes y.1 (d.set s.id ⟨s.label, s.kind, 0, y.2⟩) ss

/-- The parameters of `Graph.add_edge`: a link attribute of this name cannot be passed as a keyword. -/
def addEdgeParams : List Name := ["self".toList, "u_of_edge".toList, "v_of_edge".toList]

/-- `add_edge(a, b, **attrs)`: the attributes of an existing link are updated. -/
def addEdgeWith (es : List Edge) (a b : Name) (attrs : Dict Name Attr) : List Edge :=
  if es.any fun e => e.joins a b then
    es.map fun e => if e.joins a b then { e with attrs := attrs.foldl (fun d x => d.set x.1 x.2) e.attrs } else e
  else es ++ [⟨a, b, attrs⟩]

/-- `node_link_graph` for the links. -/
def readLinks (es : List Edge) : List (Dict Name Attr) → Res (List Edge)
  | [] => .ok es
  | d :: ds =>
    match d.get? sourceKey, d.get? targetKey with
    | some (.ifname a), some (.ifname b) =>
      if (d.filter fun x => x.1 ≠ sourceKey && x.1 ≠ targetKey).any fun x => x.1 ∈ addEdgeParams then .error .typeError
      else readLinks (addEdgeWith es a b (d.filter fun x => x.1 ≠ sourceKey && x.1 ≠ targetKey)) ds
    | _, _ => .error .keyError

/-- `Topology(nxgraph=G)`, 85-94: a graph without nodes is false. -/
def Topo.ofGraph (name : List Char) (nodes : Dict Name TNode) (edges : List Edge) (next : Int) : Topo :=
  if nodes = [] then Topo.init "No name topology".toList true next
  else ⟨name, nodes, edges, 0, 0, 0, true, 1, next⟩

/-- `unserialize`, 273-287; `next` is the interface counter.  The value of the counter after an exception is
not modelled. -/
def Saved.restore (s : Saved) (next : Int) : Res Topo :=
  readLinks [] s.links >>= fun es =>
  readNodes next [] s.nodes >>= fun x => .ok (Topo.ofGraph s.name x.2 es x.1)

/-! ## Renaming -/

/-- `renamer`, 357-358. -/
def prefixed (p n : Name) : Name := p ++ '_' :: n

/-- Lines 369-370 (or 371-372) for the end whose old name is `n`. -/
def renameEnd (p n : Name) (d : Dict Name Attr) : Res (Dict Name Attr) :=
  match d.get? n with
  | some x => .ok ((d.set (prefixed p n) x).erase n)
  | none => .error .keyError

/-- Lines 368-372 for the links, whose ends have their old names. -/
def renameEdges (p : Name) : List Edge → Res (List Edge)
  | [] => .ok []
  | e :: es =>
    renameEnd p e.a e.attrs >>= fun d =>
    renameEnd p e.b d >>= fun d =>
    renameEdges p es >>= fun es => .ok (⟨prefixed p e.a, prefixed p e.b, d⟩ :: es)

/-- The nodes after lines 361-365. -/
def renameNodes (p : Name) (d : Dict Name TNode) : Dict Name TNode :=
  d.map fun x => (prefixed p x.1, { x.2 with label := prefixed p x.1 })

/-- `__relabel_graph`, 355-373.  It works on a copy of the graph. -/
def Topo.relabel (t : Topo) : Option Name → Res Topo
  | some p => renameEdges p t.listed >>= fun es => .ok { t with nodes := renameNodes p t.nodes, edges := es }
  | none =>
    -- `'{}_{}'.format(None, name)`, and then `len(None)`
    if t.listed = [] then .ok { t with nodes := renameNodes "None".toList t.nodes, edges := [] } else .error .typeError

/-- `addNodeLabelPrefix`, 375-390: if `copy` is true, line 385 looks for `deepcopy` in it. -/
def Topo.addPrefix (t : Topo) (p : Option Name) (copy : Bool) : Topo × Option PyErr :=
  match t.relabel p with
  | .error e => (t, some e)
  | .ok t' => if copy then (t, some .attributeError) else (t', none)

/-! ## Joining -/

/-- Lines 409-411.  networkx 2.x gives the graph the name of the second one; no theorem is about this name. -/
def Topo.joinWith (t o : Topo) : Res Topo :=
  if t.nodes.keys.any fun n => n ∈ o.nodes.keys then .error .generic
  else .ok (if t.nodes ++ o.nodes = [] then Topo.init (prefixed t.name o.name) true t.nextIf
    else Topo.ofGraph o.name (t.nodes ++ o.nodes) (t.listed ++ o.listed) t.nextIf)

/-- `union`, 392-411, for two different objects: the two topologies afterwards, and the result. -/
def Topo.union (t o : Topo) (rename : Bool) : (Topo × Topo) × Res Topo :=
  if rename then
    match t.relabel (some t.name) with
    | .error e => ((t, o), .error e)
    | .ok t' =>
      match o.relabel (some o.name) with
      | .error e => ((t', o), .error e)
      | .ok o' => ((t', o'), t'.joinWith o')
  else ((t, o), t.joinWith o)

end SY
