import Verif.Json
import Verif.TopoSave
import Verif.Show
import Verif.Compiled

/-! # The texts and files of saved topologies

`/repo/switchyard/lib/topo/topobuild.py` 60-62, 80-81, 267-278 and 449-465; line numbers refer to that file.  `flt` is how
`json.dumps` writes a delay (a float, or an integer), `other` is as in `delayText`. -/

namespace SY

/-- A list as JSON. -/
def JList.of : List Json → JList
  | [] => .nil
  | v :: l => .cons v (JList.of l)

/-- A dictionary as JSON. -/
def JFields.of : List (List Char × Json) → JFields
  | [] => .nil
  | x :: l => .cons x.1 x.2 (JFields.of l)

/-- The value of a link attribute: an interface name, a capacity (an integer or `None`), a delay (`None` or a float) or a label;
topobuild.py 250-265. -/
def Attr.json (flt : Int × Nat → Json) (other : Int × Nat → List Char) : Attr → Json
  | .ifname s => .str s
  | .cap none => .null
  | .cap (some n) => .int n
  | .delay none => .null
  | .delay (some d) => flt d
  | .label c d => .str ((Attr.label c d).shown other)

/-- A node: `label`, `nodeobj` and `type` in the order in which 130-132 set them, and the id.  `nodeobj` is written as `Encoder.default`
says, 60-62 and 80-81. -/
def SavedNode.json (s : SavedNode) : Json :=
  .obj (JFields.of [("label".toList, .str s.label),
    ("nodeobj".toList, .obj (JFields.of [("interfaces".toList, .obj (JFields.of (s.ifs.map fun x => (x.1, .str x.2))))])),
    ("type".toList, .str s.kind.cls), ("id".toList, .str s.id)])

/-- `node_link_data` of a graph that is neither directed nor a multigraph, as JSON. -/
def Saved.json (flt : Int × Nat → Json) (other : Int × Nat → List Char) (s : Saved) : Json :=
  .obj (JFields.of [("directed".toList, .bool false), ("multigraph".toList, .bool false),
    ("graph".toList, .obj (JFields.of [("name".toList, .str s.name)])),
    ("nodes".toList, .arr (JList.of (s.nodes.map SavedNode.json))),
    ("links".toList, .arr (JList.of (s.links.map fun d => .obj (JFields.of (d.map fun x => (x.1, x.2.json flt other))))))])

/-- `serialize`, 267-271: the text. -/
def Topo.serialize (flt : Int × Nat → Json) (other : Int × Nat → List Char) (t : Topo) : List Char := (t.save.json flt other).text

/-- The file while `save_to_file`, 459-465, runs: the text is made first, `open` empties the file, and then the characters arrive in
pieces; as for compiled scenarios (`fileAt`). -/
def Topo.savedFile (flt : Int × Nat → Json) (other : Int × Nat → List Char) (t : Topo) (old : Option (List Char)) (p : CompilePoint) :
    Option (List Char) := fileAt old (t.serialize flt other) p

end SY
