import Verif.TopoFile

/-! # Reading the text of a saved topology

`/repo/switchyard/lib/topo/topobuild.py` 273-287; line numbers refer to that file.  `unflt` is how `json.loads` reads
the number of a delay.  *Simplified:* dictionaries of other shapes than `serialize` writes are refused with
`TypeError`, whatever `networkx` and `eval` make of them, except that the exceptions of lines 281-282 and of missing
`nodes`, `links`, `source` and `target` are kept. -/

namespace SY

/-- The dictionary `json.loads` makes of an object. -/
def JFields.toDict : JFields → Dict (List Char) Json
  | .nil => []
  | .cons k v l => (k, v) :: l.toDict

/-- The list `json.loads` makes of an array. -/
def JList.toList : JList → List Json
  | .nil => []
  | .cons v l => v :: l.toList

/-- A function on all elements of a list, up to the first exception. -/
def mapAll {α β : Type} (f : α → Res β) : List α → Res (List β)
  | [] => .ok []
  | x :: l => f x >>= fun y => mapAll f l >>= fun r => .ok (y :: r)

/-- A text. -/
def Json.getStr : Json → Res (List Char)
  | .str s => .ok s
  | _ => .error .typeError

/-- The value of a link attribute as `json.loads` reads it: texts stay texts, `null` and numbers are capacities or
delays by their keys; 274-275. -/
def Attr.ofJson (unflt : Json → Option (Int × Nat)) (k : List Char) : Json → Res Attr
  | .str s => .ok (.ifname s)
  | .null => if k = capacityKey then .ok (.cap none) else .ok (.delay none)
  | .int n =>
    if k = capacityKey then .ok (.cap (some n))
    else match unflt (.int n) with
      | some d => .ok (.delay (some d))
      | none => .error .typeError
  | j =>
    match unflt j with
    | some d => .ok (.delay (some d))
    | none => .error .typeError

/-- `eval(ndict['type'])`, 284, for the names of the three classes. -/
def NodeKind.ofCls (s : List Char) : Res NodeKind :=
  if s = "Host".toList then .ok .host
  else if s = "Switch".toList then .ok .switch
  else if s = "Router".toList then .ok .router
  else .error .nameError

/-- The interfaces in `nodeobj`, which line 285 passes to the class. -/
def ifsOfJson : Json → Res (Dict Name (List Char))
  | .obj l =>
    match l.toDict.get? "interfaces".toList with
    | some (.obj d) => mapAll (fun x => x.2.getStr >>= fun s => .ok (x.1, s)) d.toDict
    | none => .ok []
    | _ => .error .typeError
  | _ => .error .typeError

/-- `node_link_graph` and lines 280-285 for one node. -/
def SavedNode.ofJson : Json → Res SavedNode
  | .obj l =>
    match l.toDict.get? "nodeobj".toList, l.toDict.get? "type".toList with
    | some o, some (.str ty) =>
      NodeKind.ofCls ty >>= fun k => ifsOfJson o >>= fun ifs =>
        match l.toDict.get? "id".toList, l.toDict.get? "label".toList with
        | some (.str i), some (.str lb) => .ok ⟨i, lb, k, ifs⟩
        | _, _ => .error .typeError
    | none, _ => .error .generic
    | _, none => .error .generic
    | _, _ => .error .typeError
  | _ => .error .typeError

/-- The dictionary of a link; 275. -/
def linkOfJson (unflt : Json → Option (Int × Nat)) : Json → Res (Dict Name Attr)
  | .obj l => mapAll (fun x => Attr.ofJson unflt x.1 x.2 >>= fun a => .ok (x.1, a)) l.toDict
  | _ => .error .typeError

/-- The name of the graph; 275. -/
def nameOfJson : Option Json → Res (List Char)
  | some (.obj l) =>
    match l.toDict.get? "name".toList with
    | some (.str s) => .ok s
    | _ => .error .typeError
  | _ => .error .typeError

/-- `node_link_graph`, 275. -/
def Saved.ofJson (unflt : Json → Option (Int × Nat)) : Json → Res Saved
  | .obj l =>
    nameOfJson (l.toDict.get? "graph".toList) >>= fun n =>
      match l.toDict.get? "nodes".toList, l.toDict.get? "links".toList with
      | some (.arr ns), some (.arr ls) =>
        mapAll (linkOfJson unflt) ls.toList >>= fun links =>
          mapAll SavedNode.ofJson ns.toList >>= fun nodes => .ok ⟨n, nodes, links⟩
      | none, _ => .error .keyError
      | _, none => .error .keyError
      | _, _ => .error .typeError
  | _ => .error .typeError

/-- `unserialize`, 273-287, of a text; `next` is the interface counter. -/
def unserialize (unflt : Json → Option (Int × Nat)) (next : Int) (text : List Char) : Res Topo :=
  jsonLoads text >>= fun j => Saved.ofJson unflt j >>= fun s => s.restore next

end SY
