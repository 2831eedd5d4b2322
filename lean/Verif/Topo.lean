import Verif.Interface
import Verif.Units

/-! # Topologies (`/repo/switchyard/lib/topo/topobuild.py`)

A topology wraps an undirected networkx graph.  Here the graph is the list of its nodes in insertion
order with their attributes, and the list of its links in creation order, each with its attribute
dictionary; this is all the order information networkx keeps.  Node names are texts (networkx takes
any hashable object).  Drawing (413-447) is not modelled.  The class-level counter of `Interface`
(interface.py 17) is a field of the state.  Text of labels (265) is not modelled. -/

namespace SY

abbrev Name := List Char

/-- `Host`, `Switch`, `Router`: topobuild.py 64-74. -/
inductive NodeKind
  | host | switch | router
  deriving DecidableEq, Repr

/-- The attributes of a graph node: `label`, `type` (the class of `nodeobj`), and the slots of
`nodeobj`; topobuild.py 16-20, 130-132. -/
structure TNode where
  label : Name
  kind : NodeKind
  ifnum : Nat
  ifs : Dict Name Iface
  deriving DecidableEq, Repr

/-- `'eth{}'.format(n)`, topobuild.py 49. -/
def ethName (n : Nat) : Name := "eth".toList ++ natText n

/-- The second argument of `addInterface`; only whether it is an integer matters, since line 51
passes it as the interface number. -/
inductive NodeIpArg
  | none
  | int (n : Int)
  | addr (x : IPIface)
  | text (s : List Char)

/-- `isinstance(value, int)` in interface.py 95. -/
def NodeIpArg.asNumber : NodeIpArg → Option Int
  | .int n => some n
  | _ => Option.none

/-- `Node.addInterface`, topobuild.py 48-53; `next` is the interface counter.  The third argument
becomes the type of the interface; only `None` is modelled. -/
def TNode.addInterface (next : Int) (nd : TNode) (eth : EthArg) (ip : NodeIpArg) : Int × TNode × Res Name :=
  match Iface.new next (ethName nd.ifnum) eth ip.asNumber .none with
  | .error e => (next, { nd with ifnum := nd.ifnum + 1 }, .error e)
  | .ok (next', i) =>
    (next', { nd with ifnum := nd.ifnum + 1, ifs := nd.ifs.set (ethName nd.ifnum) i }, .ok (ethName nd.ifnum))

/-- A value in the attribute dictionary of a link: an interface name (250-251), the capacity (259;
`None` if the text was not understood), the delay in seconds as a fraction (262), or the label
(265), as the capacity and the delay from which its text is made (`Verif.Show`). -/
inductive Attr
  | ifname (s : Name)
  | cap (bits : Option Int)
  | delay (secs : Option (Int × Nat))
  | label (bits : Int) (secs : Int × Nat)
  deriving DecidableEq, Repr

/-- A link.  The attribute dictionary has the names of the two nodes as keys, and `capacity`, `delay`
and `label`. -/
structure Edge where
  a : Name
  b : Name
  attrs : Dict Name Attr
  deriving DecidableEq, Repr

/-- The edge joins these two nodes (in either order). -/
def Edge.joins (e : Edge) (x y : Name) : Bool := (e.a = x && e.b = y) || (e.a = y && e.b = x)

/-- A `Topology`, topobuild.py 83-94, and the counter of interface.py 17. -/
structure Topo where
  name : List Char
  nodes : Dict Name TNode
  edges : List Edge
  hnum : Nat
  snum : Nat
  rnum : Nat
  autoMacs : Bool
  ifnum : Nat
  nextIf : Int
  deriving DecidableEq

/-- `Topology(name, auto_macs=...)`, topobuild.py 85-94. -/
def Topo.init (name : List Char) (autoMacs : Bool) (nextIf : Int) : Topo :=
  ⟨name, [], [], 0, 0, 0, autoMacs, 1, nextIf⟩

/-- `hasNode`, topobuild.py 117-121. -/
def Topo.hasNode (t : Topo) (n : Name) : Bool := n ∈ t.nodes.keys

/-- `__addNode`, topobuild.py 123-132. -/
def Topo.addNode (t : Topo) (n : Name) (k : NodeKind) : Topo × Res Name :=
  if t.hasNode n then (t, .error .generic)
  else ({ t with nodes := t.nodes.set n ⟨n, k, 0, []⟩ }, .ok n)

/-- The loops of 179-183, 211-215 and 224-228: the first number from `k` on whose name is not taken.
The first argument bounds the number of rounds. -/
def autoNumber : Nat → Char → List Name → Nat → Option Nat
  | 0, _, _, _ => none
  | fuel + 1, c, names, k => if c :: natText k ∈ names then autoNumber fuel c names (k + 1) else some k

/-- The counter the class of node uses. -/
def Topo.counter (t : Topo) : NodeKind → Nat
  | .host => t.hnum
  | .switch => t.snum
  | .router => t.rnum

/-- `self.__hnum = n`, `self.__snum = n`, `self.__rnum = n`. -/
def Topo.setCounter (t : Topo) (k : NodeKind) (n : Nat) : Topo :=
  match k with
  | .host => { t with hnum := n }
  | .switch => { t with snum := n }
  | .router => { t with rnum := n }

/-- `'h'`, `'s'`, `'r'`. -/
def NodeKind.letter : NodeKind → Char
  | .host => 'h'
  | .switch => 's'
  | .router => 'r'

/-- `addHost` 174-185, `addSwitch` 206-217, `addRouter` 219-230. -/
def Topo.add (t : Topo) (k : NodeKind) (name : Option Name) : Topo × Res Name :=
  match name with
  | some n => t.addNode n k
  | none =>
    match autoNumber (t.nodes.length + 1) k.letter t.nodes.keys (t.counter k) with
    | none => (t, .error .diverges)
    | some j => (t.setCounter k (j + 1)).addNode (k.letter :: natText j) k

/-- `removeNode`, topobuild.py 193-198: networkx removes the incident links. -/
def Topo.removeNode (t : Topo) (n : Name) : Topo × Option PyErr :=
  if t.hasNode n then
    ({ t with nodes := t.nodes.erase n, edges := t.edges.filter fun e => !(e.a = n || e.b = n) }, none)
  else (t, some .generic)

/-- `hasLink`, topobuild.py 140-144. -/
def Topo.hasLink (t : Topo) (a b : Name) : Bool := t.edges.any fun e => e.joins a b

/-- `getEdge`, topobuild.py 137-138 and 146-147: the attribute dictionary. -/
def Topo.getEdge (t : Topo) (a b : Name) : Res (Dict Name Attr) :=
  match t.edges.find? fun e => e.joins a b with
  | some e => .ok e.attrs
  | none => .error .keyError

/-- `removeLink`, topobuild.py 200-204. -/
def Topo.removeLink (t : Topo) (a b : Name) : Topo × Option PyErr :=
  if t.hasLink a b then ({ t with edges := t.edges.filter fun e => !e.joins a b }, none)
  else (t, some .generic)

/-- The links seen from the nodes in a list; `seen` are the nodes already visited. -/
def linksFrom (edges : List Edge) (seen : List Name) : List Name → List (Name × Name)
  | [] => []
  | n :: ns =>
    (edges.filterMap fun e =>
      if e.a = n ∧ e.b ∉ seen then some (n, e.b)
      else if e.b = n ∧ e.a ∉ seen then some (n, e.a) else none) ++ linksFrom edges (n :: seen) ns

/-- `links`, topobuild.py 149-151: networkx visits the nodes in order and lists for each the
neighbours not visited before, in the order in which the links were made. -/
def Topo.links (t : Topo) : List (Name × Name) := linksFrom t.edges [] t.nodes.keys

/-- `hosts`, `switches`, `routers`: topobuild.py 153-172. -/
def Topo.ofKind (t : Topo) (k : NodeKind) : List Name := (t.nodes.filter fun x => x.2.kind = k).map Prod.fst

/-- `'{:012x}'.format(n)`. -/
def hex12 (n : Nat) : List Char :=
  List.replicate (12 - (Nat.toDigits 16 n).length) '0' ++ Nat.toDigits 16 n

/-- `[s[j:j+2] for j in range(0, len(s), 2)]`. -/
def pairUp : List Char → List (List Char)
  | a :: b :: r => [a, b] :: pairUp r
  | [a] => [[a]]
  | [] => []

/-- Lines 243-245. -/
def macText (n : Nat) : List Char := joinChar ':' (pairUp (hex12 n))

/-- `nodes[n]['nodeobj'].addInterface(ethaddr=...)`, topobuild.py 247-248. -/
def Topo.addIf (t : Topo) (n : Name) (eth : EthArg) : Topo × Res Name :=
  match t.nodes.get? n with
  | none => (t, .error .keyError)
  | some nd =>
    ({ t with nextIf := (nd.addInterface t.nextIf eth .none).1,
              nodes := t.nodes.set n (nd.addInterface t.nextIf eth .none).2.1 },
     (nd.addInterface t.nextIf eth .none).2.2)

/-- `add_edge`: nothing happens if the link exists. -/
def Topo.addEdge (t : Topo) (a b : Name) : Topo :=
  if t.hasLink a b then t else { t with edges := t.edges ++ [⟨a, b, []⟩] }

/-- `nxgraph[a][b][k] = v`. -/
def Topo.setAttr (t : Topo) (a b k : Name) (v : Attr) : Topo :=
  { t with edges := t.edges.map fun e => if e.joins a b then { e with attrs := e.attrs.set k v } else e }

/-- A capacity argument. -/
inductive CapArg
  | none
  | int (n : Int)
  | text (s : List Char)
  | other

/-- Lines 257-258: `none` if the argument is false. -/
def CapArg.parse : CapArg → Res (Option (Option Int))
  | .none => .ok Option.none
  | .int n => .ok (if n = 0 then Option.none else some (some n))
  | .text s => if s = [] then .ok Option.none else (fun v => some (v.map fun n : Nat => (n : Int))) <$> unhumanizeBandwidth s
  | .other => .error .typeError

/-- A delay argument; `float p q` is the finite number p/q, `other` is a true value that is neither a
float nor a text (e.g. a non-zero `int`, which `unhumanize_delay` does not take). -/
inductive DelayArg
  | none
  | float (p : Int) (q : Nat)
  | text (s : List Char)
  | other

/-- Lines 260-261: `none` if the argument is false. -/
def DelayArg.parse : DelayArg → Res (Option (Option (Int × Nat)))
  | .none => .ok Option.none
  | .float p q => .ok (if p = 0 then Option.none else some (some (p, q)))
  | .text s =>
    if s = [] then .ok Option.none
    else (fun v => some (v.map fun x : Nat × Nat => ((x.1 : Int), x.2))) <$> unhumanizeDelay s
  | .other => .error .typeError

def capacityKey : Name := "capacity".toList
def delayKey : Name := "delay".toList
def labelKey : Name := "label".toList

/-- Line 263: the capacity whose text is made, or the exception of `humanize_capacity(d['capacity'])`. -/
def humanCap : Option Attr → Res Int
  | none => .error .keyError
  | some (.cap (some n)) => if n < 1000000000000000 then .ok n else .error .generic
  | some _ => .error .typeError

/-- Line 264: the delay whose text is made, or the exception of `humanize_delay(d['delay'])`. -/
def humanDelay : Option Attr → Res (Int × Nat)
  | none => .error .keyError
  | some (.delay (some d)) => .ok d
  | some (.delay none) => .error .typeError
  | some _ => .error .valueError

/-- The attribute of the link, if there is one. -/
def Topo.attr? (t : Topo) (a b k : Name) : Option Attr :=
  (t.edges.find? fun e => e.joins a b).bind fun e => e.attrs.get? k

/-- Lines 263-265. -/
def Topo.setLabel (t : Topo) (a b : Name) : Topo × Option PyErr :=
  match humanCap (t.attr? a b capacityKey) with
  | .error e => (t, some e)
  | .ok c =>
    match humanDelay (t.attr? a b delayKey) with
    | .error e => (t, some e)
    | .ok d => (t.setAttr a b labelKey (.label c d), none)

/-- Lines 259 and 262, for a false argument nothing. -/
def Topo.setIfGiven {α : Type} (t : Topo) (a b k : Name) (mk : α → Attr) : Option α → Topo
  | some v => t.setAttr a b k (mk v)
  | none => t

/-- `setLinkCharacteristics`, topobuild.py 254-265. -/
def Topo.setLink (t : Topo) (a b : Name) (c : CapArg) (d : DelayArg) : Topo × Option PyErr :=
  if t.hasLink a b then
    match c.parse with
    | .error e => (t, some e)
    | .ok cv =>
      match d.parse with
      | .error e => (t.setIfGiven a b capacityKey .cap cv, some e)
      | .ok dv => ((t.setIfGiven a b capacityKey .cap cv).setIfGiven a b delayKey .delay dv).setLabel a b
  else (t, some .generic)

/-- The address given to the `i`th new interface, lines 240-246. -/
def Topo.newMac (t : Topo) (i : Nat) : EthArg := if t.autoMacs then .text (macText (t.ifnum + i)) else .none

/-- Lines 241-246. -/
def Topo.useMacs (t : Topo) : Topo := if t.autoMacs then { t with ifnum := t.ifnum + 2 } else t

/-- Lines 249-252. -/
def Topo.connect (t : Topo) (a b : Name) (fa fb : Name) (c : CapArg) (d : DelayArg) : Topo × Option PyErr :=
  (((t.addEdge a b).setAttr a b a (.ifname fa)).setAttr a b b (.ifname fb)).setLink a b c d

/-- `addLink`, topobuild.py 232-252. -/
def Topo.addLink (t : Topo) (a b : Name) (c : CapArg) (d : DelayArg) : Topo × Option PyErr :=
  if t.hasNode a && t.hasNode b then
    match t.useMacs.addIf a (t.newMac 0) with
    | (t1, .error e) => (t1, some e)
    | (t1, .ok fa) =>
      match t1.addIf b (t.newMac 1) with
      | (t2, .error e) => (t2, some e)
      | (t2, .ok fb) => t2.connect a b fa fb c d
  else (t, some .generic)

/-- `getNode(n)['nodeobj'].getInterface(f)`. -/
def Topo.iface? (t : Topo) (n f : Name) : Option Iface := (t.nodes.get? n).bind fun nd => nd.ifs.get? f

/-- The effect of a method of an interface object on the topology. -/
def Topo.setIface (t : Topo) (n f : Name) (i : Iface) : Topo :=
  match t.nodes.get? n with
  | none => t
  | some nd => { t with nodes := t.nodes.set n { nd with ifs := nd.ifs.set f i } }

/-- `getLinkInterfaces`, topobuild.py 321-328. -/
def Topo.getLinkInterfaces (t : Topo) (a b : Name) : Res (Attr × Attr) :=
  t.getEdge a b >>= fun d =>
  match d.get? a with
  | some x => .ok (x, x)
  | none => .error .keyError

/-- `if mac:`, line 342; an `EthAddr` object is always true. -/
def ethArgTrue : EthArg → Bool
  | .none => false
  | .text s => s ≠ []
  | .raw b => b ≠ []
  | _ => true

/-- `if ip:`, line 344. -/
def ipArgTrue : IPIfArg → Bool
  | .none => false
  | .text s => s ≠ []
  | _ => true

/-- Lines 344-345. -/
def Iface.assignIfGiven (i : Iface) (v : IPIfArg) : Iface × Option PyErr :=
  if ipArgTrue v then i.assignIp v else (i, none)

/-- Lines 342-345. -/
def Iface.setAddresses (i : Iface) (mac : EthArg) (ip : IPIfArg) : Iface × Option PyErr :=
  if ethArgTrue mac then
    match i.setEth mac with
    | (i', some e) => (i', some e)
    | (i', none) => i'.assignIfGiven ip
  else i.assignIfGiven ip

/-- `setInterfaceAddresses`, topobuild.py 330-345. -/
def Topo.setAddrs (t : Topo) (n f : Name) (mac : EthArg) (ip : IPIfArg) : Topo × Option PyErr :=
  match t.nodes.get? n with
  | none => (t, some .generic)
  | some nd =>
    match nd.ifs.get? f with
    | none => (t, some .generic)
    | some i => (t.setIface n f (i.setAddresses mac ip).1, (i.setAddresses mac ip).2)

/-- `getInterfaceAddresses`, topobuild.py 347-353. -/
def Topo.getAddrs (t : Topo) (n f : Name) : Res (EthAddr × List IPIface) :=
  match t.iface? n f with
  | some i => .ok (i.ethaddr, i.ips)
  | none => .error .keyError

/-- `subnet.hosts()` of Python's `ipaddress`: the addresses from `next` to `last`, or, for a subnet of
one address, a list (on which `next` cannot be called). -/
inductive HostGen
  | gen (next last : Nat)
  | list
  deriving DecidableEq, Repr

/-- The first address of the subnet with this prefix length. -/
def netBase (a plen : Nat) : Nat := a / 2 ^ (32 - plen) * 2 ^ (32 - plen)

/-- `IPv4Network.hosts()` for the subnet of an address. -/
def hostsOf (a plen : Nat) : HostGen :=
  if plen = 32 then .list
  else if plen = 31 then .gen (netBase a plen) (netBase a plen + 1)
  else .gen (netBase a plen + 1) (netBase a plen + 2 ^ (32 - plen) - 2)

/-- `next(ipgenerator)`. -/
def HostGen.next : HostGen → Res (Nat × HostGen)
  | .gen n l => if n ≤ l then .ok (n, .gen (n + 1) l) else .error .stopIteration
  | .list => .error .typeError

/-- Lines 301-304: the subnet as a number and a prefix length. -/
def subnetOf : Option (List Char) → Res (Nat × Nat)
  | none => .ok (10 * 2 ^ 24, 8)
  | some s =>
    if s = [] then .ok (10 * 2 ^ 24, 8)
    else match ipv4IfaceParse s with
      | some ⟨.v4 a, n⟩ => .ok (a.toNat, n)
      | _ => .error .valueError

/-- `node in self.hosts + self.routers`, lines 310 and 315. -/
def Topo.numbered (t : Topo) (n : Name) : Bool := n ∈ t.ofKind .host ++ t.ofKind .router

/-- Lines 316-319. -/
def Topo.numberEnd (t : Topo) (g : HostGen) (plen : Nat) (u v n : Name) : (Topo × HostGen) × Option PyErr :=
  match t.attr? u v n with
  | some (.ifname f) =>
    match t.iface? n f with
    | none => ((t, g), some .keyError)
    | some i =>
      match g.next with
      | .error e => ((t, g), some e)
      | .ok (a, g') =>
        ((t.setIface n f (i.assignIp (.text (IPIface.text ⟨.v4 (BitVec.ofNat 32 a), plen⟩))).1, g'),
         (i.assignIp (.text (IPIface.text ⟨.v4 (BitVec.ofNat 32 a), plen⟩))).2)
  | _ => ((t, g), some .keyError)

/-- Lines 312-319, for the remaining link ends `(u, v, node)`; `num` says which nodes get addresses. -/
def numberEnds (num : Name → Bool) (plen : Nat) : Topo → HostGen → List (Name × Name × Name) → Topo × Option PyErr
  | t, _, [] => (t, none)
  | t, g, (u, v, n) :: es =>
    if num n then
      match t.numberEnd g plen u v n with
      | ((t', _), some e) => (t', some e)
      | ((t', g'), none) => numberEnds num plen t' g' es
    else numberEnds num plen t g es

/-- Python's order on texts. -/
def nameLe (a b : Name) : Bool := decide (a ≤ b)

/-- Python's order on pairs of texts. -/
def pairLe (x y : Name × Name) : Bool := if x.1 = y.1 then nameLe x.2 y.2 else nameLe x.1 y.1

/-- Insertion into a sorted list. -/
def insertPair (x : Name × Name) : List (Name × Name) → List (Name × Name)
  | [] => [x]
  | y :: ys => if pairLe x y then x :: y :: ys else y :: insertPair x ys

/-- `sorted(self.links)`, line 312. -/
def sortPairs : List (Name × Name) → List (Name × Name)
  | [] => []
  | x :: xs => insertPair x (sortPairs xs)

/-- The link ends in the order of lines 312-314. -/
def Topo.ends (t : Topo) : List (Name × Name × Name) :=
  (sortPairs t.links).flatMap fun x => [(x.1, x.2, x.1), (x.1, x.2, x.2)]

/-- `assignIPAddresses`, topobuild.py 292-319. -/
def Topo.assignIPs (t : Topo) (pfx : Option (List Char)) : Topo × Option PyErr :=
  match subnetOf pfx with
  | .error e => (t, some e)
  | .ok (a, n) => numberEnds t.numbered n t (hostsOf a n) t.ends

/-- `neighbors`, topobuild.py 187-188. -/
def Topo.neighbors (t : Topo) (n : Name) : List Name :=
  t.edges.filterMap fun e => if e.a = n then some e.b else if e.b = n then some e.a else none

/-- The operations that change a topology. -/
inductive TopoOp
  | add (k : NodeKind) (name : Option Name)
  | addLink (a b : Name) (c : CapArg) (d : DelayArg)
  | removeNode (n : Name)
  | removeLink (a b : Name)
  | setLink (a b : Name) (c : CapArg) (d : DelayArg)
  | assignIPs (pfx : Option (List Char))
  | setAddrs (n f : Name) (mac : EthArg) (ip : IPIfArg)
  | addInterface (n : Name) (eth : EthArg) (ip : NodeIpArg)

/-- The exception of a result. -/
def resErr {α : Type} : Res α → Option PyErr
  | .ok _ => none
  | .error e => some e

/-- `getNode(n)['nodeobj'].addInterface(...)`, topobuild.py 134-135 and 48-53. -/
def Topo.nodeAddInterface (t : Topo) (n : Name) (eth : EthArg) (ip : NodeIpArg) : Topo × Option PyErr :=
  match t.nodes.get? n with
  | none => (t, some .keyError)
  | some nd =>
    ({ t with nextIf := (nd.addInterface t.nextIf eth ip).1,
              nodes := t.nodes.set n (nd.addInterface t.nextIf eth ip).2.1 },
     resErr (nd.addInterface t.nextIf eth ip).2.2)

/-- One operation; the exception it raises, if any. -/
def Topo.step (t : Topo) : TopoOp → Topo × Option PyErr
  | .add k n => ((t.add k n).1, resErr (t.add k n).2)
  | .addLink a b c d => t.addLink a b c d
  | .removeNode n => t.removeNode n
  | .removeLink a b => t.removeLink a b
  | .setLink a b c d => t.setLink a b c d
  | .assignIPs p => t.assignIPs p
  | .setAddrs n f m i => t.setAddrs n f m i
  | .addInterface n m i => t.nodeAddInterface n m i

/-- A history of operations, whose exceptions the caller survives. -/
def Topo.run (t : Topo) (ops : List TopoOp) : Topo := ops.foldl (fun t op => (t.step op).1) t

end SY
