import Verif.Packet

/-! # Packet objects and the header objects they share (`/repo/switchyard/lib/packet/packet.py`)

In `Verif/Packet.lean` a packet is a list of header values.  In Python it is a list of references to header
objects, and one header object can be in several packets.  Here header objects and packet objects have
numbers, and every operation says which objects it makes, changes and shares.  Objects inside a header
(the data of an ICMP message, lists of options) are part of its value; that one of them is shared between two headers
is not modelled. -/

namespace SY

/-- The objects made so far: the value of each header (or other object that a packet can hold), and for
each packet its list `_headers` (11) of references. -/
structure Heap where
  objs : List Item
  pkts : List (List Nat)

/-- The value of an object. -/
def Heap.item (h : Heap) (r : Nat) : Item := h.objs.getD r (.other 0)

/-- The references of a packet. -/
def Heap.refs (h : Heap) (p : Nat) : List Nat := h.pkts.getD p []

/-- The values that references stand for. -/
def Heap.vals (h : Heap) (rs : List Nat) : Packet := rs.map h.item

/-- What a packet looks like now. -/
def Heap.view (h : Heap) (p : Nat) : Packet := h.vals (h.refs p)

/-- New header objects are made, in this order. -/
def Heap.make (h : Heap) (xs : List Item) : Heap × List Nat :=
  ({ h with objs := h.objs ++ xs }, List.range' h.objs.length xs.length)

/-- A new packet object with these references; its number is that of packets made before. -/
def Heap.newPkt (h : Heap) (rs : List Nat) : Heap := { h with pkts := h.pkts ++ [rs] }

/-- The list of a packet is replaced. -/
def Heap.setRefs (h : Heap) (p : Nat) (rs : List Nat) : Heap := { h with pkts := h.pkts.set p rs }

/-- A header object changes. -/
def Heap.setObj (h : Heap) (r : Nat) (x : Item) : Heap := { h with objs := h.objs.set r x }

/-- `add_header(x)` on a list of references, 109-121: bytes are wrapped into a new object. -/
def Heap.append (h : Heap) (rs : List Nat) (x : Nat) : Res (Heap × List Nat) :=
  match h.item x with
  | .bytes b => .ok ((h.make [.hdr (.raw b)]).1, rs ++ [h.objs.length])
  | .hdr _ => .ok (h, rs ++ [x])
  | .other _ => .error .generic

/-- The loop of `__add__`, 80-81. -/
def Heap.appendAll (h : Heap) (rs : List Nat) : List Nat → Res (Heap × List Nat)
  | [] => .ok (h, rs)
  | x :: xs => h.append rs x >>= fun r => Heap.appendAll r.1 r.2 xs

/-- `deepcopy(p)` on the list of references: an object that was met before is not copied again (`memo`). -/
def Heap.copyRefs (h : Heap) (memo : List (Nat × Nat)) : List Nat → Heap × List Nat
  | [] => (h, [])
  | r :: rs =>
    match memo.lookup r with
    | some s => ((Heap.copyRefs h memo rs).1, s :: (Heap.copyRefs h memo rs).2)
    | none =>
      ((Heap.copyRefs (h.make [h.item r]).1 ((r, h.objs.length) :: memo) rs).1,
        h.objs.length :: (Heap.copyRefs (h.make [h.item r]).1 ((r, h.objs.length) :: memo) rs).2)

/-- The loop of `to_bytes`, 35-38, as `Packet.serLoop`, but the objects change. -/
def Heap.serLoop (rs : List Nat) : Nat → Heap → List Bytes → Heap × Res (List Bytes)
  | 0, h, rawlist => (h, .ok rawlist)
  | i + 1, h, rawlist =>
    match listIndex rs i with
    | .error e => (h, .error e)
    | .ok r =>
      match (h.item r).pre rawlist.flatten (h.vals rs) with
      | .error e => (h, .error e)
      | .ok it' =>
        match it'.toBytes with
        | .error e => (h.setObj r it', .error e)
        | .ok b => Heap.serLoop rs i (h.setObj r it') (b :: rawlist)

/-- `p.to_bytes()`, 29-40. -/
def Heap.toBytes (h : Heap) (p : Nat) : Heap × Res Bytes :=
  ((Heap.serLoop (h.refs p) (h.refs p).length h []).1,
    List.flatten <$> (Heap.serLoop (h.refs p) (h.refs p).length h []).2)

/-! ## What a program can do with packets -/

/-- Statements about packets; packets are numbered in the order in which they are made.  A header that is put
into a packet is either a new one, given by its value, or one that is in a packet, given by packet and
index. -/
inductive POp
  | new                                                    -- `Packet()`
  | parse (raw : Bytes) (first : Option Cls)               -- `Packet(raw, first_header)`
  | addNew (p : Nat) (x : Item)                            -- `p += x`, `p.add_header(x)`, `p.add_payload(x)`
  | prependNew (p : Nat) (x : Item)                        -- `p.prepend_header(x)`
  | insertNew (p : Nat) (i : Int) (x : Item)               -- `p.insert_header(i, x)`
  | setNew (p : Nat) (i : Int) (x : Item)                  -- `p[i] = x`
  | del (p : Nat) (i : Int)                                -- `del p[i]`
  | delCls (p : Nat) (c : Cls)                             -- `del p[c]`
  | change (p : Nat) (i : Int) (f : Hdr → Hdr × Res Unit)  -- `p[i].attribute = value`, `p[i].method()`
  | ser (p : Nat)                                          -- `p.to_bytes()`
  | look (p : Nat)                                         -- `str(p)`, `p == q`, `p[i].attribute`, `len(p)` ...
  | copy (p : Nat)                                         -- `deepcopy(p)`
  | plus (p q : Nat)                                       -- `p + q`
  | plusNew (p : Nat) (x : Item)                           -- `p + x`
  | share (p q : Nat) (i : Int)                            -- `p += q[i]`
  | join (p : Nat) (i : Int) (q : Nat) (j : Int)           -- `p[i] + q[j]`

/-- What a statement shows. -/
inductive Shown
  | nothing
  | bytes (b : Bytes)
  | packet (v : Packet)

/-- `p += x` for a new object `x`. -/
def Heap.addNew (h : Heap) (p : Nat) (x : Item) : Heap × Res Shown :=
  match (h.make [x]).1.append (h.refs p) h.objs.length with
  | .error e => (h, .error e)
  | .ok r => (r.1.setRefs p r.2, .ok .nothing)

/-- `p[i] = x`, 202-208, for a new object `x`. -/
def Heap.setNew (h : Heap) (p : Nat) (i : Int) (x : Item) : Heap × Res Shown :=
  match (h.view p).setItem i x, (h.view p).checkIdx i with
  | .ok _, .ok k => ((h.make [x]).1.setRefs p ((h.refs p).set k h.objs.length), .ok .nothing)
  | .error e, _ => (h, .error e)
  | _, .error e => (h, .error e)

/-- `del p[i]`, 217-220. -/
def Heap.del (h : Heap) (p : Nat) (i : Int) : Heap × Res Shown :=
  match (h.view p).checkIdx i with
  | .ok k => (h.setRefs p ((h.refs p).eraseIdx k), .ok .nothing)
  | .error e => (h, .error e)

/-- `del p[c]`, 221-225. -/
def Heap.delCls (h : Heap) (p : Nat) (c : Cls) : Heap × Res Shown :=
  match (h.view p).headerIndex c 0 with
  | .ok i => if i = -1 then (h, .error .keyError) else (h.setRefs p ((h.refs p).eraseIdx i.toNat), .ok .nothing)
  | .error e => (h, .error e)

/-- A setter or method of the header `p[i]`. -/
def Heap.change (h : Heap) (p : Nat) (i : Int) (f : Hdr → Hdr × Res Unit) : Heap × Res Shown :=
  match (h.view p).checkIdx i with
  | .error e => (h, .error e)
  | .ok k =>
    match (h.refs p)[k]? with
    | none => (h, .error .indexError)
    | some r =>
      match h.item r with
      | .hdr x => (h.setObj r (.hdr (f x).1), (fun _ => .nothing) <$> (f x).2)
      | _ => (h, .error .attributeError)

/-- `p + q`, 77-82. -/
def Heap.plus (h : Heap) (p q : Nat) : Heap × Res Shown :=
  match (h.copyRefs [] (h.refs p)).1.appendAll (h.copyRefs [] (h.refs p)).2 (h.refs q) with
  | .error e => (h, .error e)
  | .ok r => (r.1.newPkt r.2, .ok .nothing)

/-- `p + x`, 83-86, for a new object `x`. -/
def Heap.plusNew (h : Heap) (p : Nat) (x : Item) : Heap × Res Shown :=
  match ((h.copyRefs [] (h.refs p)).1.make [x]).1.append (h.copyRefs [] (h.refs p)).2
      (h.copyRefs [] (h.refs p)).1.objs.length with
  | .error e => (h, .error e)
  | .ok r => (r.1.newPkt r.2, .ok .nothing)

/-- The object `p[i]`, 190-193. -/
def Heap.at (h : Heap) (p : Nat) (i : Int) : Res Nat :=
  (h.view p).checkIdx i >>= fun k => listIndex (h.refs p) k

/-- `p += q[i]`, 68-75. -/
def Heap.share (h : Heap) (p q : Nat) (i : Int) : Heap × Res Shown :=
  match h.at q i >>= fun r => h.append (h.refs p) r with
  | .error e => (h, .error e)
  | .ok r => (r.1.setRefs p r.2, .ok .nothing)

/-- `p[i] + q[j]`, 322-329: only headers have `__add__` here; bytes as left operand raise as well. -/
def Heap.join (h : Heap) (p : Nat) (i : Int) (q : Nat) (j : Int) : Heap × Res Shown :=
  match h.at p i >>= fun r => h.at q j >>= fun s =>
      match h.item r with
      | .hdr _ => h.append [] r >>= fun a => a.1.append a.2 s
      | _ => .error .typeError with
  | .error e => (h, .error e)
  | .ok r => (r.1.newPkt r.2, .ok .nothing)

/-- A statement is executed. -/
def POp.exec (h : Heap) : POp → Heap × Res Shown
  | .new => (h.newPkt [], .ok .nothing)
  | .parse raw first =>
    match Packet.parse raw first with
    | .error e => (h, .error e)
    | .ok v => ((h.make v).1.newPkt (h.make v).2, .ok .nothing)
  | .addNew p x => h.addNew p x
  | .prependNew p x => ((h.make [x]).1.setRefs p (h.objs.length :: h.refs p), .ok .nothing)
  | .insertNew p i x => ((h.make [x]).1.setRefs p (pyInsert (h.refs p) i h.objs.length), .ok .nothing)
  | .setNew p i x => h.setNew p i x
  | .del p i => h.del p i
  | .delCls p c => h.delCls p c
  | .change p i f => h.change p i f
  | .ser p => ((h.toBytes p).1, .bytes <$> (h.toBytes p).2)
  | .look p => (h, .ok (.packet (h.view p)))
  | .copy p => ((h.copyRefs [] (h.refs p)).1.newPkt (h.copyRefs [] (h.refs p)).2, .ok .nothing)
  | .plus p q => h.plus p q
  | .plusNew p x => h.plusNew p x
  | .share p q i => h.share p q i
  | .join p i q j => h.join p i q j

/-- Statements are executed one after the other; exceptions are caught. -/
def execAll (h : Heap) : List POp → Heap × List (Res Shown)
  | [] => (h, [])
  | o :: os => ((execAll (o.exec h).1 os).1, (o.exec h).2 :: (execAll (o.exec h).1 os).2)

end SY
