import Verif.Heap
import Verif.Scenario

/-! # Test scenarios and the packet objects they refer to

`/repo/switchyard/lib/testing.py`, `/repo/switchyard/llnettest.py`, as in `Verif/Scenario.lean`, but packets and events
are objects: which object an event keeps, which object the program is given, and what a later change of
one of them does.  Timers, timestamps and descriptions are left out (they are in `Verif/Scenario.lean`). -/

namespace SY

/-- An event object.  Packets are given by their numbers; an output event has for each port its own copy of the
packet (the references of its headers; nobody else can name it) and the matcher (`ref` of the matcher is not used),
and the packets that the program sent. -/
inductive OEvent
  | timeout
  | input (dev : List Char) (pkt : Nat) (first : Option Cls) (copies : List Copy)
  | output (waiting : Dict (List Char) (List Nat × Matcher)) (sent : Dict (List Char) Nat)

/-- Packets, events, the events that are pending (by number), the output event completed last, and the
names of the interfaces. -/
structure OScen where
  heap : Heap
  events : List OEvent
  pending : List Nat
  last : Option Nat
  ifaces : List (List Char)

/-- What the author of a scenario and the program do, in any order. -/
inductive OStmt
  | pkt (o : POp)
  | mkTimeout
  | mkInput (dev : List Char) (p : Nat) (copies : List Copy)
  | mkOutput (args : List (List Char × Nat)) (exact : Bool) (wild : List (Cls × HdrAttr)) (preds : List (Packet → Res Bool))
  | expect (e : Nat)
  | recv
  | send (dev : List Char) (p : Nat)

/-- What a statement shows; `got`: the port and the number of the packet object received. -/
inductive OShown
  | nothing
  | shown (x : Shown)
  | got (dev : List Char) (p : Nat)

/-- The class of the first header, testing.py 420-423. -/
def firstCls (v : Packet) : Option Cls :=
  match v with
  | .hdr h :: _ => some h.cls
  | _ => none

/-- The loop of `PacketOutputEvent.__init__`, testing.py 513-515: `_PacketMatcher` keeps a deep copy, 79. -/
def mkWaitingO (exact : Bool) (wild : List (Cls × HdrAttr)) (preds : List (Packet → Res Bool)) :
    Heap → Dict (List Char) (List Nat × Matcher) → List (List Char × Nat) → Res (Heap × Dict (List Char) (List Nat × Matcher))
  | h, d, [] => .ok (h, d)
  | h, d, (dev, p) :: args =>
    Matcher.new (h.view p) exact wild preds >>= fun m =>
    mkWaitingO exact wild preds (h.copyRefs [] (h.refs p)).1 (d.set dev ((h.copyRefs [] (h.refs p)).2, m)) args

/-- The packets sent in the output expectation completed last, as they are now, testing.py 632-637, 768-769. -/
def OScen.lastSent (s : OScen) : Option (Dict (List Char) Sent) :=
  match s.last with
  | none => none
  | some e =>
    match s.events[e]? with
    | some (.output _ sent) => some (sent.map fun x => (x.1, Sent.pkt (s.heap.view x.2)))
    | _ => none

/-- `setattr(pkt.get_header(c), a, v)`, testing.py 473-474. -/
def Heap.setattr (h : Heap) (p : Nat) (c : Cls) (a : HdrAttr) (v : PyVal) : Res Heap :=
  match (h.refs p).find? fun r => (h.item r).isA c with
  | none => .error .attributeError
  | some r => (h.item r).setattr a v >>= fun x => .ok (h.setObj r x)

/-- The loop of `generate_packet`, testing.py 469-474. -/
def OScen.applyCopies (s : OScen) (p : Nat) : List Copy → OScen × Option PyErr
  | [] => (s, none)
  | c :: cs =>
    match lastoutOf s.lastSent c.intf c.outCls c.outAttr >>= fun v => s.heap.setattr p c.inCls c.inAttr v with
    | .error x => (s, some x)
    | .ok h => OScen.applyCopies { s with heap := h } p cs

/-- The end of `generate_packet`, testing.py 466-475; the packet object `p` is new. -/
def OScen.handOver (s : OScen) (dev : List Char) (p : Nat) (cs : List Copy) : OScen × Res OShown :=
  if dev ∈ s.ifaces then
    match s.applyCopies p cs with
    | (s', none) => (s', .ok (.got dev p))
    | (s', some x) => (s', .error x)
  else (s, .error .testFailure)

/-- `generate_packet`, testing.py 462-475, of event `e`: the event keeps the new packet object and the
program is given the same object. -/
def OScen.generate (s : OScen) (e : Nat) (dev : List Char) (p : Nat) (first : Option Cls) (cs : List Copy) :
    OScen × Res OShown :=
  match s.heap.toBytes p with
  | (h, .error x) => ({ s with heap := h }, .error x)
  | (h, .ok b) =>
    match Packet.parse b first with
    | .error x => ({ s with heap := h }, .error x)
    | .ok q =>
      OScen.handOver { s with heap := (h.make q).1.newPkt (h.make q).2,
                              events := s.events.set e (.input dev h.pkts.length first cs) } dev h.pkts.length cs

/-- `recv_packet`, llnettest.py 60-79. -/
def OScen.recv (s : OScen) : OScen × Res OShown :=
  match s.pending with
  | [] => (s, .error .shutdown)
  | e :: es =>
    match s.events[e]? with
    | some .timeout => ({ s with pending := es }, .error .noPackets)
    | some (.input dev p first cs) => OScen.generate { s with pending := es } e dev p first cs
    | _ => (s, .error .testFailure)

/-- The end of `match`, testing.py 532-539, and of `send_packet`, llnettest.py 95-105: the event keeps the
packet object that the program sent. -/
def OScen.accept (s : OScen) (e : Nat) (es : List Nat) (w : Dict (List Char) (List Nat × Matcher)) (sent : Dict (List Char) Nat)
    (dev : List Char) (p : Nat) : OScen :=
  if w.erase dev = [] then
    { s with events := s.events.set e (.output [] (sent.set dev p)), pending := es, last := some e }
  else { s with events := s.events.set e (.output (w.erase dev) (sent.set dev p)) }

/-- The packet and the copy are serialised, testing.py 299-300. -/
def Heap.toBytes2 (h : Heap) (p : Nat) (k : List Nat) : Heap × Res Unit :=
  match h.toBytes p with
  | (h1, .error x) => (h1, .error x)
  | (h1, .ok _) => ((Heap.serLoop k k.length h1 []).1, (fun _ => ()) <$> (Heap.serLoop k k.length h1 []).2)

/-- `send_packet(dev, p)`, llnettest.py 81-105; `match`, testing.py 517-541, 288-307. -/
def OScen.send (s : OScen) (dev : List Char) (p : Nat) : OScen × Res OShown :=
  match s.pending with
  | [] => (s, .error .testFailure)
  | e :: es =>
    match s.events[e]? with
    | some (.output w sent) =>
      match w.get? dev with
      | none => (s, .error .testFailure)
      | some (k, m) =>
        match s.heap.toBytes2 p k with
        | (h, .error x) => ({ s with heap := h }, .error x)
        | (h, .ok _) =>
          match Matcher.verdict { m with ref := h.vals k } (h.view p) with
          | .error x => ({ s with heap := h }, .error x)
          | .ok false => ({ s with heap := h }, .error .testFailure)
          | .ok true => (OScen.accept { s with heap := h } e es w sent dev p, .ok .nothing)
    | _ => (s, .error .testFailure)

/-- A statement is executed. -/
def OStmt.exec (s : OScen) : OStmt → OScen × Res OShown
  | .pkt o => ({ s with heap := (o.exec s.heap).1 }, .shown <$> (o.exec s.heap).2)
  | .mkTimeout => ({ s with events := s.events ++ [.timeout] }, .ok .nothing)
  | .mkInput dev p cs =>
    ({ s with events := s.events ++ [.input dev p (firstCls (s.heap.view p)) cs] }, .ok .nothing)
  | .mkOutput args exact wild preds =>
    if args = [] then (s, .error .valueError)
    else
      match mkWaitingO exact wild preds s.heap [] args with
      | .error x => (s, .error x)
      | .ok (h, w) => ({ s with heap := h, events := s.events ++ [.output w []] }, .ok .nothing)
  | .expect e => ({ s with pending := s.pending ++ [e] }, .ok .nothing)
  | .recv => s.recv
  | .send dev p => s.send dev p

/-- Statements are executed one after the other; exceptions are caught. -/
def oexecAll (s : OScen) : List OStmt → OScen × List (Res OShown)
  | [] => (s, [])
  | o :: os => ((oexecAll (o.exec s).1 os).1, (o.exec s).2 :: (oexecAll (o.exec s).1 os).2)

end SY
