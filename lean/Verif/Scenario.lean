import Verif.SetAttr
import Verif.NetBase

/-!
# Test scenarios and the network of the test harness

Model of /repo/switchyard/lib/testing.py 318-991 (events, scenarios, compiled scenario files) and of
/repo/switchyard/llnettest.py 27-105, 141-253.  Not modelled here: messages and `str` of events (evaluated
for the log), which are in Verif.Report; two expectations that share one event object (Verif.HeapNet); support files,
`setup` and `teardown`, runs of several scenarios, and `debugger()`, after which `_timer_expiry` ignores the alarm
(Verif.Suite).  Not modelled: the Windows timer process.
-/

namespace SY

/-- A packet that met an output expectation.  `__getstate__` replaces the packets of the live event
by their bytes, because the dictionary it copies is copied shallowly (testing.py 574-579). -/
inductive Sent
  | pkt (p : Packet)
  | raw (b : Bytes)

/-- A member of `copyfromlastout`, testing.py 426-430, 470-471: the value of an attribute of a header
of the packet last sent on `intf` is to be assigned to an attribute of a header of the packet
delivered. -/
structure Copy where
  intf : List Char
  outCls : Cls
  outAttr : HdrAttr
  inCls : Cls
  inAttr : HdrAttr
  deriving DecidableEq

/-- `PacketInputTimeoutEvent`, testing.py 378-379; `PacketInputEvent`, 417-433;
`PacketOutputEvent`: `_device_packet_map` and `_matches`, 486-515. -/
inductive Event
  | timeout (secs : Int)
  | input (dev : List Char) (pkt : Packet) (first : Option Cls) (copies : List Copy)
  | output (waiting : Dict (List Char) Matcher) (sent : Dict (List Char) Sent)

/-- `PacketInputEvent.__init__`, testing.py 417-423.  (A first header that is not one of the header
classes is not modelled.) -/
def Event.mkInput (dev : List Char) (p : Packet) (copies : List Copy := []) : Event :=
  .input dev p (match p with
    | .hdr h :: _ => some h.cls
    | _ => none) copies

/-- The `copyfromlastout` argument: `None`, one five-tuple that starts with the name of an interface,
a tuple or list of such, or an object that is neither a tuple nor a list.  (Tuples of another shape
are stored as they are and are not modelled.) -/
inductive CopyArg
  | none
  | one (c : Copy)
  | many (cs : List Copy)
  | other

/-- The last part of `PacketInputEvent.__init__`, testing.py 425-433: an empty tuple or list has no
first member. -/
def CopyArg.copies : CopyArg → Res (List Copy)
  | .none => .ok []
  | .one c => .ok [c]
  | .many [] => .error .indexError
  | .many cs => .ok cs
  | .other => .error .valueError

/-- `PacketInputEvent(dev, packet, copyfromlastout=arg)`, testing.py 417-433. -/
def Event.mkCopying (dev : List Char) (p : Packet) (arg : CopyArg) : Res Event :=
  arg.copies >>= fun cs => .ok (Event.mkInput dev p cs)

/-- The loop of `PacketOutputEvent.__init__`, testing.py 513-515. -/
def mkWaiting (exact : Bool) (wild : List (Cls × HdrAttr)) (preds : List (Packet → Res Bool))
    (d : Dict (List Char) Matcher) : List (List Char × Packet) → Res (Dict (List Char) Matcher)
  | [] => .ok d
  | (dev, p) :: args =>
    Matcher.new p exact wild preds >>= fun m => mkWaiting exact wild preds (d.set dev m) args

/-- `PacketOutputEvent.__init__`, testing.py 486-515: the positional arguments as pairs; `odd` says
that one more argument follows. -/
def Event.mkOutput (args : List (List Char × Packet)) (odd exact : Bool)
    (wild : List (Cls × HdrAttr)) (preds : List (Packet → Res Bool)) : Res Event :=
  if args = [] ∧ odd = false then .error .valueError
  else if odd then .error .valueError
  else mkWaiting exact wild preds [] args >>= fun d => .ok (.output d [])

/-- `MATCH_FAIL`, `MATCH_SUCCESS`, `MATCH_PARTIAL`, testing.py 321-323. -/
inductive MatchRes
  | fail | success | part
  deriving DecidableEq, Repr

/-- `match(EVENT_INPUT)`, testing.py 394-402, 452-460, 522-523. -/
def Event.matchInput : Event → MatchRes
  | .timeout _ => .success
  | .input _ _ _ _ => .success
  | .output _ _ => .fail

/-- `match(EVENT_OUTPUT, device, packet)`, testing.py 399-402, 457-460, 522-541.  Comparing may
complete computed fields of both packets, so the event and the packet are returned as well. -/
def Event.matchOutput (e : Event) (dev : List Char) (p : Packet) : Event × Packet × Res MatchRes :=
  match e with
  | .timeout _ => (e, p, .ok .fail)
  | .input _ _ _ _ => (e, p, .ok .fail)
  | .output waiting sent =>
    match waiting.get? dev with
    | none => (e, p, .error .testFailure)
    | some m =>
      let (m', p', r) := m.matchPkt p
      match r with
      | .error x => (.output (waiting.set dev m') sent, p', .error x)
      | .ok false => (.output (waiting.set dev m') sent, p', .error .testFailure)
      | .ok true =>
        (.output (waiting.erase dev) (sent.set dev (.pkt p')), p',
          .ok (if waiting.erase dev = [] then .success else .part))

/-- `TestScenarioEvent`, testing.py 593.  Timestamps are whole numbers. -/
structure Entry where
  event : Event
  descr : List Char
  ts : Nat

/-- `TestScenario`, testing.py 600-618.  `alarm`: seconds after which `SIGALRM` was requested. -/
structure Scenario where
  ifaces : Dict (List Char) Iface := []
  pending : List Entry := []
  completed : List Entry := []
  nextTs : Nat := 0
  timer : Bool := false
  alarm : Option Nat := none
  timeout : Nat := 60
  lastout : Option (Dict (List Char) Sent) := none

/-- `timeout` setter, testing.py 628-630 (a whole, nonnegative number). -/
def Scenario.setTimeout (s : Scenario) (v : Nat) : Scenario := { s with timeout := v }

/-- The loop of `add_interface` over the addresses, testing.py 680-681. -/
def assignAll (i : Iface) : List IPIfArg → Res Iface
  | [] => .ok i
  | a :: as =>
    match i.assignIp a with
    | (i', none) => assignAll i' as
    | (_, some e) => .error e

/-- `add_interface`, testing.py 671-682; the interface type is not given. -/
def Scenario.addInterface (s : Scenario) (name : List Char) (mac : EthArg) (ips : List IPIfArg)
    (num : Option Int) : Res Scenario :=
  Iface.new 0 name mac (some (num.getD s.ifaces.length)) .unknown >>= fun r =>
  assignAll r.2 ips >>= fun i =>
  .ok { s with ifaces := s.ifaces.set name i }

/-- `expect`, testing.py 693-701. -/
def Scenario.expect (s : Scenario) (e : Event) (descr : List Char) : Scenario :=
  { s with pending := s.pending ++ [⟨e, descr, s.nextTs⟩], nextTs := s.nextTs + 1 }

/-- `get_failed_test`, testing.py 703-710. -/
def Scenario.failedTest (s : Scenario) : Option Entry := s.pending.head?

/-- `next`, testing.py 712-721. -/
def Scenario.next (s : Scenario) : Res Event :=
  match s.pending with
  | [] => .error .testFailure
  | x :: _ => .ok x.event

/-- `done`, testing.py 837-842. -/
def Scenario.done (s : Scenario) : Bool := s.pending.isEmpty

/-- The counts of `print_summary`, testing.py 815: passed, failed, pending. -/
def Scenario.summary (s : Scenario) : Nat × Nat × Nat :=
  (s.completed.length, min 1 s.pending.length, s.pending.length - 1)

/-- `cancel_timer`, testing.py 743-753. -/
def Scenario.cancelTimer (s : Scenario) : Scenario := { s with timer := false, alarm := none }

/-- `signal.alarm(timeout)` and `_timer = True`, testing.py 779-788; `alarm(0)` requests nothing. -/
def Scenario.setTimer (s : Scenario) : Scenario :=
  { s with timer := true, alarm := if s.timeout = 0 then none else some s.timeout }

/-- `SIGALRM` arrives: `_timer_expiry`, testing.py 726-741. -/
def Scenario.alarmFires (s : Scenario) : Scenario × Option PyErr :=
  ({ s with alarm := none }, if s.timer then some .testFailure else none)

/-- `isinstance(event, PacketOutputEvent)`. -/
def Event.isOutput : Event → Bool
  | .output _ _ => true
  | _ => false

/-- `_lastout = ev.event.matches`, testing.py 768-769. -/
def Event.lastout (e : Event) (old : Option (Dict (List Char) Sent)) :
    Option (Dict (List Char) Sent) :=
  match e with
  | .output _ sent => some sent
  | _ => old

/-- The end of `testpass`, testing.py 771-788: request the alarm if the next expectation is an
output. -/
def Scenario.armNext (s : Scenario) : Scenario :=
  match s.pending with
  | [] => s
  | x :: _ => if x.event.isOutput then s.setTimer else s

/-- `testpass`, testing.py 755-790. -/
def Scenario.testpass (s : Scenario) : Scenario × Option PyErr :=
  match s.pending with
  | [] => (s.cancelTimer, some .indexError)
  | x :: xs =>
    (Scenario.armNext { s.cancelTimer with
      pending := xs, completed := s.completed ++ [x], lastout := x.event.lastout s.lastout }, none)

/-- `ReceivedPacket`, llnetbase.py 9-10. -/
structure Received where
  ts : Nat
  dev : List Char
  pkt : Packet

/-- `lastout(intf, header, property)`, testing.py 632-637, of the packets sent in the output expectation
completed last: `None` if there is none, or if nothing was expected on the interface there.  `None` and
`bytes` have no such attribute or method. -/
def lastoutOf (l : Option (Dict (List Char) Sent)) (intf : List Char) (c : Cls) (a : HdrAttr) : Res PyVal :=
  match l with
  | none => .ok none
  | some d =>
    match d.get? intf with
    | none => .ok none
    | some (.raw _) => .error .attributeError
    | some (.pkt p) =>
      match p.getHeader c with
      | none => .error .attributeError
      | some it => some <$> it.getattr a

/-- The loop of `generate_packet`, testing.py 469-474.  The packet is changed in place, so that it is
returned together with the exception, if any. -/
def applyCopies (l : Option (Dict (List Char) Sent)) : List Copy → Packet → Packet × Option PyErr
  | [], q => (q, none)
  | c :: cs, q =>
    match lastoutOf l c.intf c.outCls c.outAttr >>= fun v => Packet.setattr c.inCls c.inAttr v q with
    | .error x => (q, some x)
    | .ok q' => applyCopies l cs q'

/-- `generate_packet` once the packet has been made again from its bytes, testing.py 466-475. -/
def deliverOn (ifaces : Dict (List Char) Iface) (l : Option (Dict (List Char) Sent)) (ts : Nat) (dev : List Char)
    (cs : List Copy) (q : Packet) : Packet × Res Received :=
  if dev ∈ ifaces.keys then
    match applyCopies l cs q with
    | (q', none) => (q', .ok ⟨ts, dev, q'⟩)
    | (q', some x) => (q', .error x)
  else (q, .error .testFailure)

/-- `generate_packet`, testing.py 404-406, 462-475.  The event keeps the packet made again from its
bytes; the time the timeout event sleeps is not modelled. -/
def Event.generate (e : Event) (ts : Nat) (ifaces : Dict (List Char) Iface) (l : Option (Dict (List Char) Sent)) :
    Event × Res Received :=
  match e with
  | .timeout _ => (e, .error .noPackets)
  | .output _ _ => (e, .error .attributeError)
  | .input dev p first cs =>
    match p.toBytes with
    | (p', .error x) => (.input dev p' first cs, .error x)
    | (p', .ok b) =>
      match Packet.parse b first with
      | .error x => (.input dev p' first cs, .error x)
      | .ok q => (.input dev (deliverOn ifaces l ts dev cs q).1 first cs, (deliverOn ifaces l ts dev cs q).2)

/-- The event of the last completed expectation has been changed in place. -/
def setLast (l : List Entry) (e : Event) : List Entry :=
  match l with
  | [] => []
  | [x] => [{ x with event := e }]
  | x :: y :: l => x :: setLast (y :: l) e

/-- The event of the first pending expectation has been changed in place. -/
def setFirst (l : List Entry) (e : Event) : List Entry :=
  match l with
  | [] => []
  | x :: l => { x with event := e } :: l

/-- `LLNetTest`, llnettest.py 36-44. -/
structure TestNet where
  scen : Scenario
  ts : Nat := 0

/-- `recv_packet`, llnettest.py 60-79. -/
def TestNet.recv (n : TestNet) : TestNet × Res Received :=
  match n.scen.next with
  | .error _ => (n, .error .shutdown)
  | .ok ev =>
    match ev.matchInput with
    | .success =>
      let s := n.scen.testpass.1
      let (ev', r) := ev.generate n.ts s.ifaces s.lastout
      ({ n with scen := { s with completed := setLast s.completed ev' } }, r)
    | _ => (n, .error .testFailure)

/-- The port argument of `send_packet`: a name, a number or an interface object (its name). -/
inductive SendPort
  | name (s : List Char)
  | num (n : Int)
  | intf (i : Iface)

/-- `send_packet`, llnettest.py 86-90; `_lookup_devname`, llnetbase.py 189-193. -/
def TestNet.port (n : TestNet) : SendPort → Res (List Char)
  | .name s => .ok s
  | .num k =>
    match n.scen.ifaces.find? (fun x => x.2.ifnum = k) with
    | some x => .ok x.1
    | none => .error .keyError
  | .intf i => .ok i.name

/-- What `send_packet` does with the outcome of the match, llnettest.py 95-105. -/
def TestNet.afterMatch (n : TestNet) (r : Res MatchRes) : TestNet × Option PyErr :=
  match r with
  | .error x => (n, some x)
  | .ok .success => ({ scen := n.scen.testpass.1, ts := n.ts + 1 }, none)
  | .ok .fail => (n, some .testFailure)
  | .ok .part => ({ n with ts := n.ts + 1 }, none)

/-- `send_packet` of a packet on a named port, llnettest.py 92-105. -/
def TestNet.sendOn (n : TestNet) (dev : List Char) (p : Packet) : TestNet × Packet × Option PyErr :=
  match n.scen.next with
  | .error x => (n, p, some x)
  | .ok ev =>
    let (ev', p', r) := ev.matchOutput dev p
    let (n', x) := TestNet.afterMatch
      { n with scen := { n.scen with pending := setFirst n.scen.pending ev' } } r
    (n', p', x)

/-- `send_packet`, llnettest.py 81-105. -/
def TestNet.send (n : TestNet) (port : SendPort) (p : Packet) : TestNet × Packet × Option PyErr :=
  if n.scen.done then (n, p, some .testFailure)
  else
    match n.port port with
    | .error x => (n, p, some x)
    | .ok dev => n.sendOn dev p

/-- What `run_tests` reports, llnettest.py 161-186, 253. -/
inductive Verdict
  | allPassed | aTestFailed | somethingUnexpected | crashed
  deriving DecidableEq, Repr

/-- `run_tests`, llnettest.py 166-186: the user's code has returned, or has raised. -/
def verdict (s : Scenario) : Option PyErr → Verdict
  | some .shutdown => .allPassed
  | some .testFailure => if s.failedTest.isSome then .aTestFailed else .somethingUnexpected
  | some _ => .crashed
  | none => if s.failedTest.isSome then .aTestFailed else .allPassed

/-! ### Saving -/

/-- What is pickled for an event. -/
inductive SavedEvent
  | timeout (secs : Int)
  | input (dev : List Char) (raw : Bytes) (first : Option Cls) (copies : List Copy)
  | output (waiting : Dict (List Char) SavedMatcher) (sent : Dict (List Char) Bytes)

/-- Pickling the matchers of an output event one after the other.  The pattern packets of matchers
that have been saved have had their computed fields completed; that is not modelled here, it changes
no later match (`match_repeatable`). -/
def saveWaiting : Dict (List Char) Matcher → Res (Dict (List Char) SavedMatcher)
  | [] => .ok []
  | (dev, m) :: d => m.save >>= fun x => saveWaiting d >>= fun xs => .ok ((dev, x) :: xs)

/-- The loop of `__getstate__`, testing.py 576-578: `to_bytes` of every packet; bytes have no such
method.  The packets are replaced in the live event. -/
def saveSent : Dict (List Char) Sent → Dict (List Char) Sent × Res (Dict (List Char) Bytes)
  | [] => ([], .ok [])
  | (dev, .raw b) :: d => ((dev, .raw b) :: d, .error .attributeError)
  | (dev, .pkt p) :: d =>
    match p.toBytes with
    | (p', .error x) => ((dev, .pkt p') :: d, .error x)
    | (_, .ok b) =>
      let (d', r) := saveSent d
      ((dev, .raw b) :: d', r >>= fun xs => .ok ((dev, b) :: xs))

/-- `__getstate__` of the events, testing.py 381-382, 435-438, 574-579 (and the pickling of the
matchers an output event refers to). -/
def Event.save : Event → Event × Res SavedEvent
  | .timeout t => (.timeout t, .ok (.timeout t))
  | .input dev p first cs =>
    match p.toBytes with
    | (p', .error x) => (.input dev p' first cs, .error x)
    | (p', .ok b) => (.input dev p' first cs, .ok (.input dev b first cs))
  | .output waiting sent =>
    let (sent', r) := saveSent sent
    (.output waiting sent', r >>= fun bs => saveWaiting waiting >>= fun ms => .ok (.output ms bs))

/-- Matchers unpickled one after the other. -/
def restoreWaiting : Dict (List Char) SavedMatcher → Res (Dict (List Char) Matcher)
  | [] => .ok []
  | (dev, x) :: d => x.restore >>= fun m => restoreWaiting d >>= fun ms => .ok ((dev, m) :: ms)

/-- The loop of `__setstate__`, testing.py 583-586: the first header is taken to be Ethernet. -/
def restoreSent : Dict (List Char) Bytes → Res (Dict (List Char) Sent)
  | [] => .ok []
  | (dev, b) :: d =>
    Packet.parse b (some .eth) >>= fun p => restoreSent d >>= fun xs => .ok ((dev, .pkt p) :: xs)

/-- `__setstate__` of the events, testing.py 384-385, 440-442, 581-586. -/
def SavedEvent.restore : SavedEvent → Res Event
  | .timeout t => .ok (.timeout t)
  | .input dev b first cs => Packet.parse b first >>= fun p => .ok (.input dev p first cs)
  | .output ms bs =>
    restoreWaiting ms >>= fun waiting => restoreSent bs >>= fun sent => .ok (.output waiting sent)

/-- A pickled expectation. -/
structure SavedEntry where
  event : SavedEvent
  descr : List Char
  ts : Nat

/-- A pickled scenario: `__getstate__`, testing.py 847-855. -/
structure SavedScenario where
  ifaces : Dict (List Char) Iface
  events : List SavedEntry
  nextTs : Nat
  timeout : Nat

/-- Pickling expectations one after the other. -/
def saveEntries : List Entry → List Entry × Res (List SavedEntry)
  | [] => ([], .ok [])
  | x :: xs =>
    match x.event.save with
    | (e, .error err) => ({ x with event := e } :: xs, .error err)
    | (e, .ok s) =>
      let (xs', r) := saveEntries xs
      ({ x with event := e } :: xs', r >>= fun ss => .ok (⟨s, x.descr, x.ts⟩ :: ss))

/-- `pickle.dumps(scenario)`, testing.py 847-855: pending expectations first, then completed ones.
`_lastout` is pickled too, which is not modelled: this is right for scenarios in which no output
expectation has been completed. -/
def Scenario.save (s : Scenario) : Scenario × Res SavedScenario :=
  let (xs, r) := saveEntries (s.pending ++ s.completed)
  ({ s with pending := xs.take s.pending.length, completed := xs.drop s.pending.length },
    r >>= fun es => .ok ⟨s.ifaces, es, s.nextTs, s.timeout⟩)

/-- Unpickling expectations one after the other. -/
def restoreEntries : List SavedEntry → Res (List Entry)
  | [] => .ok []
  | x :: xs =>
    x.event.restore >>= fun e => restoreEntries xs >>= fun es => .ok (⟨e, x.descr, x.ts⟩ :: es)

/-- `pickle.loads`, testing.py 857-864. -/
def SavedScenario.restore (s : SavedScenario) : Res Scenario :=
  restoreEntries s.events >>= fun es =>
  .ok { ifaces := s.ifaces, pending := es, nextTs := s.nextTs, timeout := s.timeout }

/-- `s.rstrip(chars)`. -/
def rstripChars (chars s : List Char) : List Char :=
  (s.reverse.dropWhile (fun c => decide (c ∈ chars))).reverse

/-- The name of the file `compile_scenario` writes, testing.py 941, 945-946. -/
def compiledName (file : List Char) (out : Option (List Char)) : List Char :=
  match out with
  | some o => if o = [] then rstripChars ".py".toList file ++ ".srpy".toList else o
  | none => rstripChars ".py".toList file ++ ".srpy".toList

/-- `compile_scenario`, testing.py 942-949, up to compression and base64: the digest (`sha512`, any
function to 64 bytes here) before the pickled scenario. -/
def sealFile (sha512 : Bytes → Bytes) (b : Bytes) : Bytes := sha512 b ++ b

/-- `uncompile_scenario`, testing.py 966-972. -/
def openFile (sha512 : Bytes → Bytes) (raw : Bytes) : Res Bytes :=
  if sha512 (raw.drop 64) ≠ raw.take 64 then .error .valueError else .ok (raw.drop 64)

end SY
