import Verif.Topo
import Verif.NetBase

/-! # The simulator: nodes, the glue between them, monitors

`/repo/switchyard/sim/nodeexec.py`, `/repo/switchyard/sim/monitor.py` and `SyssGlue` in
`/repo/switchyard/sim/cli.py` 695-798.  The links are the link emulators of `Verif.Linkem`; here a packet
given to one is in the list `sent` until the emulator puts it into the queue it is meant for.  Packets are
of any type `α`.  Printing and logging are not modelled.  The type `Name` is that of texts. -/

namespace SY

/-! ## Monitors, monitor.py -/

/-- What is called for a packet received at an interface: `NullMonitor` 98-106, `PcapMonitor` 108-125 (with
the name of its file), `InteractiveMonitor` 127-148. -/
inductive Mon
  | null
  | pcap (file : Name)
  | debug
  deriving DecidableEq, Repr

/-- A monitor on the list of the manager, 88: one that was made, or one whose construction failed after
line 110 or 152, so that what its method `stop` uses is not there. -/
inductive RegMon
  | made (m : Mon)
  | half
  deriving DecidableEq, Repr

/-- The keys of `SyssGlue.monitors`, cli.py 699-701, as far as `__exec_monitor` uses them (`other`: the
empty text, 428). -/
inductive MonHow
  | pcap (base : Name)
  | debug
  | code (module_ : Name)
  | other
  deriving DecidableEq, Repr

/-- The name of the class, cli.py 792. -/
inductive MonClass
  | pcapMonitor | interactiveMonitor | codeMonitor
  deriving DecidableEq, Repr

/-- `self.monitors[how].__name__`, cli.py 792. -/
def MonHow.cls : MonHow → Res MonClass
  | .pcap _ => .ok .pcapMonitor
  | .debug => .ok .interactiveMonitor
  | .code _ => .ok .codeMonitor
  | .other => .error .keyError

/-- `s.endswith('.pcap')`, 114. -/
def endsPcap (s : Name) : Bool := ".pcap".toList.isSuffixOf s

/-- The name of the file of a `PcapMonitor`, 111-118. -/
def pcapName (node intf base : Name) : Name :=
  if endsPcap base then base
  else if base = [] then node ++ '_' :: intf ++ ".pcap".toList
  else node ++ '_' :: intf ++ '_' :: base ++ ".pcap".toList

/-- `self.monitors[how](node, interface, *args)`, cli.py 793: what the manager gets, and the monitor or the
exception.  `canOpen` says which files libpcap can open for writing; `PcapDumper` raises otherwise.
`CodeMonitor` calls `import_or_die` without its second argument (154), a `TypeError`. -/
def MonHow.make (canOpen : Name → Bool) (node intf : Name) : MonHow → Option RegMon × Res Mon
  | .pcap base =>
    if canOpen (pcapName node intf base) then
      (some (.made (.pcap (pcapName node intf base))), .ok (.pcap (pcapName node intf base)))
    else (some .half, .error .generic)
  | .debug => (some (.made .debug), .ok .debug)
  | .code _ => (some .half, .error .typeError)
  | .other => (none, .error .keyError)

/-- `MonitorManager.reset`, 26-33: every monitor is stopped.  What is left on the list after an exception
matters no more: nothing in the simulator catches it. -/
def resetMonitors (ms : List RegMon) : List RegMon × Option PyErr :=
  if .half ∈ ms then (ms, some .attributeError) else ([], none)

/-! ## Nodes, nodeexec.py -/

/-- `EgressPipe`, 20; the queue is that of the node `dest`. -/
structure EgressPipe where
  dest : Name
  delay : Attr
  capacity : Attr
  remote : Name
  deriving DecidableEq, Repr

/-- The life of a `NodeExecutor`: made (31-34); its thread is started but `run` has not yet set `__linkem`
(115-118); it is in `startcode` (125-129); `startcode` has deleted the attributes (130-135). -/
inductive NodePhase
  | created | starting | running | stopped
  deriving DecidableEq, Repr

/-- A `NodeExecutor`, 21-34.  `sent` is what the link emulator has been given and not delivered; `calls` is
the history of calls of monitors (81); `blocked` means that its thread waits at the barrier of an
interactive monitor (monitor.py 39). -/
structure NodeExec (α : Type) where
  phase : NodePhase
  queue : List (Name × α)
  pipes : Dict Name EgressPipe
  ifs : Dict Name Iface
  mons : Dict Name Mon
  sent : List (EgressPipe × α)
  calls : List (Mon × Name × α)
  blocked : Bool

variable {α : Type}

/-- The name of the device of packets of the local host, 33 and 37. -/
def hostDev : Name := "host".toList

/-- `NodeExecutor(name, queue)`, 23-34. -/
def NodeExec.new : NodeExec α := ⟨.created, [], [], [], [(hostDev, .null)], [], [], false⟩

/-- `sendHostPacket`, 36-37. -/
def NodeExec.sendHost (x : NodeExec α) (p : α) : NodeExec α := { x with queue := x.queue ++ [(hostDev, p)] }

/-- `addEgressInterface`, 39-43. -/
def NodeExec.addEgress (x : NodeExec α) (dev : Name) (i : Iface) (pipe : EgressPipe) : NodeExec α :=
  { x with pipes := x.pipes.set dev pipe, ifs := x.ifs.set dev i, mons := x.mons.set dev .null }

/-- `attach_recv_monitor` 64-65 and `remove_recv_monitor` 67-68 (with a `NullMonitor`). -/
def NodeExec.attach (x : NodeExec α) (dev : Name) (m : Mon) : NodeExec α × Option PyErr :=
  if x.phase = .stopped then (x, some .attributeError) else ({ x with mons := x.mons.set dev m }, none)

/-- `float(capacity)`, 96, as a divisor. -/
def Attr.divisor : Attr → Option PyErr
  | .cap (some n) => if n = 0 then some .generic else none
  | .cap none => some .typeError
  | .delay (some (p, _)) => if p = 0 then some .generic else none
  | .delay none => some .typeError
  | _ => some .valueError

/-- `+ delay`, 96. -/
def Attr.addend : Attr → Option PyErr
  | .cap (some _) => none
  | .delay (some _) => none
  | _ => some .typeError

/-- `send_packet`, 93-97; when the packet is delivered is the matter of `sendDelayTimesCapacity`. -/
def NodeExec.send (x : NodeExec α) (dev : Name) (p : α) : NodeExec α × Option PyErr :=
  if x.phase = .stopped then (x, some .attributeError)
  else match x.pipes.get? dev with
    | none => (x, some .keyError)
    | some pipe =>
      match pipe.capacity.divisor with
      | some e => (x, some e)
      | none =>
        match pipe.delay.addend with
        | some e => (x, some e)
        | none =>
          if x.phase = .running then ({ x with sent := x.sent ++ [(pipe, p)] }, none) else (x, some .attributeError)

/-- `shutdown`, 99-103, and the thread of the node up to its end, 105-112 and 130-135.  Before `run` has set it
and after `startcode` has deleted it, there is no `__linkem`.  A thread that waits at a barrier never ends
(`diverges`): the only thread that could come to the barrier is the one that calls `shutdown`.  That the
thread of the node deletes `__t` between lines 101 and 103 is not modelled. -/
def NodeExec.shutdown (x : NodeExec α) : NodeExec α × Option PyErr :=
  match x.phase with
  | .running => if x.blocked then (x, some .diverges) else ({ x with phase := .stopped }, none)
  | _ => (x, some .attributeError)

/-- One packet taken by the idle loop, 105-112 with 79-81: the monitor of its device is called.  An
interactive monitor blocks the thread. -/
def NodeExec.idleRecv (x : NodeExec α) : NodeExec α × Option PyErr :=
  if x.phase = .running ∧ x.blocked = false then
    match x.queue with
    | [] => (x, none)
    | (dev, p) :: q =>
      match x.mons.get? dev with
      | none => ({ x with queue := q }, some .keyError)
      | some m => ({ x with queue := q, calls := x.calls ++ [(m, dev, p)], blocked := m = .debug }, none)
  else (x, none)

/-- One round of the loop in `recv_packet`: what the clock shows at line 77, what the queue has for line 79, and
`__done` at line 88. -/
structure RecvRound (α : Type) where
  now : Nat
  got : Option (Name × α)
  done : Bool

/-- The result of `recv_packet`, 83-84: with the time if asked for. -/
inductive NodeRecv (α : Type)
  | timed (dev : Name) (now : Nat) (p : α)
  | plain (dev : Name) (p : α)
  deriving DecidableEq, Repr

/-- The loop of `recv_packet`, 77-91; `giveup` is line 74, `timeout` is given with it.  Clock values are numbers
in any unit; the time of line 80 is that of the round.  `none` means that the loop goes on after the given
rounds. -/
def NodeExec.recvLoop (mons : Dict Name Mon) (timeout giveup : Nat) (stamp : Bool) :
    List (RecvRound α) → Option (Res (NodeRecv α))
  | [] => none
  | r :: rs =>
    if timeout = 0 ∨ r.now < giveup then
      match r.got with
      | some (dev, p) =>
        match mons.get? dev with
        | none => some (.error .keyError)
        | some _ => some (.ok (if stamp then .timed dev r.now p else .plain dev p))
      | none => if r.done then some (.error .shutdown) else recvLoop mons timeout giveup stamp rs
    else some (.error .noPackets)

/-- `recv_packet(timeout, timestamp)`, 70-91, called when the clock shows `start`; `None` cannot be added to a number. -/
def NodeExec.recvPacket (mons : Dict Name Mon) (timeout : Option Nat) (stamp : Bool) (start : Nat)
    (rounds : List (RecvRound α)) : Option (Res (NodeRecv α)) :=
  match timeout with
  | none => some (.error .typeError)
  | some t => NodeExec.recvLoop mons t (start + t) stamp rounds

/-! ## The glue, cli.py -/

/-- `SyssGlue` 695-702 and the list of the `MonitorManager`, monitor.py 16. -/
structure Glue (α : Type) where
  xnode : Dict Name (NodeExec α)
  mons : Dict (Name × Name) MonClass
  registered : List RegMon

/-- `stop`, 775-785. -/
def stopNodes : Dict Name (NodeExec α) → Dict Name (NodeExec α) × Option PyErr
  | [] => ([], none)
  | (n, x) :: xs =>
    match x.shutdown with
    | (x', some e) => ((n, x') :: xs, some e)
    | (x', none) => ((n, x') :: (stopNodes xs).1, (stopNodes xs).2)

/-- `SyssGlue.stop`, 775-785. -/
def Glue.stop (g : Glue α) : Glue α × Option PyErr :=
  ({ g with xnode := (stopNodes g.xnode).1 }, (stopNodes g.xnode).2)

/-- `__addNode`, 747-753. -/
def glueNodes (names : List Name) : Dict Name (NodeExec α) :=
  names.foldl (fun d n => d.set n NodeExec.new) []

/-- `uplumbing.nexec.addEgressInterface(...)`, 762-764 and 766-768: `udev` and `vdev` are the entries of the link. -/
def addPipe (t : Topo) (d : Dict Name (NodeExec α)) (u v : Name) (udev vdev cap delay : Attr) :
    Res (Dict Name (NodeExec α)) :=
  match udev with
  | .ifname f =>
    match d.get? u, t.iface? u f, vdev with
    | some x, some i, .ifname r => .ok (d.set u (x.addEgress f i ⟨v, delay, cap, r⟩))
    | _, _, _ => .error .keyError
  | _ => .error .keyError

/-- `linkdict[k]`. -/
def attrOr (d : Dict Name Attr) (k : Name) : Res Attr :=
  match d.get? k with
  | some v => .ok v
  | none => .error .keyError

/-- Lines 738-741 and `__addLink` 755-768. -/
def wireLink (t : Topo) (d : Dict Name (NodeExec α)) (u v : Name) : Res (Dict Name (NodeExec α)) :=
  t.getEdge u v >>= fun l =>
  attrOr l u >>= fun udev =>
  attrOr l v >>= fun vdev =>
  attrOr l capacityKey >>= fun cap =>
  attrOr l delayKey >>= fun delay =>
  addPipe t d u v udev vdev cap delay >>= fun d =>
  addPipe t d v u vdev udev cap delay

/-- The loop of 737-741. -/
def wireLinks (t : Topo) (d : Dict Name (NodeExec α)) : List (Name × Name) → Res (Dict Name (NodeExec α))
  | [] => .ok d
  | (u, v) :: ls => wireLink t d u v >>= fun d => wireLinks t d ls

/-- The number of monitors made for the nodes: one per node (nodeexec.py 33) and one per wired end (nodeexec.py 43). -/
def glueMonitors (t : Topo) : List RegMon :=
  List.replicate (t.nodes.length + 2 * t.links.length) (.made .null)

/-- `__start`, 770-773. -/
def startNodes (d : Dict Name (NodeExec α)) : Dict Name (NodeExec α) :=
  d.map fun x => (x.1, { x.2 with phase := .starting })

/-- Lines 732-745. -/
def Glue.build (g : Glue α) (t : Topo) : Glue α × Option PyErr :=
  match wireLinks t (glueNodes t.nodes.keys) t.links with
  | .error e => ({ g with xnode := [] }, some e)
  | .ok d =>
    ({ xnode := startNodes d, mons := [], registered := (resetMonitors (g.registered ++ glueMonitors t)).1 },
     (resetMonitors (g.registered ++ glueMonitors t)).2)

/-- `rebuildGlue`, 710-745; `nodeexec` is not used (714).  What is left of the nodes if line 712 or the
wiring raises matters no more: nothing in the simulator catches the exception. -/
def Glue.rebuild (g : Glue α) (t : Topo) (_nodeexec : Option Name) : Glue α × Option PyErr :=
  match g.stop with
  | (g', some e) => (g', some e)
  | (g', none) => g'.build t

/-- `SyssGlue(topo)`, 696-702. -/
def Glue.new (t : Topo) : Glue α × Option PyErr := Glue.rebuild ⟨[], [], []⟩ t none

/-- Something done to the executor of a node, `self.xnode[node].nexec`. -/
def Glue.onNode (g : Glue α) (n : Name) (f : NodeExec α → NodeExec α × Option PyErr) : Glue α × Option PyErr :=
  match g.xnode.get? n with
  | none => (g, some .keyError)
  | some x => ({ g with xnode := g.xnode.set n (f x).1 }, (f x).2)

/-- `sendHostPacket`, 704-705. -/
def Glue.sendHost (g : Glue α) (n : Name) (p : α) : Glue α × Option PyErr :=
  g.onNode n fun x => (x.sendHost p, none)

/-- `emitPacketFromNodeInterface`, 707-708. -/
def Glue.emit (g : Glue α) (n dev : Name) (p : α) : Glue α × Option PyErr := g.onNode n fun x => x.send dev p

/-- The list of the manager after a monitor was or was not made. -/
def Glue.registerMon (g : Glue α) (r : Option RegMon) : Glue α :=
  match r with
  | some r => { g with registered := g.registered ++ [r] }
  | none => g

/-- Line 793, after `self.xnode[node]` was found. -/
def Glue.attachNew (g : Glue α) (canOpen : Name → Bool) (n i : Name) (how : MonHow) : Glue α × Option PyErr :=
  match how.make canOpen n i with
  | (r, .error e) => (g.registerMon r, some e)
  | (r, .ok m) => (g.registerMon r).onNode n fun x => x.attach i m

/-- `addMonitor`, 790-793: the name is entered first. -/
def Glue.addMonitor (g : Glue α) (canOpen : Name → Bool) (n i : Name) (how : MonHow) : Glue α × Option PyErr :=
  match how.cls with
  | .error e => (g, some e)
  | .ok c =>
    match g.xnode.get? n with
    | none => ({ g with mons := g.mons.set (n, i) c }, some .keyError)
    | some _ => Glue.attachNew { g with mons := g.mons.set (n, i) c } canOpen n i how

/-- `removeMonitor`, 795-798: the new `NullMonitor` is entered with the manager. -/
def Glue.removeMonitor (g : Glue α) (n i : Name) : Glue α × Option PyErr :=
  match g.xnode.get? n with
  | none => ({ g with mons := g.mons.erase (n, i) }, some .keyError)
  | some _ =>
    (Glue.registerMon { g with mons := g.mons.erase (n, i) } (some (.made .null))).onNode n fun x => x.attach i .null

/-! ## What the threads of the simulator do -/

/-- The thread of node `n` runs lines 115-119 of nodeexec.py. -/
def NodeExec.begin_ (x : NodeExec α) : NodeExec α × Option PyErr :=
  (if x.phase = .starting then { x with phase := .running } else x, none)

/-- The link emulator of node `n` delivers the `i`th packet it has (linkem.py 20-21); it runs while the node
does. -/
def Glue.deliver (g : Glue α) (n : Name) (i : Nat) : Glue α :=
  match g.xnode.get? n with
  | none => g
  | some x =>
    match x.sent[i]?, x.phase with
    | some (pipe, p), .running =>
      (Glue.onNode { g with xnode := g.xnode.set n { x with sent := x.sent.eraseIdx i } } pipe.dest fun y =>
        ({ y with queue := y.queue ++ [(pipe.remote, p)] }, none)).1
    | _, _ => g

/-- A step of one of the threads: a node begins, takes a packet, or an emulator delivers one. -/
inductive ThreadEv
  | begin_ (n : Name)
  | recv (n : Name)
  | deliver (n : Name) (i : Nat)
  deriving DecidableEq, Repr

/-- The effect of such a step. -/
def Glue.thread (g : Glue α) : ThreadEv → Glue α
  | .begin_ n => (g.onNode n NodeExec.begin_).1
  | .recv n => (g.onNode n NodeExec.idleRecv).1
  | .deliver n i => g.deliver n i

/-- What can happen to the glue between two calls of `rebuildGlue`. -/
inductive GlueOp (α : Type)
  | emit (n dev : Name) (p : α)
  | host (n : Name) (p : α)
  | addMonitor (canOpen : Name → Bool) (n i : Name) (how : MonHow)
  | removeMonitor (n i : Name)
  | thread (e : ThreadEv)

/-- One of these, and its exception. -/
def Glue.op (g : Glue α) : GlueOp α → Glue α × Option PyErr
  | .emit n dev p => g.emit n dev p
  | .host n p => g.sendHost n p
  | .addMonitor co n i how => g.addMonitor co n i how
  | .removeMonitor n i => g.removeMonitor n i
  | .thread e => (g.thread e, none)

/-- Several of them. -/
def Glue.ops (g : Glue α) (os : List (GlueOp α)) : Glue α := os.foldl (fun g o => (g.op o).1) g

end SY
