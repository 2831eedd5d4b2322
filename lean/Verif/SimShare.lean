import Verif.Heap
import Verif.Sim

/-! # The simulator and the packet objects it passes on

`/repo/switchyard/sim/nodeexec.py`, `/repo/switchyard/sim/monitor.py`, as in `Verif/Sim.lean`, but packets are objects
(`Verif/Heap.lean`): what is put into a queue is a reference to the packet that the program sent (nodeexec.py 97,
linkem.py 21), and a monitor that writes a file serialises the packet (monitor.py 122).  Line numbers without a file name
refer to nodeexec.py. -/

namespace SY

/-- The nodes, which pass on the numbers of packet objects; the objects; and what monitors wrote to files. -/
structure SimMem where
  glue : Glue Nat
  heap : Heap
  files : List (Name × Bytes)

/-- What happens in a simulation: a program makes or changes packets, sends one or takes one from its queue, a link emulator
delivers one, monitors are attached and removed. -/
inductive SimStmt
  | pkt (o : POp)
  | send (n dev : Name) (p : Nat)
  | recv (n : Name)
  | deliver (n : Name) (i : Nat)
  | monitor (canOpen : Name → Bool) (n i : Name) (how : MonHow)
  | unmonitor (n i : Name)

/-- What a statement shows: nothing, something about a packet, or a device and a packet object. -/
inductive SimShown
  | nothing
  | shown (x : Shown)
  | got (dev : Name) (p : Nat)

/-- The result of a call that returns nothing. -/
def doneOr : Option PyErr → Res SimShown
  | none => .ok .nothing
  | some e => .error e

/-- `send_packet(dev, p)` of node `n`, 93-97: the pipe is looked up first, then the length of the packet. -/
def SimMem.send (m : SimMem) (n dev : Name) (p : Nat) : SimMem × Res SimShown :=
  match m.glue.xnode.get? n with
  | none => (m, .error .keyError)
  | some x =>
    if x.phase ≠ .stopped ∧ (x.pipes.get? dev).isSome then
      match (m.heap.view p).size with
      | .error e => (m, .error e)
      | .ok _ => ({ m with glue := (m.glue.emit n dev p).1 }, doneOr (m.glue.emit n dev p).2)
    else ({ m with glue := (m.glue.emit n dev p).1 }, doneOr (m.glue.emit n dev p).2)

/-- A packet was taken from the queue, 79-84: the monitor of the device is called.  `NullMonitor` does nothing (monitor.py
102-103), `PcapMonitor` serialises the packet and writes it (121-122), `InteractiveMonitor` blocks (133-134). -/
def SimMem.watch (m : SimMem) (dev : Name) (p : Nat) : Option Mon → SimMem × Res SimShown
  | none => (m, .error .keyError)
  | some .null => (m, .ok (.got dev p))
  | some .debug => (m, .error .diverges)
  | some (.pcap f) =>
    match m.heap.toBytes p with
    | (h, .error e) => ({ m with heap := h }, .error e)
    | (h, .ok b) => ({ m with heap := h, files := m.files ++ [(f, b)] }, .ok (.got dev p))

/-- `recv_packet` of node `n`, 70-91, as far as it concerns packets: with an empty queue it is `NoPackets`; a node that does
not run, or waits in an interactive monitor, does not get further. -/
def SimMem.recv (m : SimMem) (n : Name) : SimMem × Res SimShown :=
  match m.glue.xnode.get? n with
  | none => (m, .error .keyError)
  | some x =>
    if x.phase = .running ∧ x.blocked = false then
      match x.queue with
      | [] => (m, .error .noPackets)
      | (dev, p) :: _ => SimMem.watch { m with glue := (m.glue.onNode n NodeExec.idleRecv).1 } dev p (x.mons.get? dev)
    else (m, .error .diverges)

/-- A statement is executed. -/
def SimMem.step (m : SimMem) : SimStmt → SimMem × Res SimShown
  | .pkt o => ({ m with heap := (o.exec m.heap).1 }, .shown <$> (o.exec m.heap).2)
  | .send n dev p => m.send n dev p
  | .recv n => m.recv n
  | .deliver n i => ({ m with glue := m.glue.deliver n i }, .ok .nothing)
  | .monitor co n i how => ({ m with glue := (m.glue.addMonitor co n i how).1 }, doneOr (m.glue.addMonitor co n i how).2)
  | .unmonitor n i => ({ m with glue := (m.glue.removeMonitor n i).1 }, doneOr (m.glue.removeMonitor n i).2)

/-- Statements one after the other, and what each shows. -/
def SimMem.run (m : SimMem) : List SimStmt → SimMem × List (Res SimShown)
  | [] => (m, [])
  | s :: ss => (((m.step s).1.run ss).1, (m.step s).2 :: ((m.step s).1.run ss).2)

end SY
