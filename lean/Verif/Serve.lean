import Verif.Scenario
import Verif.Hub

/-! # Programs under test

The main loop that the example programs share (receive a packet, deal with it, go on; examples/myhub.py 12-32,
documentation/code/fullhub.py 9-23, documentation/code/baaadhub.py 12-33), running in the test harness
(llnettest.py), and what these programs do with one packet.  Log messages are not modelled, but printing
the packet for them is. -/

namespace SY

/-- What a program does with one packet it has received on a device: calls on the network, after which it
goes on in a new state, or lets an exception escape. -/
abbrev Handler (σ : Type) := σ → List Char → Packet → TestNet → TestNet × Res σ

/-- The main loop, myhub.py 12-18: `NoPackets` means trying again, `Shutdown` means returning, and any other
exception escapes.  The first argument bounds the number of rounds (`serve_ends`: each round uses up an
expectation, so that there are only so many). -/
def serve {σ : Type} (h : Handler σ) : Nat → σ → TestNet → TestNet × Option PyErr
  | 0, _, n => (n, some .diverges)
  | k + 1, st, n =>
    match n.recv with
    | (n', .error .noPackets) => serve h k st n'
    | (n', .error .shutdown) => (n', none)
    | (n', .error e) => (n', some e)
    | (n', .ok r) =>
      match h st r.dev r.pkt n' with
      | (n'', .error e) => (n'', some e)
      | (n'', .ok st') => serve h k st' n''

/-- A program that is started in the harness and run to its end: `run_tests`, llnettest.py 161-186. -/
def testProgram {σ : Type} (h : Handler σ) (st : σ) (n : TestNet) : Verdict :=
  verdict (serve h (n.scen.pending.length + 1) st n).1.scen (serve h (n.scen.pending.length + 1) st n).2

/-- The loop over the ports, myhub.py 29-32 and fullhub.py 21-23 (an interface object given as port stands for its
name, llnettest.py 89-90): one packet object, which comparing may
complete, is sent on one port after the other. -/
def floodTest : List (List Char) → Packet → TestNet → TestNet × Res Unit
  | [], _, n => (n, .ok ())
  | d :: ds, p, n =>
    match n.send (.name d) p with
    | (n', _, some e) => (n', .error e)
    | (n', p', none) => floodTest ds p' n'

/-- myhub.py 20-32 (and documentation/code/fullhub2.py 20-32). -/
def hubHandler (ifs : List Iface) : Handler Unit := fun _ dev p n =>
  match hubTargets ifs dev p with
  | .error e => (n, .error e)
  | .ok is => floodTest (is.map Iface.name) p n

/-- documentation/code/fullhub.py 19-23 (and failhub5.py): sends everything to all other ports. -/
def plainHubHandler (ifs : List Iface) : Handler Unit := fun _ dev p n =>
  floodTest ((ifs.filter fun i => decide (i.name ≠ dev)).map Iface.name) p n

/-- `eth.src = …` of the first Ethernet header, baaadhub.py 32. -/
def setEthSrc (a : EthAddr) : Packet → Packet
  | [] => []
  | .hdr (.eth h) :: p => .hdr (.eth { h with src := a }) :: p
  | x :: p => x :: setEthSrc a p

/-- The address `ba:ba:ba:ba:ba:ba`, baaadhub.py 32. -/
def sheep : EthAddr := ⟨List.replicate 6 0xba⟩

/-- The loop of documentation/code/baaadhub.py 29-33: the source address is overwritten before each send. -/
def sheepFlood : List (List Char) → Packet → TestNet → TestNet × Res Unit
  | [], _, n => (n, .ok ())
  | d :: ds, p, n =>
    match n.send (.name d) (setEthSrc sheep p) with
    | (n', _, some e) => (n', .error e)
    | (n', p', none) => sheepFlood ds p' n'

/-- documentation/code/baaadhub.py 20-33. -/
def sheepHubHandler (ifs : List Iface) : Handler Unit := fun _ dev p n =>
  match hubTargets ifs dev p with
  | .error e => (n, .error e)
  | .ok is => sheepFlood (is.map Iface.name) p n

end SY
