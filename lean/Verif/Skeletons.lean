import Verif.Serve
import Verif.SetAttr

/-! # The programs that the exercises and the documentation begin with

What examples/exercises/learning_switch/myswitch.py, examples/exercises/router/myrouter.py and
examples/exercises/firewall/firewall.py and documentation/code/inoutloop.py do with one packet; their main loop is `serve`.  Log messages are not modelled, but
printing the packet for them is. -/

namespace SY

/-- `packet[0].dst`, myswitch.py 23.  A first member that is not a header has no such attribute. -/
def firstDst (p : Packet) : Res AVal :=
  p.getItem 0 >>= fun it =>
  match it with
  | .hdr h => h.getattr .dst
  | _ => .error .attributeError

/-- `value in mymacs`, myswitch.py 23, for a value that may not be an Ethernet address: it is made one for each
comparison, which may raise. -/
def valIn (v : AVal) : List EthAddr → Res Bool
  | [] => .ok false
  | b :: bs => b.eqArg (PyVal.ethArg (some v)) >>= fun r => if r then .ok true else valIn v bs

/-- The loop over the interfaces, myswitch.py 26-29: the packet is printed before each send. -/
def printedFlood : List (List Char) → Packet → TestNet → TestNet × Res Unit
  | [], _, n => (n, .ok ())
  | d :: ds, p, n =>
    match p.str with
    | .error e => (n, .error e)
    | .ok _ =>
      match n.send (.name d) p with
      | (n', _, some e) => (n', .error e)
      | (n', p', none) => printedFlood ds p' n'

/-- myswitch.py 22-29. -/
def switchHandler (ifs : List Iface) : Handler Unit := fun _ dev p n =>
  match p.str >>= fun _ => firstDst p >>= fun v => valIn v (ifs.map Iface.ethaddr) with
  | .error e => (n, .error e)
  | .ok true => (n, .ok ())
  | .ok false => printedFlood ((ifs.filter fun i => decide (dev ≠ i.name)).map Iface.name) p n

/-- myrouter.py 34-35: the packet is printed. -/
def routerHandler : Handler Unit := fun _ _ p n =>
  match p.str with
  | .error e => (n, .error e)
  | .ok _ => (n, .ok ())

/-- documentation/code/inoutloop.py 14-16: the packet goes back where it came from. -/
def echoHandler : Handler Unit := fun _ dev p n =>
  match p.str with
  | .error e => (n, .error e)
  | .ok _ => ((n.send (.name dev) p).1, match (n.send (.name dev) p).2.2 with | some e => .error e | none => .ok ())

/-- `dict(zip(portnames, portnames[::-1]))`, firewall.py 6-7. -/
def portPair (names : List (List Char)) : Dict (List Char) (List Char) :=
  (names.zip names.reverse).foldl (fun d x => d.set x.1 x.2) []

/-- firewall.py 18-24: the packet goes out on the port that is paired with the one it came from. -/
def firewallHandler (ifs : List Iface) : Handler Unit := fun _ dev p n =>
  match (portPair (ifs.map Iface.name)).get? dev with
  | none => (n, .error .keyError)
  | some d => ((n.send (.name d) p).1, match (n.send (.name d) p).2.2 with | some e => .error e | none => .ok ())

end SY
