import Verif.Sim
import Verif.Live

/-! # What a simulated node answers about itself: `NodeExecutor` in `/repo/switchyard/sim/nodeexec.py`

It is derived from `LLNetBase` (`/repo/switchyard/llnetbase.py`, `Verif/NetBase.lean`), whose constructor it calls (24), and
overrides some of its methods.  Line numbers without a file name refer to nodeexec.py. -/

namespace SY

variable {α : Type}

/-- A `NodeExecutor` as an `LLNetBase`: its own attributes and those of the base class. -/
structure SimNet (α : Type) where
  node : NodeExec α
  base : NetBase

/-- `NodeExecutor(name, queue)`, 23-34, with `LLNetBase.__init__`, llnetbase.py 54-56. -/
def SimNet.new : SimNet α := ⟨.new, ⟨none, [], []⟩⟩

/-- `addEgressInterface`, 39-43. -/
def SimNet.addEgress (s : SimNet α) (dev : Name) (i : Iface) (pipe : EgressPipe) : SimNet α :=
  { s with node := s.node.addEgress dev i pipe }

/-- `interfaces`, 49-50. -/
def SimNet.interfaces (s : SimNet α) : List Iface := s.node.ifs.map Prod.snd

/-- `set_devupdown_callback`, 52-53: `pass`. -/
def SimNet.setCallback (s : SimNet α) (_ : Option Nat) : SimNet α := s

/-- `intf_up`, inherited (llnetbase.py 78-89). -/
def SimNet.intfUp (s : SimNet α) (i : Iface) : SimNet α × Option PyErr :=
  ({ s with base := (s.base.intfUp i).1 }, (s.base.intfUp i).2)

/-- `intf_down`, inherited (llnetbase.py 69-76). -/
def SimNet.intfDown (s : SimNet α) (name : Name) : SimNet α := { s with base := s.base.intfDown name }

/-- Questions to a network object: `interfaces()` and its alias `ports()` (llnetbase.py 91-103), lookups by name, IP
address, Ethernet address and their aliases (105-149), `testmode` (152-158). -/
inductive NetQuery
  | interfaces
  | byName (name : Name)
  | byIp (v : IPArg)
  | byMac (v : EthArg)
  | testmode

/-- Answers. -/
inductive NetAnswer
  | list (is : List Iface)
  | iface (i : Iface)
  | none
  | bool (b : Bool)

/-- The answers of `LLNetReal` and `LLNetTest`, which inherit them from the base class; `test` is what their
`testmode` gives (llnetreal.py 67-69, llnettest.py 50-52). -/
def NetBase.answer (n : NetBase) (test : Bool) : NetQuery → Res NetAnswer
  | .interfaces => .ok (.list n.interfaces)
  | .byName name => n.byName name >>= fun i => .ok (.iface i)
  | .byIp v => n.byIp v >>= fun i => .ok (.iface i)
  | .byMac v => n.byMac v >>= fun i => .ok (.iface i)
  | .testmode => .ok (.bool test)

/-- The answers of a simulated node: 49-50, 55-56 (`self.__interfaces[name]`), 58-59 and 61-62 (`pass`), and the inherited
`testmode`, which raises `NotImplementedError`, a `RuntimeError` (llnetbase.py 158). -/
def SimNet.answer (s : SimNet α) : NetQuery → Res NetAnswer
  | .interfaces => .ok (.list s.interfaces)
  | .byName name =>
    match s.node.ifs.get? name with
    | some i => .ok (.iface i)
    | none => .error .keyError
  | .byIp _ => .ok .none
  | .byMac _ => .ok .none
  | .testmode => .error .runtimeError

/-- `send_packet(dev, packet)`, 93-94: `dev` is used as a key as it is. -/
def SimNet.send (s : SimNet α) (d : DevArg) (p : α) : SimNet α × Option PyErr :=
  match d with
  | .name dev => ({ s with node := (s.node.send dev p).1 }, (s.node.send dev p).2)
  | _ => (s, some (if s.node.phase = .stopped then .attributeError else .keyError))

end SY
