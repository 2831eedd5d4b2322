import Verif.Dict
import Verif.Common

/-! # The socket emulation: switchyard/lib/socket/socketemu.py

Line numbers without a file name refer to that file.

What is modelled: the registry of sockets, the queues between applications and the network stack,
and the `socket` methods that touch them.  One `socket` object owns one upward queue, created with it
(184), so queue and object share an index.  What comes from outside is an argument of the
operation: the ports `netstat` reports (41-54), the numbers `random.randint` draws (61) and the
exception, if any, that installing firewall and capture rules raises (245-267).  `ApplicationLayer` is
taken to be initialised (syinit.py 87).  Only the supported family and type (`AF_INET`/`AF_INET6`,
`SOCK_DGRAM`; 223-230) are modelled.  Timeouts are integers of an unspecified unit. -/

namespace SY

/-- `(IPAddress, int)`. -/
abbrev Endpoint := IPAddr × Int

/-- The port number in an address tuple: an `int`, or text that `int()` accepts (it is equal to no
`int`, so it is a member of no set of `int`s). -/
inductive PortArg
  | num (n : Int)
  | text (n : Int)
  deriving DecidableEq, Repr

/-- `int(addrtuple[1])`. -/
def PortArg.int : PortArg → Int
  | .num n => n
  | .text n => n

/-- `address[1] in portset`, 325, for a set of `int`s. -/
def PortArg.isIn (p : PortArg) (s : List Int) : Bool :=
  match p with
  | .num n => s.contains n
  | .text _ => false

/-- `_normalize_addrs`, 83-84. -/
def normalizeAddrs (a : IPArg × PortArg) : Res Endpoint :=
  ipAddress a.1 >>= fun ip => .ok (ip, a.2.int)

/-- `ip_address('0.0.0.0')`. -/
def anyAddr : IPAddr := .v4 0

/-- What the upward queue holds: `(local_addr, remote_addr, data)`, 162. -/
structure UpMsg where
  localAddr : Endpoint
  remoteAddr : Endpoint
  data : Bytes
  deriving DecidableEq, Repr

/-- What the downward queue holds, 454: the flow (protocol, local address and port, remote address and
port) and the data. -/
structure DownMsg where
  proto : Nat
  localAddr : Endpoint
  remoteAddr : Endpoint
  data : Bytes
  deriving DecidableEq, Repr

/-- A `socket` object, 216-218, with the contents of its upward queue. -/
structure Sock where
  proto : Nat
  timeout : Option Int
  block : Bool
  remote : Option Endpoint
  localAddr : Endpoint
  inbox : List UpMsg
  deriving DecidableEq, Repr

/-- A key of `_to_app`. -/
abbrev SockId := Nat × IPAddr × Int

/-- `_sockid`, 290-291 (`proto` is already a valid protocol number). -/
def Sock.id (s : Sock) : SockId := (s.proto, s.localAddr.1, s.localAddr.2)

/-- The state: `_to_app` (the value of a key is the index of the socket whose queue it is), `_from_app`,
all sockets ever created, and `_default_timeout`. -/
structure SockState where
  toApp : Dict SockId Nat
  fromApp : List DownMsg
  socks : List Sock
  defTimeout : Option Int
  deriving DecidableEq, Repr

/-- `ApplicationLayer._init`, 104-112, and line 65. -/
def SockState.init : SockState := ⟨[], [], [], none⟩

/-- `_emuports`, 115-119. -/
def SockState.emuports (st : SockState) : List Int := st.toApp.map fun x => x.1.2.2

/-- `_get_ephemeral_port`, 57-63: `draws` are the numbers `randint(30000, 60000)` returns; `none` when
none of them is free (the loop goes on). -/
def SockState.ephemeral (st : SockState) (sys : List Int) (draws : List Int) : Option Int :=
  draws.find? fun p => !sys.contains p && !st.emuports.contains p

/-- `_register_socket`, 178-187: the new socket gets the next index. -/
def SockState.register (st : SockState) (s : Sock) : SockState :=
  { st with toApp := st.toApp.set s.id st.socks.length, socks := st.socks ++ [s] }

/-- What a call returns or raises.  `blocks`: the call waits (until something else happens);
`timedOut t`: it raises `socket.timeout` after waiting `t`. -/
inductive Out
  | sock (i : Nat)
  | code (n : Int)
  | bool (b : Bool)
  | up (m : UpMsg)
  | down (m : DownMsg)
  | blocks
  | timedOut (after : Int)
  | raises (e : PyErr)
  | nothing
  deriving DecidableEq, Repr

/-- `socket(family, SOCK_DGRAM, proto)`, 220-243; `IPProtocol(self._proto)` is evaluated on
registration, 291. -/
def SockState.new (st : SockState) (proto : Int) (sys draws : List Int) (fw : Option PyErr) : SockState × Out :=
  match st.ephemeral sys draws with
  | none => (st, .blocks)
  | some p =>
    match fw with
    | some e => (st, .raises e)
    | none =>
      match enumOf ipProtocols (if proto ≠ 0 then proto else 17) with
      | .error e => (st, .raises e)
      | .ok pr => (st.register ⟨pr, st.defTimeout, true, none, (anyAddr, p), []⟩, .sock st.socks.length)

/-- Replace the socket object with index `i`. -/
def SockState.put (st : SockState) (i : Nat) (s : Sock) : SockState := { st with socks := st.socks.set i s }

/-- `_registry_update`, 190-198, for the socket `i` in its new state `s`. -/
def SockState.registryUpdate (st : SockState) (i : Nat) (s : Sock) (oldid : SockId) : SockState × Out :=
  match st.toApp.get? oldid with
  | none => (st.put i s, .raises .keyError)
  | some q => ({ st.put i s with toApp := (st.toApp.erase oldid).set s.id q }, .code 0)

/-- `bind`, 314-336. -/
def SockState.bind (st : SockState) (i : Nat) (s : Sock) (address : IPArg × PortArg) (sys : List Int)
    (fw : Option PyErr) : SockState × Out :=
  if address.2.isIn (sys ++ st.emuports) then (st, .code (-1))
  else
    match normalizeAddrs address with
    | .error e => (st, .raises e)
    | .ok a =>
      match fw with
      | some e => (st.put i { s with localAddr := a }, .raises e)
      | none => st.registryUpdate i { s with localAddr := a } s.id

/-- `connect` and `connect_ex`, 338-352. -/
def SockState.connect (st : SockState) (i : Nat) (s : Sock) (address : IPArg × PortArg) : SockState × Out :=
  match normalizeAddrs address with
  | .error e => (st, .raises e)
  | .ok a => (st.put i { s with remote := some a }, .code 0)

/-- `_unregister_socket`, 201-209, under the `try` of `close`, 303-312 (also `shutdown`, 499-504). -/
def SockState.close (st : SockState) (s : Sock) : SockState × Out :=
  ({ st with toApp := st.toApp.erase s.id }, .code 0)

/-- What `Queue.get(block, timeout)` does: return an element, raise `Empty` after a while, raise
`ValueError`, or wait. -/
inductive GetResult (α : Type)
  | item (a : α) (rest : List α)
  | empty (after : Int)
  | bad
  | waits

/-- `Queue.get` of the Python library: a negative timeout raises `ValueError` in a blocking call. -/
def queueGet {α : Type} (q : List α) (block : Bool) (timeout : Option Int) : GetResult α :=
  match block, timeout, q with
  | true, some t, _ => if t < 0 then .bad else match q with | a :: q => .item a q | [] => .empty t
  | _, _, a :: q => .item a q
  | false, _, [] => .empty 0
  | true, none, [] => .waits

/-- `_recv`, 422-429 (`recv` 393-399 and `recvfrom` 407-414 return parts of the message). -/
def SockState.recv (st : SockState) (i : Nat) (s : Sock) : SockState × Out :=
  match queueGet s.inbox s.block s.timeout with
  | .item m rest => (st.put i { s with inbox := rest }, .up m)
  | .empty t => (st, .timedOut t)
  | .bad => (st, .raises .valueError)
  | .waits => (st, .blocks)

/-- `_send`, 453-455. -/
def SockState.sendDown (st : SockState) (m : DownMsg) : SockState × Out :=
  ({ st with fromApp := st.fromApp ++ [m] }, .code m.data.length)

/-- `send`, 431-439. -/
def SockState.send (st : SockState) (s : Sock) (data : Bytes) : SockState × Out :=
  match s.remote with
  | none => (st, .raises .osError)
  | some r => st.sendDown ⟨s.proto, s.localAddr, r, data⟩

/-- `sendto`, 441-451. -/
def SockState.sendto (st : SockState) (s : Sock) (data : Bytes) (address : IPArg × PortArg) : SockState × Out :=
  match normalizeAddrs address with
  | .error e => (st, .raises e)
  | .ok r => st.sendDown ⟨s.proto, s.localAddr, r, data⟩

/-- `settimeout`, 487-497. -/
def Sock.settimeout (s : Sock) (t : Option Int) : Sock :=
  match t with
  | none => { s with block := true }
  | some t => if t = 0 then { s with block := false } else { s with timeout := some t, block := true }

/-- `setblocking`, 475-479. -/
def Sock.setblocking (s : Sock) (b : Bool) : Sock := { s with block := b }

/-- Put a message on the upward queue with index `i`, 162 and 171. -/
def SockState.enqueue (st : SockState) (i : Nat) (m : UpMsg) : SockState :=
  match st.socks[i]? with
  | some s => st.put i { s with inbox := s.inbox ++ [m] }
  | none => st

/-- `send_to_app`, 141-175, after `_normalize_addrs`. -/
def SockState.deliverTo (st : SockState) (proto : Nat) (l r : Endpoint) (data : Bytes) : SockState × Out :=
  match st.toApp.get? (proto, l.1, l.2) with
  | some i => (st.enqueue i ⟨l, r, data⟩, .bool true)
  | none =>
    match st.toApp.get? (proto, anyAddr, l.2) with
    | some i => (st.enqueue i ⟨l, r, data⟩, .bool true)
    | none => (st, .bool false)

/-- `send_to_app`, 141-175. -/
def SockState.sendToApp (st : SockState) (proto : Int) (l r : IPArg × PortArg) (data : Bytes) : SockState × Out :=
  match enumOf ipProtocols proto with
  | .error e => (st, .raises e)
  | .ok pr =>
    match normalizeAddrs l with
    | .error e => (st, .raises e)
    | .ok l =>
      match normalizeAddrs r with
      | .error e => (st, .raises e)
      | .ok r => st.deliverTo pr l r data

/-- `recv_from_app`, 121-138; the call blocks by default. -/
def SockState.recvFromApp (st : SockState) (timeout : Option Int) : SockState × Out :=
  match queueGet st.fromApp true timeout with
  | .item m rest => ({ st with fromApp := rest }, .down m)
  | .empty _ => (st, .raises .noPackets)
  | .bad => (st, .raises .valueError)
  | .waits => (st, .blocks)

/-- The calls an application or a network stack can make.  `i` is the index of a `socket` object. -/
inductive SockOp
  | new (proto : Int) (sys draws : List Int) (fw : Option PyErr)
  | bind (i : Nat) (address : IPArg × PortArg) (sys : List Int) (fw : Option PyErr)
  | connect (i : Nat) (address : IPArg × PortArg)
  | close (i : Nat)
  | recv (i : Nat)
  | send (i : Nat) (data : Bytes)
  | sendto (i : Nat) (data : Bytes) (address : IPArg × PortArg)
  | settimeout (i : Nat) (t : Option Int)
  | setblocking (i : Nat) (b : Bool)
  | setdefault (t : Option Int)
  | sendToApp (proto : Int) (l r : IPArg × PortArg) (data : Bytes)
  | recvFromApp (timeout : Option Int)

/-- Apply a method to the socket with index `i` (a program has no other sockets than those it
created, so the other branch is not reached). -/
def SockState.on (st : SockState) (i : Nat) (f : Sock → SockState × Out) : SockState × Out :=
  match st.socks[i]? with
  | some s => f s
  | none => (st, .raises .nameError)

/-- One call. -/
def SockState.step (st : SockState) : SockOp → SockState × Out
  | .new p sys draws fw => st.new p sys draws fw
  | .bind i a sys fw => st.on i fun s => st.bind i s a sys fw
  | .connect i a => st.on i fun s => st.connect i s a
  | .close i => st.on i fun s => st.close s
  | .recv i => st.on i fun s => st.recv i s
  | .send i d => st.on i fun s => st.send s d
  | .sendto i d a => st.on i fun s => st.sendto s d a
  | .settimeout i t => st.on i fun s => (st.put i (s.settimeout t), .nothing)
  | .setblocking i b => st.on i fun s => (st.put i (s.setblocking b), .nothing)
  | .setdefault t => ({ st with defTimeout := t }, .nothing)
  | .sendToApp p l r d => st.sendToApp p l r d
  | .recvFromApp t => st.recvFromApp t

end SY
