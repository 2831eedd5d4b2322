import Verif.Hub
import Verif.Socket

/-! # The UDP stack example: examples/udpstack.py

Line numbers without a file name refer to that file.  The stack runs in one thread; applications use the
socket emulation (`Verif/Socket.lean`) from others, so their calls can come between any two steps of the
stack.  The interfaces are those of a live network (`Verif/Live.lean`). -/

namespace SY

/-- The first loopback interface, 8-13; an `Exception` if there is none. -/
def stackIntf (n : NetBase) : Res Iface :=
  match n.interfaces.find? fun i => i.iftype == .loopback with
  | some i => .ok i
  | none => .error .generic

/-- `[a for a in intf.ipaddrs if a.version == 4][0]`, 44.  (The addresses are a set, whose order is not
modelled: they are taken in the order of the list.) -/
def Iface.firstV4 (i : Iface) : Res IPIface := listIndex (i.ips.filter fun x => x.addr.isV4) 0

/-- The IPv4 header of 45; keyword arguments are assigned in the order in which they are written
(packet.py 250-252). -/
def stackIPv4 (a : IPIface) (m : DownMsg) : Res IPv4 :=
  IPv4.default.setProtocol m.proto >>= fun h => h.setSrc (.addr a.addr) >>= fun h =>
  h.setDst (.addr m.remoteAddr.1) >>= fun h => h.setIpid 0xabcd >>= fun h => h.setTtl 64 >>= fun h => h.setFlags 2

/-- The UDP header of 45. -/
def stackUDP (m : DownMsg) : UDP := (UDP.default.setSrc m.localAddr.2).setDst m.remoteAddr.2

/-- The packet made for a message of an application, 43-45.  The source address of the flow is not used.
`Null()` has the family `AF_INET`, which is 2 (null.py 22). -/
def stackPacket (i : Iface) (m : DownMsg) : Res Packet :=
  i.firstV4 >>= fun a => stackIPv4 a m >>= fun h =>
  .ok [.hdr (.null 2), .hdr (.ip4 h), .hdr (.udp (stackUDP m)), .hdr (.raw m.data)]

/-- `handle_app_data`, 38-48: the device and the bytes sent.  The packet is printed for the log first (47). -/
def stackSend (n : NetBase) (i : Iface) (m : DownMsg) : Res (List Char × Bytes) :=
  stackPacket i m >>= fun p => p.str >>= fun _ => (sendReal n (.intf i) p).2

/-- `pkt[-1].data`, 59: among the classes of headers in a packet only `RawPacketContents` has the attribute
(packet.py 381-383). -/
def Item.rawData : Item → Res Bytes
  | .hdr (.raw b) => .ok b
  | _ => .error .attributeError

/-- What the stack gives to `send_to_app`: local and remote address and the data. -/
structure StackMsg where
  localAddr : Endpoint
  remoteAddr : Endpoint
  data : Bytes
  deriving DecidableEq

/-- Lines 57-59; `None` has no attribute `dst`. -/
def stackUp (p : Packet) (ip : IPv4) : Res (Option StackMsg) :=
  match p.getHeader .udp with
  | some (.hdr (.udp u)) =>
    p.getItem (-1) >>= fun x => x.rawData >>= fun d => .ok (some ⟨(ip.dst, u.dst), (ip.src, u.src), d⟩)
  | _ => .error .attributeError

/-- `str(x)` for the log, 61; only headers are printed by code of the library. -/
def Item.logged : Item → Res Unit
  | .hdr h => h.str >>= fun _ => .ok ()
  | _ => .ok ()

/-- Lines 61: the header after the IPv4 header is printed. -/
def stackIcmp (p : Packet) : Res (Option StackMsg) :=
  p.headerIndex .ip4 0 >>= fun k => p.getItem (k + 1) >>= fun x => x.logged >>= fun _ => .ok none

/-- Lines 56-63.  In line 63 a packet is sliced, which `Packet.__getitem__` (packet.py 190-200) answers with
`IndexError`. -/
def stackIp (p : Packet) (ip : IPv4) : Res (Option StackMsg) :=
  if ip.protocol = 17 then stackUp p ip else if ip.protocol = 1 then stackIcmp p else .error .indexError

/-- `handle_network_data`, 50-63: what is given to the socket emulation, if anything.  The packet is printed
for the log first (52). -/
def stackReceive (p : Packet) : Res (Option StackMsg) :=
  p.str >>= fun _ =>
  match p.getHeader .ip4 with
  | some (.hdr (.ip4 ip)) => stackIp p ip
  | _ => .ok none

/-- The state: the socket emulation, what was sent, whether the stack is at line 28 (or at line 18), and
how it ended. -/
structure UdpStack where
  st : SockState
  sent : List (List Char × Bytes)
  atNet : Bool
  ended : HubEnd
  deriving DecidableEq

/-- The network stack before its first turn, with the emulation in the state `st`. -/
def UdpStack.start (st : SockState) : UdpStack := ⟨st, [], false, .waiting⟩

/-- Events: a call of an application; `recv_from_app` returns or raises `NoPackets`; `recv_packet` returns or
raises. -/
inductive StackEv
  | app (op : SockOp)
  | poll
  | net (r : RecvResult)

/-- The end of the loop with an exception. -/
def UdpStack.crash (s : UdpStack) (e : PyErr) : UdpStack := { s with ended := .crashed e }

/-- Lines 23-24. -/
def UdpStack.onApp (n : NetBase) (i : Iface) (s : UdpStack) (m : DownMsg) : UdpStack :=
  match stackSend n i m with
  | .ok x => { s with sent := s.sent ++ [x], atNet := true }
  | .error e => s.crash e

/-- Lines 16-24; the timeout is positive, so `recv_from_app` waits until there is a message or time is up. -/
def UdpStack.poll (n : NetBase) (i : Iface) (s : UdpStack) : UdpStack :=
  match s.st.recvFromApp (some 1) with
  | (st, .down m) => ({ s with st := st } : UdpStack).onApp n i m
  | (_, .raises .noPackets) => { s with atNet := true }
  | (_, .raises e) => s.crash e
  | _ => s

/-- Lines 33-34. -/
def UdpStack.onNet (s : UdpStack) (p : Packet) : UdpStack :=
  match stackReceive p with
  | .ok (some m) =>
    { s with st := (s.st.sendToApp 17 (.addr m.localAddr.1, .num m.localAddr.2) (.addr m.remoteAddr.1, .num m.remoteAddr.2)
        m.data).1, atNet := false }
  | .ok none => { s with atNet := false }
  | .error e => s.crash e

/-- Lines 26-34. -/
def UdpStack.net (s : UdpStack) : RecvResult → UdpStack
  | .packet _ _ p => s.onNet p
  | .noPackets => { s with atNet := false }
  | .shutdown => { s with ended := .returned }
  | .raised e => s.crash e
  | .badTimeout => s.crash .valueError

/-- One event, if it is possible: the stack does nothing after it ended, and its two calls take turns.
Applications go on. -/
def UdpStack.step (n : NetBase) (i : Iface) (s : UdpStack) : StackEv → Option UdpStack
  | .app op => some { s with st := (s.st.step op).1 }
  | .poll => if s.ended = .waiting ∧ s.atNet = false then some (s.poll n i) else none
  | .net r => if s.ended = .waiting ∧ s.atNet = true then some (s.net r) else none

/-- A sequence of events. -/
def UdpStack.run (n : NetBase) (i : Iface) (s : UdpStack) : List StackEv → Option UdpStack
  | [] => some s
  | e :: es => (s.step n i e).bind fun s => s.run n i es

end SY
