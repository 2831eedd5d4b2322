import Verif.Packet
import Verif.NetBase
import Verif.Str

/-! # The live network object: switchyard/llnetreal.py

Line numbers without a file name refer to that file.  Receiving involves several threads: one per device
puts frames into a queue, user code takes them out, a signal handler or `shutdown` stops the network.  The
model is a transition system whose events are the atomic steps of these threads; user code is one thread. -/

namespace SY

/-- What a receiver thread puts into the queue, 206: device name, link type, time stamp and bytes. -/
structure Frame where
  dev : List Char
  dlt : Nat
  ts : Nat
  raw : Bytes
  deriving DecidableEq

/-- How a call of `recv_packet` ends. -/
inductive RecvResult
  | packet (ts : Nat) (dev : List Char) (p : Packet)
  | noPackets
  | shutdown
  | raised (e : PyErr)
  /-- `Queue.get` raises `ValueError` for a negative timeout -/
  | badTimeout
  deriving DecidableEq

/-- `_dlt_to_decoder`, 28-30: the class of the first header; `DLT_EN10MB` is 1 and `DLT_NULL` is 0
(pcapffi.py 26-27). -/
def dltDecoder (dlt : Nat) : Option Cls :=
  if dlt = 1 then some .eth else if dlt = 0 then some .null else none

/-- The end of a call that got this frame while running, 228-234; `none` is the `continue` of 231. -/
def Frame.result (f : Frame) : Option RecvResult :=
  match dltDecoder f.dlt with
  | none => none
  | some c =>
    match Packet.parse f.raw (some c) with
    | .ok p => some (.packet f.ts f.dev p)
    | .error e => some (.raised e)

/-- Where user code is in `recv_packet`, 212-240.  `timed` tells whether a timeout was given; `none` as an
item is the dummy the signal handler puts into the queue (189). -/
inductive RecvAt
  | idle
  | getting (timed : Bool)
  | got (timed : Bool) (item : Option Frame)
  | decoding (timed : Bool) (item : Option Frame)
  | expired
  deriving DecidableEq

/-- Where the handler of `SIGINT` is, 179-189.  (Python runs it in the main thread between two steps of
that thread; that it could be run while the main thread holds the lock inside the queue is not modelled.) -/
inductive SigAt
  | never
  | stopped
  | sawEmpty
  | finished
  deriving DecidableEq

/-- The shared state: `_pktqueue`, `LLNetReal.running`, where the threads are, and the history: the frames
put into the queue so far and the results of `recv_packet` so far. -/
structure Live where
  queue : List (Option Frame)
  running : Bool
  user : RecvAt
  sig : SigAt
  arrived : List Frame
  results : List RecvResult
  deriving DecidableEq

/-- After `__init__`, 48 and 55. -/
def Live.init : Live := ⟨[], true, .idle, .never, [], []⟩

/-- The atomic steps. -/
inductive LiveEv
  | arrive (f : Frame)
  | call (timeout : Option Int)
  | take
  | expire
  | check
  | decode
  | look
  | sigint
  | sigSize
  | sigPut
  | stop
  deriving DecidableEq

/-- A step, if it is possible in this state.  Receiver threads check `running` before they wait for a
frame (197-206), so a frame can still arrive after the network was stopped. -/
def Live.step (s : Live) : LiveEv → Option Live
  | .arrive f => some { s with queue := s.queue ++ [some f], arrived := s.arrived ++ [f] }
  -- 224, the call of `get`; a negative timeout is a `ValueError` of the queue
  | .call t =>
    if s.user = .idle then
      match t with
      | none => some { s with user := .getting false }
      | some v =>
        if v < 0 then some { s with results := s.results ++ [.badTimeout] }
        else some { s with user := .getting true }
    else none
  -- 224, `get` returns
  | .take =>
    match s.user, s.queue with
    | .getting t, x :: q => some { s with queue := q, user := .got t x }
    | _, _ => none
  -- 224, `get` raises `Empty`
  | .expire =>
    match s.user, s.queue with
    | .getting true, [] => some { s with user := .expired }
    | _, _ => none
  -- 225-226 and 240
  | .check =>
    match s.user with
    | .got t x =>
      if s.running then some { s with user := .decoding t x }
      else some { s with user := .idle, results := s.results ++ [.shutdown] }
    | _ => none
  -- 228-235; the dummy's link type is `None`, for which there is no decoder
  | .decode =>
    match s.user with
    | .decoding t none => some { s with user := .getting t }
    | .decoding t (some f) =>
      match f.result with
      | none => some { s with user := .getting t }
      | some r => some { s with user := .idle, results := s.results ++ [r] }
    | _ => none
  -- 237-239
  | .look =>
    match s.user with
    | .expired => some { s with user := .idle, results := s.results ++ [if s.running then .noPackets else .shutdown] }
    | _ => none
  -- 185
  | .sigint => some { s with running := false, sig := .stopped }
  -- 186
  | .sigSize =>
    if s.sig = .stopped then some { s with sig := if s.queue = [] then .sawEmpty else .finished } else none
  -- 189
  | .sigPut =>
    if s.sig = .sawEmpty then some { s with sig := .finished, queue := s.queue ++ [none] } else none
  -- `shutdown`, 77-80
  | .stop => some { s with running := false }

/-- A sequence of steps. -/
def Live.run (s : Live) : List LiveEv → Option Live
  | [] => some s
  | e :: es => (s.step e).bind fun s => s.run es

/-! ## Sending -/

/-- The first argument of `send_packet`. -/
inductive DevArg
  | num (n : Int)
  | intf (i : Iface)
  | name (s : List Char)

/-- The interface and device name `send_packet` uses, 255-265. -/
def sendTarget (n : NetBase) : DevArg → Res (Iface × List Char)
  | .intf i => .ok (i, i.name)
  | .name s =>
    match n.devinfo.get? s with
    | some i => .ok (i, s)
    | none => .error .valueError
  | .num k => n.lookupDevname k >>= fun s =>
    match n.devinfo.get? s with
    | some i => .ok (i, s)
    | none => .error .valueError

/-- `isinstance(packet[0], …)` in `_RawSocket.send_packet`, 360 and 366. -/
def Packet.firstIs (p : Packet) (cs : List Cls) : Bool :=
  match p with
  | [] => false
  | x :: _ => cs.any fun c => x.isA c

/-- `del packet[0]` if it is a link header, 359-361. -/
def Packet.dropLink (p : Packet) : Packet := if p.firstIs [.null, .eth] then p.drop 1 else p

/-- The version check of 380-387; the packet is sent by 389. -/
def rawVersion (b : Bytes) : Res Bytes := if (b.headD 0).toNat / 16 = 4 then .ok b else .error .generic

/-- `_RawSocket.send_packet`, 355-392 on Linux: what becomes of the packet object, and the bytes given to the
raw socket, which is assumed to take all of them. -/
def rawSend (p : Packet) : Packet × Res Bytes :=
  if p = [] then (p, .error .generic)
  else if p.dropLink.firstIs [.ip4, .ip6] then
    (p.dropLink.toBytes.1, p.dropLink.toBytes.2 >>= rawVersion)
  else (p.dropLink, .error .generic)

/-- `send_packet`, 242-274 for a `Packet`: what becomes of the packet object, and the device and bytes sent.
There is a pcap device for every registered interface and a raw socket for every loopback one (165-177).  Before
a packet is given to pcap it is serialised and, for a message to the log, printed (271-272). -/
def sendReal (n : NetBase) (d : DevArg) (p : Packet) : Packet × Res (List Char × Bytes) :=
  match sendTarget n d with
  | .error e => (p, .error e)
  | .ok (i, dev) =>
    if i.iftype = .loopback then
      match n.devinfo.get? dev with
      | none => (p, .error .attributeError)
      | some j =>
        if j.iftype = .loopback then ((rawSend p).1, (fun b => (dev, b)) <$> (rawSend p).2)
        else (p, .error .attributeError)
    else
      match n.devinfo.get? dev with
      | none => (p.toBytes.1, p.toBytes.2 >>= fun _ => p.toBytes.1.str >>= fun _ => .error .attributeError)
      | some _ => (p.toBytes.1, p.toBytes.2 >>= fun b => p.toBytes.1.str >>= fun _ => .ok (dev, b))

/-! ## The interfaces -/

/-- An entry of psutil's `net_if_addrs`, 143-157: an address with its mask, or the Ethernet address. -/
inductive AddrInfo
  | inet (addr mask : BitVec 32)
  | inet6 (addr mask : BitVec 128)
  | link (text : List Char)

/-- The addresses collected, 143-155.  `max_prefixlen` is the constant 32 or 128. -/
def assembleAddrs : List AddrInfo → List IPIface
  | [] => []
  | .inet a _ :: l => ⟨.v4 a, 32⟩ :: assembleAddrs l
  | .inet6 a _ :: l => ⟨.v6 a, 128⟩ :: assembleAddrs l
  | .link _ :: l => assembleAddrs l

/-- The Ethernet address, 138 and 156-157. -/
def assembleMac (mac : EthAddr) : List AddrInfo → Res EthAddr
  | [] => .ok mac
  | .link t :: l => EthAddr.mk' (.text t) >>= fun a => assembleMac a l
  | _ :: l => assembleMac mac l

/-- The interface `_assemble_devinfo` makes for a device, 138-160. -/
def assembleIntf (dev : List Char) (ifnum : Int) (ty : IfType) (l : List AddrInfo) : Res Iface :=
  assembleMac ⟨List.replicate 6 0⟩ l >>= fun mac =>
    .ok ((assembleAddrs l).foldl Iface.addIp ⟨dev, mac, [], ifnum, ty⟩)

end SY
