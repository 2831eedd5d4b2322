import Verif.OfMsg
import Verif.Live

/-! # The OpenFlow switch (`/repo/switchyard/lib/openflow/ofswitch.py`)

Line numbers without a file name refer to ofswitch.py.

The module uses names that it neither defines nor imports: `FlowModFlags`, `OpenflowPort`,
`OpenflowFlowModFailedCode` (178-241), `OpenflowType`, `OpenflowEchoReply`, `OpenflowEchoRequest`
(428-452), `host` and `port` (32).  The functions of the flow table take a parameter `names`: `false`
is the module as it is; `true` is the module after another one has bound the first three of them to those of
`openflow10`.  The callbacks (580-631) are those of the base class, which do nothing.  Texts for the log
are not modelled, except that a packet that cannot be printed raises where it is printed (423, 525, 544). -/

namespace SY

/-! ## The transport: send and receive loops of `ControllerConnection` -/

/-- What the socket does with the calls of `send`: the number of bytes the `k`-th call takes, `none` if it
raises. -/
abbrev SendOracle := Nat → Option Nat

/-- The loop of `send_openflow_message`, 57-61, with a bound on the number of calls: what has been sent and
what is raised; `none` when the bound is exhausted.  The bytes that remain are `raw[-remain:]`. -/
def sendLoop (take : SendOracle) (raw : Bytes) : Nat → Nat → Nat → Bytes → Option (Bytes × Option PyErr)
  | 0, _, _, _ => none
  | fuel + 1, k, remain, sent =>
    if remain = 0 then some (sent, none)
    else
      match take k with
      | none => some (sent, some .osError)
      | some rv =>
        let n := min rv remain
        sendLoop take raw fuel (k + 1) (remain - n) (sent ++ (raw.drop (raw.length - remain)).take n)

/-- 54-61 with an established connection. -/
def sendAll (take : SendOracle) (raw : Bytes) (fuel : Nat) : Option (Bytes × Option PyErr) :=
  sendLoop take raw fuel 0 raw.length []

/-- Two threads in the loop of 57-61 on one connection (the data path sends with 318-319, the controller
thread with 339 and so on; there is no lock): what each has still to send and what is on the wire.  A call
`(first, n)` is made by the first or second thread and takes `n` of its bytes. -/
def sendShared : List (Bool × Nat) → Bytes × Bytes × Bytes → Bytes × Bytes × Bytes
  | [], s => s
  | (true, n) :: cs, (a, b, w) => sendShared cs (a.drop n, b, w ++ a.take n)
  | (false, n) :: cs, (a, b, w) => sendShared cs (a, b.drop n, w ++ b.take n)

/-- The bytes that will arrive and the size of the segments: the `k`-th call of `recv` gives at most
`size k + 1` bytes, or raises `socket.timeout` if that is `none`.  No bytes are given at the end. -/
structure Wire where
  pending : Bytes
  size : Nat → Option Nat
  calls : Nat

/-- `socket.recv(n)` (Python library). -/
def Wire.recv (w : Wire) (n : Nat) : Wire × Option Bytes :=
  match w.size w.calls with
  | none => ({ w with calls := w.calls + 1 }, none)
  | some k =>
    ({ w with calls := w.calls + 1, pending := w.pending.drop (min n (k + 1)) },
     some (w.pending.take (min n (k + 1))))

/-- The loop of `receive_openflow_message`, 84-87, with a bound on the number of calls; a timeout is an
`OSError`. -/
def recvLoop : Nat → Wire → Nat → Bytes → Option (Wire × Res Bytes)
  | 0, _, _, _ => none
  | fuel + 1, w, remain, data =>
    if remain = 0 then some (w, .ok data)
    else
      match w.recv remain with
      | (w', none) => some (w', .error .osError)
      | (w', some more) => recvLoop fuel w' (remain - more.length) (data ++ more)

/-- `ofheader.length` after `ofheader.from_bytes(data)`, 79 (openflow10.py 3341-3357). -/
def headerLength (data : Bytes) : Res Nat :=
  if data.length < 8 then .error .generic
  else
    unpack OfHeader.fmt (data.take 8) >>= fun fs =>
    match fs with
    | [.i _, .i _, .i l, .i _] => .ok l.toNat
    | _ => .error .structError

/-- What becomes of the bytes, 89: `Packet.from_bytes(data, of10.OpenflowHeader)`. -/
def finishRecv : Option (Wire × Res Bytes) → Option (Wire × Res (Option OfMsg))
  | none => none
  | some (w, .error e) => some (w, .error e)
  | some (w, .ok data) => some (w, OfMsg.parse data >>= fun m => .ok (some m))

/-- `receive_openflow_message`, 71-90, with an established connection. -/
def recvMsg (fuel : Nat) (w : Wire) : Option (Wire × Res (Option OfMsg)) :=
  match w.recv 8 with
  | (w', none) => some (w', .ok none)
  | (w', some []) => some (w', .ok none)
  | (w', some data) =>
    match headerLength data with
    | .error e => some (w', .error e)
    | .ok len => finishRecv (recvLoop fuel w' (len - 8) data)

/-! ## The connection object -/

/-- `ControllerConnection`, 16-22. -/
structure CtrlConn where
  connected : Bool
  sock : Bool
  deriving DecidableEq, Repr

/-- `__init__`, 17-22. -/
def CtrlConn.new : CtrlConn := ⟨false, false⟩

/-- `connect`, 24-35, whether or not the peer accepts: `host` and `port` in line 32 are unknown names, and
the handler of 34 ignores everything.  (`ssl.wrap_socket` is taken to succeed.) -/
def CtrlConn.connect (c : CtrlConn) (_accepts : Bool) : CtrlConn :=
  let attempt : Res Bool := .error .nameError
  match attempt with
  | .ok b => ⟨b, true⟩
  | .error _ => { c with sock := true }

/-- The calls a user makes. -/
inductive ConnOp
  | connect
  | send (raw : Bytes)
  | recv

/-- One call with a peer that accepts connections or not: the object, the bytes put on the wire and the
bytes taken from it.  `send_openflow_message`, 44-52 and `receive_openflow_message`, 63-69; on an
established connection everything is transferred. -/
def CtrlConn.step (c : CtrlConn) (accepts : Bool) : ConnOp → CtrlConn × Bytes × Bool
  | .connect => (c.connect accepts, [], false)
  | .send raw =>
    let c' := if c.connected then c else c.connect accepts
    if c'.connected then (c', raw, false) else (c', [], false)
  | .recv =>
    let c' := if c.connected then c else c.connect accepts
    if c'.connected then (c', [], true) else (c', [], false)

/-! ## The packet buffer -/

/-- `PacketBufferManager`, 96-99. -/
structure PktBuf where
  cap : Nat
  buf : Dict Nat (Int × Packet)

/-- `add`, 101-110; `FullBuffer` is an `Exception`. -/
def PktBuf.add (b : PktBuf) (port : Int) (p : Packet) : PktBuf × Res Nat :=
  if b.cap < b.buf.length + 1 then (b, .error .generic)
  else ({ b with buf := b.buf.set (b.buf.length + 1) (port, p) }, .ok (b.buf.length + 1))

/-- `pop`, 112-116. -/
def PktBuf.pop (b : PktBuf) (id : Nat) : PktBuf × Res (Int × Packet) :=
  match b.buf.get? id with
  | none => (b, .error .keyError)
  | some x => ({ b with buf := b.buf.erase id }, .ok x)

/-- `lookup`, 118-123. -/
def PktBuf.lookup (b : PktBuf) (id : Nat) : Option Packet := (b.buf.get? id).map Prod.snd

/-! ## The flow table -/

/-- `TableEntry`, 126-138.  Times are whole numbers of microseconds. -/
structure FlowEntry where
  mtch : OfMatch
  cookie : Int
  idle : Int
  hard : Int
  actions : List OfAction
  priority : Int
  flags : Nat
  packets : Nat
  bytes : Nat
  last : Option Int
  created : Int
  deriving DecidableEq, Repr

/-- `TableEntry(fmod)`, 127-138. -/
def FlowEntry.new (f : OfFlowMod) (now : Int) : FlowEntry :=
  ⟨f.mtch, f.cookie, f.idle, f.hard, f.actions, f.priority, makeBitmap f.flags, 0, 0, none, now⟩

/-- `update_counters`, 161-164. -/
def FlowEntry.count (e : FlowEntry) (len : Nat) (now : Int) : FlowEntry :=
  { e with last := some now, packets := e.packets + 1, bytes := e.bytes + len }

/-- `idletime` of 167: a time of 0 counts as none. -/
def FlowEntry.idleTime (e : FlowEntry) (now : Int) : Int :=
  match e.last with
  | some t => if t = 0 then now else now - t
  | none => now

/-- `has_expired`, 166-175; timeouts are in seconds. -/
def FlowEntry.expired (e : FlowEntry) (now : Int) : Bool :=
  (0 < e.idle && e.idle * 1000000 < e.idleTime now) || (0 < e.hard && e.hard * 1000000 < now - e.created)

/-- `send_expire_notice`, 177-178. -/
def FlowEntry.notice (names : Bool) (e : FlowEntry) : Res Bool :=
  if names then .ok (e.flags &&& 1 != 0) else .error .nameError

/-- `FlowTable._table`, 181-183. -/
abbrev FlowTable := List FlowEntry

/-- The first loop of `delete`, 189-192. -/
def overlapping (m : OfMatch) (strict : Bool) : FlowTable → Res (List FlowEntry)
  | [] => .ok []
  | e :: t =>
    e.mtch.overlaps m strict >>= fun b =>
    overlapping m strict t >>= fun es => .ok (if b then e :: es else es)

/-- `delete`, 188-205: the second loop asks for an attribute that entries do not have (200). -/
def FlowTable.delete (names : Bool) (t : FlowTable) (m : OfMatch) (strict : Bool) : FlowTable × Res (List FlowEntry) :=
  match overlapping m strict t with
  | .error e => (t, .error e)
  | .ok [] => (t, .ok [])
  | .ok (_ :: _) => (t, .error (if names then .attributeError else .nameError))

/-- Insertion in front of the first entry that is greater. -/
def insertEntry (e : FlowEntry) : FlowTable → FlowTable
  | [] => [e]
  | x :: t => if e.priority < x.priority then e :: x :: t else x :: insertEntry e t

/-- `list.sort()`: stable, ascending by `__lt__`, 152-153. -/
def sortEntries : FlowTable → FlowTable := List.foldl (fun acc e => insertEntry e acc) []

/-- The loop of `add`, 212-215. -/
def conflicts (e : FlowEntry) : FlowTable → Res Bool
  | [] => .ok false
  | x :: t =>
    e.mtch.overlaps x.mtch true >>= fun b =>
    if b && x.priority == e.priority then .ok true else conflicts e t

/-- The test of 211-215. -/
def checkOverlap (f : OfFlowMod) (e : FlowEntry) (t : FlowTable) : Res Bool :=
  if f.flags.contains 2 then conflicts e t else .ok false

/-- `add`, 207-219; the result is whether the code `Overlap` is returned. -/
def FlowTable.add (names : Bool) (t : FlowTable) (f : OfFlowMod) (now : Int) : FlowTable × Res Bool :=
  if names then
    match checkOverlap f (FlowEntry.new f now) t with
    | .error e => (t, .error e)
    | .ok true => (t, .ok true)
    | .ok false => (sortEntries (t ++ [FlowEntry.new f now]), .ok false)
  else (t, .error .nameError)

/-- The error of `newentry.match.overlaps_with(entry, strict)`, 226: an entry is given where a match is
expected (openflow10.py 497-500, 513 and 137-138, 521-522). -/
def modifyError (f : OfFlowMod) (strict : Bool) : PyErr :=
  if strict then
    match f.mtch.toBytes with
    | .error e => e
    | .ok _ => .attributeError
  else .attributeError

/-- `modify`, 221-235. -/
def FlowTable.modify (t : FlowTable) (f : OfFlowMod) (strict : Bool) (now : Int) : FlowTable × Option PyErr :=
  match t with
  | [] => ([FlowEntry.new f now], none)
  | _ :: _ => (t, some (modifyError f strict))

/-- The test of 241-242. -/
def portFits (names : Bool) (inPort : Option Int) (e : FlowEntry) : Res Bool :=
  match inPort with
  | none => .ok true
  | some p => if names then .ok (e.mtch.inPort == 0xffff || (e.mtch.inPort : Int) == p) else .error .nameError

/-- The test of 240-242. -/
def FlowEntry.hit (names : Bool) (inPort : Option Int) (p : Packet) (e : FlowEntry) : Res Bool :=
  e.mtch.matchesPacket p >>= fun b => if b then portFits names inPort e else .ok false

/-- `match_packet`, 237-247: the table, whose counters change, and the actions.  An entry is returned after
its counters have been changed; `len(pkt)` may raise when one of them has been. -/
def FlowTable.lookup (names : Bool) (inPort : Option Int) (p : Packet) (now : Int) :
    FlowTable → FlowTable × Res (Option (List OfAction))
  | [] => ([], .ok none)
  | e :: t =>
    match e.hit names inPort p with
    | .error x => (e :: t, .error x)
    | .ok true =>
      (match p.size with
      | .ok n => (e.count n now :: t, .ok (some e.actions))
      | .error x => ({ e with last := some now, packets := e.packets + 1 } :: t, .error x))
    | .ok false => (e :: (FlowTable.lookup names inPort p now t).1, (FlowTable.lookup names inPort p now t).2)

/-- The condition of 255. -/
def FlowEntry.gone (names : Bool) (e : FlowEntry) (now : Int) : Res Bool :=
  if e.expired now then e.notice names else .ok false

/-- `expire_entries`, 249-260: the table and the entries removed.  If an entry raises, those removed before it
stay removed. -/
def FlowTable.expire (names : Bool) (now : Int) : FlowTable → FlowTable × Res (List FlowEntry)
  | [] => ([], .ok [])
  | e :: t =>
    match e.gone names now with
    | .error x => (e :: t, .error x)
    | .ok true => ((FlowTable.expire names now t).1, (fun es => e :: es) <$> (FlowTable.expire names now t).2)
    | .ok false => (e :: (FlowTable.expire names now t).1, (FlowTable.expire names now t).2)

/-! ## The switch -/

/-- `self._oflib`, 277-280. -/
inductive OfLib
  | v10 | v13
  deriving DecidableEq, Repr

/-- `OpenflowSwitch`, 266-287.  `table` is `_tables[0]`; the group table is never used. -/
structure OfSwitch where
  dpid : Bytes
  version : Int
  lib : OfLib
  buf : PktBuf
  xid : Int
  missLen : Int
  flags : Nat
  table : FlowTable

/-- `OpenflowSwitch(net, switchid, callbacks, version)`, 266-287: the `assert` of 282 is given a text and
never fails; the next line raises. -/
def OfSwitch.new (dpid : Bytes) (version : Int) : Res OfSwitch :=
  if version = 1 then .ok ⟨dpid, 1, .v10, ⟨100, []⟩, 0, 1500, 0, []⟩
  else if version = 4 then .ok ⟨dpid, 4, .v13, ⟨100, []⟩, 0, 1500, 0, []⟩
  else .error .attributeError

/-- A packet handed to `net.send_packet`: a packet object, or the bytes of a packet-out message. -/
inductive OutPkt
  | pkt (p : Packet)
  | raw (b : Bytes)

/-- The surroundings of a switch: names (see above), the network, what its `send_packet` raises, and the
number of controller connections. -/
structure OfEnv where
  names : Bool
  net : NetBase
  raises : DevArg → OutPkt → Option PyErr
  conns : Nat

/-- What a switch does: messages given to the controller connections (observable by the callback
`beforeControllerSend`, 296-299), and calls of `net.send_packet`. -/
structure OfOut where
  msgs : List OfMsg
  sends : List (DevArg × OutPkt)

/-- What `send_packet` of a live network raises before anything is sent (llnetreal.py 250-265): it wants a
packet object. -/
def realRaises (n : NetBase) (d : DevArg) : OutPkt → Option PyErr
  | .raw _ => some .valueError
  | .pkt _ =>
    match sendTarget n d with
    | .ok _ => none
    | .error e => some e

/-- Calls of `net.send_packet`; the first that raises is the last. -/
def sendEach (env : OfEnv) (p : OutPkt) : List DevArg → List (DevArg × OutPkt) × Option PyErr
  | [] => ([], none)
  | d :: ds =>
    match env.raises d p with
    | some e => ([(d, p)], some e)
    | none => ((d, p) :: (sendEach env p ds).1, (sendEach env p ds).2)

/-- `ActionOutput.__call__`, openflow10.py 881-909.  The controllers are pairs (293), which have no
`send_packet`. -/
def runOutput (env : OfEnv) (port inPort : Int) (p : OutPkt) : List (DevArg × OutPkt) × Option PyErr :=
  if port = 0xfffa then ([], some .generic)
  else if port = 0xfffb then
    sendEach env p ((env.net.interfaces.filter fun i => i.ifnum ≠ inPort).map DevArg.intf)
  else if port = 0xfffc then ([], some .generic)
  else if port = 0xfffd then ([], if env.conns = 0 then none else some .attributeError)
  else if port = 0xfffe then ([], some .generic)
  else if port = 0xfff8 then sendEach env p [.num inPort]
  else if port = 0xfff9 then ([], some .generic)
  else if port = 0xffff then ([], some .generic)
  else sendEach env p [.num port]

/-- `__call__` of the actions: that of `ActionStripVlan` does nothing (openflow10.py 843-845), the others but
`ActionOutput` raise (935, 976, 1007, 1040, 1074, 1105, 1137, 1191). -/
def runAction (env : OfEnv) (inPort : Int) (p : OutPkt) (a : OfAction) : List (DevArg × OutPkt) × Option PyErr :=
  match a.body with
  | .strip => ([], none)
  | .output port _ => runOutput env port inPort p
  | _ => ([], some .generic)

/-- `_process_actions`, 510-522; no action returns a function for the second stage. -/
def runActions (env : OfEnv) (inPort : Int) (p : OutPkt) : List OfAction → List (DevArg × OutPkt) × Option PyErr
  | [] => ([], none)
  | a :: as =>
    match runAction env inPort p a with
    | (s, some e) => (s, some e)
    | (s, none) => (s ++ (runActions env inPort p as).1, (runActions env inPort p as).2)

/-- What a handler does. -/
structure OfStep where
  sw : OfSwitch
  out : OfOut
  err : Option PyErr

/-- Nothing but a new state. -/
def OfSwitch.quiet (s : OfSwitch) : OfStep := ⟨s, ⟨[], []⟩, none⟩
/-- An exception. -/
def OfSwitch.fail (s : OfSwitch) (e : PyErr) : OfStep := ⟨s, ⟨[], []⟩, some e⟩
/-- A reply. -/
def OfSwitch.reply (s : OfSwitch) (m : OfMsg) : OfStep := ⟨s, ⟨[m], []⟩, none⟩

/-- `header(type, xid) + body` or `OpenflowHeader.build(type, xid=xid)` of `openflow10`, as a packet. -/
def reply10 (type : Int) (xid : Int) (body : Option OfBody) : OfMsg := ⟨⟨1, type, 8, xid⟩, body, []⟩

/-- A reply whose header repeats `pkt[self._oflib.OpenflowHeader].xid`: a message that was received is one of
`openflow10` (89), so with `openflow13` in use there is no such header (`KeyError`). -/
def OfSwitch.answer (s : OfSwitch) (m : OfMsg) (type : Int) (body : Option OfBody) : OfStep :=
  match s.lib with
  | .v10 => s.reply (reply10 type m.hdr.xid body)
  | .v13 => s.fail .keyError

/-- `_hello_handler`, 322-339.  The handler map it assigns is a local variable. -/
def OfSwitch.hello (s : OfSwitch) (m : OfMsg) : OfStep :=
  if m.hdr.version = 1 then { s with version := 1, lib := .v10 }.answer m 0 none
  else if m.hdr.version = 4 then { s with version := 4, lib := .v13 }.answer m 0 none
  else s.quiet

/-- The text of a name, as `str.encode` gives it. -/
def utf8Text (s : List Char) : Bytes := s.flatMap String.utf8EncodeChar

/-- `OpenflowPhysicalPort(i, intf.ethaddr, intf.name)`, 360-362 (openflow10.py 153-166). -/
def portOf (i : Nat) (f : Iface) : OfPhyPort := ⟨i, f.ethaddr, utf8Text f.name, [], [], [], [], [], []⟩

/-- The loop of 360-362 from index `i` on. -/
def portsFrom (i : Nat) : List Iface → List OfPhyPort
  | [] => []
  | f :: fs => portOf i f :: portsFrom (i + 1) fs

/-- The `dpid` setter, openflow10.py 1517-1524. -/
def padDpid (d : Bytes) : Res Bytes := if 8 < d.length then .error .valueError else .ok (zeros (8 - d.length) ++ d)

/-- `_features_request_handler`, 356-364. -/
def OfSwitch.features (env : OfEnv) (s : OfSwitch) (m : OfMsg) : OfStep :=
  match s.lib with
  | .v13 => s.fail .keyError
  | .v10 =>
    match padDpid s.dpid with
    | .error e => s.fail e
    | .ok d => s.reply (reply10 6 m.hdr.xid (some (.features ⟨d, 0, 1, [], [], portsFrom 0 env.net.interfaces⟩)))

/-- `_set_config_handler`, 366-371.  (`pkt[1]` is the body.) -/
def OfSwitch.setConfig (s : OfSwitch) (m : OfMsg) : OfStep :=
  match m.body with
  | some (.config f l) => { s with flags := f, missLen := l }.quiet
  | some _ => s.fail .attributeError
  | none => s.fail .indexError

/-- `_get_config_request_handler`, 373-379. -/
def OfSwitch.getConfig (s : OfSwitch) (m : OfMsg) : OfStep :=
  s.answer m 8 (some (.config s.flags s.missLen))

/-- `_flow_mod_handler`, 381-409, for a flow modification: every command uses `self._table`, which does not
exist (284 creates `_tables`). -/
def OfSwitch.flowMod (s : OfSwitch) (m : OfMsg) : OfStep :=
  match m.body with
  | none => s.fail .indexError
  | some _ => s.fail .attributeError

/-- The packet of a packet-out message, 418-421; the buffered port is not used (422). -/
def OfSwitch.takePkt (s : OfSwitch) (id : Int) (data : Option Bytes) : OfSwitch × Res OutPkt :=
  if id = 0xffffffff then
    match data with
    | some b => (s, .ok (.raw b))
    | none => (s, .error .attributeError)
  else
    match s.buf.pop id.toNat with
    | (b, .ok x) => ({ s with buf := b }, .ok (.pkt x.2))
    | (b, .error e) => ({ s with buf := b }, .error e)

/-- `str(outpkt)` of 423. -/
def OutPkt.shown : OutPkt → Res Unit
  | .raw _ => .ok ()
  | .pkt p => (fun _ => ()) <$> p.str

/-- `_packet_out_handler`, 416-424. -/
def OfSwitch.packetOut (env : OfEnv) (s : OfSwitch) (m : OfMsg) : OfStep :=
  match m.body with
  | none => s.fail .indexError
  | some (.packetOut id inPort acts data) =>
    (match s.takePkt id data with
    | (s', .error e) => s'.fail e
    | (s', .ok p) =>
      match p.shown with
      | .error e => s'.fail e
      | .ok _ => ⟨s', ⟨[], (runActions env inPort p acts).1⟩, (runActions env inPort p acts).2⟩)
  | some _ => s.fail .attributeError

/-- `_stats_request_handler`, 426-428: `OpenflowType` is an unknown name. -/
def OfSwitch.stats (s : OfSwitch) : OfStep := s.fail .nameError

/-- `_echo_request_handler`, 449-453: the names of 452 are unknown. -/
def OfSwitch.echo (s : OfSwitch) : OfStep :=
  match s.lib with
  | .v10 => s.fail .nameError
  | .v13 => s.fail .keyError

/-- `_unknown_type_handler`, 485-487: type `BadRequest`, code `BadType`. -/
def OfSwitch.unknown (s : OfSwitch) (m : OfMsg) : OfStep :=
  s.answer m 1 (some (.error (some 1) (some 1) []))

/-- The dispatch of 504 with the handler map chosen when the thread started, 456-483. -/
def OfSwitch.dispatch (env : OfEnv) (map : OfLib) (s : OfSwitch) (m : OfMsg) : OfStep :=
  if m.hdr.type = 0 then s.hello m
  else if m.hdr.type = 5 then s.features env m
  else if m.hdr.type = 9 then s.setConfig m
  else if m.hdr.type = 7 then s.getConfig m
  else if m.hdr.type = 14 then s.flowMod m
  else if m.hdr.type = 13 then s.packetOut env m
  else if m.hdr.type = 2 then s.echo
  else if m.hdr.type = (match map with | .v10 => 18 | .v13 => 20) then s.answer m 19 none
  else if m.hdr.type = 16 ∧ map = .v10 then s.stats
  else s.unknown m

/-- The messages of `_send_removal_notification`, 341-346, with a reason that is unknown (0xff). -/
def removals : Int → List FlowEntry → List OfMsg
  | _, [] => []
  | x, e :: es => reply10 11 (x + 1) (some (.flowRemoved ⟨e.mtch, 0, 0, 0xff, 0, 0, 0, 0, 0⟩)) :: removals (x + 1) es

/-- `_expire_table_entries`, 489-494 (messages of `openflow10`). -/
def OfSwitch.expire (env : OfEnv) (s : OfSwitch) (now : Int) : OfStep :=
  match FlowTable.expire env.names now s.table with
  | (t, .error e) => { s with table := t }.fail e
  | (t, .ok es) => ⟨{ s with table := t, xid := s.xid + es.length }, ⟨removals s.xid es, []⟩, none⟩

/-- One turn of the loop of `_controller_thread`, 500-504, with what was received. -/
def OfSwitch.turn (env : OfEnv) (map : OfLib) (s : OfSwitch) (m : Option OfMsg) (now : Int) : OfStep :=
  match s.expire env now with
  | ⟨s', o, some e⟩ => ⟨s', o, some e⟩
  | ⟨s', o, none⟩ =>
    match m with
    | none => ⟨s', o, none⟩
    | some m =>
      ⟨(s'.dispatch env map m).sw, ⟨o.msgs ++ (s'.dispatch env map m).out.msgs, o.sends ++ (s'.dispatch env map m).out.sends⟩,
       (s'.dispatch env map m).err⟩

/-- The message of `_send_packet_in`, 313-317, and the state; the port number is checked last
(`openflow13` has no `_get_port`). -/
def OfSwitch.packetIn (env : OfEnv) (s : OfSwitch) (port : Int) (p : Packet) : OfStep :=
  let s := { s with xid := s.xid + 1 }
  match p.toBytes with
  | (_, .error e) => s.fail e
  | (p', .ok raw) =>
    match s.buf.add port p' with
    | (_, .error e) => s.fail e
    | (b, .ok id) =>
      match s.lib with
      | .v13 => { s with buf := b }.fail .nameError
      | .v10 =>
        match getPort port with
        | .error e => { s with buf := b }.fail e
        | .ok pt =>
          ⟨{ s with buf := b },
           ⟨List.replicate env.conns (reply10 10 s.xid (some (.packetIn id pt 0 (raw.take s.missLen.toNat)))), []⟩, none⟩

/-- The port of the packet, and the text of the packet for the log, 542-544. -/
def OfEnv.port (env : OfEnv) (dev : List Char) (p : Packet) : Res Iface :=
  env.net.byName dev >>= fun i => p.str >>= fun _ => .ok i

/-- `_handle_datapath`, 538-562, and `_datapath_action` with actions, 532-536. -/
def OfSwitch.data (env : OfEnv) (s : OfSwitch) (dev : List Char) (p : Packet) (now : Int) : OfStep :=
  match env.port dev p with
  | .error e => s.fail e
  | .ok i =>
    match FlowTable.lookup env.names (some i.ifnum) p now s.table with
    | (t, .error e) => { s with table := t }.fail e
    | (t, .ok none) => { s with table := t }.packetIn env i.ifnum p
    | (t, .ok (some acts)) =>
      ⟨{ s with table := t }, ⟨[], (runActions env i.ifnum (.pkt p) acts).1⟩, (runActions env i.ifnum (.pkt p) acts).2⟩

/-- A running switch: the controller thread with its handler map, `none` when an exception has ended it, and
whether the data path loop (564-573) runs. -/
structure OfRun where
  sw : OfSwitch
  thread : Option OfLib
  loop : Bool

/-- `add_controller`, 289-294, and the start of the thread, 322-483: the default argument of 348 takes a
transaction number. -/
def OfSwitch.start (s : OfSwitch) : OfRun := ⟨{ s with xid := s.xid + 1 }, some s.lib, true⟩

/-- What happens to a running switch. -/
inductive OfEvent
  | msg (m : Option OfMsg) (now : Int)
  | data (dev : List Char) (p : Packet) (now : Int)

/-- One event. -/
def OfRun.step (env : OfEnv) (r : OfRun) : OfEvent → OfRun × OfOut
  | .msg m now =>
    match r.thread with
    | none => (r, ⟨[], []⟩)
    | some map =>
      let st := r.sw.turn env map m now
      (⟨st.sw, if st.err = none then some map else none, r.loop⟩, st.out)
  | .data dev p now =>
    if r.loop then
      let st := r.sw.data env dev p now
      (⟨st.sw, r.thread, st.err = none⟩, st.out)
    else (r, ⟨[], []⟩)

/-- A history: the state and everything done. -/
def OfRun.run (env : OfEnv) (r : OfRun) : List OfEvent → OfRun × List OfMsg × List (DevArg × OutPkt)
  | [] => (r, [], [])
  | e :: es =>
    (((r.step env e).1.run env es).1, (r.step env e).2.msgs ++ ((r.step env e).1.run env es).2.1,
     (r.step env e).2.sends ++ ((r.step env e).1.run env es).2.2)

end SY
