import Verif.OfMsg

/-! # OpenFlow 1.3 messages (`/repo/switchyard/lib/openflow/openflow13.py`)

The module begins with `from .openflow10 import *` (12), which does not import names that begin with
an underscore.  It uses `_make_bitmap`, `_unpack_bitmap` and `_get_port` of `openflow10.py`, which
therefore do not exist in it: wherever they are called, `NameError` is raised.  The parameter `names`
says whether these three names are bound; in the code as it is they are not (`false`).

Classes whose text is the same as in `openflow10.py` use the definitions of `Verif.OfMsg`.  Statistics
classes (1945-2885) cannot be reached from a message; they are in `Verif.Of13Stats`.  Attributes that hold
what `int()` returned are integers; text is its UTF-8 encoding. -/

namespace SY

/-- A use of one of the three names. -/
def bound {α : Type} (names : Bool) (r : Res α) : Res α := if names then r else .error .nameError

/-- `OpenflowType`, 14-44. -/
def of13Types : List Nat :=
  [0, 1, 2, 3, 4, 5, 6, 7, 8, 9, 10, 11, 12, 13, 14, 15, 16, 17, 18, 19, 20, 21, 22, 23, 24, 25, 26, 27, 28, 29]
/-- `OpenflowPort`, 47-56. -/
def of13Ports : List Nat :=
  [0xffffff00, 0xfffffff8, 0xfffffff9, 0xfffffffa, 0xfffffffb, 0xfffffffc, 0xfffffffd, 0xfffffffe, 0xffffffff]
/-- `OpenflowPort.Any`, 56. -/
def of13Any : Nat := 0xffffffff
/-- `OpenflowPortState`, 59-62. -/
def of13PortState : List Nat := [1, 2, 4]
/-- `OpenflowPortFeatures`, 65-83. -/
def of13PortFeatures : List Nat :=
  [0, 1, 2, 4, 8, 16, 32, 64, 128, 256, 512, 1024, 2048, 4096, 8192, 16384, 32768]
/-- `OpenflowCapabilities`, 86-94. -/
def of13Capabilities : List Nat := [0, 1, 2, 4, 8, 32, 64, 256]

/-! ## Physical ports -/

/-- `OpenflowPhysicalPort`, 97-123. -/
structure Of13PhyPort where
  portnum : Int
  hwaddr : EthAddr
  name : Bytes
  config : List Nat
  state : List Nat
  curr : List Nat
  advertised : List Nat
  supported : List Nat
  peer : List Nat
  currSpeed : Int
  maxSpeed : Int
  deriving DecidableEq, Repr

/-- `_PACKFMT = '!I4x6s2x16sIIIIIIII'`, 105. -/
def Of13PhyPort.fmt : List Fld :=
  [.u 4, .x 4, .s 6, .x 2, .s 16, .u 4, .u 4, .u 4, .u 4, .u 4, .u 4, .u 4, .u 4]

/-- The values packed by `to_bytes`. -/
def Of13PhyPort.vals (p : Of13PhyPort) : List Val :=
  [.i p.portnum, .b p.hwaddr.raw, .b p.name, .i (makeBitmap p.config), .i (makeBitmap p.state),
   .i (makeBitmap p.curr), .i (makeBitmap p.advertised), .i (makeBitmap p.supported), .i (makeBitmap p.peer),
   .i p.currSpeed, .i p.maxSpeed]

/-- `to_bytes`, 125-132: the arguments are evaluated first. -/
def Of13PhyPort.toBytes (names : Bool) (p : Of13PhyPort) : Res Bytes := bound names (pack Of13PhyPort.fmt p.vals)

/-- The assignments of `from_bytes`, 140-151. -/
def Of13PhyPort.ofFields (names : Bool) : List Val → Res Of13PhyPort
  | [.i n, .b a, .b name, .i c, .i s, .i cu, .i ad, .i su, .i pe, .i cs, .i ms] =>
    EthAddr.mk' (.raw a) >>= fun a =>
    if utf8Valid name then
      bound names (.ok ⟨n, a, name, unpackBitmap c.toNat ofPortConfig, unpackBitmap s.toNat of13PortState,
        unpackBitmap cu.toNat of13PortFeatures, unpackBitmap ad.toNat of13PortFeatures,
        unpackBitmap su.toNat of13PortFeatures, unpackBitmap pe.toNat of13PortFeatures, cs, ms⟩)
    else .error .valueError
  | _ => .error .structError

/-- `from_bytes`, 134-153. -/
def Of13PhyPort.fromBytes (names : Bool) (raw : Bytes) : Res (Of13PhyPort × Bytes) :=
  if raw.length < 64 then .error .generic
  else unpack Of13PhyPort.fmt (raw.take 64) >>= fun fs =>
    Of13PhyPort.ofFields names fs >>= fun p => .ok (p, raw.drop 64)

/-! ## Bodies -/

/-- `OpenflowSwitchFeaturesReply`, 1456-1474.  `__slots__` lacks a comma (1461-1462), without effect:
objects of the class have a `__dict__`, because `OpenflowStruct` has no `__slots__`. -/
structure Of13Features where
  dpid : Bytes
  nbuffers : Nat
  ntables : Nat
  auxid : Int
  capabilities : List Nat
  actions : List Nat
  ports : List Of13PhyPort
  deriving DecidableEq, Repr

/-- `_PACKFMT = '!8sIBBxxII'`, 1463. -/
def Of13Features.fmt : List Fld := [.s 8, .u 4, .u 1, .u 1, .x 2, .u 4, .u 4]

/-- `for p in self._ports: rawpkt += p.to_bytes()`, 1480-1481. -/
def ports13ToBytes (names : Bool) : List Of13PhyPort → Res Bytes
  | [] => .ok []
  | p :: ps => p.toBytes names >>= fun a => ports13ToBytes names ps >>= fun b => .ok (a ++ b)

/-- `to_bytes`, 1476-1482. -/
def Of13Features.toBytes (names : Bool) (f : Of13Features) : Res Bytes :=
  bound names (pack Of13Features.fmt [.b f.dpid, .i f.nbuffers, .i f.ntables, .i f.auxid,
    .i (makeBitmap f.capabilities), .i (makeBitmap f.actions)]) >>= fun h =>
  ports13ToBytes names f.ports >>= fun p => .ok (h ++ p)

/-- The loop of `from_bytes`, 1498-1501; every iteration consumes 64 bytes. -/
def readPorts13 (names : Bool) : Nat → Bytes → List Of13PhyPort → Option (Res (List Of13PhyPort × Bytes))
  | 0, _, _ => none
  | n + 1, raw, acc =>
    if raw.length < 64 then some (.ok (acc, raw))
    else
      match Of13PhyPort.fromBytes names raw with
      | .ok (p, rest) => readPorts13 names n rest (acc ++ [p])
      | .error e => some (.error e)

/-- The assignments of `from_bytes`, 1490-1502. -/
def Of13Features.ofFields (names : Bool) (rest : Bytes) : List Val → Res (Of13Features × Bytes)
  | [.b d, .i nb, .i nt, .i aux, .i c, .i a] =>
    checkTables nt >>= fun nt =>
    bound names ((readPorts13 names (rest.length + 1) rest []).getD (.error .diverges)) >>= fun p =>
    .ok (⟨d, nb.toNat, nt, aux, unpackBitmap c.toNat of13Capabilities, unpackBitmap a.toNat ofActionTypes, p.1⟩, p.2)
  | _ => .error .structError

/-- `from_bytes`, 1484-1502. -/
def Of13Features.fromBytes (names : Bool) (raw : Bytes) : Res (Of13Features × Bytes) :=
  if raw.length < 24 then .error .generic
  else unpack Of13Features.fmt (raw.take 24) >>= fun fs => Of13Features.ofFields names (raw.drop 24) fs

/-- The bodies of `OpenflowHeader._OpenflowTypeClasses`, 3249-3272.  An error body made by its
constructor has plain zeros as type and code (1712-1716): `none`.  A packet-out made by its constructor
has no packet (3049 assigns another name): `none`.  Ports are what the constructor was given. -/
inductive Of13Body
  | error (type code : Option Nat) (data : Bytes)
  | echo (data : Bytes)
  | experimenter (id : Int) (data : Bytes)
  | features (f : Of13Features)
  | config (flags : Nat) (missLen : Int)
  | packetIn (bufferId : Int) (inPort : Nat) (reason : Nat) (packet : Bytes)
  | flowRemoved (f : OfFlowRemoved)
  | portStatus (reason : Nat) (port : Of13PhyPort)
  | packetOut (bufferId : Int) (inPort : Nat) (actions : List OfAction) (packet : Option Bytes)
  | flowMod (f : OfFlowMod)
  | portMod (port : Int) (hwaddr : EthAddr) (config mask advertise : List Nat)
  | queueReq (port : Int)
  | queueReply (port : Int) (queues : List OfQueue)
  deriving DecidableEq, Repr

/-- `to_bytes` of the bodies: 1228-1229 (echo), 1258-1259 (configuration), 1351-1356 (flow modification), 1721-1723
(error), 1773-1774 (experimenter), 1815-1817 (port modification), 1920-1922 (port status), 2908-2910 and 2945-2948
(queues), 2987-2991 (packet in), 3085-3088 (packet out), 3133-3137 (flow removed).  A match is serialised with
`_make_bitmap` (416-422). -/
def Of13Body.toBytes (names : Bool) : Of13Body → Res Bytes
  | .error t c data => (OfBody.error t c data).toBytes
  | .echo data => .ok data
  | .experimenter v data => (OfBody.vendor v data).toBytes
  | .features f => f.toBytes names
  | .config fl ml => (OfBody.config fl ml).toBytes
  | .packetIn b p r data => (OfBody.packetIn b p r data).toBytes
  | .flowRemoved f => bound names f.toBytes
  | .portStatus r p => pack [.u 1, .x 7] [.i r] >>= fun h => p.toBytes names >>= fun b => .ok (h ++ b)
  | .packetOut b p acts data =>
    joinActions acts >>= fun a => pack [.u 4, .u 2, .u 2] [.i b, .i p, .i a.length] >>= fun h =>
    match data with
    | some data => .ok (h ++ a ++ data)
    | none => .error .attributeError
  | .flowMod f => bound names f.toBytes
  | .portMod p a c m ad =>
    bound names (pack portModFmt [.i p, .b a.raw, .i (makeBitmap c), .i (makeBitmap m), .i (makeBitmap ad)])
  | .queueReq p => pack [.u 2, .x 2] [.i p]
  | .queueReply p qs => pack [.u 2, .x 6] [.i p] >>= fun h => queuesToBytes qs >>= fun b => .ok (h ++ b)

/-- `OpenflowFlowMod.from_bytes`, 1358-1373: the flags are read before the actions. -/
def flowMod13FromBytes (names : Bool) (raw : Bytes) : Res OfFlowMod :=
  if raw.length < 64 then .error .generic
  else
    OfMatch.fromBytes (raw.take 40) >>= fun m =>
    unpack OfFlowMod.fmt ((raw.drop 40).take 24) >>= fun fs =>
    match fs with
    | [.i _, .i cmd, .i _, .i _, .i _, .i _, .i _, .i _] =>
      enumOf ofCommands cmd >>= fun _ => bound names (OfFlowMod.ofFields m.1 ((raw.drop 40).drop 24) fs)
    | _ => .error .structError

/-- `OpenflowPortMod.from_bytes`, 1819-1827. -/
def portMod13FromBytes (names : Bool) (raw : Bytes) : Res Of13Body :=
  if raw.length < 24 then .error .generic
  else
    unpack portModFmt raw >>= fun fs =>
    match fs with
    | [.i p, .b a, .i c, .i m, .i ad] =>
      EthAddr.mk' (.raw a) >>= fun a =>
      bound names (.ok (.portMod p a (unpackBitmap c.toNat ofPortConfig) (unpackBitmap m.toNat ofPortConfig)
        (unpackBitmap ad.toNat of13PortFeatures)))
    | _ => .error .structError

/-- `OpenflowPortStatus.from_bytes`, 1924-1930. -/
def portStatus13FromBytes (names : Bool) (raw : Bytes) : Res Of13Body :=
  if raw.length < 72 then .error .generic
  else
    unpack [.u 1, .x 7] (raw.take 8) >>= fun fs =>
    match fs with
    | [.i r] =>
      enumOf ofStatusReasons r >>= fun r => Of13PhyPort.fromBytes names (raw.drop 8) >>= fun p => .ok (.portStatus r p.1)
    | _ => .error .structError

/-- `OpenflowPacketIn.from_bytes`, 2993-3002. -/
def packetIn13FromBytes (names : Bool) (raw : Bytes) : Res Of13Body :=
  if raw.length < 10 then .error .generic
  else
    unpack [.u 4, .u 2, .u 2, .u 1, .x 1] (raw.take 10) >>= fun fs =>
    match fs with
    | [.i b, .i _, .i p, .i r] =>
      bound names (getPort p) >>= fun p => enumOf ofInReasons r >>= fun r => .ok (.packetIn b p r (raw.drop 10))
    | _ => .error .structError

/-- `OpenflowPacketOut.from_bytes`, 3090-3100. -/
def packetOut13FromBytes (names : Bool) (raw : Bytes) : Res Of13Body :=
  if raw.length < 8 then .error .generic
  else
    unpack [.u 4, .u 2, .u 2] (raw.take 8) >>= fun fs =>
    match fs with
    | [.i b, .i p, .i n] =>
      bound names (getPort p) >>= fun p =>
      unpackActions ((raw.drop 8).take n.toNat) >>= fun a => .ok (.packetOut b p a (some ((raw.drop 8).drop n.toNat)))
    | _ => .error .structError

/-- `OpenflowQueueGetConfigRequest.from_bytes`, 2912-2916. -/
def queueReq13FromBytes (names : Bool) (raw : Bytes) : Res Of13Body :=
  if raw.length < 4 then .error .generic
  else
    unpack [.u 2, .x 2] raw >>= fun fs =>
    match fs with
    | [.i p] => bound names (getPort p) >>= fun p => .ok (.queueReq p)
    | _ => .error .structError

/-- `OpenflowQueueGetConfigReply.from_bytes`, 2950-2963. -/
def queueReply13FromBytes (names : Bool) (raw : Bytes) : Res Of13Body :=
  if raw.length < 8 then .error .generic
  else
    unpack [.u 2, .x 6] (raw.take 8) >>= fun fs =>
    match fs with
    | [.i p] =>
      bound names (getPort p) >>= fun p =>
      ((readQueues (raw.length - 8 + 1) (raw.drop 8) []).getD (.error .diverges)) >>= fun qs => .ok (.queueReply p qs)
    | _ => .error .structError

/-- `from_bytes` of a new body of the class for a message type, called by the user: 1231-1232 (echo), 1261-1269
(configuration), 1725-1730 (error), 1776-1780 (experimenter), 3139-3153 (flow removed).  The types without a class have
no body (`none`). -/
def Of13Body.fromBytes (names : Bool) (type : Nat) (raw : Bytes) : Option (Res Of13Body) :=
  match type with
  | 1 =>
    some (unpack [.u 2, .u 2] (raw.take 4) >>= fun fs =>
      match fs with
      | [.i t, .i c] =>
        enumOf [0, 1, 2, 3, 4, 5] t >>= fun t =>
        enumOf ((ofErrorCodes t).getD []) c >>= fun c => .ok (.error (some t) (some c) (raw.drop 4))
      | _ => .error .structError)
  | 2 | 3 => some (.ok (.echo raw))
  | 4 =>
    some (unpack [.u 4] (raw.take 4) >>= fun fs =>
      match fs with
      | [.i v] => .ok (.experimenter v (raw.drop 4))
      | _ => .error .structError)
  | 6 => some (Of13Features.fromBytes names raw >>= fun f => .ok (.features f.1))
  | 8 | 9 =>
    some (if raw.length < 4 then .error .generic
      else
        unpack [.u 2, .u 2] (raw.take 4) >>= fun fs =>
        match fs with
        | [.i f, .i m] => enumOf ofConfigFlags f >>= fun f => .ok (.config f m)
        | _ => .error .structError)
  | 10 => some (packetIn13FromBytes names raw)
  | 11 => some (OfFlowRemoved.fromBytes raw >>= fun f => .ok (.flowRemoved f))
  | 12 => some (portStatus13FromBytes names raw)
  | 13 => some (packetOut13FromBytes names raw)
  | 14 => some (flowMod13FromBytes names raw >>= fun f => .ok (.flowMod f))
  | 16 => some (portMod13FromBytes names raw)
  | 22 => some (queueReq13FromBytes names raw)
  | 23 => some (queueReply13FromBytes names raw)
  | _ => none

/-- The bodies the constructors make: 1214 (echo), 1253 (configuration), 1336 (flow modification), 1466 (features), 1712
(error), 1765 (experimenter), 1804 (port modification), 1912 (port status), 2893 and 2924 (queues, which take a port),
2977 (packet in), 3044 (packet out), 3117 (flow removed). -/
def Of13Body.fresh (port : Int) : Nat → Option Of13Body
  | 1 => some (.error none none [])
  | 2 | 3 => some (.echo [])
  | 4 => some (.experimenter 0 [])
  | 6 => some (.features ⟨zeros 8, 0, 1, 0, [], [], []⟩)
  | 8 | 9 => some (.config 0 1500)
  | 10 => some (.packetIn 0xffffffff of13Any 0xff [])
  | 11 => some (.flowRemoved ⟨.default, 0, 0, 0xff, 0, 0, 0, 0, 0⟩)
  | 12 => some (.portStatus 2 ⟨0, EthAddr.any, [], [], [], [], [], [], [], 0, 0⟩)
  | 13 => some (.packetOut 0xffffffff of13Any [] none)
  | 14 => some (.flowMod ⟨.default, 0, 0, 0, 0, 0, 0, 0, [], []⟩)
  | 16 => some (.portMod 0 EthAddr.any [] [] [])
  | 22 => some (.queueReq port)
  | 23 => some (.queueReply port [])
  | _ => none

/-! ## What a program does with a body -/

/-- Assignments to attributes of bodies, and changes of their lists, by a program. -/
inductive Of13Op
  | errorType (v : Int)
  | errorCode (v : Int)
  | data (b : Bytes)
  | experimenter (v : Int)
  | flags (v : Int)
  | missLen (v : Int)
  | bufferId (v : Int)
  | port (v : Int)
  | reason (v : Int)
  | packet (b : Bytes)
  | action (a : OfAction)
  | queue (q : OfQueue)
  | physical (p : Of13PhyPort)
  | mtch (m : OfMatch)
  | auxid (v : Int)
  deriving DecidableEq, Repr

/-- The setters: `errortype` 1736-1739, `errorcode` 1745-1749 (for the plain 0 of the constructor the dictionary finds
the codes of type 0), `data` 1220-1226 and 1755-1757 and 1794-1796, `vendor` 1786-1788, `flags` 1275-1277,
`miss_send_len` 1283-1285, `buffer_id` 3008 and 3056, `in_port` 3016-3018 and 3063-3065, `port` of queue messages
2901-2903 and 2937-2939, `port` of a port modification 1840-1842, `reason` 1936-1938 and 3024-3026, `packet` 3032-3036
and 3075-3079, `actions` 3067-3069 and 1451-1453, `queues` 2930, `ports` 1611, `auxid` 1555; a match is given to the
constructor or (flow removed) assigned; `physical` appends to the ports of a features reply, or changes the attributes of
the port of a port status.  An attribute an object does not have is simply added to it: nothing else changes. -/
def Of13Body.apply (names : Bool) (b : Of13Body) : Of13Op → Res Of13Body
  | .errorType v =>
    match b with
    | .error _ c d => enumOf [0, 1, 2, 3, 4, 5] v >>= fun t => .ok (.error (some t) c d)
    | b => .ok b
  | .errorCode v =>
    match b with
    | .error t _ d => enumOf ((ofErrorCodes (t.getD 0)).getD []) v >>= fun c => .ok (.error t (some c) d)
    | b => .ok b
  | .data x =>
    match b with
    | .error t c _ => .ok (.error t c x)
    | .echo _ => .ok (.echo x)
    | .experimenter v _ => .ok (.experimenter v x)
    | b => .ok b
  | .experimenter v =>
    match b with
    | .experimenter _ d => .ok (.experimenter v d)
    | b => .ok b
  | .flags v =>
    match b with
    | .config _ m => enumOf ofConfigFlags v >>= fun f => .ok (.config f m)
    | .flowMod _ => .error .attributeError
    | b => .ok b
  | .missLen v =>
    match b with
    | .config f _ => .ok (.config f v)
    | b => .ok b
  | .bufferId v =>
    match b with
    | .packetIn _ p r d => .ok (.packetIn v p r d)
    | .packetOut _ p a d => .ok (.packetOut v p a d)
    | .flowMod f => .ok (.flowMod { f with bufferId := v })
    | b => .ok b
  | .port v =>
    match b with
    | .packetIn i _ r d => bound names (getPort v) >>= fun p => .ok (.packetIn i p r d)
    | .packetOut i _ a d => bound names (getPort v) >>= fun p => .ok (.packetOut i p a d)
    | .queueReq _ => bound names (getPort v) >>= fun p => .ok (.queueReq p)
    | .queueReply _ qs => bound names (getPort v) >>= fun p => .ok (.queueReply p qs)
    | .portMod _ a c m ad => .ok (.portMod v a c m ad)
    | .portStatus _ _ => .error .attributeError
    | b => .ok b
  | .reason v =>
    match b with
    | .packetIn i p _ d => enumOf ofInReasons v >>= fun r => .ok (.packetIn i p r d)
    | .portStatus _ p => enumOf ofStatusReasons v >>= fun r => .ok (.portStatus r p)
    | .flowRemoved f => enumOf ofRemovedReasons v >>= fun r => .ok (.flowRemoved { f with reason := r })
    | b => .ok b
  | .packet x =>
    match b with
    | .packetIn i p r _ => .ok (.packetIn i p r x)
    | .packetOut i p a _ => .ok (.packetOut i p a (some x))
    | b => .ok b
  | .action a =>
    match b with
    | .packetOut i p as d => .ok (.packetOut i p (as ++ [a]) d)
    | .flowMod f => .ok (.flowMod { f with actions := f.actions ++ [a] })
    | .features _ => bound names (.error .attributeError)
    | _ => .error .attributeError
  | .queue q =>
    match b with
    | .queueReply p qs => .ok (.queueReply p (qs ++ [q]))
    | _ => .error .attributeError
  | .physical p =>
    match b with
    | .features f => .ok (.features { f with ports := f.ports ++ [p] })
    | .portStatus r _ => .ok (.portStatus r p)
    | _ => .error .attributeError
  | .mtch m =>
    match b with
    | .flowRemoved f => .ok (.flowRemoved { f with mtch := m })
    | .flowMod f => .ok (.flowMod { f with mtch := m })
    | b => .ok b
  | .auxid v =>
    match b with
    | .features f => .ok (.features { f with auxid := v })
    | b => .ok b

/-- A program of such statements; one that raises leaves the body as it was. -/
def Of13Body.applyAll (names : Bool) (b : Of13Body) : List Of13Op → Of13Body
  | [] => b
  | o :: os =>
    match b.apply names o with
    | .ok b' => b'.applyAll names os
    | .error _ => b.applyAll names os

/-! ## Messages -/

/-- The type of a message object: a member of an enumeration, or a plain number, which the constructor
also accepts (3279) and which has no `value`. -/
inductive TypeArg
  | member (n : Nat)
  | plain (n : Int)
  deriving DecidableEq, Repr

/-- `_OpenflowTypeClasses.get(xtype)`, 3289: members and numbers are found alike. -/
def TypeArg.num : TypeArg → Int
  | .member n => n
  | .plain n => n

/-- A message: `OpenflowHeader`, 3238-3282, body, bytes added to the packet. -/
structure Of13Msg where
  version : Int
  type : TypeArg
  length : Int
  xid : Int
  body : Option Of13Body
  rest : Bytes
  deriving DecidableEq, Repr

/-- `OpenflowHeader.build(xtype, port, xid=xid, version=version)`, 3284-3292; only the queue messages take an argument. -/
def Of13Msg.build (type : TypeArg) (port xid version : Int) : Of13Msg :=
  ⟨version, type, 8, xid, if 0 ≤ type.num then Of13Body.fresh port type.num.toNat else none, []⟩

/-- `type` setter, 3310-3312. -/
def Of13Msg.setType (m : Of13Msg) (v : Int) : Res Of13Msg :=
  enumOf of13Types v >>= fun t => .ok { m with type := .member t }

/-- `self._type.value`, 3343. -/
def TypeArg.value : TypeArg → Res Int
  | .member n => .ok n
  | .plain _ => .error .attributeError

/-- The bytes of an optional body. -/
def body13Bytes (names : Bool) : Option Of13Body → Res Bytes
  | none => .ok []
  | some b => b.toBytes names

/-- `Packet.to_bytes` (packet.py 29-41) of a message: the body is serialised first, then `pre_serialize` sets the
length (3363-3367), then the header is serialised (3341-3343). -/
def Of13Msg.toBytes (names : Bool) (m : Of13Msg) : Res (Of13Msg × Bytes) :=
  body13Bytes names m.body >>= fun b =>
  m.type.value >>= fun t =>
  pack OfHeader.fmt [.i m.version, .i t, .i ((b ++ m.rest).length + 8 : Nat), .i m.xid] >>= fun hb =>
  .ok ({ m with length := ((b ++ m.rest).length + 8 : Nat) }, hb ++ (b ++ m.rest))

/-- `Packet.from_bytes(data, OpenflowHeader)`, with `OpenflowHeader.from_bytes`, 3322-3339: after the fields are read, the
type is compared with `OpenflowType.StatsRequest` (3335), which the enumeration of 14-44 does not have. -/
def Of13Msg.parse (raw : Bytes) : Res Of13Msg :=
  if raw.length < 8 then .error .generic
  else
    unpack OfHeader.fmt (raw.take 8) >>= fun fs =>
    match fs with
    | [.i _, .i t, .i _, .i _] => enumOf of13Types t >>= fun _ => .error .attributeError
    | _ => .error .structError

end SY
