import Verif.OfStats

/-! # OpenFlow 1.0 messages (`/repo/switchyard/lib/openflow/openflow10.py`, 34-391 and 1229-3389)

Statistics are in `Verif.OfStats`.  Attributes that hold what `int()` returned are
integers; text is its UTF-8 encoding.  A message is a `Packet` that starts with an `OpenflowHeader`:
the header, the body if its type has one, and uninterpreted bytes if any are left. -/

namespace SY

/-! ## Physical ports -/

/-- `OpenflowPortConfig`, 93-101. -/
def ofPortConfig : List Nat := [0, 1, 2, 4, 8, 16, 32, 64]
/-- `OpenflowPortState`, 83-90: `StpListen` and `StpMask` are other names of values already there. -/
def ofPortState : List Nat := [0, 1, 0x100, 0x200, 0x300]
/-- `OpenflowPortFeatures`, 104-117. -/
def ofPortFeatures : List Nat := [0, 1, 2, 4, 8, 16, 32, 64, 128, 256, 512, 1024, 2048]

/-- `OpenflowPhysicalPort`, 147-166. -/
structure OfPhyPort where
  portnum : Int
  hwaddr : EthAddr
  name : Bytes
  config : List Nat
  state : List Nat
  curr : List Nat
  advertised : List Nat
  supported : List Nat
  peer : List Nat
  deriving DecidableEq, Repr

/-- `_PACKFMT = '!H6s16sIIIIII'`, 150. -/
def OfPhyPort.fmt : List Fld := [.u 2, .s 6, .s 16, .u 4, .u 4, .u 4, .u 4, .u 4, .u 4]

/-- The values packed by `to_bytes`. -/
def OfPhyPort.vals (p : OfPhyPort) : List Val :=
  [.i p.portnum, .b p.hwaddr.raw, .b p.name, .i (makeBitmap p.config), .i (makeBitmap p.state),
   .i (makeBitmap p.curr), .i (makeBitmap p.advertised), .i (makeBitmap p.supported), .i (makeBitmap p.peer)]

/-- `to_bytes`, 168-174. -/
def OfPhyPort.toBytes (p : OfPhyPort) : Res Bytes := pack OfPhyPort.fmt p.vals

/-- The assignments of `from_bytes`, 182-191; the name is decoded first (184) and has at most 16
characters then. -/
def OfPhyPort.ofFields : List Val → Res OfPhyPort
  | [.i n, .b a, .b name, .i c, .i s, .i cu, .i ad, .i su, .i pe] =>
    EthAddr.mk' (.raw a) >>= fun a =>
    if utf8Valid name then
      .ok ⟨n, a, name, unpackBitmap c.toNat ofPortConfig, unpackBitmap s.toNat ofPortState,
        unpackBitmap cu.toNat ofPortFeatures, unpackBitmap ad.toNat ofPortFeatures,
        unpackBitmap su.toNat ofPortFeatures, unpackBitmap pe.toNat ofPortFeatures⟩
    else .error .valueError
  | _ => .error .structError

/-- `from_bytes`, 176-193. -/
def OfPhyPort.fromBytes (raw : Bytes) : Res (OfPhyPort × Bytes) :=
  if raw.length < 48 then .error .generic
  else unpack OfPhyPort.fmt (raw.take 48) >>= fun fs => OfPhyPort.ofFields fs >>= fun p => .ok (p, raw.drop 48)

/-! ## Queues -/

/-- `OpenflowQueueMinRateProperty.to_bytes`, 327-330: type 1, length 16, the rate. -/
def minRateToBytes (rate : Int) : Res Bytes := pack [.u 2, .u 2, .x 4, .u 2, .x 6] [.i 1, .i 16, .i rate]

/-- `OpenflowQueueMinRateProperty.from_bytes`, 332-339. -/
def minRateFromBytes (raw : Bytes) : Res Int :=
  if raw.length < 16 then .error .generic
  else
    unpack [.u 2, .u 2, .x 4, .u 2, .x 6] (raw.take 16) >>= fun fs =>
    match fs with
    | [.i t, .i l, .i r] => if t = 1 ∧ l = 16 then .ok r else .error .assertion
    | _ => .error .structError

/-- `OpenflowPacketQueue`, 347-355; its properties are minimum rates (the only class of 342-344). -/
structure OfQueue where
  id : Int
  rates : List Int
  deriving DecidableEq, Repr

/-- `b''.join(p.to_bytes() for p in self._properties)`, 373. -/
def ratesToBytes : List Int → Res Bytes
  | [] => .ok []
  | r :: rs => minRateToBytes r >>= fun a => ratesToBytes rs >>= fun b => .ok (a ++ b)

/-- `OpenflowPacketQueue.to_bytes`, 372-375. -/
def OfQueue.toBytes (q : OfQueue) : Res Bytes :=
  ratesToBytes q.rates >>= fun r => pack [.u 4, .u 2, .x 2] [.i q.id, .i (r.length + 8 : Nat)] >>= fun h => .ok (h ++ r)

/-- The loop of `from_bytes`, 384-390, with fuel: type 0 has no class, so `None()` raises. -/
def readRates : Nat → Bytes → List Int → Option (Res (List Int))
  | 0, _, _ => none
  | n + 1, raw, acc =>
    if raw = [] then some (.ok acc)
    else
      match unpack [.u 2, .u 2] (raw.take 4) with
      | .ok [.i t, .i l] =>
        if t = 1 then
          match minRateFromBytes (raw.take l.toNat) with
          | .ok r => readRates n (raw.drop l.toNat) (acc ++ [r])
          | .error e => some (.error e)
        else if t = 0 then some (.error .typeError)
        else some (.error .valueError)
      | .ok _ => some (.error .structError)
      | .error e => some (.error e)

/-- `OpenflowPacketQueue.from_bytes`, 377-390. -/
def OfQueue.fromBytes (raw : Bytes) : Res OfQueue :=
  if raw.length < 8 then .error .generic
  else
    unpack [.u 4, .u 2, .x 2] (raw.take 8) >>= fun fs =>
    match fs with
    | [.i id, .i _] =>
      ((readRates (raw.length + 1) (raw.drop 8) []).getD (.error .diverges)) >>= fun rs => .ok ⟨id, rs⟩
    | _ => .error .structError

/-- `b''.join([q.to_bytes() for q in self._queues])`, 2940 and 2946. -/
def queuesToBytes : List OfQueue → Res Bytes
  | [] => .ok []
  | q :: qs => q.toBytes >>= fun a => queuesToBytes qs >>= fun b => .ok (a ++ b)

/-- The loop of `OpenflowQueueGetConfigReply.from_bytes`, 2955-2961, with fuel. -/
def readQueues : Nat → Bytes → List OfQueue → Option (Res (List OfQueue))
  | 0, _, _ => none
  | n + 1, raw, acc =>
    if raw = [] then some (.ok acc)
    else
      match unpack [.u 4, .u 2] (raw.take 6) with
      | .ok [.i _, .i l] =>
        match OfQueue.fromBytes (raw.take l.toNat) with
        | .ok q => readQueues n (raw.drop l.toNat) (acc ++ [q])
        | .error e => some (.error e)
      | .ok _ => some (.error .structError)
      | .error e => some (.error e)

/-! ## Bodies -/

/-- `OpenflowConfigFlags`, 1261-1265. -/
def ofConfigFlags : List Nat := [0, 1, 2, 3]
/-- `FlowModCommand`, 1317-1322. -/
def ofCommands : List Nat := [0, 1, 2, 3, 4]
/-- `FlowModFlags`, 1325-1329. -/
def ofFlowModFlags : List Nat := [0, 1, 2, 4]
/-- `OpenflowCapabilities`, 120-129. -/
def ofCapabilities : List Nat := [0, 1, 2, 4, 8, 16, 32, 64, 128]
/-- `OpenflowPacketInReason`, 2964-2967. -/
def ofInReasons : List Nat := [0, 1, 0xff]
/-- `FlowRemovedReason`, 3101-3105. -/
def ofRemovedReasons : List Nat := [0, 1, 2, 0xff]
/-- `PortStatusReason`, 1899-1902. -/
def ofStatusReasons : List Nat := [0, 1, 2]
/-- `OpenflowErrorTypeCodes`, 1695-1702, with the enumerations of 1633-1692; the keys are equal to
their numbers. -/
def ofErrorCodes : Nat → Option (List Nat)
  | 0 => some [0, 1]
  | 1 => some [0, 1, 2, 3, 4, 5, 6, 7, 8]
  | 2 => some [0, 1, 2, 3, 4, 5, 6, 7, 8]
  | 3 => some [0, 1, 2, 3, 4, 5]
  | 4 => some [0, 1]
  | 5 => some [0, 1, 2]
  | _ => none

/-- `OpenflowFlowMod`, 1332-1357. -/
structure OfFlowMod where
  mtch : OfMatch
  cookie : Int
  command : Nat
  idle : Int
  hard : Int
  priority : Int
  bufferId : Int
  outPort : Int
  flags : List Nat
  actions : List OfAction
  deriving DecidableEq, Repr

/-- `OpenflowFlowRemoved`, 3108-3126. -/
structure OfFlowRemoved where
  mtch : OfMatch
  cookie : Int
  priority : Int
  reason : Nat
  durSec : Int
  durNsec : Int
  idle : Int
  packets : Int
  bytes : Int
  deriving DecidableEq, Repr

/-- `OpenflowSwitchFeaturesReply`, 1464-1481. -/
structure OfFeatures where
  dpid : Bytes
  nbuffers : Nat
  ntables : Nat
  capabilities : List Nat
  actions : List Nat
  ports : List OfPhyPort
  deriving DecidableEq, Repr

/-- The body objects.  An error body made by its constructor has plain zeros as type and code
(1710-1714), which cannot be serialised: `none`.  A packet-out made by its constructor has no packet
(3047 assigns another name): `none`. -/
inductive OfBody
  | error (type code : Option Nat) (data : Bytes)
  | echo (data : Bytes)
  | vendor (id : Int) (data : Bytes)
  | features (f : OfFeatures)
  | config (flags : Nat) (missLen : Int)
  | packetIn (bufferId : Int) (inPort : Nat) (reason : Nat) (packet : Bytes)
  | flowRemoved (f : OfFlowRemoved)
  | portStatus (reason : Nat) (port : OfPhyPort)
  | packetOut (bufferId : Int) (inPort : Nat) (actions : List OfAction) (packet : Option Bytes)
  | flowMod (f : OfFlowMod)
  | portMod (port : Int) (hwaddr : EthAddr) (config mask advertise : List Nat)
  | queueReq (port : Nat)
  | queueReply (port : Nat) (queues : List OfQueue)
  | stats (s : OfStats)
  deriving DecidableEq, Repr

/-- `OpenflowFlowMod._PACKFMT = '!QHHHHIHH'`, 1341. -/
def OfFlowMod.fmt : List Fld := [.u 8, .u 2, .u 2, .u 2, .u 2, .u 4, .u 2, .u 2]
/-- The values packed in 1361-1363. -/
def OfFlowMod.vals (f : OfFlowMod) : List Val :=
  [.i f.cookie, .i f.command, .i f.idle, .i f.hard, .i f.priority, .i f.bufferId, .i f.outPort,
   .i (makeBitmap f.flags)]
/-- `OpenflowFlowMod.to_bytes`, 1359-1364. -/
def OfFlowMod.toBytes (f : OfFlowMod) : Res Bytes :=
  f.mtch.toBytes >>= fun m => pack OfFlowMod.fmt f.vals >>= fun h => joinActions f.actions >>= fun a => .ok (m ++ h ++ a)

/-- The assignments of `OpenflowFlowMod.from_bytes`, 1373-1380. -/
def OfFlowMod.ofFields (m : OfMatch) (rest : Bytes) : List Val → Res OfFlowMod
  | [.i c, .i cmd, .i idle, .i hard, .i pr, .i b, .i o, .i fl] =>
    enumOf ofCommands cmd >>= fun cmd =>
    unpackActions rest >>= fun a =>
    .ok ⟨m, c, cmd, idle, hard, pr, b, o, unpackBitmap fl.toNat ofFlowModFlags, a⟩
  | _ => .error .structError

/-- `OpenflowFlowMod.from_bytes`, 1366-1381. -/
def OfFlowMod.fromBytes (raw : Bytes) : Res OfFlowMod :=
  if raw.length < 64 then .error .generic
  else
    OfMatch.fromBytes (raw.take 40) >>= fun m =>
    unpack OfFlowMod.fmt ((raw.drop 40).take 24) >>= fun fs => OfFlowMod.ofFields m.1 ((raw.drop 40).drop 24) fs

/-- `OpenflowFlowRemoved._PACKFMT = '!QHBxIIH2xQQ'`, 3112. -/
def OfFlowRemoved.fmt : List Fld := [.u 8, .u 2, .u 1, .x 1, .u 4, .u 4, .u 2, .x 2, .u 8, .u 8]
/-- The values packed in 3133-3135. -/
def OfFlowRemoved.vals (f : OfFlowRemoved) : List Val :=
  [.i f.cookie, .i f.priority, .i f.reason, .i f.durSec, .i f.durNsec, .i f.idle, .i f.packets, .i f.bytes]
/-- `OpenflowFlowRemoved.to_bytes`, 3131-3135. -/
def OfFlowRemoved.toBytes (f : OfFlowRemoved) : Res Bytes :=
  f.mtch.toBytes >>= fun m => pack OfFlowRemoved.fmt f.vals >>= fun h => .ok (m ++ h)
/-- The assignments of `OpenflowFlowRemoved.from_bytes`, 3144-3151. -/
def OfFlowRemoved.ofFields (m : OfMatch) : List Val → Res OfFlowRemoved
  | [.i c, .i pr, .i r, .i ds, .i dn, .i idle, .i p, .i b] =>
    enumOf ofRemovedReasons r >>= fun r => .ok ⟨m, c, pr, r, ds, dn, idle, p, b⟩
  | _ => .error .structError
/-- `OpenflowFlowRemoved.from_bytes`, 3137-3151; the rest of the bytes is dropped. -/
def OfFlowRemoved.fromBytes (raw : Bytes) : Res OfFlowRemoved :=
  if raw.length < 80 then .error .generic
  else
    OfMatch.fromBytes (raw.take 40) >>= fun m =>
    unpack OfFlowRemoved.fmt ((raw.drop 40).take 40) >>= fun fs => OfFlowRemoved.ofFields m.1 fs

/-- `for p in self._ports: rawpkt += p.to_bytes()`, 1487-1488. -/
def portsToBytes : List OfPhyPort → Res Bytes
  | [] => .ok []
  | p :: ps => p.toBytes >>= fun a => portsToBytes ps >>= fun b => .ok (a ++ b)

/-- `OpenflowSwitchFeaturesReply.to_bytes`, 1483-1489. -/
def OfFeatures.toBytes (f : OfFeatures) : Res Bytes :=
  pack [.s 8, .u 4, .u 1, .x 3, .u 4, .u 4]
    [.b f.dpid, .i f.nbuffers, .i f.ntables, .i (makeBitmap f.capabilities), .i (makeBitmap f.actions)] >>= fun h =>
  portsToBytes f.ports >>= fun p => .ok (h ++ p)

/-- The loop of `from_bytes`, 1504-1507; every iteration consumes 48 bytes. -/
def readPorts : Nat → Bytes → List OfPhyPort → Option (Res (List OfPhyPort × Bytes))
  | 0, _, _ => none
  | n + 1, raw, acc =>
    if raw.length < 48 then some (.ok (acc, raw))
    else
      match OfPhyPort.fromBytes raw with
      | .ok (p, rest) => readPorts n rest (acc ++ [p])
      | .error e => some (.error e)

/-- `ntables` setter, 1572-1578, called by `from_bytes` after `dpid` and `nbuffers`, which accept
everything that was unpacked. -/
def checkTables (v : Int) : Res Nat := if 0 < v ∧ v < 256 then .ok v.toNat else .error .valueError

/-- The assignments of `OpenflowSwitchFeaturesReply.from_bytes`, 1497-1508. -/
def OfFeatures.ofFields (rest : Bytes) : List Val → Res (OfFeatures × Bytes)
  | [.b d, .i nb, .i nt, .i c, .i a] =>
    checkTables nt >>= fun nt =>
    ((readPorts (rest.length + 1) rest []).getD (.error .diverges)) >>= fun p =>
    .ok (⟨d, nb.toNat, nt, unpackBitmap c.toNat ofCapabilities, unpackBitmap a.toNat ofActionTypes, p.1⟩, p.2)
  | _ => .error .structError

/-- `OpenflowSwitchFeaturesReply.from_bytes`, 1491-1508. -/
def OfFeatures.fromBytes (raw : Bytes) : Res (OfFeatures × Bytes) :=
  if raw.length < 24 then .error .generic
  else
    unpack [.s 8, .u 4, .u 1, .x 3, .u 4, .u 4] (raw.take 24) >>= fun fs => OfFeatures.ofFields (raw.drop 24) fs

/-- `add_actions`, 1625-1626: the members are numbers of actions, not bits. -/
def OfFeatures.addAction (f : OfFeatures) (v : Int) : Res OfFeatures :=
  enumOf ofActionTypes v >>= fun t => .ok { f with actions := setAdd ofActionTypes f.actions t }

/-- `OpenflowPortMod._PACKFMT = '!H6sIII4x'`, 1799. -/
def portModFmt : List Fld := [.u 2, .s 6, .u 4, .u 4, .u 4, .x 4]

/-- `to_bytes` of the bodies: 1249-1250 (echo), 1278-1279 (configuration), 1719-1721 (error),
1771-1772 (vendor), 1813-1815 (port modification), 1918-1920 (port status), 2906-2908 and 2943-2946
(queues), 2985-2989 (packet in), 3083-3086 (packet out). -/
def OfBody.toBytes : OfBody → Res Bytes
  | .error (some t) (some c) data => pack [.u 2, .u 2] [.i t, .i c] >>= fun h => .ok (h ++ data)
  | .error _ _ _ => .error .attributeError
  | .echo data => .ok data
  | .vendor v data => pack [.u 4] [.i v] >>= fun h => .ok (h ++ data)
  | .features f => f.toBytes
  | .config fl ml => pack [.u 2, .u 2] [.i fl, .i ml]
  | .packetIn b p r data =>
    pack [.u 4, .u 2, .u 2, .u 1, .x 1] [.i b, .i (data.length + 10 : Nat), .i p, .i r] >>= fun h => .ok (h ++ data)
  | .flowRemoved f => f.toBytes
  | .portStatus r p => pack [.u 1, .x 7] [.i r] >>= fun h => p.toBytes >>= fun b => .ok (h ++ b)
  | .packetOut b p acts (some data) =>
    joinActions acts >>= fun a => pack [.u 4, .u 2, .u 2] [.i b, .i p, .i a.length] >>= fun h => .ok (h ++ a ++ data)
  | .packetOut _ _ acts none => joinActions acts >>= fun _ => .error .attributeError
  | .flowMod f => f.toBytes
  | .portMod p a c m ad =>
    pack portModFmt [.i p, .b a.raw, .i (makeBitmap c), .i (makeBitmap m), .i (makeBitmap ad)]
  | .queueReq p => pack [.u 2, .x 2] [.i p]
  | .queueReply p qs => pack [.u 2, .x 6] [.i p] >>= fun h => queuesToBytes qs >>= fun b => .ok (h ++ b)
  | .stats s => s.toBytes

/-- `size` of the bodies: 1236 (echo), 1307 (configuration), 1383 (flow modification), 1510 (features), 1716 (error),
1768 (vendor), 1810 (port modification), 1915 (port status), 2903 and 2939 (queues), 2982 (packet in), 3079 (packet
out), 3128 (flow removed). -/
def OfBody.size : OfBody → Res Nat
  | .error _ _ data => .ok (4 + data.length)
  | .echo data => .ok data.length
  | .vendor _ data => .ok (4 + data.length)
  | .features f => f.toBytes >>= fun b => .ok b.length
  | .config _ _ => .ok 4
  | .packetIn _ _ _ data => .ok (10 + data.length)
  | .flowRemoved _ => .ok 80
  | .portStatus _ _ => .ok 56
  | .packetOut _ _ acts (some data) => joinActions acts >>= fun a => .ok (8 + data.length + a.length)
  | .packetOut _ _ acts none => joinActions acts >>= fun _ => .error .attributeError
  | .flowMod f => f.toBytes >>= fun b => .ok b.length
  | .portMod _ _ _ _ _ => .ok 24
  | .queueReq _ => .ok 4
  | .queueReply _ qs => queuesToBytes qs >>= fun b => .ok (8 + b.length)
  | .stats s => s.body.size

/-- `OpenflowError.from_bytes`, 1723-1728: `errortype` setter, 1734-1737, then `errorcode` setter, 1743-1747. -/
def readErrorBody (data : Bytes) : List Val → Res OfBody
  | [.i t, .i c] =>
    enumOf [0, 1, 2, 3, 4, 5] t >>= fun t =>
    enumOf ((ofErrorCodes t).getD []) c >>= fun c => .ok (.error (some t) (some c) data)
  | _ => .error .structError

/-- `OpenflowSetConfig.from_bytes`, 1281-1289. -/
def readConfigBody : List Val → Res OfBody
  | [.i f, .i m] => enumOf ofConfigFlags f >>= fun f => .ok (.config f m)
  | _ => .error .structError

/-- `OpenflowPacketIn.from_bytes`, 2991-3000. -/
def readInBody (data : Bytes) : List Val → Res OfBody
  | [.i b, .i _, .i p, .i r] =>
    getPort p >>= fun p => enumOf ofInReasons r >>= fun r => .ok (.packetIn b p r data)
  | _ => .error .structError

/-- `OpenflowPacketOut.from_bytes`, 3088-3098. -/
def readOutBody (rest : Bytes) : List Val → Res OfBody
  | [.i b, .i p, .i n] =>
    getPort p >>= fun p =>
    unpackActions (rest.take n.toNat) >>= fun a => .ok (.packetOut b p a (some (rest.drop n.toNat)))
  | _ => .error .structError

/-- `OpenflowPortStatus.from_bytes`, 1922-1928. -/
def readStatusBody (rest : Bytes) : List Val → Res OfBody
  | [.i r] => enumOf ofStatusReasons r >>= fun r => OfPhyPort.fromBytes rest >>= fun p => .ok (.portStatus r p.1)
  | _ => .error .structError

/-- `OpenflowPortMod.from_bytes`, 1817-1825. -/
def readPortModBody : List Val → Res OfBody
  | [.i p, .b a, .i c, .i m, .i ad] =>
    EthAddr.mk' (.raw a) >>= fun a =>
    .ok (.portMod p a (unpackBitmap c.toNat ofPortConfig) (unpackBitmap m.toNat ofPortConfig)
      (unpackBitmap ad.toNat ofPortFeatures))
  | _ => .error .structError

/-- `OpenflowQueueGetConfigReply.from_bytes`, 2948-2961. -/
def readQueueBody (rest : Bytes) : List Val → Res OfBody
  | [.i p] =>
    getPort p >>= fun p =>
    ((readQueues (rest.length + 1) rest []).getD (.error .diverges)) >>= fun qs => .ok (.queueReply p qs)
  | _ => .error .structError

/-- The class of the body for a message type (`_OpenflowTypeClasses`, 3260-3283), and its
`from_bytes` on what follows the header: the body, if the type has one, and the bytes left over, if
any (`from_bytes` that returns nothing leaves none).  Types without a class or unknown leave all
bytes.  `PortMod` and the queue request unpack all of them (1820, 2913). -/
def OfBody.parse (type : Nat) (raw : Bytes) : Res (Option OfBody × Bytes) :=
  match type with
  | 1 =>
    unpack [.u 2, .u 2] (raw.take 4) >>= fun fs => readErrorBody (raw.drop 4) fs >>= fun b => .ok (some b, [])
  | 2 | 3 => .ok (some (.echo raw), [])
  | 4 =>
    unpack [.u 4] (raw.take 4) >>= fun fs =>
    match fs with
    | [.i v] => .ok (some (.vendor v (raw.drop 4)), [])
    | _ => .error .structError
  | 6 => OfFeatures.fromBytes raw >>= fun f => .ok (some (.features f.1), f.2)
  | 8 | 9 =>
    if raw.length < 4 then .error .generic
    else unpack [.u 2, .u 2] (raw.take 4) >>= fun fs => readConfigBody fs >>= fun b => .ok (some b, raw.drop 4)
  | 10 =>
    if raw.length < 10 then .error .generic
    else
      unpack [.u 4, .u 2, .u 2, .u 1, .x 1] (raw.take 10) >>= fun fs =>
      readInBody (raw.drop 10) fs >>= fun b => .ok (some b, [])
  | 11 => OfFlowRemoved.fromBytes raw >>= fun f => .ok (some (.flowRemoved f), [])
  | 12 =>
    if raw.length < 56 then .error .generic
    else unpack [.u 1, .x 7] (raw.take 8) >>= fun fs => readStatusBody (raw.drop 8) fs >>= fun b => .ok (some b, [])
  | 13 =>
    if raw.length < 8 then .error .generic
    else
      unpack [.u 4, .u 2, .u 2] (raw.take 8) >>= fun fs => readOutBody (raw.drop 8) fs >>= fun b => .ok (some b, [])
  | 14 => OfFlowMod.fromBytes raw >>= fun f => .ok (some (.flowMod f), [])
  | 15 =>
    if raw.length < 24 then .error .generic
    else unpack portModFmt raw >>= fun fs => readPortModBody fs >>= fun b => .ok (some b, [])
  | 16 => OfStats.parse false raw >>= fun s => .ok (some (.stats s), [])
  | 17 => OfStats.parse true raw >>= fun s => .ok (some (.stats s), [])
  | 20 =>
    if raw.length < 4 then .error .generic
    else
      unpack [.u 2, .x 2] raw >>= fun fs =>
      match fs with
      | [.i p] => getPort p >>= fun p => .ok (some (.queueReq p), [])
      | _ => .error .structError
  | 21 =>
    if raw.length < 8 then .error .generic
    else unpack [.u 2, .x 6] (raw.take 8) >>= fun fs => readQueueBody (raw.drop 8) fs >>= fun b => .ok (some b, [])
  | _ => .ok (none, raw)

/-! ## Messages -/

/-- `OpenflowHeader`, 3250-3293; `type` is the number, of a known type or not (3321-3331). -/
structure OfHeader where
  version : Int
  type : Int
  length : Int
  xid : Int
  deriving DecidableEq, Repr

/-- A message: header, body, bytes after it (none, or a `RawPacketContents`). -/
structure OfMsg where
  hdr : OfHeader
  body : Option OfBody
  rest : Bytes
  deriving DecidableEq, Repr

/-- `_PACKFMT = '!BBHI'`, 3258. -/
def OfHeader.fmt : List Fld := [.u 1, .u 1, .u 2, .u 4]

/-- `OpenflowHeader.to_bytes`, 3359-3361. -/
def OfHeader.toBytes (h : OfHeader) : Res Bytes :=
  pack OfHeader.fmt [.i h.version, .i h.type, .i h.length, .i h.xid]

/-- The bytes of an optional body. -/
def bodyBytes : Option OfBody → Res Bytes
  | none => .ok []
  | some b => b.toBytes

/-- `Packet.to_bytes` (packet.py 29-41) of a message: the body is serialised first, then
`pre_serialize` sets the length (3378-3382), then the header is serialised. -/
def OfMsg.toBytes (m : OfMsg) : Res (OfMsg × Bytes) :=
  bodyBytes m.body >>= fun b =>
  let h := { m.hdr with length := ((b ++ m.rest).length + 8 : Nat) }
  h.toBytes >>= fun hb => .ok ({ m with hdr := h }, hb ++ (b ++ m.rest))

/-- `Packet.from_bytes(data, OpenflowHeader)`: header (3341-3357), then the body. -/
def OfMsg.parse (raw : Bytes) : Res OfMsg :=
  if raw.length < 8 then .error .generic
  else
    unpack OfHeader.fmt (raw.take 8) >>= fun fs =>
    match fs with
    | [.i v, .i t, .i l, .i x] =>
      OfBody.parse t.toNat (raw.drop 8) >>= fun b => .ok ⟨⟨v, t, l, x⟩, b.1, b.2⟩
    | _ => .error .structError

/-- `len(packet)` (packet.py 19-27) of a message: the sizes of its headers are added; the header has 8 (3363). -/
def OfMsg.size (m : OfMsg) : Res Nat :=
  (match m.body with | none => .ok 0 | some b => b.size) >>= fun n => .ok (8 + (n + m.rest.length))

/-- The bodies the constructors make: 1232 (echo), 1273 (configuration), 1344 (flow modification),
1474 (features), 1710 (error), 1763 (vendor), 1802 (port modification), 1910 (port status), 1959 (statistics), 2891 and
2922 (queues), 2975 (packet in), 3042 (packet out), 3115 (flow removed). -/
def OfBody.fresh : Nat → Option OfBody
  | 1 => some (.error none none [])
  | 2 | 3 => some (.echo [])
  | 4 => some (.vendor 0 [])
  | 6 => some (.features ⟨zeros 8, 0, 1, [], [], []⟩)
  | 8 | 9 => some (.config 0 1500)
  | 10 => some (.packetIn 0xffffffff 0xffff 0xff [])
  | 11 => some (.flowRemoved ⟨.default, 0, 0, 0xff, 0, 0, 0, 0, 0⟩)
  | 12 => some (.portStatus 2 ⟨0, EthAddr.any, [], [], [], [], [], [], []⟩)
  | 13 => some (.packetOut 0xffffffff 0xffff [] none)
  | 14 => some (.flowMod ⟨.default, 0, 0, 0, 0, 0, 0, 0, [], []⟩)
  | 15 => some (.portMod 0 EthAddr.any [] [] [])
  | 16 | 17 => some (.stats ⟨0xdead, .empty⟩)
  | 20 => some (.queueReq 0)
  | 21 => some (.queueReply 0 [])
  | _ => none

/-- `OpenflowHeader.build(type, xid=xid, version=version)`, 3295-3303, without further arguments. -/
def OfMsg.build (type xid version : Int) : OfMsg := ⟨⟨version, type, 8, xid⟩, OfBody.fresh type.toNat, []⟩

end SY
