import Verif.OpenFlow

/-! # OpenFlow 1.0 statistics (`/repo/switchyard/lib/openflow/openflow10.py`, 1943-2883)

Attributes that hold what `int()` returned are integers; text is its UTF-8 encoding. -/

namespace SY

/-- A continuation byte of UTF-8. -/
def utf8Cont (b : UInt8) : Bool := 0x80 ≤ b && b ≤ 0xBF

/-- Whether `bytes.decode('utf8')` succeeds (Python library: well-formed UTF-8 by the table of the
Unicode standard). -/
def utf8Valid : Bytes → Bool
  | [] => true
  | a :: r =>
    if a < 0x80 then utf8Valid r
    else match r with
      | [] => false
      | b :: r =>
        if 0xC2 ≤ a && a ≤ 0xDF then utf8Cont b && utf8Valid r
        else match r with
          | [] => false
          | c :: r =>
            if 0xE0 ≤ a && a ≤ 0xEF then
              utf8Cont b && (a != 0xE0 || 0xA0 ≤ b) && (a != 0xED || b ≤ 0x9F) && utf8Cont c && utf8Valid r
            else match r with
              | [] => false
              | d :: r =>
                0xF0 ≤ a && a ≤ 0xF4 && utf8Cont b && (a != 0xF0 || 0x90 ≤ b) && (a != 0xF4 || b ≤ 0x8F) &&
                  utf8Cont c && utf8Cont d && utf8Valid r

/-- `OpenflowStatsType`, 1943-1951. -/
def ofStatsTypes : List Nat := [0, 1, 2, 3, 4, 5, 0xffff, 0xdead]

/-- `IndividualFlowStatsReply`, 2267-2285. -/
structure OfFlowStats where
  tableId : Int
  mtch : OfMatch
  durSec : Int
  durNsec : Int
  priority : Int
  idle : Int
  hard : Int
  cookie : Int
  packets : Int
  bytes : Int
  actions : List OfAction
  deriving DecidableEq, Repr

/-- `TableStatsReply`, 2474-2486.  `nwsrc_wildcard` and `nwdst_wildcard` are attributes that only
`from_bytes` sets (2511-2526). -/
structure OfTableStats where
  tableId : Int
  name : Bytes
  wildcards : List Nat
  srcBits : Option Int
  dstBits : Option Int
  maxEntries : Int
  active : Int
  lookups : Int
  matched : Int
  deriving DecidableEq, Repr

/-- `PortStatsReply`, 2600-2615. -/
structure OfPortStats where
  port : Int
  rxPackets : Int
  txPackets : Int
  rxBytes : Int
  txBytes : Int
  rxDropped : Int
  txDropped : Int
  rxErrors : Int
  txErrors : Int
  rxFrame : Int
  rxOver : Int
  rxCrc : Int
  collisions : Int
  deriving DecidableEq, Repr

/-- The statistics classes with their attributes: `empty` has none (1954-1987, 2046-2049); requests for
individual and aggregate flows (1990-2043) have the same. -/
inductive StatsBody
  | empty
  | flowReq (mtch : OfMatch) (tableId : Int) (outPort : Nat)
  | portReq (port : Nat)
  | queueReq (port : Nat) (queue : Int)
  | vendorReq (id : Int) (data : Bytes)
  | desc (mfr hw sw serial dp : Bytes)
  | flow (f : OfFlowStats)
  | aggregate (bytes packets flows : Int)
  | table (t : OfTableStats)
  | port (p : OfPortStats)
  | queue (port queue txBytes txPackets txErrors : Int)
  | vendor (id : Int) (data : Bytes)
  deriving DecidableEq, Repr

/-- A statistics object: its `type` (1964-1970) and the attributes of its class. -/
structure OfStats where
  type : Nat
  body : StatsBody
  deriving DecidableEq, Repr

/-! ## Construction -/

/-- A request without arguments: 1984-1987, 1996-2000 (also inherited by the class of 2041-2043), 2046-2049,
2057-2059, 2097-2100, 2148-2151; `none` for a type that has no class. -/
def OfStats.request : Nat → Option OfStats
  | 0 => some ⟨0, .empty⟩
  | 1 => some ⟨1, .flowReq .default 0 0⟩
  | 2 => some ⟨1, .flowReq .default 0 0⟩
  | 3 => some ⟨3, .empty⟩
  | 4 => some ⟨4, .portReq 0xffff⟩
  | 5 => some ⟨5, .queueReq 0xffff 0⟩
  | 0xffff => some ⟨0xffff, .vendorReq 0xffffffff []⟩
  | _ => none

/-- A reply without arguments: 2196-2202, 2276-2285, 2428-2430, 2480-2486, 2607-2615, 2757-2760, 2827-2830. -/
def OfStats.reply : Nat → Option OfStats
  | 0 => some ⟨0, .desc [] [] [] [] []⟩
  | 1 => some ⟨1, .flow ⟨0, .default, 0, 0, 0, 0, 0, 0, 0, 0, []⟩⟩
  | 2 => some ⟨2, .aggregate 0 0 0⟩
  | 3 => some ⟨3, .table ⟨0, [], [], none, none, 0, 0, 0, 0⟩⟩
  | 4 => some ⟨4, .port ⟨0, 0, 0, 0, 0, 0, 0, 0, 0, 0, 0, 0, 0⟩⟩
  | 5 => some ⟨5, .queue 0 0 0 0 0⟩
  | 0xffff => some ⟨0xffff, .vendor 0 []⟩
  | _ => none

/-- `IndividualFlowStatsRequest(table_id=.., out_port=..)`, 1996-2000: the setters run first (`packet.py` 249-251),
then the attributes get their defaults. -/
def OfStats.flowRequest (_tableId outPort : Option Int) : Res OfStats :=
  (match outPort with | some p => getPort p >>= fun _ => .ok () | none => .ok ()) >>= fun _ =>
  .ok ⟨1, .flowReq .default 0 0⟩

/-- `wildcards` getter of table replies, 2544-2550: the attributes it needs are set by `from_bytes` only. -/
def OfTableStats.wildcardNames (t : OfTableStats) : Res (Int × Int × List Nat) :=
  match t.srcBits, t.dstBits with
  | some s, some d => .ok (s, d, t.wildcards)
  | _, _ => .error .attributeError

/-! ## Serialising -/

/-- `_PACKFMT2 = '!IIHHH6xQQQ'`, 2272. -/
def OfFlowStats.fmt : List Fld := [.u 4, .u 4, .u 2, .u 2, .u 2, .x 6, .u 8, .u 8, .u 8]
/-- The values packed in 2294-2296. -/
def OfFlowStats.vals (f : OfFlowStats) : List Val :=
  [.i f.durSec, .i f.durNsec, .i f.priority, .i f.idle, .i f.hard, .i f.cookie, .i f.packets, .i f.bytes]
/-- `_PACKFMT = '!B3x32sIIIQQ'`, 2477. -/
def OfTableStats.fmt : List Fld := [.u 1, .x 3, .s 32, .u 4, .u 4, .u 4, .u 8, .u 8]
/-- The values packed in 2494-2496. -/
def OfTableStats.vals (t : OfTableStats) : List Val :=
  [.i t.tableId, .b t.name, .i (makeBitmap t.wildcards), .i t.maxEntries, .i t.active, .i t.lookups, .i t.matched]
/-- `_PACKFMT = '!H6x12Q'`, 2604. -/
def OfPortStats.fmt : List Fld :=
  [.u 2, .x 6, .u 8, .u 8, .u 8, .u 8, .u 8, .u 8, .u 8, .u 8, .u 8, .u 8, .u 8, .u 8]
/-- The values packed in 2622-2625. -/
def OfPortStats.vals (p : OfPortStats) : List Val :=
  [.i p.port, .i p.rxPackets, .i p.txPackets, .i p.rxBytes, .i p.txBytes, .i p.rxDropped, .i p.txDropped,
   .i p.rxErrors, .i p.txErrors, .i p.rxFrame, .i p.rxOver, .i p.rxCrc, .i p.collisions]

/-- What `to_bytes` of the classes writes after the header: 2025-2027, 2080-2081, 2129-2131, 2172-2174,
2247-2252, 2291-2300, 2435-2437, 2491-2496, 2620-2625, 2765-2767, 2835-2837. -/
def StatsBody.toBytes : StatsBody → Res Bytes
  | .empty => .ok []
  | .flowReq m t p => m.toBytes >>= fun a => pack [.u 1, .x 1, .u 2] [.i t, .i p] >>= fun b => .ok (a ++ b)
  | .portReq p => pack [.u 2, .x 6] [.i p]
  | .queueReq p q => pack [.u 2, .x 2, .u 4] [.i p, .i q]
  | .vendorReq v d => pack [.u 4] [.i v] >>= fun h => .ok (h ++ d)
  | .desc a b c s d => pack [.s 256, .s 256, .s 256, .s 32, .s 256] [.b a, .b b, .b c, .b s, .b d]
  | .flow f =>
    f.mtch.toBytes >>= fun m => pack OfFlowStats.fmt f.vals >>= fun h => joinActions f.actions >>= fun a =>
    pack [.u 2, .u 1, .x 1] [.i (92 + a.length : Nat), .i f.tableId] >>= fun l => .ok (l ++ (m ++ (h ++ a)))
  | .aggregate b p n => pack [.u 8, .u 8, .u 4] [.i b, .i p, .i n]
  | .table t => pack OfTableStats.fmt t.vals
  | .port p => pack OfPortStats.fmt p.vals
  | .queue p q b n e => pack [.u 2, .x 2, .u 4, .u 8, .u 8, .u 8] [.i p, .i q, .i b, .i n, .i e]
  | .vendor v d => pack [.u 4] [.i v] >>= fun h => .ok (h ++ d)

/-- `to_bytes`: the header of 1975-1976, with flags 0, first. -/
def OfStats.toBytes (s : OfStats) : Res Bytes :=
  pack [.u 2, .u 2] [.i s.type, .i 0] >>= fun h => s.body.toBytes >>= fun b => .ok (h ++ b)

/-- `size` (1972, 2022, 2077, 2126, 2169, 2244, 2287-2289, 2432, 2488, 2617, 2762, 2832); that of queue
replies is the one of port replies, that of vendor requests leaves out the header. -/
def StatsBody.size : StatsBody → Res Nat
  | .empty => .ok 4
  | .flowReq _ _ _ => .ok 48
  | .portReq _ => .ok 12
  | .queueReq _ _ => .ok 12
  | .vendorReq _ d => .ok (4 + d.length)
  | .desc _ _ _ _ _ => .ok 1060
  | .flow f => joinActions f.actions >>= fun a => .ok (92 + a.length)
  | .aggregate _ _ _ => .ok 24
  | .table _ => .ok 68
  | .port _ => .ok 108
  | .queue _ _ _ _ _ => .ok 108
  | .vendor _ d => .ok (8 + d.length)

/-! ## Parsing -/

/-- `IndividualFlowStatsRequest.from_bytes`, 2029-2038, after the header. -/
def readFlowReq (raw : Bytes) : Res StatsBody :=
  OfMatch.fromBytes (raw.take 40) >>= fun m =>
  unpack [.u 1, .x 1, .u 2] (raw.drop 40) >>= fun fs =>
  match fs with
  | [.i t, .i p] => getPort p >>= fun p => .ok (.flowReq m.1 t p)
  | _ => .error .structError

/-- `PortStatsRequest.from_bytes`, 2083-2089. -/
def readPortReq (raw : Bytes) : Res StatsBody :=
  unpack [.u 2, .x 6] raw >>= fun fs =>
  match fs with
  | [.i p] => getPort p >>= fun p => .ok (.portReq p)
  | _ => .error .structError

/-- `QueueStatsRequest.from_bytes`, 2133-2140. -/
def readQueueReq (raw : Bytes) : Res StatsBody :=
  unpack [.u 2, .x 2, .u 4] raw >>= fun fs =>
  match fs with
  | [.i p, .i q] => getPort p >>= fun p => .ok (.queueReq p q)
  | _ => .error .structError

/-- `VendorStatsRequest.from_bytes`, 2176-2183, and `VendorStatsReply.from_bytes`, 2839-2846. -/
def readVendorStats (raw : Bytes) : Res (Int × Bytes) :=
  unpack [.u 4] (raw.take 4) >>= fun fs =>
  match fs with
  | [.i v] => .ok (v, raw.drop 4)
  | _ => .error .structError

/-- `SwitchDescriptionStatsReply.from_bytes`, 2254-2264. -/
def readDesc (raw : Bytes) : Res StatsBody :=
  unpack [.s 256, .s 256, .s 256, .s 32, .s 256] raw >>= fun fs =>
  match fs with
  | [.b a, .b b, .b c, .b s, .b d] =>
    if utf8Valid a && utf8Valid b && utf8Valid c && utf8Valid s && utf8Valid d then .ok (.desc a b c s d)
    else .error .valueError
  | _ => .error .structError

/-- The assignments of `IndividualFlowStatsReply.from_bytes`, 2309-2326; the length in 2309 is not used: all
bytes that follow are actions. -/
def OfFlowStats.ofFields (m : OfMatch) (acts : Bytes) : List Val → List Val → Res OfFlowStats
  | [.i _, .i t], [.i ds, .i dn, .i pr, .i idle, .i hard, .i c, .i p, .i b] =>
    unpackActions acts >>= fun a => .ok ⟨t, m, ds, dn, pr, idle, hard, c, p, b, a⟩
  | _, _ => .error .structError

/-- `IndividualFlowStatsReply.from_bytes`, 2302-2326. -/
def readFlowStats (raw : Bytes) : Res StatsBody :=
  unpack [.u 2, .u 1, .x 1] (raw.take 4) >>= fun f0 =>
  OfMatch.fromBytes ((raw.drop 4).take 40) >>= fun m =>
  unpack OfFlowStats.fmt (((raw.drop 4).drop 40).take 44) >>= fun f1 =>
  OfFlowStats.ofFields m.1 (((raw.drop 4).drop 40).drop 44) f0 f1 >>= fun f => .ok (.flow f)

/-- `AggregateFlowStatsReply.from_bytes`, 2439-2447. -/
def readAggregate (raw : Bytes) : Res StatsBody :=
  unpack [.u 8, .u 8, .u 4] raw >>= fun fs =>
  match fs with
  | [.i b, .i p, .i n] => .ok (.aggregate b p n)
  | _ => .error .structError

/-- The assignments of `TableStatsReply.from_bytes`, 2504-2533: the test of 2506 compares the name with a number
and fails. -/
def OfTableStats.ofFields : List Val → Res OfTableStats
  | [.i t, .b name, .i w, .i mx, .i ac, .i lk, .i mt] =>
    if utf8Valid name then
      .ok ⟨t, name, simpleWildcards.filter fun v => v &&& w.toNat == v,
        some ((w.toNat &&& 0x3f00) >>> 8 : Nat), some ((w.toNat &&& 0xfc000) >>> 14 : Nat), mx, ac, lk, mt⟩
    else .error .valueError
  | _ => .error .structError

/-- `TableStatsReply.from_bytes`, 2498-2533. -/
def readTableStats (raw : Bytes) : Res StatsBody :=
  unpack OfTableStats.fmt raw >>= fun fs => OfTableStats.ofFields fs >>= fun t => .ok (.table t)

/-- `rx_crc_errors` setter, 2739-2741: it assigns to another attribute. -/
def OfPortStats.setRxCrc (p : OfPortStats) (v : Int) : OfPortStats := { p with rxOver := v }

/-- The assignments of `PortStatsReply.from_bytes`, 2633-2645, to a new object. -/
def OfPortStats.ofFields : List Val → Res OfPortStats
  | [.i n, .i rp, .i tp, .i rb, .i tb, .i rd, .i td, .i re, .i te, .i rf, .i ro, .i rc, .i co] =>
    .ok { (OfPortStats.mk n rp tp rb tb rd td re te rf ro 0 0).setRxCrc rc with collisions := co }
  | _ => .error .structError

/-- `PortStatsReply.from_bytes`, 2627-2645. -/
def readPortStats (raw : Bytes) : Res StatsBody :=
  unpack OfPortStats.fmt raw >>= fun fs => OfPortStats.ofFields fs >>= fun p => .ok (.port p)

/-- `QueueStatsReply.from_bytes`, 2769-2779. -/
def readQueueStats (raw : Bytes) : Res StatsBody :=
  unpack [.u 2, .x 2, .u 4, .u 8, .u 8, .u 8] raw >>= fun fs =>
  match fs with
  | [.i p, .i q, .i b, .i n, .i e] => .ok (.queue p q b n e)
  | _ => .error .structError

/-- The number of bytes `from_bytes` needs (`_MINLEN` of the class): 1957, 1994, 2055, 2095, 2146, 2194, 2273-2274,
2426, 2478, 2605, 2755, 2825. -/
def statsMinLen (reply : Bool) (type : Nat) : Nat :=
  match reply, type with
  | false, 1 | false, 2 => 48
  | false, 4 | false, 5 => 12
  | false, 0xffff => 8
  | true, 0 => 1060
  | true, 1 => 92
  | true, 2 => 24
  | true, 3 => 68
  | true, 4 => 108
  | true, 5 => 36
  | true, 0xffff => 8
  | _, _ => 4

/-- `from_bytes` of the class named after the type (3366-3374), after the header; a type without class raises
`KeyError` there. -/
def readStats (reply : Bool) (type : Nat) (raw : Bytes) : Res StatsBody :=
  match reply, type with
  | false, 0 | false, 3 => .ok .empty
  | false, 1 | false, 2 => readFlowReq raw
  | false, 4 => readPortReq raw
  | false, 5 => readQueueReq raw
  | false, 0xffff => readVendorStats raw >>= fun v => .ok (.vendorReq v.1 v.2)
  | true, 0 => readDesc raw
  | true, 1 => readFlowStats raw
  | true, 2 => readAggregate raw
  | true, 3 => readTableStats raw
  | true, 4 => readPortStats raw
  | true, 5 => readQueueStats raw
  | true, 0xffff => readVendorStats raw >>= fun v => .ok (.vendor v.1 v.2)
  | _, _ => .error .keyError

/-- The statistics object in a message of type 16 or 17, from what follows the header: the type is read by
the header (3353-3356), which then looks for the class (3366-3374; without a type a request raises
`AttributeError`, a reply is read by the class of 1954-1982), then the class reads everything (1978-1982 reads the
type again).  Bytes after the fields are dropped by the classes without fields; the others unpack all bytes. -/
def OfStats.parse (reply : Bool) (raw : Bytes) : Res OfStats :=
  if raw.length < 2 then .error (if reply then .generic else .attributeError)
  else
    enumOf ofStatsTypes (beDec (raw.take 2)) >>= fun t =>
    if t = 0xdead then .error .keyError
    else if raw.length < statsMinLen reply t then .error .generic
    else readStats reply t (raw.drop 4) >>= fun b => .ok ⟨t, b⟩

end SY
