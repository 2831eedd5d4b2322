import Verif.Of13

/-! # OpenFlow 1.3 statistics (`/repo/switchyard/lib/openflow/openflow13.py`, 1943-2885)

The classes have the text of those in `openflow10.py` (`Verif.OfStats`), but the names `_make_bitmap` and `_get_port` are not
bound in this module (`names`, see `Verif.Of13`), and a new request for a port or a queue has the port `Any`, which has 32 bits.
No message of the module has such a body; programs make the objects themselves.  Attributes that hold what `int()` returned are
integers; text is its UTF-8 encoding. -/

namespace SY

/-- A statistics class: a request or a reply, and the type under which it is kept in 2867-2885. -/
structure StatsCls where
  reply : Bool
  type : Nat
  deriving DecidableEq, Repr

/-- A new object of a class: requests 1989-1990, 1998-2002 (also inherited by 2043-2045), 2050-2051, 2059-2061, 2099-2102,
2150-2153; replies 2198-2204, 2278-2287, 2430-2432, 2482-2488, 2609-2617, 2759-2762, 2829-2832. -/
def StatsCls.new (c : StatsCls) : Option OfStats :=
  match c.reply, c.type with
  | false, 4 => some ⟨4, .portReq of13Any⟩
  | false, 5 => some ⟨5, .queueReq of13Any 0⟩
  | false, t => OfStats.request t
  | true, t => OfStats.reply t

/-- `to_bytes` after the header: a match (416-422) and the table reply (2493-2498) need `_make_bitmap` before anything else, the
others are as in `openflow10.py`: 2082-2083, 2131-2133, 2174-2176, 2249-2254, 2293-2302, 2437-2439, 2622-2627, 2767-2769,
2837-2839. -/
def StatsBody.toBytes13 (names : Bool) : StatsBody → Res Bytes
  | .flowReq m t p => bound names (StatsBody.flowReq m t p).toBytes
  | .flow f => bound names (StatsBody.flow f).toBytes
  | .table t => bound names (StatsBody.table t).toBytes
  | b => b.toBytes

/-- `to_bytes`: the header of 1977-1978 first. -/
def OfStats.toBytes13 (names : Bool) (s : OfStats) : Res Bytes :=
  pack [.u 2, .u 2] [.i s.type, .i 0] >>= fun h => s.body.toBytes13 names >>= fun b => .ok (h ++ b)

/-- `IndividualFlowStatsRequest.from_bytes`, 2031-2040, after the header. -/
def readFlowReq13 (names : Bool) (raw : Bytes) : Res StatsBody :=
  OfMatch.fromBytes (raw.take 40) >>= fun m =>
  unpack [.u 1, .x 1, .u 2] (raw.drop 40) >>= fun fs =>
  match fs with
  | [.i t, .i p] => bound names (getPort p) >>= fun p => .ok (.flowReq m.1 t p)
  | _ => .error .structError

/-- `PortStatsRequest.from_bytes`, 2085-2091. -/
def readPortReq13 (names : Bool) (raw : Bytes) : Res StatsBody :=
  unpack [.u 2, .x 6] raw >>= fun fs =>
  match fs with
  | [.i p] => bound names (getPort p) >>= fun p => .ok (.portReq p)
  | _ => .error .structError

/-- `QueueStatsRequest.from_bytes`, 2135-2142. -/
def readQueueReq13 (names : Bool) (raw : Bytes) : Res StatsBody :=
  unpack [.u 2, .x 2, .u 4] raw >>= fun fs =>
  match fs with
  | [.i p, .i q] => bound names (getPort p) >>= fun p => .ok (.queueReq p q)
  | _ => .error .structError

/-- `from_bytes` of the class after the header: the requests above; the others are as in `openflow10.py`: 2178-2185, 2256-2266,
2304-2328, 2441-2449, 2500-2535, 2629-2647, 2771-2781, 2841-2848. -/
def StatsCls.read (names : Bool) (c : StatsCls) (raw : Bytes) : Res StatsBody :=
  match c.reply, c.type with
  | false, 1 | false, 2 => readFlowReq13 names raw
  | false, 4 => readPortReq13 names raw
  | false, 5 => readQueueReq13 names raw
  | r, t => readStats r t raw

/-- `from_bytes` of a new object of the class, called by a program: all classes check the length, then read the type with
1980-1984, and then the rest. -/
def StatsCls.fromBytes (names : Bool) (c : StatsCls) (raw : Bytes) : Res OfStats :=
  if raw.length < statsMinLen c.reply c.type then .error .generic
  else
    enumOf ofStatsTypes (beDec (raw.take 2)) >>= fun t => c.read names (raw.drop 4) >>= fun b => .ok ⟨t, b⟩

/-! ## What a program does with an object -/

/-- Attributes that hold a number. -/
inductive StatsNum
  | tableId | durSec | durNsec | priority | idle | hard | cookie | packets | bytes | flows | maxEntries | active | lookups | matched
  | rxPackets | txPackets | rxBytes | txBytes | rxDropped | txDropped | rxErrors | txErrors | rxFrame | rxOver | rxCrc | collisions
  | queueId | vendorId
  deriving DecidableEq, Repr

/-- Attributes that hold a text. -/
inductive StatsTxt
  | mfr | hw | sw | serial | dp | name
  deriving DecidableEq, Repr

/-- Assignments to attributes and changes of their objects. -/
inductive Stats13Op
  | type (v : Int)
  | num (a : StatsNum) (v : Int)
  | port (v : Int)
  | outPort (v : Int)
  | data (b : Bytes)
  | text (a : StatsTxt) (b : Bytes)
  | mtch (m : OfMatch)
  | action (a : OfAction)
  | wildcard (v : Int)
  | noWildcard (v : Int)
  | resetWildcards
  | allWildcards
  deriving DecidableEq, Repr

/-- Numbers of the flow reply, 2333-2418 (not `duration`, 2383-2386, which takes a `float`). -/
def OfFlowStats.setNum (f : OfFlowStats) (a : StatsNum) (v : Int) : OfFlowStats :=
  match a with
  | .tableId => { f with tableId := v } | .durSec => { f with durSec := v } | .durNsec => { f with durNsec := v }
  | .priority => { f with priority := v } | .idle => { f with idle := v } | .hard => { f with hard := v }
  | .cookie => { f with cookie := v } | .packets => { f with packets := v } | .bytes => { f with bytes := v }
  | _ => f

/-- Numbers of the table reply, 2565-2599. -/
def OfTableStats.setNum (t : OfTableStats) (a : StatsNum) (v : Int) : OfTableStats :=
  match a with
  | .tableId => { t with tableId := v } | .maxEntries => { t with maxEntries := v } | .active => { t with active := v }
  | .lookups => { t with lookups := v } | .matched => { t with matched := v }
  | _ => t

/-- Numbers of the port reply, 2661-2751; the setter of 2741-2743 assigns to another attribute. -/
def OfPortStats.setNum (p : OfPortStats) (a : StatsNum) (v : Int) : OfPortStats :=
  match a with
  | .rxPackets => { p with rxPackets := v } | .txPackets => { p with txPackets := v } | .rxBytes => { p with rxBytes := v }
  | .txBytes => { p with txBytes := v } | .rxDropped => { p with rxDropped := v } | .txDropped => { p with txDropped := v }
  | .rxErrors => { p with rxErrors := v } | .txErrors => { p with txErrors := v } | .rxFrame => { p with rxFrame := v }
  | .rxOver => { p with rxOver := v } | .rxCrc => p.setRxCrc v | .collisions => { p with collisions := v }
  | _ => p

/-- `attribute = number`: 2012-2014, 2124-2126, 2159-2161, 2455-2473, 2795-2821, 2854-2856 and those above.  An attribute that the
object does not have is simply added. -/
def StatsBody.setNum (b : StatsBody) (a : StatsNum) (v : Int) : StatsBody :=
  match b, a with
  | .flowReq m _ p, .tableId => .flowReq m v p
  | .queueReq p _, .queueId => .queueReq p v
  | .vendorReq _ d, .vendorId => .vendorReq v d
  | .flow f, a => .flow (f.setNum a v)
  | .aggregate _ p n, .bytes => .aggregate v p n
  | .aggregate b _ n, .packets => .aggregate b v n
  | .aggregate b p _, .flows => .aggregate b p v
  | .table t, a => .table (t.setNum a v)
  | .port p, a => .port (p.setNum a v)
  | .queue p _ b n e, .queueId => .queue p v b n e
  | .queue p q _ n e, .txBytes => .queue p q v n e
  | .queue p q b _ e, .txPackets => .queue p q b v e
  | .queue p q b n _, .txErrors => .queue p q b n v
  | .vendor _ d, .vendorId => .vendor v d
  | b, _ => b

/-- `attribute = text`: 2210-2244, 2536-2538. -/
def StatsBody.setText (b : StatsBody) (a : StatsTxt) (s : Bytes) : StatsBody :=
  match b, a with
  | .desc _ b c x d, .mfr => .desc s b c x d
  | .desc a _ c x d, .hw => .desc a s c x d
  | .desc a b _ x d, .sw => .desc a b s x d
  | .desc a b c _ d, .serial => .desc a b c s d
  | .desc a b c x _, .dp => .desc a b c x s
  | .table t, .name => .table { t with name := s }
  | b, _ => b

/-- `port` and `port_no`: 2067-2077, 2108-2118 with `_get_port`; 2653-2655, 2787-2789 with `int`. -/
def StatsBody.setPort (names : Bool) (b : StatsBody) (v : Int) : Res StatsBody :=
  match b with
  | .portReq _ => bound names (getPort v) >>= fun p => .ok (.portReq p)
  | .queueReq _ q => bound names (getPort v) >>= fun p => .ok (.queueReq p q)
  | .port p => .ok (.port { p with port := v })
  | .queue _ q b n e => .ok (.queue v q b n e)
  | b => .ok b

/-- `out_port`, 2020-2022. -/
def StatsBody.setOutPort (names : Bool) (b : StatsBody) (v : Int) : Res StatsBody :=
  match b with
  | .flowReq m t _ => bound names (getPort v) >>= fun p => .ok (.flowReq m t p)
  | b => .ok b

/-- `data`, 2167-2169 and 2862-2864. -/
def StatsBody.setData (b : StatsBody) (x : Bytes) : StatsBody :=
  match b with
  | .vendorReq v _ => .vendorReq v x
  | .vendor v _ => .vendor v x
  | b => b

/-- The match of a flow request is changed (2005-2006 has no setter), that of a reply is assigned (2341-2345). -/
def StatsBody.setMatch (b : StatsBody) (m : OfMatch) : StatsBody :=
  match b with
  | .flowReq _ t p => .flowReq m t p
  | .flow f => .flow { f with mtch := m }
  | b => b

/-- `actions.append`, with 2420-2422. -/
def StatsBody.addAction (b : StatsBody) (a : OfAction) : Res StatsBody :=
  match b with
  | .flow f => .ok (.flow { f with actions := f.actions ++ [a] })
  | _ => .error .attributeError

/-- `OpenflowWildcard`, 715-736. -/
def of13Wildcards : List Nat :=
  [1, 2, 4, 8, 16, 32, 64, 128, 0x3f00, 0xfc000, 0x100000, 0x200000, 0x2000, 0x80000, 0x3fffff]

/-- `add_wildcard`, 2548-2550. -/
def StatsBody.addWildcard (b : StatsBody) (v : Int) : Res StatsBody :=
  match b with
  | .table t => enumOf of13Wildcards v >>= fun w =>
      .ok (.table { t with wildcards := if w ∈ t.wildcards then t.wildcards else t.wildcards ++ [w] })
  | _ => .error .attributeError

/-- `remove_wildcard`, `reset_wildcards` and `wildcard_all`, 2552-2559: `f` is what they do to the set. -/
def StatsBody.mapWildcards (b : StatsBody) (f : List Nat → List Nat) : Res StatsBody :=
  match b with
  | .table t => .ok (.table { t with wildcards := f t.wildcards })
  | _ => .error .attributeError

/-- A statement of a program; `type` is 1970-1972. -/
def OfStats.apply13 (names : Bool) (s : OfStats) : Stats13Op → Res OfStats
  | .type v => enumOf ofStatsTypes v >>= fun t => .ok { s with type := t }
  | .num a v => .ok { s with body := s.body.setNum a v }
  | .port v => s.body.setPort names v >>= fun b => .ok { s with body := b }
  | .outPort v => s.body.setOutPort names v >>= fun b => .ok { s with body := b }
  | .data x => .ok { s with body := s.body.setData x }
  | .text a x => .ok { s with body := s.body.setText a x }
  | .mtch m => .ok { s with body := s.body.setMatch m }
  | .action a => s.body.addAction a >>= fun b => .ok { s with body := b }
  | .wildcard v => s.body.addWildcard v >>= fun b => .ok { s with body := b }
  | .noWildcard v => s.body.mapWildcards (fun ws => ws.filter fun w => (w : Int) != v) >>= fun b => .ok { s with body := b }
  | .resetWildcards => s.body.mapWildcards (fun _ => []) >>= fun b => .ok { s with body := b }
  | .allWildcards => s.body.mapWildcards (fun _ => [0x3fffff]) >>= fun b => .ok { s with body := b }

/-- A program of such statements; one that raises leaves the object as it was. -/
def OfStats.applyAll13 (names : Bool) (s : OfStats) : List Stats13Op → OfStats
  | [] => s
  | o :: os =>
    match s.apply13 names o with
    | .ok s' => s'.applyAll13 names os
    | .error _ => s.applyAll13 names os

end SY
