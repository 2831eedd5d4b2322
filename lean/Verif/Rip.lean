import Verif.IPv4
import Verif.Udp

/-! # RIPv2 (`/repo/switchyard/lib/packet/ripv2.py`) and the BSD loopback header
(`/repo/switchyard/lib/packet/null.py`) -/

namespace SY

/-- The netmask of prefix length `p` (`IPv4Network.netmask`, Python library). -/
def netmask4 (p : Nat) : Nat := 2 ^ 32 - 2 ^ (32 - p)

/-- The prefix length of a dotted-quad netmask (`ipaddress._prefix_from_ip_string`, Python library):
contiguous masks first, then contiguous host masks, else `ValueError`. -/
def prefixOfMask (m : Nat) : Res Nat :=
  match (List.range 33).find? (fun p => netmask4 p == m) with
  | some p => .ok p
  | none =>
    match (List.range 33).find? (fun p => netmask4 p == 2 ^ 32 - 1 - m) with
    | some p => .ok p
    | none => .error .valueError

/-- `IPv4Network("addr/mask", strict=False)`: network address and prefix length; host bits are
cleared. -/
def ipv4Network (addr mask : Nat) : Res (Nat × Nat) :=
  prefixOfMask mask >>= fun p => .ok (addr / 2 ^ (32 - p) * 2 ^ (32 - p), p)

/-- `RIPRouteEntry` object, ripv2.py 22, 26-31.  Family, tag and metric are not validated. -/
structure RIPRoute where
  family : Int
  tag : Int
  net : Nat
  plen : Nat
  nexthop : BitVec 32
  metric : Int
  deriving DecidableEq, Repr

/-- `_PACKFMT = '!HHIIII'`, 23. -/
def RIPRoute.fmt : List Fld := [.u 2, .u 2, .u 4, .u 4, .u 4, .u 4]

/-- `RIPRouteEntry(address, netmask, nexthop, family, metric, tag)`, 26-31 (addresses as integers). -/
def RIPRoute.new (address mask : BitVec 32) (nexthop : BitVec 32) (family metric tag : Int) : Res RIPRoute :=
  ipv4Network address.toNat mask.toNat >>= fun n => .ok ⟨family, tag, n.1, n.2, nexthop, metric⟩

/-- The arguments of `struct.pack`, 44-47. -/
def RIPRoute.vals (r : RIPRoute) : List Val :=
  [.i r.family, .i r.tag, .i r.net, .i (netmask4 r.plen), .i r.nexthop.toNat, .i r.metric]

/-- `RIPRouteEntry.to_bytes`, 43-47. -/
def RIPRoute.toBytes (r : RIPRoute) : Res Bytes := pack RIPRoute.fmt r.vals

/-- `RIPRouteEntry.from_bytes`, 49-63. -/
def RIPRoute.fromBytes (raw : Bytes) : Res RIPRoute :=
  if raw.length ≠ 20 then .error .notEnoughData
  else
    unpack RIPRoute.fmt raw >>= fun fields =>
    match fields with
    | [.i f, .i t, .i a, .i m, .i n, .i x] =>
      ipv4Network a.toNat m.toNat >>= fun net =>
      .ok ⟨f, t, net.1, net.2, BitVec.ofNat 32 n.toNat, x⟩
    | _ => .error .structError

/-- `RIPv2` object, 99. -/
structure RIPv2 where
  command : Nat
  routes : List RIPRoute
  deriving DecidableEq, Repr

/-- `RIPv2()`, 103-108. -/
def RIPv2.default : RIPv2 := ⟨1, []⟩

/-- `command` setter, 177-179. -/
def RIPv2.setCommand (h : RIPv2) (v : Int) : Res RIPv2 :=
  enumOf [1, 2] v >>= fun c => .ok { h with command := c }

/-- `append`, 168-171. -/
def RIPv2.append (h : RIPv2) (r : RIPRoute) : RIPv2 := { h with routes := h.routes ++ [r] }

/-- `b''.join([r.to_bytes() for r in self._routes])`, 118. -/
def routesBytes : List RIPRoute → Res Bytes
  | [] => .ok []
  | r :: rs => r.toBytes >>= fun b => routesBytes rs >>= fun t => .ok (b ++ t)

/-- `to_bytes`, 113-119. -/
def RIPv2.toBytes (h : RIPv2) : Res Bytes :=
  pack [.u 1, .u 1, .x 2] [.i h.command, .i 2] >>= fun hdr =>
  routesBytes h.routes >>= fun r => .ok (hdr ++ r)

/-- `__len__`, 147-148: the number of routes (it overrides the length in bytes of
`PacketHeaderBase`). -/
def RIPv2.size (h : RIPv2) : Nat := h.routes.length

/-- The loop 137-138: `n` entries are appended one by one; an exception leaves those appended
before it. -/
def ripLoop : Nat → RIPv2 → Bytes → RIPv2 × Option PyErr
  | 0, h, _ => (h, none)
  | n + 1, h, remain =>
    match RIPRoute.fromBytes (remain.take 20) with
    | .ok r => ripLoop n (h.append r) (remain.drop 20)
    | .error e => (h, some e)

/-- `from_bytes`, 121-138, on the object `h`; the second component is the exception raised, if any
(the object is modified before it).  Returns Python `None` otherwise. -/
def RIPv2.load (h : RIPv2) (raw : Bytes) : RIPv2 × Option PyErr :=
  if raw.length < 4 then (h, some .notEnoughData)
  else
    match unpack [.u 1, .u 1, .x 2] (raw.take 4) with
    | .ok [.i c, .i v] =>
      match h.setCommand c with
      | .ok h => if v ≠ 2 then (h, some .valueError) else ripLoop ((raw.drop 4).length / 20) h (raw.drop 4)
      | .error e => (h, some e)
    | .ok _ => (h, some .structError)
    | .error e => (h, some e)

/-- `RIPv2(raw)`, 103-108, for a non-empty `raw` (and `RIPv2().from_bytes(raw)`). -/
def RIPv2.fromBytes (raw : Bytes) : Res RIPv2 :=
  match RIPv2.default.load raw with
  | (h, none) => .ok h
  | (_, some e) => .error e

/-- `__getitem__` with an integer, 150-157. -/
def RIPv2.get (h : RIPv2) (i : Int) : Res RIPRoute :=
  let i := if i < 0 then h.routes.length + i else i
  if 0 ≤ i ∧ i < h.routes.length then
    match h.routes[i.toNat]? with
    | some r => .ok r
    | none => .error .indexError
  else .error .indexError

/-- `__setitem__`, 159-166. -/
def RIPv2.set (h : RIPv2) (i : Int) (r : RIPRoute) : Res RIPv2 :=
  let i := if i < 0 then h.routes.length + i else i
  if 0 ≤ i ∧ i < h.routes.length then .ok { h with routes := h.routes.set i.toNat r }
  else .error .indexError

/-- `__eq__` against another RIPv2 header, 140-141. -/
def RIPv2.eq (h k : RIPv2) : Res Bool :=
  h.toBytes >>= fun a => k.toBytes >>= fun b => .ok (decide (a = b))

/-! ## Null header -/

/-- `to_bytes`, null.py 37-41: `'=I'` is the byte order of the machine, taken to be little-endian. -/
def nullToBytes (af : Int) : Res Bytes :=
  if 0 ≤ af ∧ af < (2 ^ 32 : Nat) then .ok (beEnc 4 af.toNat).reverse else .error .structError

/-- `from_bytes`, 43-50. -/
def nullFromBytes (raw : Bytes) : Res (Int × Bytes) :=
  if raw.length < 4 then .error .notEnoughData
  else .ok (beDec (raw.take 4).reverse, raw.drop 4)

/-! ## Facts used by the property files -/

theorem netmask4_lt (p : Nat) : netmask4 p < 2 ^ 32 := by
  have : 0 < 2 ^ (32 - p) := Nat.two_pow_pos _
  unfold netmask4; omega

theorem prefixOfMask_netmask {p : Nat} (h : p ≤ 32) : prefixOfMask (netmask4 p) = .ok p := by
  have : ∀ p : Fin 33, prefixOfMask (netmask4 p.val) = .ok p.val := by decide +kernel
  exact this ⟨p, by omega⟩

theorem prefixOfMask_le {m p : Nat} (h : prefixOfMask m = .ok p) : p ≤ 32 := by
  unfold prefixOfMask at h
  split at h
  · rename_i q hq
    cases h
    have := List.mem_of_find?_eq_some hq
    simp at this; omega
  · split at h
    · rename_i q hq
      cases h
      have := List.mem_of_find?_eq_some hq
      simp at this; omega
    · cases h

theorem ripLoop_routes (n : Nat) (h : RIPv2) (raw : Bytes) :
    ∃ rs, (ripLoop n h raw).1 = { h with routes := h.routes ++ rs } ∧
      ((ripLoop n h raw).2 = none → rs.length = n) := by
  induction n generalizing h raw with
  | zero => exact ⟨[], by simp [ripLoop], fun _ => rfl⟩
  | succ n ih =>
    simp only [ripLoop]
    cases hr : RIPRoute.fromBytes (raw.take 20) with
    | error e => exact ⟨[], by simp, by simp⟩
    | ok r =>
      obtain ⟨rs, h1, h2⟩ := ih (h.append r) (raw.drop 20)
      exact ⟨r :: rs, by simp only [h1]; simp [RIPv2.append], fun hn => by simp only at hn; simp [h2 hn]⟩

end SY
