import Verif.Udp

/-! # TCP (`/repo/switchyard/lib/packet/tcp.py`) -/

namespace SY

/-- `TCP` object, tcp.py 67-84.  Setters (160-218) store any integer.
Simplifications: `_options` (29-54) has no public way to gain an element, `TCPOption` has no
concrete subclass, and `TCPOptions.from_bytes` ignores its input (52-54), so the option list is
always empty and is not represented; `_len` is written immediately before each use
(`pre_serialize`) and is a local here. -/
structure TCP where
  src : Int
  dst : Int
  seq : Int
  ack : Int
  flags : Nat
  window : Int
  urg : Int
  csum : Nat
  deriving DecidableEq, Repr

/-- `_PACKFMT = '!HHIIHHHH'`, 70. -/
def TCP.fmt : List Fld := [.u 2, .u 2, .u 4, .u 4, .u 2, .u 2, .u 2, .u 2]

/-- `TCP()`, 75-84. -/
def TCP.default : TCP := ⟨0, 0, 0, 0, 0, 0, 0, 0⟩

/-- `TCPFlags`, 56-65: the enumeration value is the bit number. -/
inductive TCPFlag where
  | FIN | SYN | RST | PSH | ACK | URG | ECE | CWR | NS
  deriving DecidableEq, Repr

/-- `TCPFlags.value`, 56-65. -/
def TCPFlag.value : TCPFlag → Nat
  | .FIN => 0 | .SYN => 1 | .RST => 2 | .PSH => 3 | .ACK => 4
  | .URG => 5 | .ECE => 6 | .CWR => 7 | .NS => 8

/-- `_isset`, 224-228, and the nine getters 237-303. -/
def TCP.isset (h : TCP) (f : TCPFlag) : Bool :=
  let mask := 1 <<< f.value
  (h.flags &&& mask) == mask

/-- `_setflag`, 230-235, and the nine setters 241-307.  `flags & ~mask` on a non-negative Python
integer clears exactly the bits of `mask`, written here as `flags ^ (flags & mask)`. -/
def TCP.setflag (h : TCP) (f : TCPFlag) (v : Bool) : TCP :=
  let mask := 1 <<< f.value
  if v then { h with flags := h.flags ||| mask }
  else { h with flags := h.flags ^^^ (h.flags &&& mask) }

/-- `size`, 86-87. -/
def TCP.size (_ : TCP) : Nat := calcsize TCP.fmt

/-- `offset`, 148-150 (no options). -/
def TCP.offset (_ : TCP) : Nat := 20 / 4

/-- The values packed by `_make_header`, 103-107. -/
def TCP.vals (h : TCP) (csum : Nat) : List Val :=
  [.i h.src, .i h.dst, .i h.seq, .i h.ack, .i ((h.offset <<< 12 ||| h.flags : Nat) : Int),
    .i h.window, .i csum, .i h.urg]

/-- `_make_header`, 103-108. -/
def TCP.makeHeader (h : TCP) (csum : Nat) : Res Bytes := pack TCP.fmt (h.vals csum)

/-- `to_bytes`, 110-115 (no options). -/
def TCP.toBytes (h : TCP) : Res Bytes := h.makeHeader h.csum

/-- `from_bytes`, 117-135, into a new object.  The received checksum is read into a local and
dropped (130). -/
def TCP.fromBytes (raw : Bytes) : Res (TCP × Bytes) :=
  if raw.length < 20 then .error .notEnoughData
  else
    unpack TCP.fmt (raw.take 20) >>= fun fields =>
    match fields with
    | [.i s, .i d, .i sq, .i ak, .i f, .i w, .i _, .i u] =>
      let offset := f.toNat >>> 12
      .ok (⟨s, d, sq, ak, f.toNat &&& 0x1ff, w, u, 0⟩, raw.drop (offset * 4))
    | _ => .error .structError

/-- `__eq__`, 137-146. -/
def TCP.eq (h k : TCP) : Bool :=
  decide (h.src = k.src) && decide (h.dst = k.dst) && decide (h.seq = k.seq) &&
  decide (h.ack = k.ack) && decide (h.offset = k.offset) && decide (h.flags = k.flags) &&
  decide (h.window = k.window) && decide (h.urg = k.urg)

/-- `'!IIxBH'`, 92. -/
def TCP.pseudoFmt : List Fld := [.u 4, .u 4, .x 1, .u 1, .u 2]

/-- `_compute_checksum_ipv4`, 89-95. -/
def TCP.computeChecksum (h : TCP) (len : Nat) (ip4 : Option IPv4) (xdata : Bytes) : Res Nat :=
  match ip4 with
  | none => .ok 0
  | some ip =>
    pack TCP.pseudoFmt [.i ip.src.toNat, .i ip.dst.toNat, .i ip.protocol, .i len] >>= fun phdr =>
    h.makeHeader 0 >>= fun tcphdr =>
    .ok (checksum (phdr ++ tcphdr ++ xdata))

/-- `pre_serialize`, 97-101; `ip4` is `pkt.get_header_by_name('IPv4')`. -/
def TCP.preSerialize (h : TCP) (tail : Bytes) (ip4 : Option IPv4) : Res TCP :=
  h.computeChecksum (h.size + tail.length) ip4 tail >>= fun c => .ok { h with csum := c }

/-! ## Facts used by the property files -/

/-- In-range fields. -/
def TCP.WF (h : TCP) : Prop :=
  (0 ≤ h.src ∧ h.src < 65536) ∧ (0 ≤ h.dst ∧ h.dst < 65536) ∧
  (0 ≤ h.seq ∧ h.seq < 4294967296) ∧ (0 ≤ h.ack ∧ h.ack < 4294967296) ∧ h.flags < 512 ∧
  (0 ≤ h.window ∧ h.window < 65536) ∧ (0 ≤ h.urg ∧ h.urg < 65536) ∧ h.csum < 65536

instance (h : TCP) : Decidable h.WF := by unfold TCP.WF; infer_instance

theorem TCP.offset_flags (h : TCP) (hf : h.flags < 512) :
    h.offset <<< 12 ||| h.flags = 20480 + h.flags := by
  have : h.offset = 5 := rfl
  rw [this, Nat.shiftLeft_eq]
  have := Nat.two_pow_add_eq_or_of_lt (i := 12) (b := h.flags) (by omega) 5
  rw [Nat.mul_comm 5, ← this]

theorem TCP.fits {h : TCP} (w : h.WF) (c : Nat) (hc : c < 65536) : Fits TCP.fmt (h.vals c) := by
  obtain ⟨w1, w2, w3, w4, w5, w6, w7, w8⟩ := w
  simp only [Fits, TCP.fmt, TCP.vals, TCP.offset_flags h w5, and_true]
  omega

theorem TCP.toBytes_ok {h : TCP} (w : h.WF) : ∃ b, h.toBytes = .ok b ∧ b.length = 20 := by
  obtain ⟨b, hb⟩ := pack_ok (TCP.fits w h.csum w.2.2.2.2.2.2.2)
  exact ⟨b, hb, length_pack hb⟩

theorem and_1ff (n : Nat) : n &&& 0x1ff = n % 512 := Nat.and_two_pow_sub_one_eq_mod n 9

theorem TCP.fromBytes_toBytes {h : TCP} (w : h.WF) {b : Bytes} (hb : h.toBytes = .ok b)
    (rest : Bytes) : TCP.fromBytes (b ++ rest) = .ok ({ h with csum := 0 }, rest) := by
  have hl : b.length = 20 := length_pack hb
  obtain ⟨h1, h2⟩ := unpack_take_append (TCP.fits w h.csum w.2.2.2.2.2.2.2) hb rest
  have h1' : unpack TCP.fmt ((b ++ rest).take 20) = .ok (h.vals h.csum) := h1
  have h2' : (b ++ rest).drop 20 = rest := h2
  have w5 := w.2.2.2.2.1
  unfold TCP.fromBytes
  rw [if_neg (by simp [hl]), h1']
  simp only [TCP.vals, bind_ok, TCP.offset_flags h w5, Int.toNat_natCast, and_1ff,
    Nat.shiftRight_eq_div_pow]
  rw [show (20480 + h.flags) % 512 = h.flags by omega,
    show (20480 + h.flags) / 2 ^ 12 * 4 = 20 by omega, h2']

/-- Everything of at least 20 bytes parses. -/
theorem TCP.fromBytes_ok {raw : Bytes} (hl : 20 ≤ raw.length) :
    ∃ h, TCP.fromBytes raw = .ok (h, raw.drop (beDec ((raw.drop 12).take 2) / 4096 * 4)) ∧ h.WF ∧
      h.csum = 0 ∧ ∃ f c, f < 65536 ∧ h.flags = f % 512 ∧ f = beDec ((raw.drop 12).take 2) ∧
      [Val.i h.src, .i h.dst, .i h.seq, .i h.ack, .i (f : Nat), .i h.window, .i (c : Nat), .i h.urg] =
        unpackGo TCP.fmt (raw.take 20) := by
  have hl' : (raw.take 20).length = calcsize TCP.fmt := by
    simp [TCP.fmt, calcsize, Fld.size]; omega
  have hfit := fits_unpackGo TCP.fmt (raw.take 20) hl'
  unfold TCP.fromBytes
  rw [if_neg (by omega), unpack, if_pos hl']
  simp only [TCP.fmt, unpackGo, Fits, bind_ok, and_true] at hfit ⊢
  obtain ⟨f1, f2, f3, f4, f5, f6, f7, f8⟩ := hfit
  have e : ((((List.take 20 raw).drop 2).drop 2).drop 4).drop 4 = (raw.drop 12).take 8 := by
    simp [List.drop_take]
  have e2 : List.take 2 (((((List.take 20 raw).drop 2).drop 2).drop 4).drop 4) = (raw.drop 12).take 2 := by
    rw [e]; simp [List.take_take]
  simp only [e2, Int.toNat_natCast, Nat.shiftRight_eq_div_pow, and_1ff] at f5 ⊢
  refine ⟨_, rfl, ?_, rfl, (beDec ((raw.drop 12).take 2)), _, ?_, rfl, rfl, rfl⟩
  · refine ⟨?_, ?_, ?_, ?_, ?_, ?_, ?_, ?_⟩ <;> simp only <;> omega
  · omega

end SY
