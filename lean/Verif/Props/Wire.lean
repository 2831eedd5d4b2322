import Verif.IPv6
import Verif.Icmpv6
import Verif.Rip
import Verif.Arp
import Verif.Tcp
import Verif.Icmp
import Verif.Props.Tcp

/-! # Property C100: headers are laid out on the wire as their RFCs draw them

The specification is the picture in the RFC: a list of fields, each with its width in bits and its
value, most significant bit first. -/

namespace SY.Props
open SY

/-- The number of bits of a picture. -/
def frameBits : List (Nat × Nat) → Nat
  | [] => 0
  | (w, _) :: fs => w + frameBits fs

/-- The bits of a picture, read as one number. -/
def frameValue : List (Nat × Nat) → Nat
  | [] => 0
  | (_, v) :: fs => v * 2 ^ frameBits fs + frameValue fs

/-- The byte string is the picture: it has its length, every value fits its field, and the bits are
those of the fields one after the other. -/
structure HasLayout (b : Bytes) (fs : List (Nat × Nat)) : Prop where
  len : 8 * b.length = frameBits fs
  fit : ∀ f ∈ fs, f.2 < 2 ^ f.1
  val : beDec b = frameValue fs

/-- The picture of the items of a `struct` format. -/
def itemFields : List Fld → List Val → List (Nat × Nat)
  | .x n :: fs, vs => (8 * n, 0) :: itemFields fs vs
  | .u w :: fs, .i v :: vs => (8 * w, v.toNat) :: itemFields fs vs
  | .s n :: fs, .b v :: vs => (8 * n, beDec v) :: itemFields fs vs
  | _, _ => []

theorem frameBits_append (xs ys : List (Nat × Nat)) : frameBits (xs ++ ys) = frameBits xs + frameBits ys := by
  induction xs with
  | nil => simp [frameBits]
  | cons x xs ih => obtain ⟨w, v⟩ := x; simp [frameBits, ih, Nat.add_assoc]

theorem frameValue_append (xs ys : List (Nat × Nat)) :
    frameValue (xs ++ ys) = frameValue xs * 2 ^ frameBits ys + frameValue ys := by
  induction xs with
  | nil => simp [frameValue]
  | cons x xs ih =>
    obtain ⟨w, v⟩ := x
    simp only [List.cons_append, frameValue, frameBits_append, ih, Nat.pow_add, Nat.add_mul, Nat.mul_assoc, Nat.add_assoc]

theorem beDec_append (a b : Bytes) : beDec (a ++ b) = beDec a * 2 ^ (8 * b.length) + beDec b := by
  have h8 : ∀ n : Nat, 256 ^ n = 2 ^ (8 * n) := fun n => by rw [show 256 = 2 ^ 8 from rfl, ← Nat.pow_mul]
  induction a with
  | nil => simp [beDec]
  | cons x a ih =>
    simp only [List.cons_append, beDec, ih, List.length_append, h8, Nat.mul_add, Nat.pow_add, Nat.add_mul, Nat.mul_assoc,
      Nat.add_assoc]

theorem HasLayout.append {a b : Bytes} {xs ys : List (Nat × Nat)} (h : HasLayout a xs) (h' : HasLayout b ys) :
    HasLayout (a ++ b) (xs ++ ys) := by
  refine ⟨?_, ?_, ?_⟩
  · rw [List.length_append, frameBits_append, Nat.mul_add, h.len, h'.len]
  · intro f hf
    rcases List.mem_append.mp hf with hf | hf
    · exact h.fit f hf
    · exact h'.fit f hf
  · rw [beDec_append, frameValue_append, h.val, h'.val, h'.len]

theorem hasLayout_nil : HasLayout [] [] := ⟨rfl, (fun _ h => nomatch h), rfl⟩

theorem hasLayout_bytes {b : Bytes} {n : Nat} (h : b.length = n) : HasLayout b [(8 * n, beDec b)] := by
  refine ⟨by simp [frameBits, h], ?_, by simp [frameValue, frameBits]⟩
  intro f hf
  rw [List.mem_singleton] at hf
  subst hf
  have := beDec_lt b
  rw [h, show 256 = 2 ^ 8 from rfl, ← Nat.pow_mul] at this
  exact this

theorem hasLayout_beEnc {w v : Nat} (h : v < 256 ^ w) : HasLayout (beEnc w v) [(8 * w, v)] := by
  have := hasLayout_bytes (length_beEnc w v)
  rwa [beDec_beEnc h] at this

theorem beDec_zeros (n : Nat) : beDec (zeros n) = 0 := by
  induction n with
  | zero => rfl
  | succ n ih => simpa [zeros, List.replicate_succ, beDec] using ih

theorem hasLayout_zeros (n : Nat) : HasLayout (zeros n) [(8 * n, 0)] := by
  have := hasLayout_bytes (b := zeros n) (n := n) (by simp [zeros])
  rwa [beDec_zeros] at this

/-- The byte-string items have the width of their fields. -/
def Sized : List Fld → List Val → Prop
  | [], [] => True
  | .x _ :: fs, vs => Sized fs vs
  | .u _ :: fs, .i _ :: vs => Sized fs vs
  | .s n :: fs, .b v :: vs => v.length = n ∧ Sized fs vs
  | _, _ => False

theorem pack_layout {fs : List Fld} {vs : List Val} {b : Bytes} (hf : Sized fs vs) (h : pack fs vs = .ok b) :
    HasLayout b (itemFields fs vs) := by
  fun_induction Sized fs vs generalizing b with
  | case1 => cases h; exact hasLayout_nil
  | case2 n fs vs ih =>
    rw [pack.eq_3] at h
    obtain ⟨r, h1, rfl⟩ := map_eq_ok.mp h
    exact (hasLayout_zeros n).append (ih hf h1)
  | case3 w fs v vs ih =>
    obtain ⟨hv, r, h1, rfl⟩ := pack_u_inv h
    refine (hasLayout_beEnc (w := w) (v := v.toNat) ?_).append (ih hf h1)
    have := hv.2
    omega
  | case4 n fs v vs ih =>
    rw [pack.eq_5] at h
    obtain ⟨r, h1, rfl⟩ := map_eq_ok.mp h
    have : (v ++ zeros (n - v.length)).take n = v := by simp [← hf.1, zeros]
    rw [this]
    exact (hasLayout_bytes hf.1).append (ih hf.2 h1)
  | case5 => exact hf.elim

/-- Drawing one field as two. -/
theorem HasLayout.split {b : Bytes} {pre post : List (Nat × Nat)} {w w1 w2 v v1 v2 : Nat}
    (h : HasLayout b (pre ++ (w, v) :: post)) (hw : w = w1 + w2) (h1 : v1 < 2 ^ w1) (h2 : v2 < 2 ^ w2)
    (hv : v = v1 * 2 ^ w2 + v2) : HasLayout b (pre ++ (w1, v1) :: (w2, v2) :: post) := by
  refine ⟨?_, ?_, ?_⟩
  · rw [h.len, frameBits_append, frameBits_append]; simp only [frameBits]; omega
  · intro f hf
    rcases List.mem_append.mp hf with hf | hf
    · exact h.fit f (List.mem_append_left _ hf)
    · rcases List.mem_cons.mp hf with rfl | hf
      · exact h1
      · rcases List.mem_cons.mp hf with rfl | hf
        · exact h2
        · exact h.fit f (List.mem_append_right _ (List.mem_cons_of_mem _ hf))
  · rw [h.val, frameValue_append, frameValue_append]
    simp only [frameValue, frameBits, hw, hv, Nat.pow_add, Nat.add_mul, Nat.mul_assoc, Nat.add_assoc]

theorem packed_v4 {a : IPAddr} (h : a.isV4) : ∃ x : BitVec 32, a = .v4 x ∧ beDec a.packed = x.toNat ∧ a.packed.length = 4 := by
  cases a with
  | v4 x =>
    refine ⟨x, rfl, ?_, ?_⟩
    · simp only [IPAddr.packed]; exact beDec_beEnc (by have := x.isLt; omega)
    · simp [IPAddr.packed]
  | v6 x => exact absurd h (by simp [IPAddr.isV4])

/-- The number of an IP address. -/
def _root_.SY.IPAddr.number : IPAddr → Nat
  | .v4 a => a.toNat
  | .v6 a => a.toNat

theorem packed_number {a : IPAddr} (h : a.isV4) : beDec a.packed = a.number := by
  obtain ⟨x, rfl, e, -⟩ := packed_v4 h; exact e

/-- **C100**, Ethernet II: destination, source, EtherType. -/
theorem ethernet_layout (h : Ethernet) (w : h.WF) (b : Bytes) (hb : h.toBytes = .ok b) :
    HasLayout b [(48, beDec h.dst.raw), (48, beDec h.src.raw), (16, h.ethertype)] :=
  pack_layout (fs := Ethernet.fmt) (vs := [.b h.dst.raw, .b h.src.raw, .i h.ethertype]) ⟨w.1, w.2.1, trivial⟩ hb

example : (Ethernet.mk ⟨[1, 2, 3, 4, 5, 6]⟩ ⟨[7, 8, 9, 10, 11, 12]⟩ 0x0800).WF := by decide

/-- **C100**, 802.1Q, as far as it holds: the VLAN identifier and the EtherType are where they should
be; the priority is one bit too low (see **C77**). -/
theorem vlan_layout_partial (h : Vlan) (w : h.WF) (b : Bytes) (hb : h.toBytes = .ok b) :
    HasLayout b [(4, h.pcp), (12, h.vlanid), (16, h.ethertype)] := by
  have := pack_layout (fs := Vlan.fmt) (by trivial) hb
  refine HasLayout.split (pre := []) (w := 16) (w1 := 4) (w2 := 12) this rfl ?_ w.1 ?_
  · have := w.2.1; omega
  · rw [Int.toNat_natCast, Vlan.tci_eq w.1]

/-- **C100**, ARP (RFC 826). -/
theorem arp_wire_layout (h : Arp) (w : h.WF) (b : Bytes) (hb : h.toBytes = .ok b) :
    HasLayout b [(16, h.hwtype), (16, h.prototype), (8, h.hwaddrlen), (8, h.protoaddrlen), (16, h.operation),
      (48, beDec h.senderhwaddr.raw), (32, h.senderprotoaddr.number),
      (48, beDec h.targethwaddr.raw), (32, h.targetprotoaddr.number)] := by
  have := pack_layout (fs := Arp.fmt) (vs := h.vals) ⟨w.2.2.2.2.2.1, IPAddr.length_packed_v4 w.2.2.2.2.2.2.1, w.2.2.2.2.2.2.2.1,
    IPAddr.length_packed_v4 w.2.2.2.2.2.2.2.2, trivial⟩ hb
  rw [← packed_number w.2.2.2.2.2.2.1, ← packed_number w.2.2.2.2.2.2.2.2]
  exact this

example : Arp.default.WF := by decide

/-- **C100**, UDP (RFC 768). -/
theorem udp_layout (h : UDP) (b : Bytes) (hb : h.toBytes = .ok b) :
    HasLayout b [(16, h.src.toNat), (16, h.dst.toNat), (16, h.len), (16, h.csum)] :=
  pack_layout (fs := UDP.fmt) (vs := h.vals) trivial hb

example : (UDP.mk 4000 53 12 0xbeef).WF := by decide

/-- **C100**, TCP (RFC 793, 3168, 3540): ports, numbers, data offset 5, three zero bits, the nine flags
one by one, window, checksum, urgent pointer. -/
theorem tcp_layout (h : TCP) (hfl : h.flags < 512) (b : Bytes) (hb : h.toBytes = .ok b) :
    HasLayout b [(16, h.src.toNat), (16, h.dst.toNat), (32, h.seq.toNat), (32, h.ack.toNat),
      (4, 5), (3, 0), (1, (h.isset .NS).toNat), (1, (h.isset .CWR).toNat), (1, (h.isset .ECE).toNat),
      (1, (h.isset .URG).toNat), (1, (h.isset .ACK).toNat), (1, (h.isset .PSH).toNat), (1, (h.isset .RST).toNat),
      (1, (h.isset .SYN).toNat), (1, (h.isset .FIN).toNat),
      (16, h.window.toNat), (16, h.csum), (16, h.urg.toNat)] := by
  have hl := pack_layout (fs := TCP.fmt) (vs := h.vals h.csum) trivial hb
  have hbit : ∀ f, (h.isset f).toNat = h.flags / 2 ^ f.value % 2 := by
    intro f
    rw [tcp_isset_testBit]
    exact Nat.toNat_testBit _ _
  have hlt : ∀ f, (h.isset f).toNat < 2 ^ 1 := fun f => by rw [hbit]; omega
  have e0 := hbit .FIN; have e1 := hbit .SYN; have e2 := hbit .RST; have e3 := hbit .PSH; have e4 := hbit .ACK
  have e5 := hbit .URG; have e6 := hbit .ECE; have e7 := hbit .CWR; have e8 := hbit .NS
  simp only [TCPFlag.value] at e0 e1 e2 e3 e4 e5 e6 e7 e8
  have hp : itemFields TCP.fmt (h.vals h.csum) = [(16, h.src.toNat), (16, h.dst.toNat), (32, h.seq.toNat), (32, h.ack.toNat)] ++
      (16, 20480 + h.flags) :: [(16, h.window.toNat), (16, h.csum), (16, h.urg.toNat)] := by
    simp only [TCP.vals, TCP.offset_flags h hfl]
    rfl
  rw [hp] at hl
  refine ⟨by rw [hl.len]; rfl, ?_, ?_⟩
  · intro f hf
    have hfit := hl.fit
    simp only [List.cons_append, List.nil_append, List.mem_cons, List.not_mem_nil, or_false, forall_eq_or_imp, forall_eq] at hfit hf
    obtain ⟨g1, g2, g3, g4, -, g6, g7, g8⟩ := hfit
    rcases hf with rfl | rfl | rfl | rfl | rfl | rfl | rfl | rfl | rfl | rfl | rfl | rfl | rfl | rfl | rfl | rfl | rfl | rfl
    all_goals first | assumption | exact hlt _ | decide
  · rw [hl.val]
    simp only [List.cons_append, List.nil_append, frameValue, frameBits]
    omega

example : (TCP.mk 80 4000 1 2 0x112 1000 0 0xffff).WF := by decide

/-- **C100**, IPv4 (RFC 791): version 4, header length in words, DSCP, ECN, total length,
identification, flags, fragment offset, TTL, protocol, checksum, addresses.  (Which number each flag has
is the subject of **C20**.) -/
theorem ipv4_layout (h : IPv4) (w : h.WF) (b : Bytes) (hb : h.toBytes = .ok b) (hl : b.length ≤ 60) :
    ∃ c o, h.checksum = .ok c ∧ optsToBytes h.options = .ok o ∧
      HasLayout b ([(4, 4), (4, b.length / 4), (6, h.dscp), (2, h.ecn), (16, h.totallen), (16, h.ipid), (3, h.flags),
        (13, h.frag), (8, h.ttl), (8, h.protocol), (16, c), (32, h.src.number), (32, h.dst.number)] ++
        [(8 * o.length, beDec o)]) := by
  obtain ⟨o, d0, d, c, ho, hd0, hc, hd, rfl⟩ := IPv4.toBytes_inv hb
  have hdl : d.length = 20 := length_pack hd
  have hol : o.length ≤ 40 := by simp [hdl] at hl; omega
  rw [b0_eq (by omega)] at hd
  have hck : h.checksum = .ok c := by
    simp only [IPv4.checksum, IPv4.size, ho, bind_ok]
    rw [show (4 <<< 4) + (20 + o.length) / 4 = 64 + (20 + o.length) / 4 from rfl, hd0, hc]
    rfl
  refine ⟨c, o, hck, ho, HasLayout.append ?_ (hasLayout_bytes rfl)⟩
  have hfl := ipFragmentFlags_lt w.2.2.2.1
  have hfr := w.2.2.2.2.1
  have hl := pack_layout (fs := IPv4.fmt) (vs := h.vals (64 + (20 + o.length) / 4) c)
    ⟨IPAddr.length_packed_v4 w.2.2.2.2.2.2.2.1, IPAddr.length_packed_v4 w.2.2.2.2.2.2.2.2, trivial⟩ hd
  have e1 : h.dscp = h.tos / 4 := Nat.shiftRight_eq_div_pow _ 2
  have e2 : h.ecn = h.tos % 4 := Nat.and_two_pow_sub_one_eq_mod _ 2
  rw [List.length_append, hdl, ← packed_number w.2.2.2.2.2.2.2.1, ← packed_number w.2.2.2.2.2.2.2.2, e1, e2]
  have s1 := HasLayout.split (pre := []) (w1 := 4) (w2 := 4) (v1 := 4) (v2 := (20 + o.length) / 4) hl rfl
    (by decide) (by omega) (by rw [Int.toNat_natCast])
  have s2 := HasLayout.split (pre := [_, _]) (w1 := 6) (w2 := 2) (v1 := h.tos / 4) (v2 := h.tos % 4) s1 rfl
    (by have := w.1; omega) (by omega) (by rw [Int.toNat_natCast]; omega)
  have s3 := HasLayout.split (pre := [_, _, _, _, _, _]) (w1 := 3) (w2 := 13) (v1 := h.flags) (v2 := h.frag) s2 rfl
    (by omega) (by omega) (by rw [Int.toNat_natCast, ff_eq hfr])
  exact s3

/-- **C100**, IPv6 (RFC 8200): version 6, traffic class, flow label, payload length, next header, hop
limit, addresses. -/
theorem ipv6_layout (h : IPv6) (w : h.WF) (b : Bytes) (hb : h.toBytes = .ok b) :
    HasLayout b [(4, 6), (8, h.tc.toNat), (20, h.flow.toNat), (16, h.plen), (8, h.next), (8, h.ttl.toNat),
      (128, h.src.toNat), (128, h.dst.toNat)] := by
  have hl := pack_layout (fs := IPv6.fmt) (vs := h.vals) ⟨length_beEnc _ _, length_beEnc _ _, trivial⟩ hb
  obtain ⟨w1, w2, w3, w4, w5, w6, w7, w8⟩ := w
  have h0 : IPv6.octet0 h.tc = ((96 + h.tc.toNat / 16 : Nat) : Int) := by
    rw [← octet0_nat (t := h.tc.toNat) (by omega), Int.toNat_of_nonneg w1]
  have h1 : IPv6.octet1 h.tc h.flow = h.tc.toNat % 16 * 16 + h.flow.toNat / 65536 := by
    rw [← octet1_nat (f := h.flow.toNat) (by omega), Int.toNat_of_nonneg w1, Int.toNat_of_nonneg w3]
  have h2 : (h.flow % 1048576).toNat &&& 0xffff = h.flow.toNat % 65536 := by
    rw [show (h.flow % 1048576).toNat = h.flow.toNat by omega]
    exact Nat.and_two_pow_sub_one_eq_mod _ 16
  have e : itemFields IPv6.fmt h.vals = [(8, 96 + h.tc.toNat / 16), (8, h.tc.toNat % 16 * 16 + h.flow.toNat / 65536),
      (16, h.flow.toNat % 65536), (16, h.plen), (8, h.next), (8, h.ttl.toNat), (128, h.src.toNat), (128, h.dst.toNat)] := by
    have a1 := h.src.isLt
    have a2 := h.dst.isLt
    simp only [IPv6.vals, IPv6.fmt, itemFields, h0, h1, h2, Int.toNat_natCast]
    rw [beDec_beEnc (by omega), beDec_beEnc (by omega)]
  rw [e] at hl
  refine ⟨by rw [hl.len]; rfl, ?_, ?_⟩
  · have hfit := hl.fit
    simp only [List.mem_cons, List.not_mem_nil, or_false, forall_eq_or_imp, forall_eq] at hfit ⊢
    obtain ⟨g1, g2, g3, g4, g5, g6, g7, g8⟩ := hfit
    exact ⟨by decide, by omega, by omega, g4, g5, g6, g7, g8⟩
  · rw [hl.val]
    simp only [frameValue, frameBits]
    omega

example : (IPv6.mk 0x12 0xabcde 64 17 100 1 2).WF := by decide

/-- **C100**, IPv6 fragment header: next header, reserved octet, offset in units of 8 bytes, two zero
bits, more-fragments, identification. -/
theorem fragment_layout (h : Fragment) (n : Nat) (hn : h.next = some n) (b : Bytes) (hb : h.toBytes = .ok b) :
    HasLayout b [(8, n), (8, h.optlen), (13, h.offset.toNat), (2, 0), (1, h.mf.toNat), (32, h.ident.toNat)] := by
  simp only [Fragment.toBytes, extBytes, hn] at hb
  obtain ⟨c, hc, hb⟩ := bind_eq_ok.mp hb
  obtain ⟨d, hd, hb⟩ := bind_eq_ok.mp hb
  cases hb
  have l1 := pack_layout (by trivial) hc
  have l2 := pack_layout (by trivial) hd
  have hr := (pack_u_inv hd).1
  have hm : (if h.mf then (1 : Int) else 0) = h.mf.toNat := by cases h.mf <;> rfl
  have hm' : h.mf.toNat < 2 := Bool.toNat_lt _
  rw [hm] at hr l2
  refine l1.append ?_
  have s1 := HasLayout.split (pre := []) (w1 := 13) (w2 := 3) (v1 := h.offset.toNat) (v2 := h.mf.toNat) l2 rfl
    (by omega) (by omega) (by omega)
  exact HasLayout.split (pre := [_]) (w1 := 2) (w2 := 1) (v1 := 0) (v2 := h.mf.toNat) s1 rfl
    (by decide) (by omega) (by omega)

example : ∃ h, Fragment.default.setNext 17 = .ok h ∧ h.next = some 17 ∧
    ∃ b, ((h.setOffset 185).setMf true).toBytes = .ok b := ⟨_, rfl, rfl, _, rfl⟩

/-- **C100**, IPv6 type 2 routing header: next header, length octet, type, segments left, 32 reserved
bits, home address.  (The value of the length octet is the subject of **C32**.) -/
theorem route_layout (h : RouteOpt) (n : Nat) (hn : h.next = some n) (b : Bytes) (hb : h.toBytes = .ok b) :
    HasLayout b [(8, n), (8, h.optlen), (8, h.rtype), (8, h.segleft), (32, 0), (128, h.addr.toNat)] := by
  simp only [RouteOpt.toBytes, extBytes, hn] at hb
  obtain ⟨c, hc, hb⟩ := bind_eq_ok.mp hb
  obtain ⟨d, hd, hb⟩ := bind_eq_ok.mp hb
  cases hb
  have := h.addr.isLt
  exact (pack_layout (by trivial) hc).append ((pack_layout (by trivial) hd).append (hasLayout_beEnc (by omega)))

/-- The picture of one option of an options header (RFC 8200, 2675, 2473, 2711, 6275). -/
def tlvPicture : TLV → List (Nat × Nat)
  | .pad1 => [(8, 0)]
  | .padN n => [(8, 1), (8, n.toNat), (8 * n.toNat, 0)]
  | .jumbo l => [(8, 0xc2), (8, 4), (32, l.toNat)]
  | .tunnelLimit l => [(8, 4), (8, 1), (8, l.toNat)]
  | .routerAlert v => [(8, 5), (8, 2), (16, v.toNat)]
  | .homeAddress a => [(8, 0xc9), (8, 16), (128, a.toNat)]

theorem tlv_layout (o : TLV) (b : Bytes) (hb : o.toBytes = .ok b) : HasLayout b (tlvPicture o) := by
  cases o with
  | pad1 => cases hb; exact hasLayout_bytes (n := 1) rfl
  | padN n =>
    obtain ⟨c, hc, hb⟩ := bind_eq_ok.mp hb
    cases hb
    exact (pack_layout (by trivial) hc).append (hasLayout_zeros _)
  | jumbo l => exact pack_layout (by trivial) hb
  | tunnelLimit l => exact pack_layout (by trivial) hb
  | routerAlert l => exact pack_layout (by trivial) hb
  | homeAddress a =>
    obtain ⟨c, hc, hb⟩ := bind_eq_ok.mp hb
    cases hb
    have := a.isLt
    exact (pack_layout (by trivial) hc).append (hasLayout_beEnc (by omega))

/-- **C100**, hop-by-hop and destination options headers: next header, length octet, the options. -/
theorem hopopt_layout (h : HopOpt) (n : Nat) (hn : h.next = some n) (b : Bytes) (hb : h.toBytes = .ok b) :
    ∃ l, HasLayout b ([(8, n), (8, l)] ++ h.opts.flatMap tlvPicture) := by
  simp only [HopOpt.toBytes, extBytes, hn] at hb
  obtain ⟨c, hc, hb⟩ := bind_eq_ok.mp hb
  obtain ⟨d, hd, hb⟩ := bind_eq_ok.mp hb
  cases hb
  refine ⟨_, (pack_layout (by trivial) hd).append ?_⟩
  have : ∀ (os : List TLV) (c : Bytes), tlvsBytes os = .ok c → HasLayout c (os.flatMap tlvPicture) := by
    intro os
    induction os with
    | nil => intro c hc; cases hc; exact hasLayout_nil
    | cons o os ih =>
      intro c hc
      obtain ⟨x, hx, hc⟩ := bind_eq_ok.mp hc
      obtain ⟨y, hy, hc⟩ := bind_eq_ok.mp hc
      cases hc
      exact (tlv_layout o x hx).append (ih y hy)
  exact this _ _ hc

/-- The picture of an IPv4 option (RFC 791, 2113): the number octet as the library's option has it. -/
def optPicture : IPOpt → List (Nat × Nat)
  | .single n => [(8, n)]
  | .routing n ptr addrs => [(8, n), (8, 3 + 4 * addrs.length), (8, ptr)] ++ addrs.map fun a => (32, a.toNat)
  | .timestamp ptr flag es =>
    [(8, 0x44), (8, 4 + es.length * (if flag = 0 then 4 else 8)), (8, ptr), (4, 0), (4, flag.toNat)] ++
      es.flatMap fun e => (if flag = 0 then [] else [(32, (e.1.getD 0).toNat)]) ++ [(32, e.2)]
  | .fourB n v c => [(8, c + n), (8, 4), (16, v)]

theorem hasLayout_addrs (as : List (BitVec 32)) : HasLayout (addrsBytes as) (as.map fun a => (32, a.toNat)) := by
  induction as with
  | nil => exact hasLayout_nil
  | cons a as ih => exact HasLayout.append (hasLayout_beEnc (w := 4) (by have := a.isLt; omega)) ih

theorem hasLayout_entries (flag : Int) (h0 : 0 ≤ flag) (es : List (Option (BitVec 32) × Nat)) (b : Bytes)
    (hb : tsEntriesBytes flag es = .ok b) :
    HasLayout b (es.flatMap fun e => (if flag = 0 then [] else [(32, (e.1.getD 0).toNat)]) ++ [(32, e.2)]) := by
  induction es generalizing b with
  | nil => cases hb; exact hasLayout_nil
  | cons e es ih =>
    obtain ⟨x, hx, hb⟩ := bind_eq_ok.mp hb
    obtain ⟨y, hy, hb⟩ := bind_eq_ok.mp hb
    cases hb
    refine HasLayout.append ?_ (ih y hy)
    unfold tsEntryBytes at hx
    by_cases hf : flag = 0
    · rw [if_neg (by omega)] at hx
      simp only [if_pos hf]
      exact pack_layout (by trivial) hx
    · rw [if_pos (by omega)] at hx
      simp only [if_neg hf]
      cases ha : e.1 with
      | none => rw [ha] at hx; cases hx
      | some a =>
        rw [ha] at hx
        obtain ⟨z, hz, hx⟩ := bind_eq_ok.mp hx
        cases hx
        exact HasLayout.append (hasLayout_beEnc (w := 4) (by have := a.isLt; omega)) (pack_layout (by trivial) hz)

/-- **C100**, IPv4 options: each option is drawn as in its RFC, except that the copied flag of source
routes is not set (see **C79**). -/
theorem ipv4_option_layout (o : IPOpt) (w : o.WF) (b : Bytes) (hb : o.toBytes = .ok b) : HasLayout b (optPicture o) := by
  cases o with
  | single n => exact pack_layout (by trivial) hb
  | routing n ptr addrs =>
    obtain ⟨c, hc, hb⟩ := bind_eq_ok.mp hb
    cases hb
    refine HasLayout.append ?_ (hasLayout_addrs addrs)
    have := pack_layout (by trivial) hc
    simp only [itemFields, IPOpt.length, Int.toNat_natCast, Nat.mul_comm addrs.length] at this
    exact this
  | timestamp ptr flag es =>
    obtain ⟨c, hc, hb⟩ := bind_eq_ok.mp hb
    obtain ⟨d, hd, hb⟩ := bind_eq_ok.mp hb
    cases hb
    refine HasLayout.append ?_ (hasLayout_entries flag w.2.1 es d hd)
    have := pack_layout (by trivial) hc
    have h3 := w.2.2.1
    exact HasLayout.split (pre := [_, _, _]) (w1 := 4) (w2 := 4) (v1 := 0) (v2 := flag.toNat) this rfl
      (by decide) (by omega) (by omega)
  | fourB n v c =>
    have := pack_layout (by trivial) hb
    obtain ⟨h1, -, h3⟩ := w
    have e : c ||| n = c + n := by
      subst h3
      rcases h1 with rfl | rfl | rfl <;> decide
    rw [e] at this
    exact this

example : (IPOpt.timestamp 5 1 [(some 0x0a000001, 7)]).WF := by
  refine ⟨by decide, by decide, by decide, by decide, ?_⟩
  intro e he
  cases he with
  | head => exact ⟨by decide, by decide⟩
  | tail _ h => cases h

/-- The picture of the part of an ICMP message after the checksum (RFC 792, 950, 1191, 4884). -/
def icmpPicture : ICMPData → List (Nat × Nat)
  | .other p | .plain _ p => [(8 * p.length, beDec p)]
  | .quench p => [(32, 0), (8 * p.length, beDec p)]
  | .redirect a p => [(32, a.toNat), (8 * p.length, beDec p)]
  | .unreach o n p => [(8, 0), (8, o.toNat), (16, n.toNat), (8 * p.length, beDec p)]
  | .echo _ i s p => [(16, i.toNat), (16, s.toNat), (8 * p.length, beDec p)]
  | .exceeded o p => [(8, 0), (8, o.toNat), (16, 0), (8 * p.length, beDec p)]
  | .mask _ i s a _ => [(16, i.toNat), (16, s.toNat), (32, a.toNat)]

theorem icmp_data_layout (d : ICMPData) (b : Bytes) (hb : d.enc = .ok b) : HasLayout b (icmpPicture d) := by
  cases d with
  | other p => cases hb; exact hasLayout_bytes rfl
  | plain c p => cases hb; exact hasLayout_bytes rfl
  | quench p => cases hb; exact HasLayout.append (hasLayout_zeros 4) (hasLayout_bytes rfl)
  | redirect a p =>
    cases hb
    exact HasLayout.append (hasLayout_beEnc (w := 4) (by have := a.isLt; omega)) (hasLayout_bytes rfl)
  | unreach o n p =>
    obtain ⟨c, hc, rfl⟩ := map_eq_ok.mp hb
    exact (pack_layout (by trivial) hc).append (hasLayout_bytes rfl)
  | echo r i s p =>
    obtain ⟨c, hc, rfl⟩ := map_eq_ok.mp hb
    exact (pack_layout (by trivial) hc).append (hasLayout_bytes rfl)
  | exceeded o p =>
    obtain ⟨c, hc, rfl⟩ := map_eq_ok.mp hb
    exact (pack_layout (by trivial) hc).append (hasLayout_bytes rfl)
  | mask r i s a p =>
    obtain ⟨c, hc, rfl⟩ := map_eq_ok.mp hb
    exact (pack_layout (by trivial) hc).append (hasLayout_beEnc (w := 4) (by have := a.isLt; omega))

/-- The message types (IANA): what kind of data goes with which type number. -/
def icmpTypeNumber : ICMPData → Option Nat
  | .other _ => none
  | .echo true .. => some 0
  | .unreach .. => some 3
  | .quench _ => some 4
  | .redirect .. => some 5
  | .echo false .. => some 8
  | .plain .routerAdvertisement _ => some 9
  | .plain .routerSolicitation _ => some 10
  | .exceeded .. => some 11
  | .plain .parameterProblem _ => some 12
  | .plain .timestamp _ => some 13
  | .plain .timestampReply _ => some 14
  | .plain .informationRequest _ => some 15
  | .plain .informationReply _ => some 16
  | .mask false .. => some 17
  | .mask true .. => some 18

/-- **C100**, ICMP: type, code, checksum, then the part the type prescribes; assigning a data object
selects the type number IANA gives it. -/
theorem icmp_layout (m : ICMPMsg ICMPData) (b : Bytes) (hb : icmp4.toBytes m = .ok b) :
    (∃ c, icmp4.computeChecksum m = .ok c ∧
      HasLayout b ([(8, m.type), (8, m.code), (16, c)] ++ icmpPicture m.data)) ∧
    ∀ d, icmp4.typeOf d = icmpTypeNumber d := by
  constructor
  · obtain ⟨c, hc, hb⟩ := bind_eq_ok.mp hb
    obtain ⟨x, hx, hb⟩ := bind_eq_ok.mp hb
    obtain ⟨y, hy, hb⟩ := bind_eq_ok.mp hb
    cases hb
    exact ⟨c, hc, (pack_layout (by trivial) hx).append (icmp_data_layout _ y hy)⟩
  · intro d
    cases d with
    | plain c p => cases c <;> rfl
    | echo r i s p => cases r <;> rfl
    | mask r i s a p => cases r <;> rfl
    | _ => rfl

/-- The picture of a neighbour discovery option (RFC 4861): type, length in units of 8 bytes, contents.
A redirected header should be preceded by 48 reserved bits; the library writes none. -/
def ndPicture : NDOpt → List (Nat × Nat)
  | .lladdr t a => [(8, if t then 2 else 1), (8, 1), (48, beDec a.raw)]
  | .pfx l a v p ad n => [(8, 3), (8, 4), (8, n), (1, l.toNat), (1, a.toNat), (6, 0), (32, v.toNat), (32, p.toNat),
      (32, 0), (128, ad.toNat)]
  | .mtu v => [(8, 5), (8, 1), (16, 0), (32, v.toNat)]
  | .redirected h => [(8, 4), (8, (h.length + 9) / 8), (8 * h.length, beDec h)]

theorem pfxFlags_eq (l a : Bool) : pfxFlags l a &&& 0xff = l.toNat * 128 + a.toNat * 64 := by
  cases l <;> cases a <;> rfl

theorem nd_option_layout_partial (o : NDOpt) (he : ∀ t a, o = .lladdr t a → a.raw.length = 6) (b : Bytes)
    (hb : o.toBytes = .ok b) : HasLayout b (ndPicture o) := by
  cases o with
  | lladdr t a =>
    obtain ⟨c, hc, hb⟩ := bind_eq_ok.mp hb
    cases hb
    have := (pack_layout (by trivial) hc).append (hasLayout_bytes (he t a rfl))
    cases t <;> exact this
  | pfx l a v p ad n =>
    have l1 := pack_layout (by exact ⟨length_beEnc _ _, trivial⟩) hb
    have h1 : l.toNat < 2 := Bool.toNat_lt _
    have h2 : a.toNat < 2 := Bool.toNat_lt _
    have := ad.isLt
    simp only [itemFields, pfxFlags_eq] at l1
    rw [beDec_beEnc (by omega)] at l1
    have s1 := HasLayout.split (pre := [_, _, _]) (w1 := 1) (w2 := 7) (v1 := l.toNat) (v2 := a.toNat * 64) l1 rfl
      (by omega) (by omega) (by omega)
    exact HasLayout.split (pre := [_, _, _, _]) (w1 := 1) (w2 := 6) (v1 := a.toNat) (v2 := 0) s1 rfl
      (by omega) (by decide) (by omega)
  | mtu v => exact pack_layout (by trivial) hb
  | redirected h =>
    obtain ⟨c, hc, hb⟩ := bind_eq_ok.mp hb
    cases hb
    exact (pack_layout (by trivial) hc).append (hasLayout_bytes rfl)

/-- The negation of **C100** for the redirected header option: RFC 4861 puts 48 reserved bits between the
length octet and the header; whatever the header, the library puts the header there. -/
theorem nd_redirected_reserved_violated (h : Bytes) (b : Bytes) (hb : (NDOpt.redirected h).toBytes = .ok b) :
    b.drop 2 = h := by
  obtain ⟨c, hc, hb⟩ := bind_eq_ok.mp hb
  cases hb
  have : c.length = 2 := length_pack hc
  rw [List.drop_left' this]

/-- The picture of the part of an ICMPv6 message after the checksum (RFC 4443, 4861, 6275).  The proxy
flag of a router advertisement (RFC 4389) should be the sixth flag bit; the library makes it the fourth. -/
def icmp6Picture : ICMPv6Data → List (Nat × Nat)
  | .other p | .plain _ _ p => [(8 * p.length, beDec p)]
  | .unreach o n p => [(8, 0), (8, o.toNat), (16, n.toNat), (8 * p.length, beDec p)]
  | .echo _ i s p => [(16, i.toNat), (16, s.toNat), (8 * p.length, beDec p)]
  | .rs os _ => [(32, 0)] ++ os.flatMap ndPicture
  | .ra hop m o h p rl re rt os _ => [(8, hop.toNat), (1, m.toNat), (1, o.toNat), (1, h.toNat), (1, p.toNat), (4, 0),
      (16, rl.toNat), (32, re.toNat), (32, rt.toNat)] ++ os.flatMap ndPicture
  | .ns t os _ => [(32, 0), (128, t.toNat)] ++ os.flatMap ndPicture
  | .na r s o t os _ => [(1, r.toNat), (1, s.toNat), (1, o.toNat), (5, 0), (24, 0), (128, t.toNat)] ++ os.flatMap ndPicture
  | .redirect t d os _ => [(32, 0), (128, t.toNat), (128, d.toNat)] ++ os.flatMap ndPicture

/-- The options carried by a message. -/
def ndOptionsOf : ICMPv6Data → List NDOpt
  | .rs os _ | .ra _ _ _ _ _ _ _ _ os _ | .ns _ os _ | .na _ _ _ _ os _ | .redirect _ _ os _ => os
  | _ => []

theorem nd_list_layout (os : List NDOpt) (he : ∀ o ∈ os, ∀ t a, o = .lladdr t a → a.raw.length = 6) (c : Bytes)
    (hc : ndBytes os = .ok c) : HasLayout c (os.flatMap ndPicture) := by
  induction os generalizing c with
  | nil => cases hc; exact hasLayout_nil
  | cons o os ih =>
    obtain ⟨x, hx, hc⟩ := bind_eq_ok.mp hc
    obtain ⟨y, hy, hc⟩ := bind_eq_ok.mp hc
    cases hc
    exact (nd_option_layout_partial o (he o List.mem_cons_self) x hx).append
      (ih (fun o ho => he o (List.mem_cons_of_mem _ ho)) y hy)

theorem raFlags_eq (m o h p : Bool) :
    ICMPv6Data.raFlags m o h p &&& 0xff = m.toNat * 128 + o.toNat * 64 + h.toNat * 32 + p.toNat * 16 := by
  cases m <;> cases o <;> cases h <;> cases p <;> rfl

theorem rsoByte_eq (r s o : Bool) : ICMPv6Data.rsoByte r s o = r.toNat * 128 + s.toNat * 64 + o.toNat * 32 := by
  cases r <;> cases s <;> cases o <;> rfl

theorem icmp6_data_layout (d : ICMPv6Data) (he : ∀ o ∈ ndOptionsOf d, ∀ t a, o = .lladdr t a → a.raw.length = 6)
    (b : Bytes) (hb : d.enc = .ok b) : HasLayout b (icmp6Picture d) := by
  cases d with
  | other p => cases hb; exact hasLayout_bytes rfl
  | plain c os p => cases hb; exact hasLayout_bytes rfl
  | unreach o n p =>
    obtain ⟨c, hc, rfl⟩ := map_eq_ok.mp hb
    exact (pack_layout (by trivial) hc).append (hasLayout_bytes rfl)
  | echo r i s p =>
    obtain ⟨c, hc, rfl⟩ := map_eq_ok.mp hb
    exact (pack_layout (by trivial) hc).append (hasLayout_bytes rfl)
  | rs os p =>
    obtain ⟨c, hc, rfl⟩ := map_eq_ok.mp hb
    exact (hasLayout_zeros 4).append (nd_list_layout os he c hc)
  | ra hop m o h p rl re rt os x =>
    obtain ⟨c, hc, hb⟩ := bind_eq_ok.mp hb
    obtain ⟨y, hy, rfl⟩ := map_eq_ok.mp hb
    refine HasLayout.append ?_ (nd_list_layout os he y hy)
    have l1 := pack_layout (by trivial) hc
    rw [raFlags_eq] at l1
    have h1 : m.toNat < 2 := Bool.toNat_lt _
    have h2 : o.toNat < 2 := Bool.toNat_lt _
    have h3 : h.toNat < 2 := Bool.toNat_lt _
    have h4 : p.toNat < 2 := Bool.toNat_lt _
    have s1 := HasLayout.split (pre := [_]) (w1 := 1) (w2 := 7) (v1 := m.toNat)
      (v2 := o.toNat * 64 + h.toNat * 32 + p.toNat * 16) l1 rfl (by omega) (by omega) (by omega)
    have s2 := HasLayout.split (pre := [_, _]) (w1 := 1) (w2 := 6) (v1 := o.toNat)
      (v2 := h.toNat * 32 + p.toNat * 16) s1 rfl (by omega) (by omega) (by omega)
    have s3 := HasLayout.split (pre := [_, _, _]) (w1 := 1) (w2 := 5) (v1 := h.toNat)
      (v2 := p.toNat * 16) s2 rfl (by omega) (by omega) (by omega)
    exact HasLayout.split (pre := [_, _, _, _]) (w1 := 1) (w2 := 4) (v1 := p.toNat)
      (v2 := 0) s3 rfl (by omega) (by omega) (by omega)
  | ns t os p =>
    obtain ⟨c, hc, hb⟩ := bind_eq_ok.mp hb
    obtain ⟨y, hy, rfl⟩ := map_eq_ok.mp hb
    refine HasLayout.append ?_ (nd_list_layout os he y hy)
    have l1 := pack_layout (by exact ⟨length_beEnc _ _, trivial⟩) hc
    have := t.isLt
    simp only [itemFields] at l1
    rw [beDec_beEnc (by omega)] at l1
    exact l1
  | na r s o t os p =>
    obtain ⟨c, hc, hb⟩ := bind_eq_ok.mp hb
    obtain ⟨y, hy, rfl⟩ := map_eq_ok.mp hb
    refine HasLayout.append ?_ (nd_list_layout os he y hy)
    have l1 := pack_layout (by exact ⟨length_beEnc _ _, length_beEnc _ _, trivial⟩) hc
    have := t.isLt
    have h1 : r.toNat < 2 := Bool.toNat_lt _
    have h2 : s.toNat < 2 := Bool.toNat_lt _
    have h3 : o.toNat < 2 := Bool.toNat_lt _
    simp only [itemFields, rsoByte_eq] at l1
    rw [beDec_beEnc (w := 16) (by omega), beDec_beEnc (by omega)] at l1
    have s1 := HasLayout.split (pre := []) (w1 := 1) (w2 := 7) (v1 := r.toNat)
      (v2 := s.toNat * 64 + o.toNat * 32) l1 rfl (by omega) (by omega) (by omega)
    have s2 := HasLayout.split (pre := [_]) (w1 := 1) (w2 := 6) (v1 := s.toNat)
      (v2 := o.toNat * 32) s1 rfl (by omega) (by omega) (by omega)
    exact HasLayout.split (pre := [_, _]) (w1 := 1) (w2 := 5) (v1 := o.toNat)
      (v2 := 0) s2 rfl (by omega) (by omega) (by omega)
  | redirect t d os p =>
    obtain ⟨c, hc, hb⟩ := bind_eq_ok.mp hb
    obtain ⟨y, hy, rfl⟩ := map_eq_ok.mp hb
    refine HasLayout.append ?_ (nd_list_layout os he y hy)
    have l1 := pack_layout (by exact ⟨length_beEnc _ _, length_beEnc _ _, trivial⟩) hc
    have := t.isLt
    have := d.isLt
    simp only [itemFields] at l1
    rw [beDec_beEnc (by omega), beDec_beEnc (by omega)] at l1
    exact l1

/-- The ICMPv6 type numbers (IANA). -/
def icmp6TypeNumber : ICMPv6Data → Option Nat
  | .other _ => none
  | .unreach .. => some 1
  | .echo false .. => some 128
  | .echo true .. => some 129
  | .plain .mlQuery .. => some 130
  | .plain .mlReport .. => some 131
  | .plain .mlDone .. => some 132
  | .rs .. => some 133
  | .ra .. => some 134
  | .ns .. => some 135
  | .na .. => some 136
  | .redirect .. => some 137
  | .plain .v2Report .. => some 143

/-- **C100**, ICMPv6, as far as it holds: type, code, checksum, then the part the type prescribes.
Missing: the place of the proxy flag, and the reserved bits of redirected headers. -/
theorem icmp6_layout_partial (m : ICMPMsg ICMPv6Data)
    (he : ∀ o ∈ ndOptionsOf m.data, ∀ t a, o = .lladdr t a → a.raw.length = 6) (b : Bytes)
    (hb : icmp6ToBytes m = .ok b) :
    HasLayout b ([(8, m.type), (8, m.code), (16, m.csum)] ++ icmp6Picture m.data) ∧
    ∀ d, icmp6.typeOf d = icmp6TypeNumber d := by
  constructor
  · obtain ⟨x, hx, hb⟩ := bind_eq_ok.mp hb
    obtain ⟨y, hy, hb⟩ := bind_eq_ok.mp hb
    cases hb
    exact (pack_layout (by trivial) hx).append (icmp6_data_layout _ he y hy)
  · intro d
    cases d with
    | plain c os p => cases c <;> rfl
    | echo r i s p => cases r <;> rfl
    | _ => rfl

example : (icmp6ToBytes ⟨136, 0, .na true false true 5 [.lladdr true ⟨[1, 2, 3, 4, 5, 6]⟩] [], 7⟩).toOption.isSome = true := by
  decide +kernel

/-- **C100**, RIPv2 (RFC 2453): command, version 2, 16 zero bits; per route the address family, tag,
address, subnet mask (ones then zeros), next hop, metric. -/
theorem rip_layout (h : RIPv2) (hp : ∀ r ∈ h.routes, r.plen ≤ 32) (b : Bytes) (hb : h.toBytes = .ok b) :
    HasLayout b ([(8, h.command), (8, 2), (16, 0)] ++ h.routes.flatMap fun r =>
      [(16, r.family.toNat), (16, r.tag.toNat), (32, r.net), (r.plen, 2 ^ r.plen - 1), (32 - r.plen, 0),
       (32, r.nexthop.toNat), (32, r.metric.toNat)]) := by
  obtain ⟨x, hx, hb2⟩ := bind_eq_ok.mp hb
  obtain ⟨y, hy, hb3⟩ := bind_eq_ok.mp hb2
  clear hb hb2
  cases hb3
  refine (pack_layout (by trivial) hx).append ?_
  obtain ⟨cmd, rs⟩ := h
  simp only at hp hy ⊢
  clear hx
  induction rs generalizing y with
  | nil => cases hy; exact hasLayout_nil
  | cons r rs ih =>
    obtain ⟨u, hu, hy⟩ := bind_eq_ok.mp hy
    obtain ⟨v, hv, hy⟩ := bind_eq_ok.mp hy
    cases hy
    refine HasLayout.append ?_ (ih v (fun r hr => hp r (List.mem_cons_of_mem _ hr)) hv)
    have l1 := pack_layout (fs := RIPRoute.fmt) (vs := r.vals) trivial hu
    have hr := hp r List.mem_cons_self
    refine HasLayout.split (pre := [_, _, _]) (w1 := r.plen) (w2 := 32 - r.plen) (v1 := 2 ^ r.plen - 1) (v2 := 0) l1
      (by omega) (Nat.sub_lt (Nat.two_pow_pos _) (by decide)) (Nat.two_pow_pos _) ?_
    rw [Int.toNat_natCast, netmask4, Nat.add_zero, Nat.sub_mul, ← Nat.pow_add, Nat.one_mul, Nat.add_sub_cancel' hr]

end SY.Props
