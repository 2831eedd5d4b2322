import Verif.Udp
import Verif.Props.Checksum

/-! # Properties C22, C23, C76: UDP -/

namespace SY.Props

/-- RFC 768 / RFC 793 pseudo-header: source, destination, zero, protocol, segment length. -/
def pseudoHeader (src dst : BitVec 32) (proto seglen : Nat) : Bytes :=
  beEnc 4 src.toNat ++ beEnc 4 dst.toNat ++ [0] ++ beEnc 1 proto ++ beEnc 2 seglen

/-- What finalising and serialising a UDP header over IPv4 produces. -/
theorem udp_wire {h h' : UDP} {ip : IPv4} {s d : BitVec 32} {tail b : Bytes}
    (hs : ip.src = .v4 s) (hd : ip.dst = .v4 d)
    (hp : h.preSerialize tail (some ip) = .ok h') (hb : h'.toBytes = .ok b) :
    let pre := pseudoHeader s d ip.protocol (8 + tail.length) ++
      (beEnc 2 h.src.toNat ++ beEnc 2 h.dst.toNat ++ beEnc 2 (8 + tail.length))
    h'.src = h.src ∧ h'.dst = h.dst ∧ h'.len = 8 + tail.length ∧ 8 + tail.length < 65536 ∧
    h'.csum = checksum (pre ++ [0, 0] ++ tail) ∧
    b = beEnc 2 h.src.toNat ++ beEnc 2 h.dst.toNat ++ beEnc 2 (8 + tail.length) ++ beEnc 2 h'.csum := by
  simp only [UDP.preSerialize, UDP.computeChecksum] at hp
  obtain ⟨c, hc, hp⟩ := bind_eq_ok.mp hp
  cases hp
  obtain ⟨x, hx, hc⟩ := bind_eq_ok.mp hc
  cases hc
  unfold UDP.pseudoFmt at hx
  obtain ⟨v1, x1, hx1, rfl⟩ := pack_u_inv hx
  obtain ⟨v2, x2, hx2, rfl⟩ := pack_u_inv hx1
  obtain ⟨x3, hx3, rfl⟩ := pack_x_inv hx2
  obtain ⟨v4, x4, hx4, rfl⟩ := pack_u_inv hx3
  obtain ⟨v5, x5, hx5, rfl⟩ := pack_u_inv hx4
  obtain ⟨v6, x6, hx6, rfl⟩ := pack_u_inv hx5
  obtain ⟨v7, x7, hx7, rfl⟩ := pack_u_inv hx6
  obtain ⟨v8, x8, hx8, rfl⟩ := pack_u_inv hx7
  obtain ⟨v9, x9, hx9, rfl⟩ := pack_u_inv hx8
  cases pack_nil_inv hx9
  simp only [UDP.toBytes, UDP.fmt, UDP.vals] at hb
  obtain ⟨u1, y1, hy1, rfl⟩ := pack_u_inv hb
  obtain ⟨u2, y2, hy2, rfl⟩ := pack_u_inv hy1
  obtain ⟨u3, y3, hy3, rfl⟩ := pack_u_inv hy2
  obtain ⟨u4, y4, hy4, rfl⟩ := pack_u_inv hy3
  cases pack_nil_inv hy4
  have z : beEnc 2 (0 : Int).toNat = [0, 0] := by decide
  have z1 : zeros 1 = [0] := rfl
  refine ⟨rfl, rfl, rfl, by have := v5.2; omega, ?_, ?_⟩
  · simp only [hs, hd, IPAddr.toNat, Int.toNat_natCast, pseudoHeader, z, z1, List.append_assoc,
      List.append_nil]
  · simp only [Int.toNat_natCast, List.append_nil, List.append_assoc]

/-- **C22**: when a UDP header is finalised against the bytes that follow it and the packet's
IPv4 header, the length written is 8 plus the payload length, and the checksum verifies over the
RFC 768 pseudo-header, the header and the payload. -/
theorem udp_length_checksum (h h' : UDP) (ip : IPv4) (s d : BitVec 32) (tail b : Bytes)
    (hs : ip.src = .v4 s) (hd : ip.dst = .v4 d)
    (hp : h.preSerialize tail (some ip) = .ok h') (hb : h'.toBytes = .ok b) :
    b.length = 8 ∧ beDec ((b.drop 4).take 2) = b.length + tail.length ∧
    checksum (pseudoHeader s d ip.protocol (b.length + tail.length) ++ b ++ tail) = 0 := by
  obtain ⟨_, _, _, hlt, hc, hb⟩ := udp_wire hs hd hp hb
  have hbl : b.length = 8 := by rw [hb]; simp
  refine ⟨hbl, ?_, ?_⟩
  · rw [hbl, hb]
    have : ∀ (x y : Nat) (t : Bytes), (beEnc 2 x ++ (beEnc 2 y ++ t)).drop 4 = t := by
      intro x y t; simp [beEnc]
    simp only [List.append_assoc, this]
    rw [List.take_left' (by simp), beDec_beEnc (by omega)]
  · have := checksum_store (pseudoHeader s d ip.protocol (8 + tail.length) ++
      (beEnc 2 h.src.toNat ++ beEnc 2 h.dst.toNat ++ beEnc 2 (8 + tail.length))) tail
      (by simp [pseudoHeader]) (by simp [pseudoHeader]; omega)
    rw [← hc] at this
    rw [hbl, hb]
    simpa only [List.append_assoc] using this

/-- Finalising and serialising succeeds exactly for 16-bit ports and a payload that fits. -/
theorem udp_serialises_iff (h : UDP) (ip : IPv4) (s d : BitVec 32) (tail : Bytes)
    (hs : ip.src = .v4 s) (hd : ip.dst = .v4 d) (hpr : ip.protocol < 256) :
    (∃ h' b, h.preSerialize tail (some ip) = .ok h' ∧ h'.toBytes = .ok b) ↔
      (0 ≤ h.src ∧ h.src ≤ 65535) ∧ (0 ≤ h.dst ∧ h.dst ≤ 65535) ∧ 8 + tail.length ≤ 65535 := by
  constructor
  · rintro ⟨h', b, hp, hb⟩
    obtain ⟨e1, e2, _, hlt, _, _⟩ := udp_wire hs hd hp hb
    simp only [UDP.toBytes, UDP.fmt, UDP.vals] at hb
    obtain ⟨u1, y1, hy1, rfl⟩ := pack_u_inv hb
    obtain ⟨u2, y2, hy2, rfl⟩ := pack_u_inv hy1
    rw [e1] at u1; rw [e2] at u2
    omega
  · rintro ⟨⟨a1, a2⟩, ⟨b1, b2⟩, hl⟩
    obtain ⟨sp, hsp⟩ := Int.eq_ofNat_of_zero_le a1
    obtain ⟨dp, hdp⟩ := Int.eq_ofNat_of_zero_le b1
    have hf : Fits UDP.pseudoFmt [.i ip.src.toNat, .i ip.dst.toNat, .i ip.protocol,
        .i (8 + tail.length : Nat), .i h.src, .i h.dst, .i (8 + tail.length : Nat), .i 0] := by
      have h1 := s.isLt
      have h2 := d.isLt
      rw [hs, hd]
      simp only [UDP.pseudoFmt, Fits, IPAddr.toNat, and_true]
      omega
    obtain ⟨x, hx⟩ := pack_ok hf
    have hpre : h.preSerialize tail (some ip) =
        .ok ⟨h.src, h.dst, 8 + tail.length, checksum (x ++ tail)⟩ := by
      simp only [UDP.preSerialize, UDP.computeChecksum, hx, bind_ok]
    obtain ⟨b, hb, _⟩ := UDP.toBytes_ok
      (h := ⟨h.src, h.dst, 8 + tail.length, checksum (x ++ tail)⟩)
      ⟨⟨a1, by simp only; omega⟩, ⟨b1, by simp only; omega⟩, by simp only; omega, checksum_lt _⟩
    exact ⟨_, b, hpre, hb⟩

example : ∃ h' b, (⟨53, 4000, 8, 0⟩ : UDP).preSerialize [1, 2, 3]
    (some ⟨0, 20, 0, 0, 0, 64, 17, .v4 0x0a000001, .v4 0x0a000002, []⟩) = .ok h' ∧ h'.toBytes = .ok b :=
  (udp_serialises_iff _ _ _ _ _ rfl rfl (by decide)).mpr (by decide)

/-- **C23**: header to bytes and back. -/
theorem udp_roundtrip (h : UDP) (w : h.WF) (rest : Bytes) :
    ∃ b, h.toBytes = .ok b ∧ b.length = 8 ∧ UDP.fromBytes (b ++ rest) = .ok (h, rest) := by
  obtain ⟨b, hb, hl⟩ := UDP.toBytes_ok w
  exact ⟨b, hb, hl, UDP.fromBytes_toBytes w hb rest⟩

example : (⟨53, 4000, 30, 0xbeef⟩ : UDP).WF := by decide

/-- **C23**: bytes to header and back; and the only parse error is shortness. -/
theorem udp_bytes_roundtrip (raw : Bytes) :
    (raw.length < 8 → UDP.fromBytes raw = .error .notEnoughData) ∧
    (8 ≤ raw.length → ∃ h, UDP.fromBytes raw = .ok (h, raw.drop 8) ∧ h.toBytes = .ok (raw.take 8)) := by
  refine ⟨fun h => by unfold UDP.fromBytes; rw [if_pos h], fun hl => ?_⟩
  obtain ⟨h, h1, h2, h3⟩ := UDP.fromBytes_ok hl
  refine ⟨h, h1, ?_⟩
  rw [UDP.toBytes, h3]
  exact pack_unpackGo UDP.fmt (by simp [UDP.fmt, NoPad]) _ (by simp [UDP.fmt, calcsize, Fld.size]; omega)

/-- **C76 is false** over IPv4: this packet's checksum computes to 0 and 0 ("no checksum") is
what is sent. -/
theorem udp_nonzero_checksum_violated :
    ∃ (h h' : UDP) (ip : IPv4), h.WF ∧ ip.WF ∧ h.preSerialize [] (some ip) = .ok h' ∧ h'.csum = 0 := by
  obtain ⟨h', h1, h2⟩ := Except.of_test
    (r := (⟨65502, 0, 8, 0⟩ : UDP).preSerialize [] (some { IPv4.default with protocol := 17 }))
    (p := fun h => h.csum == 0) (by decide +kernel)
  exact ⟨_, h', _, by decide, by decide, h1, by simpa using h2⟩

/-- **C76 is false** over anything but IPv4: the checksum sent is always 0. -/
theorem udp_no_checksum_without_ipv4 (h h' : UDP) (tail : Bytes)
    (hp : h.preSerialize tail none = .ok h') : h'.csum = 0 := by
  simp only [UDP.preSerialize, UDP.computeChecksum, bind_ok] at hp
  cases hp; rfl

/-- **C76, partial**: over IPv4 the value sent is RFC 1071's checksum of pseudo-header, header
and payload.  Missing: RFC 768's substitution of 0xffff for 0, and IPv6. -/
theorem udp_checksum_value_partial (h h' : UDP) (ip : IPv4) (s d : BitVec 32) (tail b : Bytes)
    (hs : ip.src = .v4 s) (hd : ip.dst = .v4 d)
    (hp : h.preSerialize tail (some ip) = .ok h') (hb : h'.toBytes = .ok b) :
    beDec ((b.drop 6).take 2) = rfc1071 (pseudoHeader s d ip.protocol (8 + tail.length) ++
      b.take 6 ++ [0, 0] ++ tail) := by
  obtain ⟨_, _, _, hlt, hc, hb⟩ := udp_wire hs hd hp hb
  have h6 : b.take 6 = beEnc 2 h.src.toNat ++ beEnc 2 h.dst.toNat ++ beEnc 2 (8 + tail.length) := by
    rw [hb]; simp [beEnc]
  have h7 : (b.drop 6).take 2 = beEnc 2 h'.csum := by
    rw [hb]; simp [beEnc]
  rw [h6, h7, beDec_beEnc (by rw [hc]; exact checksum_lt _), hc,
    checksum_eq_rfc1071_partial _ (by simp [pseudoHeader]; omega)]

/-- **C80, partial**: UDP's checksum attribute after a parse is the received 16-bit value.
Missing: TCP and IPv4. -/
theorem udp_reports_checksum_partial (raw rest : Bytes) (h : UDP)
    (hp : UDP.fromBytes raw = .ok (h, rest)) : h.csum = beDec ((raw.drop 6).take 2) := by
  obtain ⟨hl, _, _, hv⟩ := UDP.fromBytes_inv hp
  simp only [UDP.vals, UDP.fmt, unpackGo, List.cons.injEq, Val.i.injEq, and_true] at hv
  obtain ⟨_, _, _, h4⟩ := hv
  have e : List.take 2 (List.drop 2 (List.drop 2 (List.drop 2 (List.take 8 raw)))) =
      (raw.drop 6).take 2 := by
    simp [List.drop_take, List.take_take]
  rw [e] at h4
  exact_mod_cast h4

example : (UDP.fromBytes [0, 53, 0, 99, 0, 8, 0xbe, 0xef]).isOk = true := by decide +kernel

/-- **C80 is false** for IPv4: a header received with checksum 0xffff reports something else. -/
theorem ipv4_reports_checksum_violated :
    ∃ (raw rest : Bytes) (h : IPv4) (c : Nat), IPv4.fromBytes raw = .ok (h, rest) ∧
      h.checksum = .ok c ∧ beDec ((raw.drop 10).take 2) = 0xffff ∧ c ≠ 0xffff := by
  obtain ⟨⟨h, rest⟩, h1, h2⟩ := Except.of_test
    (r := IPv4.fromBytes ([0x45, 0, 0, 20, 0, 0, 0, 0, 64, 17, 0xff, 0xff] ++ zeros 8))
    (p := fun x => Except.test x.1.checksum (fun c => c != 0xffff)) (by decide +kernel)
  obtain ⟨c, h3, h4⟩ := Except.of_test h2
  exact ⟨_, rest, h, c, h1, h3, by decide, by simpa using h4⟩

end SY.Props
