import Verif.IPv6

/-! # Properties C31, C32, C83: IPv6 and its extension headers -/

namespace SY.Props

/-! ## C31: the fixed header -/

/-- **C31** (round-trip): a header with in-range fields serialises to 40 bytes; parsing them in
front of any payload gives the header back and leaves the payload untouched. -/
theorem ipv6_roundtrip (h : IPv6) (w : h.WF) :
    ∃ b, h.toBytes = .ok b ∧ b.length = 40 ∧ ∀ payload, IPv6.fromBytes (b ++ payload) = .ok (h, payload) :=
  IPv6.toBytes_ok w

example : (IPv6.mk 0xa5 0xbeef1 64 17 8 1 2).WF := by decide

/-- **C31** (parse then serialise): whatever 40 bytes were accepted, the header writes exactly
those bytes again, and the rest of the input is what is handed to the next parser. -/
theorem ipv6_reserialise (raw rest : Bytes) (h : IPv6) (hp : IPv6.fromBytes raw = .ok (h, rest)) :
    h.toBytes = .ok (raw.take 40) ∧ rest = raw.drop 40 ∧ raw = raw.take 40 ++ rest := by
  obtain ⟨_, h2, _, h4⟩ := IPv6.fromBytes_inv hp
  exact ⟨h4, h2, by rw [h2, List.take_append_drop]⟩

example : ∃ h, IPv6.fromBytes ([0x6a, 0x5b, 0xee, 0xf1, 0, 2, 17, 64] ++ zeros 32 ++ [1, 2]) = .ok (h, [1, 2]) :=
  ⟨IPv6.mk 0xa5 0xbeef1 64 17 2 0 0, by decide +kernel⟩

/-- **C31** (field positions): version, traffic class, flow label, payload length, next header, hop
limit, source and destination are where RFC 2460 section 3 puts them. -/
theorem ipv6_wire_fields (h : IPv6) (w : h.WF) (b : Bytes) (hb : h.toBytes = .ok b) :
    beDec (b.take 4) = 6 * 2 ^ 28 + h.tc.toNat * 2 ^ 20 + h.flow.toNat ∧
    beDec ((b.drop 4).take 2) = h.plen ∧ beDec ((b.drop 6).take 1) = h.next ∧
    (beDec ((b.drop 7).take 1) : Int) = h.ttl ∧
    beDec ((b.drop 8).take 16) = h.src.toNat ∧ beDec ((b.drop 24).take 16) = h.dst.toNat := by
  obtain ⟨t, f, l, h1, h2, h3, h4, h5, h6, hv⟩ := IPv6.vals_wf w
  have hp := ipProtocols_lt w.2.2.2.2.2.2.1
  have hq := w.2.2.2.2.2.2.2
  have hs := bv128_lt h.src
  have hd := bv128_lt h.dst
  unfold IPv6.toBytes at hb
  rw [hv, IPv6.fmt, pack_cons_u (by omega), pack_cons_u (by omega), pack_cons_u (by omega),
    pack_cons_u (by omega), pack_cons_u (by omega), pack_cons_u (by omega), pack_cons_s (by simp),
    pack_cons_s (by simp), pack_nil] at hb
  simp only [map_ok, List.append_nil, Except.ok.injEq, enc1, List.cons_append, List.nil_append] at hb
  have e2 : ∀ x, beEnc 2 x = [UInt8.ofNat (x / 256), UInt8.ofNat x] := by intro x; simp [beEnc]
  have t1 : ∀ x : Nat, x < 256 → (UInt8.ofNat x).toNat = x := by intro x hx; simp; omega
  rw [← hb]
  refine ⟨?_, ?_, ?_, ?_, ?_, ?_⟩
  · simp only [e2, List.take_succ_cons, List.take_zero, List.cons_append, List.nil_append, beDec,
      List.length_cons, List.length_nil, t1 _ (show 96 + t / 16 < 256 by omega),
      t1 _ (show t % 16 * 16 + f / 65536 < 256 by omega), t1 _ (show f % 65536 / 256 < 256 by omega),
      UInt8.toNat_ofNat', h1, h2, Int.toNat_natCast]
    omega
  · have : ((UInt8.ofNat (96 + t / 16) :: UInt8.ofNat (t % 16 * 16 + f / 65536) :: (beEnc 2 (f % 65536) ++
        (beEnc 2 h.plen ++ UInt8.ofNat h.next :: UInt8.ofNat l :: (beEnc 16 h.src.toNat ++
        beEnc 16 h.dst.toNat)))).drop 4).take 2 = beEnc 2 h.plen := by
      simp [e2]
    rw [this]; exact beDec_beEnc (by omega)
  · simp [e2, beDec]; omega
  · simp [e2, beDec, h3]; omega
  · have : ((UInt8.ofNat (96 + t / 16) :: UInt8.ofNat (t % 16 * 16 + f / 65536) :: (beEnc 2 (f % 65536) ++
        (beEnc 2 h.plen ++ UInt8.ofNat h.next :: UInt8.ofNat l :: (beEnc 16 h.src.toNat ++
        beEnc 16 h.dst.toNat)))).drop 8).take 16 = beEnc 16 h.src.toNat := by
      simp [e2]
    rw [this]; exact beDec_beEnc hs
  · have : ((UInt8.ofNat (96 + t / 16) :: UInt8.ofNat (t % 16 * 16 + f / 65536) :: (beEnc 2 (f % 65536) ++
        (beEnc 2 h.plen ++ UInt8.ofNat h.next :: UInt8.ofNat l :: (beEnc 16 h.src.toNat ++
        beEnc 16 h.dst.toNat)))).drop 24).take 16 = beEnc 16 h.dst.toNat := by
      simp only [e2, List.cons_append, List.nil_append, List.drop_succ_cons]
      have : (beEnc 16 h.src.toNat ++ beEnc 16 h.dst.toNat).drop 16 = beEnc 16 h.dst.toNat := by simp
      rw [this]
      apply List.take_of_length_le; simp
    rw [this]; exact beDec_beEnc hd

/-- **C31** (payload length): finalising the header against the bytes that follow makes the
payload-length field their number; a payload that does not fit the field is an error, not a
wrapped length. -/
theorem ipv6_payload_length (h : IPv6) (w : h.WF) (tail : Bytes) :
    (tail.length < 65536 → ∃ b, (h.preSerialize tail).toBytes = .ok b ∧
      beDec ((b.drop 4).take 2) = tail.length) ∧
    (65536 ≤ tail.length → (h.preSerialize tail).toBytes = .error .structError) := by
  constructor
  · intro ht
    have w' : (h.preSerialize tail).WF := by
      obtain ⟨w1, w2, w3, w4, w5, w6, w7, w8⟩ := w
      exact ⟨w1, w2, w3, w4, w5, w6, w7, ht⟩
    obtain ⟨b, hb, _⟩ := IPv6.toBytes_ok w'
    exact ⟨b, hb, (ipv6_wire_fields _ w' b hb).2.1⟩
  · intro ht
    obtain ⟨t, f, l, h1, h2, h3, h4, h5, h6, hv⟩ := IPv6.vals_wf w
    have hv' : (h.preSerialize tail).vals = [.i (96 + t / 16 : Nat), .i (t % 16 * 16 + f / 65536 : Nat),
        .i (f % 65536 : Nat), .i tail.length, .i h.next, .i l, .b (beEnc 16 h.src.toNat),
        .b (beEnc 16 h.dst.toNat)] := by
      have : (h.preSerialize tail).vals = h.vals.set 3 (.i tail.length) := rfl
      rw [this, hv]; rfl
    unfold IPv6.toBytes
    rw [hv', IPv6.fmt, pack_cons_u (by omega), pack_cons_u (by omega), pack_cons_u (by omega)]
    rw [pack, if_neg (by simp; omega)]
    rfl

example : (IPv6.default.preSerialize [1, 2, 3]).WF := by decide

/-! ## C83: out-of-range values -/

/-- The negation of **C83**: a traffic class of 256 is serialised as a header of IP version 7. -/
theorem ipv6_out_of_range_violated :
    ∃ b, ((IPv6.default.setTc 256).toBytes = .ok b) ∧ beDec (b.take 1) / 16 = 7 := by
  obtain ⟨b, h1, h2⟩ := Except.of_test
    (show Except.test ((IPv6.default.setTc 256).toBytes) (fun b => decide (beDec (b.take 1) / 16 = 7)) = true
      by decide +kernel)
  exact ⟨b, h1, by simpa using h2⟩

/-- … and a flow label of `2^20` is serialised as flow label 0. -/
theorem ipv6_flow_label_violated :
    (IPv6.default.setFlow 1048576).toBytes = (IPv6.default.setFlow 0).toBytes ∧
    ∃ b, (IPv6.default.setFlow 1048576).toBytes = .ok b := by
  constructor
  · decide +kernel
  · obtain ⟨b, h1, _⟩ := Except.of_test
      (show Except.test ((IPv6.default.setFlow 1048576).toBytes) (fun _ => true) = true by decide +kernel)
    exact ⟨b, h1⟩

/-- **C83**, the part that holds: serialisation succeeds exactly for hop limits below 256, payload
lengths below 65536 and traffic classes below 4096.  (Full statement: … below 256, and flow labels
below `2^20`; both violated above.) -/
theorem ipv6_serialises_iff_partial (h : IPv6) (hn : h.next ∈ ipProtocols) :
    (∃ b, h.toBytes = .ok b) ↔
      (0 ≤ h.tc ∧ h.tc < 4096 ∧ 0 ≤ h.ttl ∧ h.ttl < 256 ∧ h.plen < 65536) := by
  have hp := ipProtocols_lt hn
  have ho : IPv6.octet1 h.tc h.flow < 256 := by
    unfold IPv6.octet1
    have e1 : (h.tc % 16).toNat < 16 := by omega
    have e2 : (h.flow % 1048576).toNat < 1048576 := by omega
    rw [and_f0000, and_0f, or_hi 4 _ (by omega)]
    omega
  have hf : (h.flow % 1048576).toNat &&& 0xffff < 65536 := by rw [and_ffff]; omega
  have h0 : (0 ≤ IPv6.octet0 h.tc ∧ IPv6.octet0 h.tc < 256) ↔ (0 ≤ h.tc ∧ h.tc < 4096) := by
    unfold IPv6.octet0
    split
    · rename_i hc
      obtain ⟨t, ht⟩ := Int.eq_ofNat_of_zero_le hc
      rw [ht, Int.toNat_natCast]
      have : (6 <<< 4 ||| t >>> 4) < 256 ↔ t < 4096 := by
        constructor
        · intro hh
          have := Nat.right_le_or (n := 6 <<< 4) (m := t >>> 4)
          rw [Nat.shiftRight_eq_div_pow] at *
          omega
        · intro hh
          exact Nat.or_lt_two_pow (n := 8) (by decide) (by rw [Nat.shiftRight_eq_div_pow]; omega)
      omega
    · omega
  constructor
  · rintro ⟨b, hb⟩
    unfold IPv6.toBytes IPv6.fmt IPv6.vals at hb
    obtain ⟨v1, x1, hx1, _⟩ := pack_u_inv hb
    obtain ⟨v2, x2, hx2, _⟩ := pack_u_inv hx1
    obtain ⟨v3, x3, hx3, _⟩ := pack_u_inv hx2
    obtain ⟨v4, x4, hx4, _⟩ := pack_u_inv hx3
    obtain ⟨v5, x5, hx5, _⟩ := pack_u_inv hx4
    obtain ⟨v6, x6, hx6, _⟩ := pack_u_inv hx5
    have := h0.mp ⟨v1.1, by have := v1.2; omega⟩
    exact ⟨this.1, this.2, v6.1, by have := v6.2; omega, by have := v4.2; omega⟩
  · rintro ⟨a1, a2, a3, a4, a5⟩
    have := h0.mpr ⟨a1, a2⟩
    apply pack_ok
    simp [Fits, IPv6.fmt, IPv6.vals]
    omega

example : (58 : Nat) ∈ ipProtocols := by decide

/-! ## C32: extension headers -/

/-- **C32** (fragment header): any offset below 8192, 32-bit identification and more-fragments bit
survive; the header is 8 bytes long. -/
theorem fragment_roundtrip (n : Nat) (hn : n ∈ ipProtocols) (ident offset : Nat) (mf : Bool)
    (hi : ident < 2 ^ 32) (ho : offset < 8192) :
    ∃ b, (Fragment.mk (some n) 0 ident offset mf).toBytes = .ok b ∧ b.length = 8 ∧
      ∀ payload, Fragment.fromBytes (b ++ payload) = .ok (⟨some n, 0, ident, offset, mf⟩, payload) := by
  have hm : ∃ m : Nat, m < 2 ∧ (if mf = true then (1 : Int) else 0) = m ∧ decide (m ≠ 0) = mf := by
    cases mf
    · exact ⟨0, by decide, rfl, rfl⟩
    · exact ⟨1, by decide, rfl, rfl⟩
  obtain ⟨m, hm1, hm2, hm3⟩ := hm
  have e : (offset : Int) * 8 + (m : Int) = ((offset * 8 + m : Nat) : Int) := by omega
  refine ⟨UInt8.ofNat n :: UInt8.ofNat 0 :: (beEnc 2 (offset * 8 + m) ++ beEnc 4 ident), ?_, by simp, ?_⟩
  · unfold Fragment.toBytes
    simp only [hm2, e]
    rw [extBytes_ok hn (by decide)]
    simp only [bind_ok]
    rw [pack_cons_u (by omega), pack_cons_u (by omega)]
    simp
  · intro payload
    unfold Fragment.fromBytes
    rw [List.cons_append, List.cons_append, extParse_ok hn (by decide) (by omega)]
    simp only [bind_ok]
    rw [if_neg (by simp only [List.length_append, length_beEnc]; omega)]
    have t6 : (beEnc 2 (offset * 8 + m) ++ beEnc 4 ident ++ payload).take 6 =
        beEnc 2 (offset * 8 + m) ++ beEnc 4 ident := List.take_left' (by simp)
    have d6 : (beEnc 2 (offset * 8 + m) ++ beEnc 4 ident ++ payload).drop 6 = payload :=
      List.drop_left' (by simp)
    have t2 : (beEnc 2 (offset * 8 + m) ++ beEnc 4 ident).take 2 = beEnc 2 (offset * 8 + m) := by simp
    have d2 : ((beEnc 2 (offset * 8 + m) ++ beEnc 4 ident).drop 2).take 4 = beEnc 4 ident := by
      simp [List.take_of_length_le]
    rw [t6, d6, unpack, if_pos (by simp [calcsize, Fld.size])]
    simp only [unpackGo, bind_ok, t2, d2, beDec_beEnc (show offset * 8 + m < 256 ^ 2 by omega),
      beDec_beEnc (show ident < 256 ^ 4 by omega), Int.toNat_natCast]
    have e1 : (offset * 8 + m) >>> 3 = offset := by rw [Nat.shiftRight_eq_div_pow]; omega
    have e2 : (offset * 8 + m) &&& 1 = m := by
      rw [show (1 : Nat) = 2 ^ 1 - 1 from rfl, Nat.and_two_pow_sub_one_eq_mod]; omega
    have e3 : decide ((offset * 8 + m) &&& 1 ≠ 0) = mf := by rw [← hm3]; simp only [e2]
    rw [e1, e3]

example : (6 : Nat) ∈ ipProtocols ∧ 0xdeadbeef < 2 ^ 32 ∧ 185 < 8192 := by decide

/-- **C32** (routing header): next header, segments-left and address survive; the header is 24
bytes long. -/
theorem route_roundtrip (n : Nat) (hn : n ∈ ipProtocols) (seg : Nat) (hs : seg < 256) (a : BitVec 128) :
    ∃ b, (RouteOpt.mk (some n) 0 2 seg a).toBytes = .ok b ∧ b.length = 24 ∧
      ∀ payload, RouteOpt.fromBytes (b ++ payload) = .ok (⟨some n, 0, 2, seg, a⟩, payload) := by
  refine ⟨UInt8.ofNat n :: UInt8.ofNat 0 :: 2 :: UInt8.ofNat seg :: (beEnc 4 0 ++ beEnc 16 a.toNat), ?_, by simp, ?_⟩
  · unfold RouteOpt.toBytes
    simp only []
    rw [extBytes_ok hn (by decide)]
    simp only [bind_ok]
    rw [pack_cons_u (by decide), pack_cons_u (by omega), show (0 : Int) = ((0 : Nat) : Int) from rfl,
      pack_cons_u (by decide)]
    simp [enc1]
  · intro payload
    unfold RouteOpt.fromBytes
    simp only [List.cons_append]
    rw [extParse_ok hn (by decide) (by omega)]
    have e : (UInt8.ofNat seg).toNat = seg := by simp; omega
    have d6 : (((2 : UInt8) :: UInt8.ofNat seg :: (beEnc 4 0 ++ beEnc 16 a.toNat ++ payload)).drop 6).take 16 =
        beEnc 16 a.toNat := by
      simp [beEnc]
    have d22 : ((2 : UInt8) :: UInt8.ofNat seg :: (beEnc 4 0 ++ beEnc 16 a.toNat ++ payload)).drop 22 = payload := by
      simp [beEnc]
    simp only [bind_ok, byteAt, List.getElem?_cons_zero, List.getElem?_cons_succ, d6, d22, e,
      ipv6OfBytes_enc]
    rfl

/-- The negation of **C32** for the routing header: the length octet written is 0 (meaning 8
bytes) in front of a 24-byte header, whatever the fields. -/
theorem route_length_octet_violated (n : Nat) (hn : n ∈ ipProtocols) (a : BitVec 128) :
    ∃ h b, ({ RouteOpt.default with addr := a } : RouteOpt).setNext n = .ok h ∧ h.toBytes = .ok b ∧
      b[1]? = some 0 ∧ b.length = 24 ∧ b.length ≠ (0 + 1) * 8 := by
  obtain ⟨b, h1, h2, h3⟩ := route_roundtrip n hn 1 (by decide) a
  refine ⟨⟨some n, 0, 2, 1, a⟩, b, by simp [RouteOpt.setNext, enumOf_nat hn, RouteOpt.default], h1, ?_, h2,
    by omega⟩
  unfold RouteOpt.toBytes at h1
  simp only [] at h1
  rw [extBytes_ok hn (by decide)] at h1
  obtain ⟨p, _, h1⟩ := bind_eq_ok.mp h1
  obtain ⟨q, _, h1⟩ := bind_eq_ok.mp h1
  cases h1; cases ‹Except.ok _ = Except.ok p›; rfl

/-- **C32** (hop-by-hop and destination headers), part that holds: if the options, with explicit
padding, fill the header to a multiple of 8 bytes, the header survives, its length octet is exact,
and the payload is untouched.  (Full statement: without the padding hypothesis; see
`hop_unpadded_violated`.) -/
theorem hop_roundtrip_partial (n : Nat) (hn : n ∈ ipProtocols) (os : List TLV) (hw : ∀ o ∈ os, o.WF)
    (h8 : ((os.map TLV.wireLen).sum + 2) % 8 = 0) (hmax : (os.map TLV.wireLen).sum + 2 ≤ 2048) :
    ∃ b, (HopOpt.mk (some n) os).toBytes = .ok b ∧ b.length = (os.map TLV.wireLen).sum + 2 ∧
      (∃ l, b[1]? = some l ∧ b.length = (l.toNat + 1) * 8) ∧
      ∀ payload, HopOpt.fromBytes (b ++ payload) = .ok (⟨some n, os⟩, payload) := by
  obtain ⟨x, h1, h2, h3⟩ := tlvsBytes_ok hw
  rw [← h2] at h8 hmax ⊢
  obtain ⟨k, hk⟩ : ∃ k, x.length + 2 = (k + 1) * 8 := ⟨(x.length + 2) / 8 - 1, by omega⟩
  have hk2 : k < 256 := by omega
  have ek : (((x.length + 2) / 8 : Nat) - 1 : Int) = (k : Int) := by omega
  refine ⟨UInt8.ofNat n :: UInt8.ofNat k :: x, ?_, by simp, ⟨UInt8.ofNat k, rfl, ?_⟩, ?_⟩
  · unfold HopOpt.toBytes
    simp only [h1, bind_ok, ek]
    rw [extBytes_ok hn hk2]; rfl
  · have : (UInt8.ofNat k).toNat = k := by simp; omega
    rw [this]; simp; omega
  · intro payload
    unfold HopOpt.fromBytes
    rw [List.cons_append, List.cons_append, extParse_ok hn hk2 (by simp; omega)]
    have e : (k + 1) * 8 - 2 = x.length := by omega
    simp only [bind_ok, e, List.take_left, h3, List.drop_left]

example : (∀ o ∈ [TLV.jumbo 70000, .routerAlert 0, .pad1, .mkPadN 3], o.WF) ∧
    (([TLV.jumbo 70000, .routerAlert 0, .pad1, .mkPadN 3].map TLV.wireLen).sum + 2) % 8 = 0 := by
  decide

/-- The negation of **C32** for unpadded option lists: a jumbo-payload option followed by a tunnel
limit makes an 11-byte header whose length octet says 8; parsing it back loses the second option
and hands its bytes to the payload. -/
theorem hop_unpadded_violated :
    ∃ b, (HopOpt.mk (some 59) [.jumbo 70000, .tunnelLimit 4]).toBytes = .ok b ∧ b.length = 11 ∧
      HopOpt.fromBytes b = .ok (⟨some 59, [.jumbo 70000]⟩, [4, 1, 4]) :=
  ⟨[59, 0, 194, 4, 0, 1, 0x11, 0x70, 4, 1, 4], by decide +kernel, rfl, by decide +kernel⟩

/-- … and a header whose options take fewer than 6 bytes cannot be serialised at all. -/
theorem hop_short_violated (n : Nat) (hn : n ∈ ipProtocols) (os : List TLV) (hw : ∀ o ∈ os, o.WF)
    (h6 : (os.map TLV.wireLen).sum < 6) :
    (HopOpt.mk (some n) os).toBytes = .error .structError := by
  obtain ⟨x, h1, h2, h3⟩ := tlvsBytes_ok hw
  have hp := ipProtocols_lt hn
  unfold HopOpt.toBytes
  simp only [h1, bind_ok]
  have : (((x.length + 2) / 8 : Nat) - 1 : Int) = -1 := by omega
  rw [this, extBytes]
  rw [pack_cons_u (by omega), pack, if_neg (by omega)]
  rfl

example : (∀ o ∈ [TLV.routerAlert 0], o.WF) ∧ ([TLV.routerAlert 0].map TLV.wireLen).sum < 6 := by decide

/-- **C32** (consumed length), part that holds: a hop-by-hop or destination header that is present
in full is consumed up to exactly its declared length.  (Full statement: for every accepted byte
string; see `hop_truncated_violated`.) -/
theorem hop_consumes_declared_partial (raw rest : Bytes) (h : HopOpt) (l : UInt8)
    (hp : HopOpt.fromBytes raw = .ok (h, rest)) (hl : raw[1]? = some l)
    (hfull : (l.toNat + 1) * 8 ≤ raw.length) :
    raw.length = (l.toNat + 1) * 8 + rest.length ∧ rest = raw.drop ((l.toNat + 1) * 8) := by
  unfold HopOpt.fromBytes at hp
  obtain ⟨c, hc, hp⟩ := bind_eq_ok.mp hp
  obtain ⟨os, hos, hp⟩ := bind_eq_ok.mp hp
  cases hp
  obtain ⟨n, k, r⟩ := c
  obtain ⟨h1, h2, h3, h4⟩ := extParse_inv hc
  subst h4
  simp only [List.getElem?_cons_succ, List.getElem?_cons_zero, Option.some.injEq] at hl
  have hk : l.toNat = k := by rw [← hl]; simp; omega
  rw [hk] at hfull ⊢
  simp only [List.length_cons] at hfull
  constructor
  · simp only [List.length_cons, List.length_drop]; omega
  · obtain ⟨q, hq⟩ : ∃ q, (k + 1) * 8 = q + 2 := ⟨(k + 1) * 8 - 2, by omega⟩
    rw [hq]; simp

/-- The negation of **C32** for truncated input: a header declaring 16 bytes of which 8 are
present is accepted. -/
theorem hop_truncated_violated :
    HopOpt.fromBytes [59, 1, 1, 4, 0, 0, 0, 0] = .ok (⟨some 59, [.padN 4]⟩, []) := by decide +kernel

/-- **C32**: option parsing terminates on every byte string. -/
theorem hop_options_terminate (raw : Bytes) :
    ∃ r, ∀ fuel, raw.length < fuel → scanLoop tlvStep fuel raw 0 [] = some r := by
  have hd : scan tlvStep raw ≠ .error .diverges :=
    scan_terminates tlvStep_nd raw (fun i o h => tlvStep_pos h rfl)
  exact ⟨_, fun fuel hf => scanLoop_eq_scan tlvStep tlvStep_nd raw hd fuel hf⟩

/-- The negation of **C82** for extension headers: a truncated routing header raises `IndexError`,
and a truncated option area raises `IndexError` too. -/
theorem ext_truncated_violated :
    RouteOpt.fromBytes [6, 0] = .error .indexError ∧
    HopOpt.fromBytes [6, 0, 5] = .error .indexError := by decide +kernel

/-- **C82** for the IPv6 fixed header and the fragment header. -/
theorem ipv6_short_raises (raw : Bytes) :
    (raw.length < 40 → IPv6.fromBytes raw = .error .notEnoughData) ∧
    (raw.length < 2 → Fragment.fromBytes raw = .error .notEnoughData) := by
  constructor
  · intro h; unfold IPv6.fromBytes; rw [if_pos h]
  · intro h
    have : extParse 1 raw = .error .notEnoughData := by
      unfold extParse
      split
      · simp only [List.length_cons] at h; omega
      · rfl
    unfold Fragment.fromBytes; rw [this]; rfl

/-- A fragment header whose reserved octet is not zero (receivers must ignore it, RFC 2460
section 4.5) makes parsing fail when the octet exceeds the number of bytes left. -/
theorem fragment_reserved_violated :
    Fragment.fromBytes [6, 9, 0, 0, 0, 0, 0, 1] = .error .generic ∧
    Fragment.fromBytes [6, 0, 0, 0, 0, 0, 0, 1] = .ok (⟨some 6, 0, 1, 0, false⟩, []) := by decide +kernel

end SY.Props
