import Verif.Arp

/-! # Properties C11, C12: ARP -/

namespace SY.Props

/-- **C11**: every well-formed ARP header survives the wire, whatever follows it. -/
theorem arp_roundtrip (h : Arp) (w : h.WF) (rest : Bytes) :
    ∃ b, h.toBytes = .ok b ∧ b.length = 28 ∧ Arp.fromBytes (b ++ rest) = .ok (h, rest) := by
  obtain ⟨b, hb, hl⟩ := Arp.toBytes_ok w
  exact ⟨b, hb, hl, Arp.fromBytes_toBytes w hb rest⟩

example : (⟨1, 0x0800, 6, 4, 2, ⟨[1, 2, 3, 4, 5, 6]⟩, .v4 0x0a000001, ⟨[7, 8, 9, 10, 11, 12]⟩,
    .v4 0x0a000002⟩ : Arp).WF := by decide

/-- The RFC 826 layout of the serialised header. -/
theorem arp_layout (h : Arp) (w : h.WF) :
    h.toBytes = .ok (beEnc 2 h.hwtype ++ beEnc 2 h.prototype ++ beEnc 1 h.hwaddrlen ++
      beEnc 1 h.protoaddrlen ++ beEnc 2 h.operation ++ h.senderhwaddr.raw ++
      h.senderprotoaddr.packed ++ h.targethwaddr.raw ++ h.targetprotoaddr.packed) := by
  have hf := Arp.fits w
  obtain ⟨w1, w2, w3, w4, w5, w6, w7, w8, w9⟩ := w
  simp only [Fits, Arp.fmt, Arp.vals] at hf
  obtain ⟨f1, f2, f3, f4, f5, f6, f7, f8, f9, _⟩ := hf
  simp only [Arp.toBytes, Arp.fmt, Arp.vals, pack, if_pos f1, if_pos f2, if_pos f3, if_pos f4,
    if_pos f5, f6, f7, f8, f9, map_ok, Int.toNat_natCast, Nat.sub_self]
  have t : ∀ (b : Bytes) (n : Nat), b.length = n → List.take n b = b := by
    intro b n hn; rw [← hn, List.take_length]
  simp [zeros, t _ _ f6, t _ _ f7, t _ _ f8, t _ _ f9]

/-- **C11**: every byte string the parser accepts re-serialises to its first 28 bytes and the
remainder is returned untouched. -/
theorem arp_bytes_roundtrip (raw rest : Bytes) (h : Arp) (hp : Arp.fromBytes raw = .ok (h, rest)) :
    h.WF ∧ h.toBytes = .ok (raw.take 28) ∧ raw = raw.take 28 ++ rest := by
  obtain ⟨i1, i2, i3, i4⟩ := Arp.fromBytes_inv hp
  refine ⟨i3, ?_, by rw [i2, List.take_append_drop]⟩
  have hl' : (raw.take 28).length = calcsize Arp.fmt := by
    simp [Arp.fmt, calcsize, Fld.size]; omega
  rw [Arp.toBytes, i4]
  exact pack_unpackGo Arp.fmt (by simp [Arp.fmt, NoPad]) _ hl'

/-- The parser accepts exactly the byte strings of at least 28 bytes whose hardware type,
protocol type and operation are enumerated; otherwise the exception is
`NotEnoughDataError` (short) or a plain `Exception`. -/
theorem arp_parse_errors (raw : Bytes) :
    (raw.length < 28 → Arp.fromBytes raw = .error .notEnoughData) ∧
    (28 ≤ raw.length → (∃ h, Arp.fromBytes raw = .ok (h, raw.drop 28)) ∨
      Arp.fromBytes raw = .error .generic) := by
  refine ⟨fun h => by unfold Arp.fromBytes; rw [if_pos h], fun h => ?_⟩
  have hl' : (raw.take 28).length = calcsize Arp.fmt := by
    simp [Arp.fmt, calcsize, Fld.size]; omega
  unfold Arp.fromBytes
  rw [if_neg (by omega), unpack, if_pos hl']
  simp only [Arp.fmt, unpackGo, bind_ok]
  generalize Arp.ofFields _ _ _ _ _ _ _ _ _ = r
  cases r with
  | ok a => left; exact ⟨a, rfl⟩
  | error e => right; rfl

/-- **C12**: a request built from a hardware address and two protocol addresses: broadcast at
the Ethernet layer, sender fields from the arguments, target hardware address broadcast. -/
theorem arp_request_fields (hw : EthAddr) (sip tip : IPAddr) (hw6 : hw.raw.length = 6) :
    createIpArpRequest (.addr hw) (.addr sip) (.addr tip) =
      .ok (⟨⟨[255, 255, 255, 255, 255, 255]⟩, hw, 0x0806⟩,
           ⟨1, 0x0800, 6, 4, 1, hw, sip, ⟨[255, 255, 255, 255, 255, 255]⟩, tip⟩) := by
  have hne : hw.raw ≠ [] := by intro e; simp [e] at hw6
  simp only [createIpArpRequest, Ethernet.setSrc, Ethernet.setDst, Arp.setSenderHw,
    EthAddr.mk'_addr hne, bind_ok, Arp.setSenderProto, ipAddress, Arp.setTargetProto]
  rfl

/-- **C12**: a reply differs from the request exactly in the Ethernet destination, the
operation and the target hardware address, which are the peer's. -/
theorem arp_reply_fields (hw dst : EthAddr) (sip tip : IPAddr) (h1 : hw.raw.length = 6)
    (h2 : dst.raw.length = 6) :
    ∃ e a, createIpArpRequest (.addr hw) (.addr sip) (.addr tip) = .ok (e, a) ∧
      createIpArpReply (.addr hw) (.addr dst) (.addr sip) (.addr tip) =
        .ok ({ e with dst := dst }, { a with operation := 2, targethwaddr := dst }) := by
  have hne : dst.raw ≠ [] := by intro e; simp [e] at h2
  refine ⟨_, _, arp_request_fields hw sip tip h1, ?_⟩
  simp only [createIpArpReply, arp_request_fields hw sip tip h1, bind_ok, Ethernet.setDst,
    EthAddr.mk'_addr hne, Arp.setTargetHw]
  rfl

/-- Both helper packets are well-formed, hence survive the wire. -/
theorem arp_helpers_wf (hw dst : EthAddr) (sip tip : BitVec 32) (h1 : hw.raw.length = 6)
    (h2 : dst.raw.length = 6) :
    ∃ e a, createIpArpReply (.addr hw) (.addr dst) (.addr (.v4 sip)) (.addr (.v4 tip)) = .ok (e, a) ∧
      e.WF ∧ a.WF := by
  obtain ⟨e, a, h3, h4⟩ := arp_reply_fields hw dst (.v4 sip) (.v4 tip) h1 h2
  refine ⟨_, _, h4, ?_, ?_⟩
  · rw [arp_request_fields hw _ _ h1] at h3
    cases h3
    exact ⟨h2, h1, show 0x0806 ∈ etherTypes by decide⟩
  · rw [arp_request_fields hw _ _ h1] at h3
    cases h3
    exact ⟨show 1 ∈ arpHwTypes by decide, show 0x0800 ∈ etherTypes by decide,
      show 6 < 256 by decide, show 4 < 256 by decide, show 2 ∈ arpOperations by decide, h1,
      trivial, h2, trivial⟩

example : (EthAddr.mk [2, 0, 0, 0, 0, 1]).raw.length = 6 := rfl

end SY.Props
