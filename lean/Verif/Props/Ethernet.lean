import Verif.Ethernet

/-! # Properties C08–C10, C77: Ethernet and 802.1Q headers -/

namespace SY.Props

/-- **C08**: serialising a well-formed header gives destination, source and type in network
order, and parsing those bytes followed by any payload gives back the header and the payload. -/
theorem ethernet_roundtrip (h : Ethernet) (w : h.WF) (ht : 1500 < h.ethertype) (rest : Bytes) :
    ∃ b, h.toBytes = .ok b ∧ b = h.dst.raw ++ h.src.raw ++ beEnc 2 h.ethertype ∧
      Ethernet.fromBytes (b ++ rest) = .ok (h, rest) := by
  obtain ⟨b, hb, _⟩ := Ethernet.toBytes_ok w
  refine ⟨b, hb, ?_, Ethernet.fromBytes_toBytes w ht hb rest⟩
  have := etherTypes_lt w.2.2
  have w1 := w.1
  have w2 := w.2.1
  unfold Ethernet.toBytes at hb
  simp only [Ethernet.fmt, pack] at hb
  rw [if_pos (by omega), w1, w2] at hb
  have e1 : List.take 6 h.dst.raw = h.dst.raw := by rw [← w1, List.take_length]
  have e2 : List.take 6 h.src.raw = h.src.raw := by rw [← w2, List.take_length]
  simp [zeros, e1, e2] at hb
  simp [← hb]

example : (⟨⟨[1, 2, 3, 4, 5, 6]⟩, ⟨[7, 8, 9, 10, 11, 12]⟩, 0x86dd⟩ : Ethernet).WF := by decide

/-- **C08**: a frame that parses with a type above 1500 re-serialises to its first 14 bytes. -/
theorem ethernet_bytes_roundtrip (raw rest : Bytes) (h : Ethernet)
    (hp : Ethernet.fromBytes raw = .ok (h, rest))
    (ht : 1500 < beDec ((raw.drop 12).take 2)) :
    h.toBytes = .ok (raw.take 14) ∧ raw = raw.take 14 ++ rest := by
  obtain ⟨i1, i2, i3, i4, i5, i6⟩ := Ethernet.fromBytes_inv hp
  simp only at i6
  rw [if_neg (by omega)] at i6
  constructor
  · have hl : (raw.take 14).length = calcsize Ethernet.fmt := by
      simp [Ethernet.fmt, calcsize, Fld.size]; omega
    have := pack_unpackGo Ethernet.fmt (by simp [Ethernet.fmt, NoPad]) (raw.take 14) hl
    simp only [Ethernet.fmt, unpackGo] at this
    have e1 : (raw.take 14).take 6 = raw.take 6 := by simp [List.take_take]
    have e2 : ((raw.take 14).drop 6).take 6 = (raw.drop 6).take 6 := by
      rw [List.drop_take, List.take_take]; simp
    have e3 : (((raw.take 14).drop 6).drop 6).take 2 = (raw.drop 12).take 2 := by
      rw [List.drop_drop, List.drop_take, List.take_take]; simp
    rw [e1, e2, e3] at this
    rw [Ethernet.toBytes, i3, i4, i6]
    exact this
  · rw [i2, List.take_append_drop]

/-- Frames too short for a header raise `NotEnoughDataError`; longer ones raise only for an
unknown type above 1500. -/
theorem ethernet_parse_errors (raw : Bytes) :
    (raw.length < 14 → Ethernet.fromBytes raw = .error .notEnoughData) ∧
    (14 ≤ raw.length →
      (beDec ((raw.drop 12).take 2) ≤ 1500 ∨ beDec ((raw.drop 12).take 2) ∈ etherTypes) →
      ∃ h, Ethernet.fromBytes raw = .ok (h, raw.drop 14)) ∧
    (14 ≤ raw.length → 1500 < beDec ((raw.drop 12).take 2) →
      beDec ((raw.drop 12).take 2) ∉ etherTypes → Ethernet.fromBytes raw = .error .valueError) := by
  have key : 14 ≤ raw.length → Ethernet.fromBytes raw =
      (enumOf etherTypes (if (beDec ((raw.drop 12).take 2) : Int) ≤ 1500 then 0xFFFF
          else (beDec ((raw.drop 12).take 2) : Int)) >>= fun t =>
        .ok (⟨⟨raw.take 6⟩, ⟨(raw.drop 6).take 6⟩, t⟩, raw.drop 14)) := by
    intro hl
    unfold Ethernet.fromBytes
    have hl' : (raw.take 14).length = calcsize Ethernet.fmt := by
      simp [Ethernet.fmt, calcsize, Fld.size]; omega
    rw [if_neg (by omega), unpack, if_pos hl']
    have e1 : (raw.take 14).take 6 = raw.take 6 := by simp [List.take_take]
    have e2 : ((raw.take 14).drop 6).take 6 = (raw.drop 6).take 6 := by
      rw [List.drop_take, List.take_take]; simp
    have e3 : (((raw.take 14).drop 6).drop 6).take 2 = (raw.drop 12).take 2 := by
      rw [List.drop_drop, List.drop_take, List.take_take]; simp
    have l1 : (raw.take 6).length = 6 := by simp; omega
    have l2 : ((raw.drop 6).take 6).length = 6 := by simp; omega
    simp only [Ethernet.fmt, unpackGo, bind_ok, e1, e2, e3, Ethernet.setSrc, Ethernet.setDst,
      Ethernet.setEthertype, EthAddr.mk'_raw6 l1, EthAddr.mk'_raw6 l2]
    cases enumOf etherTypes (if (beDec ((raw.drop 12).take 2) : Int) ≤ 1500 then 0xFFFF
          else (beDec ((raw.drop 12).take 2) : Int)) <;> rfl
  refine ⟨fun h => by unfold Ethernet.fromBytes; rw [if_pos h], ?_, ?_⟩
  · intro hl ht
    rw [key hl]
    by_cases hc : beDec ((raw.drop 12).take 2) ≤ 1500
    · rw [if_pos (by omega), show enumOf etherTypes 65535 = .ok 65535 from by decide]
      exact ⟨_, rfl⟩
    · have := ht.resolve_left hc
      rw [if_neg (by omega), enumOf_nat this]
      exact ⟨_, rfl⟩
  · intro hl h1 h2
    rw [key hl, if_neg (by omega)]
    have : enumOf etherTypes (beDec ((raw.drop 12).take 2) : Int) = .error .valueError := by
      unfold enumOf; rw [if_neg (by simpa using h2)]
    rw [this]; rfl

/-- **C09 is false**: an 802.3 frame (length field 46) re-serialises with 0xFFFF in place of
its length. -/
theorem ethernet_length_frame_violated :
    ∃ raw h rest b, Ethernet.fromBytes raw = .ok (h, rest) ∧ h.toBytes = .ok b ∧
      b ++ rest ≠ raw :=
  ⟨[1, 2, 3, 4, 5, 6, 7, 8, 9, 10, 11, 12, 0, 46], ⟨⟨[1, 2, 3, 4, 5, 6]⟩, ⟨[7, 8, 9, 10, 11, 12]⟩, 0xFFFF⟩,
    [], [1, 2, 3, 4, 5, 6, 7, 8, 9, 10, 11, 12, 255, 255], by decide +kernel, by decide +kernel, by decide +kernel⟩

/-- **C09, partial**: the addresses and the payload of a length-typed frame are preserved, only
the two length bytes are replaced (by 0xFFFF).  Missing: the length bytes. -/
theorem ethernet_length_frame_partial (raw : Bytes) (hl : 14 ≤ raw.length)
    (ht : beDec ((raw.drop 12).take 2) ≤ 1500) :
    ∃ h, Ethernet.fromBytes raw = .ok (h, raw.drop 14) ∧
      h.toBytes = .ok (raw.take 12 ++ [255, 255]) := by
  obtain ⟨h, hp⟩ := (ethernet_parse_errors raw).2.1 hl (Or.inl ht)
  refine ⟨h, hp, ?_⟩
  obtain ⟨i1, i2, i3, i4, i5, i6⟩ := Ethernet.fromBytes_inv hp
  simp only at i6
  rw [if_pos ht] at i6
  unfold Ethernet.toBytes
  rw [i3, i4, i6]
  have l1 : (raw.take 6).length = 6 := by simp; omega
  have l2 : ((raw.drop 6).take 6).length = 6 := by simp; omega
  simp only [Ethernet.fmt, pack, l1, l2]
  have e : raw.take 12 = raw.take 6 ++ (raw.drop 6).take 6 := by
    rw [show (12 : Nat) = 6 + 6 from rfl, List.take_add]
  rw [if_pos (by decide), e]
  simp [zeros, List.take_take, beEnc]

example : 14 ≤ ([1, 2, 3, 4, 5, 6, 7, 8, 9, 10, 11, 12, 0, 46, 9] : Bytes).length ∧
    beDec ((([1, 2, 3, 4, 5, 6, 7, 8, 9, 10, 11, 12, 0, 46, 9] : Bytes).drop 12).take 2) ≤ 1500 := by
  decide

/-- **C10**: a VLAN tag holding values its setters can store survives the wire. -/
theorem vlan_roundtrip (h : Vlan) (w : h.WF) (rest : Bytes) :
    ∃ b, h.toBytes = .ok b ∧ b.length = 4 ∧ Vlan.fromBytes (b ++ rest) = .ok (h, rest) := by
  obtain ⟨b, hb, hl⟩ := Vlan.toBytes_ok w
  exact ⟨b, hb, hl, Vlan.fromBytes_toBytes w hb rest⟩

example : (⟨0xabc, 3, 0x86dd⟩ : Vlan).WF := by decide

/-- Attribute assignments on a `Vlan`. -/
inductive VlanOp
  | vlanid (v : Int)
  | pcp (v : Int)
  | ethertype (v : Int)

/-- Effect of an assignment (a raising one leaves the object unchanged). -/
def VlanOp.apply (h : Vlan) : VlanOp → Vlan
  | .vlanid v => h.setVlanid v
  | .pcp v => h.setPcp v
  | .ethertype v => assign h (h.setEthertype v)

/-- **C10**: every history of assignments with arbitrary integers leaves a `Vlan` serialisable:
id below 4096, priority at most 3, enumerated type. -/
theorem vlan_setters_wf (ops : List VlanOp) : (ops.foldl VlanOp.apply Vlan.default).WF := by
  suffices ∀ h : Vlan, h.WF → (ops.foldl VlanOp.apply h).WF from this _ (by decide)
  induction ops with
  | nil => exact fun h w => w
  | cons op ops ih =>
    intro h w
    apply ih
    obtain ⟨w1, w2, w3⟩ := w
    cases op with
    | vlanid v =>
      refine ⟨?_, w2, w3⟩
      simp only [VlanOp.apply, Vlan.setVlanid]; omega
    | pcp v =>
      refine ⟨w1, ?_, w3⟩
      simp only [VlanOp.apply, Vlan.setPcp]; omega
    | ethertype v =>
      simp only [VlanOp.apply, Vlan.setEthertype]
      cases he : enumOf etherTypes v with
      | error e => exact ⟨w1, w2, w3⟩
      | ok t => exact ⟨w1, w2, (enumOf_ok he).1⟩

/-- **C10**: the setter stores the residue modulo 4096 of any integer. -/
theorem vlan_setVlanid (h : Vlan) (v : Int) : ((h.setVlanid v).vlanid : Int) = v % 4096 := by
  simp only [Vlan.setVlanid]; omega

/-- **C10, partial**: bytes → object → bytes is the identity when the upper four bits of the
tag are at most 3.  Missing: tags with larger upper bits (any priority above 1), where it is
false. -/
theorem vlan_bytes_roundtrip_partial (raw rest : Bytes) (h : Vlan)
    (hp : Vlan.fromBytes raw = .ok (h, rest)) (hpcp : beDec (raw.take 2) / 4096 ≤ 3) :
    h.toBytes = .ok (raw.take 4) ∧ raw = raw.take 4 ++ rest := by
  obtain ⟨i1, i2, i3, i4, i5, i6⟩ := Vlan.fromBytes_inv hp
  constructor
  · have hl : (raw.take 4).length = calcsize Vlan.fmt := by
      simp [Vlan.fmt, calcsize, Fld.size]; omega
    have := pack_unpackGo Vlan.fmt (by simp [Vlan.fmt, NoPad]) (raw.take 4) hl
    simp only [Vlan.fmt, unpackGo] at this
    have e1 : (raw.take 4).take 2 = raw.take 2 := by simp [List.take_take]
    have e2 : ((raw.take 4).drop 2).take 2 = (raw.drop 2).take 2 := by
      rw [List.drop_take, List.take_take]; simp
    rw [e1, e2] at this
    have ht : (h.pcp <<< 12) ||| h.vlanid = beDec (raw.take 2) := by
      rw [Vlan.tci_eq (by omega)]; omega
    rw [Vlan.toBytes, ht, i5]
    exact this
  · rw [i2, List.take_append_drop]

example : Vlan.fromBytes [0x30, 0x05, 0x08, 0x00, 1] = .ok (⟨5, 3, 0x0800⟩, [1]) := by decide +kernel

/-- **C10 is false in full**: a tag with priority 7 (upper bits 0xe) parses but re-serialises
with other upper bits. -/
theorem vlan_bytes_roundtrip_violated :
    ∃ raw h rest b, Vlan.fromBytes raw = .ok (h, rest) ∧ h.toBytes = .ok b ∧ b ++ rest ≠ raw :=
  ⟨[0xe0, 5, 8, 0], ⟨5, 3, 0x800⟩, [], [0x30, 5, 8, 0], by decide +kernel, by decide +kernel, by decide +kernel⟩

/-- **C77 is false**: IEEE 802.1Q puts the priority in the top three bits of the tag; the code
writes it one bit lower, so priority 1 is sent as "priority 0, drop eligible". -/
theorem vlan_priority_position_violated :
    ∃ h : Vlan, h.WF ∧ ∃ b, h.toBytes = .ok b ∧ beDec (b.take 2) / 2 ^ 13 ≠ h.pcp :=
  ⟨⟨5, 1, 0x800⟩, by decide +kernel, [0x10, 5, 8, 0], by decide +kernel, by decide +kernel⟩

/-- **C77, partial**: the code's own layout is priority in bits 12-13 and the id in bits 0-11.
Missing: the position 802.1Q prescribes. -/
theorem vlan_tag_layout_partial (h : Vlan) (w : h.WF) (b : Bytes) (hb : h.toBytes = .ok b) :
    beDec (b.take 2) / 2 ^ 12 = h.pcp ∧ beDec (b.take 2) % 2 ^ 12 = h.vlanid ∧
      beDec (b.drop 2) = h.ethertype := by
  have h1 := Vlan.fromBytes_toBytes w hb []
  obtain ⟨i1, i2, i3, i4, i5, i6⟩ := Vlan.fromBytes_inv h1
  have hl : b.length = 4 := length_pack hb
  have hu := unpackGo_pack (Vlan.fits w) hb
  simp only [Vlan.fmt, unpackGo, List.cons.injEq, Val.i.injEq, and_true] at hu
  obtain ⟨u1, u2⟩ := hu
  rw [Vlan.tci_eq w.1] at u1
  have w1 := w.1
  have e : (b.drop 2).take 2 = b.drop 2 := by
    apply List.take_of_length_le; simp [hl]
  rw [e] at u2
  refine ⟨by omega, by omega, by omega⟩

end SY.Props
