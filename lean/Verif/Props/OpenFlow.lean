import Verif.OpenFlow
import Verif.Props.PacketSeq

/-! # Properties of OpenFlow matches and actions: C60, C61, C117, C118 -/

namespace SY.Props
open SY

/-! ## Sets of flags -/

theorem testBit_makeBitmap (s : List Nat) (k : Nat) :
    (makeBitmap s).testBit k = s.any (fun v => v.testBit k) := by
  induction s with
  | nil => simp [makeBitmap]
  | cons v s ih => simp [makeBitmap, Nat.testBit_or, ih]

theorem and_eq_self_iff (v b : Nat) : (v &&& b) = v ↔ ∀ k, v.testBit k = true → b.testBit k = true := by
  constructor
  · intro h k hk
    rw [← h, Nat.testBit_and] at hk
    simp at hk; exact hk.2
  · intro h
    apply Nat.eq_of_testBit_eq
    intro k
    rw [Nat.testBit_and]
    cases hv : v.testBit k with
    | false => rfl
    | true => simp [h k hv]

/-- **C119**: whatever set of flags is written, reading it back gives a set that is written the same
way. -/
theorem flags_written_again (enum s : List Nat) (hs : ∀ v ∈ s, v ∈ enum) :
    makeBitmap (unpackBitmap (makeBitmap s) enum) = makeBitmap s := by
  apply Nat.eq_of_testBit_eq
  intro k
  rw [Bool.eq_iff_iff, testBit_makeBitmap, testBit_makeBitmap]
  simp only [List.any_eq_true, unpackBitmap, List.mem_filter, beq_iff_eq, and_eq_self_iff]
  constructor
  · rintro ⟨v, ⟨_, h2⟩, h3⟩
    have := h2 k h3
    rw [testBit_makeBitmap, List.any_eq_true] at this
    exact this
  · rintro ⟨v, h1, h2⟩
    refine ⟨v, ⟨hs v h1, ?_⟩, h2⟩
    intro j hj
    rw [testBit_makeBitmap, List.any_eq_true]
    exact ⟨v, h1, hj⟩

example : makeBitmap (unpackBitmap (makeBitmap [0x100, 0x200]) [0, 1, 0x100, 0x200, 0x300]) = 0x300 := by
  decide

/-- **C119**, partial: a set of single-bit flags is read back exactly, apart from the members of value
zero, which are always found in it.  Missing: flags of several bits. -/
theorem flags_roundtrip_partial (enum s : List Nat) (hs : ∀ v ∈ s, v ∈ enum)
    (hp : ∀ v ∈ enum, v = 0 ∨ ∃ k, v = 2 ^ k) (v : Nat) :
    v ∈ unpackBitmap (makeBitmap s) enum ↔ v ∈ enum ∧ (v = 0 ∨ v ∈ s) := by
  simp only [unpackBitmap, List.mem_filter, beq_iff_eq, and_eq_self_iff]
  refine and_congr_right fun hv => ?_
  constructor
  · intro h
    rcases hp v hv with h0 | ⟨k, rfl⟩
    · exact .inl h0
    · right
      have := h k (Nat.testBit_two_pow_self ..)
      rw [testBit_makeBitmap, List.any_eq_true] at this
      obtain ⟨u, hu, hk⟩ := this
      rcases hp u (hs u hu) with rfl | ⟨j, rfl⟩
      · simp at hk
      · rw [Nat.testBit_two_pow] at hk
        simp at hk; subst hk; exact hu
  · rintro (rfl | h) k hk
    · simp at hk
    · rw [testBit_makeBitmap, List.any_eq_true]; exact ⟨v, h, hk⟩

/-- The port configuration flags (93-101), with two flags set: those two and `NoConfig` are read. -/
example : unpackBitmap (makeBitmap [4, 32]) [0, 1, 2, 4, 8, 16, 32, 64] = [0, 4, 32] := by decide

/-- **C119**: a set of flags is not always read back: two spanning-tree states (83-90) come back as
three. -/
theorem flags_roundtrip_violated :
    0x300 ∈ unpackBitmap (makeBitmap [0x100, 0x200]) [0, 1, 0x100, 0x200, 0x300] := by decide

/-! ## C60: matches -/

/-- A match whose fields fit the wire format. -/
structure _root_.SY.OfMatch.WF (m : OfMatch) : Prop where
  inPort : m.inPort < 65536
  dlSrc : m.dlSrc.raw.length = 6
  dlDst : m.dlDst.raw.length = 6
  dlVlan : 0 ≤ m.dlVlan ∧ m.dlVlan < 65536
  dlVlanPcp : 0 ≤ m.dlVlanPcp ∧ m.dlVlanPcp < 256
  dlType : m.dlType ∈ etherTypes
  nwTos : m.nwTos < 256
  nwProto : m.nwProto ∈ ipProtocols
  nwDst : ∃ a, m.nwDst = .v4 a
  tpSrc : m.tpSrc < 65536
  tpDst : m.tpDst < 65536

/-- A set of wildcards that are single bits, none of them for an address. -/
def SimpleSet (s : List Nat) : Prop := s = simpleWildcards.filter fun v => s.contains v

instance (s : List Nat) : Decidable (SimpleSet s) := by unfold SimpleSet; infer_instance

theorem SimpleSet.mem {s : List Nat} (h : SimpleSet s) {v : Nat} (hv : v ∈ s) : v ∈ simpleWildcards := by
  rw [h] at hv; exact (List.mem_filter.mp hv).1

theorem makeBitmap_and (s : List Nat) (c : Nat) (h : ∀ v ∈ s, v &&& c = 0) : makeBitmap s &&& c = 0 := by
  induction s with
  | nil => simp [makeBitmap]
  | cons v s ih =>
    rw [makeBitmap, Nat.and_or_distrib_right, h v List.mem_cons_self,
      ih fun u hu => h u (List.mem_cons_of_mem _ hu)]
    rfl

theorem makeBitmap_lt (s : List Nat) (n : Nat) (h : ∀ v ∈ s, v < 2 ^ n) : makeBitmap s < 2 ^ n := by
  induction s with
  | nil => simp [makeBitmap, Nat.two_pow_pos]
  | cons v s ih =>
    exact Nat.or_lt_two_pow (h v List.mem_cons_self) (ih fun u hu => h u (List.mem_cons_of_mem _ hu))

theorem readWildcards_simple (m : OfMatch) {s : List Nat} (h : SimpleSet s) :
    m.readWildcards (makeBitmap s) = { m with wildcards := s, nwSrcWild := 0, nwDstWild := 0 } := by
  have h1 : makeBitmap s &&& 0x3f00 = 0 :=
    makeBitmap_and _ _ fun v hv => by
      have : ∀ v ∈ simpleWildcards, v &&& 0x3f00 = 0 := by decide
      exact this v (h.mem hv)
  have h2 : makeBitmap s &&& 0xfc000 = 0 :=
    makeBitmap_and _ _ fun v hv => by
      have : ∀ v ∈ simpleWildcards, v &&& 0xfc000 = 0 := by decide
      exact this v (h.mem hv)
  have h3 : makeBitmap s ≠ 0x3fffff := by
    intro e; rw [e] at h1; revert h1; decide
  have h4 : (simpleWildcards.filter fun v => v &&& makeBitmap s == v) = s := by
    have e : (simpleWildcards.filter fun v => v &&& makeBitmap s == v) =
        simpleWildcards.filter fun v => s.contains v := by
      apply List.filter_congr
      intro v hv
      have := flags_roundtrip_partial simpleWildcards s (fun v hv => h.mem hv)
        (by
          have : ∀ v ∈ simpleWildcards, v = 0 ∨ ∃ k : Fin 32, v = 2 ^ k.val := by decide
          intro v hv
          rcases this v hv with h | ⟨k, h⟩
          · exact .inl h
          · exact .inr ⟨k, h⟩) v
      simp only [unpackBitmap, List.mem_filter, hv, true_and] at this
      have h0 : v ≠ 0 := by
        have : ∀ v ∈ simpleWildcards, v ≠ 0 := by decide
        exact this v hv
      rw [Bool.eq_iff_iff, this]
      simp [h0]
    rw [e, ← h]
  unfold OfMatch.readWildcards
  rw [if_neg h3, h1, h2, h4]
  rfl

theorem OfMatch.fits {m : OfMatch} (w : m.WF) (hb : makeBitmap m.wildcards < 2 ^ 32) :
    Fits OfMatch.fmt m.vals := by
  obtain ⟨w1, w2, w3, w4, w5, w6, w7, w8, ⟨a, w9⟩, w10, w11⟩ := w
  have t1 : ∀ x ∈ etherTypes, x < 65536 := by decide
  have t2 : ∀ x ∈ ipProtocols, x < 256 := by decide
  have := t1 _ w6
  have := t2 _ w8
  simp [Fits, OfMatch.fmt, OfMatch.vals, w9, IPAddr.packed, w2, w3]
  omega

theorem dlType_ne_zero {t : Nat} (h : t ∈ etherTypes) : t ≠ 0 := by
  have : ∀ x ∈ etherTypes, x ≠ 0 := by decide
  exact this _ h

theorem readFields_vals {m : OfMatch} (w : m.WF) (d : OfMatch) :
    d.readFields m.vals = .ok { m with
      wildcards := (d.readWildcards (makeBitmap m.wildcards)).wildcards
      nwSrcWild := (d.readWildcards (makeBitmap m.wildcards)).nwSrcWild
      nwDstWild := (d.readWildcards (makeBitmap m.wildcards)).nwDstWild } := by
  obtain ⟨w1, w2, w3, w4, w5, w6, w7, w8, ⟨a, w9⟩, w10, w11⟩ := w
  have h0 : ¬ ((m.dlType : Int) = 0) := by have := dlType_ne_zero w6; omega
  have hd : m.nwDst.packed = beEnc 4 a.toNat := by rw [w9]; rfl
  simp only [OfMatch.readFields, OfMatch.vals, Int.toNat_natCast, OfMatch.setInPort]
  rw [if_neg (by omega)]
  simp only [bind_ok, OfMatch.setDlSrc, OfMatch.setDlDst, EthAddr.mk'_raw6 w2, EthAddr.mk'_raw6 w3,
    OfMatch.setDlVlan, OfMatch.setDlVlanPcp, OfMatch.setDlType, if_neg h0, enumOf_nat w6,
    OfMatch.setNwTos]
  rw [if_neg (by omega)]
  simp only [bind_ok, OfMatch.setNwProto, enumOf_nat w8, OfMatch.setNwSrc, ipv4Arg, ipv4OfBytes_enc,
    OfMatch.setNwDst, hd, ipAddress_enc4, OfMatch.setTpSrc]
  rw [if_neg (by omega)]
  simp only [bind_ok, OfMatch.setTpDst]
  rw [if_neg (by omega)]
  simp only [Int.toNat_natCast, ← w9]

theorem ofMatch_fromBytes {m : OfMatch} (w : m.WF) (hb : makeBitmap m.wildcards < 2 ^ 32) {b : Bytes}
    (h : m.toBytes = .ok b) (rest : Bytes) :
    OfMatch.fromBytes (b ++ rest) = .ok ({ m with
      wildcards := (OfMatch.default.readWildcards (makeBitmap m.wildcards)).wildcards
      nwSrcWild := (OfMatch.default.readWildcards (makeBitmap m.wildcards)).nwSrcWild
      nwDstWild := (OfMatch.default.readWildcards (makeBitmap m.wildcards)).nwDstWild }, rest) := by
  have hl : b.length = 40 := length_pack h
  obtain ⟨h1, h2⟩ := unpack_take_append (OfMatch.fits w hb) h rest
  have h1' : unpack OfMatch.fmt ((b ++ rest).take 40) = .ok m.vals := h1
  have h2' : (b ++ rest).drop 40 = rest := h2
  unfold OfMatch.fromBytes
  rw [if_neg (by simp [hl]), h1', h2']
  simp only [bind_ok, readFields_vals w]

/-- **C60**, partial: a match without address wildcards is written in 40 bytes and read back as
itself, whatever follows.  Missing: matches with some bits of an address wildcarded, which are not
(`of_match_prefix_violated`). -/
theorem of_match_roundtrip_partial (m : OfMatch) (w : m.WF) (hs : SimpleSet m.wildcards)
    (h1 : m.nwSrcWild = 0) (h2 : m.nwDstWild = 0) (rest : Bytes) :
    ∃ b, m.toBytes = .ok b ∧ b.length = 40 ∧ OfMatch.fromBytes (b ++ rest) = .ok (m, rest) := by
  have hb : makeBitmap m.wildcards < 2 ^ 32 := makeBitmap_lt _ _ fun v hv => by
    have : ∀ v ∈ simpleWildcards, v < 2 ^ 32 := by decide
    exact this v (hs.mem hv)
  obtain ⟨b, e⟩ := pack_ok (OfMatch.fits w hb)
  refine ⟨b, e, length_pack e, ?_⟩
  rw [ofMatch_fromBytes w hb e rest, readWildcards_simple _ hs]
  cases m
  simp only at h1 h2
  subst h1 h2
  rfl

/-- **C60**, partial: so is a match that ignores everything. -/
theorem of_match_all_roundtrip_partial (m : OfMatch) (w : m.WF) (hs : m.wildcards = [0x3fffff])
    (h1 : m.nwSrcWild = 32) (h2 : m.nwDstWild = 32) (rest : Bytes) :
    ∃ b, m.toBytes = .ok b ∧ b.length = 40 ∧ OfMatch.fromBytes (b ++ rest) = .ok (m, rest) := by
  have hb : makeBitmap m.wildcards < 2 ^ 32 := by rw [hs]; decide
  obtain ⟨b, e⟩ := pack_ok (OfMatch.fits w hb)
  refine ⟨b, e, length_pack e, ?_⟩
  rw [ofMatch_fromBytes w hb e rest, hs]
  have : OfMatch.default.readWildcards (makeBitmap [0x3fffff]) = OfMatch.default.wildcardAll := by decide
  rw [this]
  cases m
  simp only at h1 h2 hs
  subst h1 h2 hs
  rfl

/-- Match web traffic from one machine, on port 3. -/
def exMatch : OfMatch :=
  { OfMatch.default with
    wildcards := [4, 8, 64, 0x200000]
    inPort := 3
    nwProto := 6
    nwSrc := 0x0a000001
    nwDst := .v4 0xc0a80102
    tpDst := 80 }

theorem exMatch_wf : exMatch.WF := by
  constructor <;> first | exact ⟨_, rfl⟩ | decide

example : exMatch.WF ∧ SimpleSet exMatch.wildcards ∧ exMatch.nwSrcWild = 0 ∧ exMatch.nwDstWild = 0 :=
  ⟨exMatch_wf, by decide, rfl, rfl⟩

/-- **C60**: what is lost in general — only the numbers of wildcarded address bits. -/
theorem of_match_prefix_lost (m : OfMatch) (w : m.WF) (hs : SimpleSet m.wildcards) (rest : Bytes) :
    ∃ b, m.toBytes = .ok b ∧
      OfMatch.fromBytes (b ++ rest) = .ok ({ m with nwSrcWild := 0, nwDstWild := 0 }, rest) := by
  obtain ⟨b, h1, _, h3⟩ := of_match_roundtrip_partial { m with nwSrcWild := 0, nwDstWild := 0 }
    ⟨w.1, w.2, w.3, w.4, w.5, w.6, w.7, w.8, w.9, w.10, w.11⟩ hs rfl rfl rest
  exact ⟨b, h1, h3⟩

/-- **C60**: address wildcards do not survive: `nwsrc_wildcard = 16` is read back as 0. -/
theorem of_match_prefix_violated :
    ∃ (m m' : OfMatch) (b : Bytes), m.WF ∧ m.toBytes = .ok b ∧ OfMatch.fromBytes b = .ok (m', []) ∧
      m.getNwSrcWild = 16 ∧ m'.getNwSrcWild = 0 := by
  have w : (exMatch.setNwSrcWild 16).WF :=
    have w := exMatch_wf
    ⟨w.1, w.2, w.3, w.4, w.5, w.6, w.7, w.8, w.9, w.10, w.11⟩
  obtain ⟨b, h1, h2⟩ := of_match_prefix_lost (exMatch.setNwSrcWild 16) w (by decide) []
  rw [List.append_nil] at h2
  exact ⟨_, _, b, w, h1, h2, rfl, rfl⟩

/-- **C60**: two matches that differ only in address wildcards compare equal (and replace each
other in strict comparisons). -/
theorem of_match_equality_violated (m : OfMatch) (w : m.WF) (hs : SimpleSet m.wildcards) (v : Int) :
    (m.setNwSrcWild v).matchesStrict m = .ok true := by
  have hb : makeBitmap m.wildcards < 2 ^ 32 := makeBitmap_lt _ _ fun v hv => by
    have : ∀ v ∈ simpleWildcards, v < 2 ^ 32 := by decide
    exact this v (hs.mem hv)
  obtain ⟨b, e⟩ := pack_ok (OfMatch.fits w hb)
  have e1 : m.toBytes = .ok b := e
  have e2 : (m.setNwSrcWild v).toBytes = .ok b := e
  simp [OfMatch.matchesStrict, e1, e2]

/-- **C60**: `nwdst_wildcard` does not return what was assigned to it. -/
theorem nwdst_wildcard_violated (m : OfMatch) (v : Int) :
    (m.setNwDstWild v).getNwDstWild = m.getNwSrcWild := rfl

example : (exMatch.setNwDstWild 8).getNwDstWild = 0 := rfl

/-- **C60**: what the wire says about wildcards is read as the OpenFlow specification defines it: bits
8 to 13 and 14 to 19 of the first word are the numbers of ignored bits, at most 32, of the two
addresses, and each other flag of the enumeration is set exactly if its bit is. -/
theorem of_match_wire_wildcards (raw rest : Bytes) (m : OfMatch) (h : OfMatch.fromBytes raw = .ok (m, rest))
    (hw : beDec (raw.take 4) ≠ 0x3fffff) :
    m.nwSrcWild = min 32 (beDec (raw.take 4) / 2 ^ 8 % 64) ∧
    m.nwDstWild = min 32 (beDec (raw.take 4) / 2 ^ 14 % 64) ∧
    ∀ v, v ∈ m.wildcards ↔ ∃ k, k ∈ [0, 1, 2, 3, 4, 5, 6, 7, 20, 21] ∧ v = 2 ^ k ∧
      (beDec (raw.take 4)).testBit k = true := by
  unfold OfMatch.fromBytes at h
  split at h
  · cases h
  rename_i hl
  obtain ⟨fs, h1, h⟩ := bind_eq_ok.mp h
  obtain ⟨m', h2, h⟩ := bind_eq_ok.mp h
  cases h
  have e : OfMatch.fmt = .u 4 :: OfMatch.fmt.tail := rfl
  unfold unpack at h1
  split at h1
  case isFalse => cases h1
  cases h1
  have e1 : (raw.take 40).take 4 = raw.take 4 := by rw [List.take_take]; rfl
  simp only [OfMatch.fmt, unpackGo, e1] at h2
  simp only [OfMatch.readFields, Int.toNat_natCast] at h2
  have key : m.wildcards = (OfMatch.default.readWildcards (beDec (raw.take 4))).wildcards ∧
      m.nwSrcWild = (OfMatch.default.readWildcards (beDec (raw.take 4))).nwSrcWild ∧
      m.nwDstWild = (OfMatch.default.readWildcards (beDec (raw.take 4))).nwDstWild := by
    obtain ⟨a1, g1, h2⟩ := bind_eq_ok.mp h2
    obtain ⟨a2, g2, h2⟩ := bind_eq_ok.mp h2
    obtain ⟨a3, g3, h2⟩ := bind_eq_ok.mp h2
    obtain ⟨a4, g4, h2⟩ := bind_eq_ok.mp h2
    obtain ⟨a5, g5, h2⟩ := bind_eq_ok.mp h2
    obtain ⟨a6, g6, h2⟩ := bind_eq_ok.mp h2
    obtain ⟨a7, g7, h2⟩ := bind_eq_ok.mp h2
    obtain ⟨a8, g8, h2⟩ := bind_eq_ok.mp h2
    obtain ⟨a9, g9, h2⟩ := bind_eq_ok.mp h2
    obtain ⟨a10, g10, h2⟩ := bind_eq_ok.mp h2
    obtain ⟨a11, g11, h2⟩ := bind_eq_ok.mp h2
    unfold OfMatch.setInPort at g1
    split at g1 <;> cases g1
    obtain ⟨_, _, g2⟩ := bind_eq_ok.mp g2; cases g2
    obtain ⟨_, _, g3⟩ := bind_eq_ok.mp g3; cases g3
    cases g4
    cases g5
    obtain ⟨_, _, g6⟩ := bind_eq_ok.mp g6; cases g6
    unfold OfMatch.setNwTos at g7
    split at g7 <;> cases g7
    obtain ⟨_, _, g8⟩ := bind_eq_ok.mp g8; cases g8
    obtain ⟨_, _, g9⟩ := bind_eq_ok.mp g9; cases g9
    obtain ⟨_, _, g10⟩ := bind_eq_ok.mp g10; cases g10
    unfold OfMatch.setTpSrc at g11
    split at g11 <;> cases g11
    unfold OfMatch.setTpDst at h2
    split at h2 <;> cases h2
    exact ⟨rfl, rfl, rfl⟩
  obtain ⟨k1, k2, k3⟩ := key
  generalize beDec (raw.take 4) = wd at *
  rw [k1, k2, k3]
  unfold OfMatch.readWildcards
  rw [if_neg hw]
  have c1 : ((wd &&& 0x3f00) >>> 8) = wd / 2 ^ 8 % 64 := by
    rw [Nat.shiftRight_and_distrib, Nat.shiftRight_eq_div_pow]
    exact Nat.and_two_pow_sub_one_eq_mod (wd / 2 ^ 8) 6
  have c2 : ((wd &&& 0xfc000) >>> 14) = wd / 2 ^ 14 % 64 := by
    rw [Nat.shiftRight_and_distrib, Nat.shiftRight_eq_div_pow]
    exact Nat.and_two_pow_sub_one_eq_mod (wd / 2 ^ 14) 6
  refine ⟨?_, ?_, ?_⟩
  · simp only [OfMatch.setNwSrcWild, OfMatch.setNwDstWild, clampBits, Int.toNat_natCast, c1]
  · simp only [OfMatch.setNwSrcWild, OfMatch.setNwDstWild, clampBits, Int.toNat_natCast, c2]
  · intro v
    simp only [OfMatch.setNwSrcWild, OfMatch.setNwDstWild, List.mem_filter, beq_iff_eq, and_eq_self_iff]
    constructor
    · rintro ⟨g1, g2⟩
      have : ∀ v ∈ simpleWildcards, ∃ k ∈ [0, 1, 2, 3, 4, 5, 6, 7, 20, 21], v = 2 ^ k := by decide
      obtain ⟨k, hk, rfl⟩ := this v g1
      exact ⟨k, hk, rfl, g2 k (Nat.testBit_two_pow_self ..)⟩
    · rintro ⟨k, hk, rfl, g⟩
      have : ∀ k ∈ [0, 1, 2, 3, 4, 5, 6, 7, 20, 21], 2 ^ k ∈ simpleWildcards := by decide
      refine ⟨this k hk, ?_⟩
      intro j hj
      rw [Nat.testBit_two_pow] at hj
      simp at hj; subst hj; exact g

/-- A wire match with a /24 source and a fully ignored destination. -/
example : ∃ m, OfMatch.fromBytes ([0, 0x08, 0x08, 0x85] ++ zeros 18 ++ [8, 0] ++ zeros 16) = .ok (m, []) ∧
    m.nwSrcWild = 8 ∧ m.nwDstWild = 32 ∧ m.wildcards = [1, 4, 128] := by
  obtain ⟨⟨m, r⟩, h1, h2⟩ := Except.of_test (r := OfMatch.fromBytes
      ([0, 0x08, 0x08, 0x85] ++ zeros 18 ++ [8, 0] ++ zeros 16))
    (p := fun x => decide (x.2 = [] ∧ x.1.nwSrcWild = 8 ∧ x.1.nwDstWild = 32 ∧ x.1.wildcards = [1, 4, 128]))
    (by decide +kernel)
  simp only [decide_eq_true_eq] at h2
  obtain ⟨rfl, h2⟩ := h2
  exact ⟨m, h1, h2⟩

/-! ## C61: actions -/

/-- The types an action of this class can have. -/
def actTypes : ActBody → List Nat
  | .strip => [3] | .output _ _ => [0] | .enqueue _ _ => [11] | .vlanVid _ => [1] | .vlanPcp _ => [2]
  | .dlAddr _ => [4, 5] | .nwAddr _ => [6, 7] | .nwTos _ => [8] | .tpPort _ => [9, 10]
  | .vendor _ _ => [0xffff]

/-- The number of bytes it is written in. -/
def actWireLen : ActBody → Nat
  | .strip => 4 | .output _ _ => 8 | .enqueue _ _ => 16 | .vlanVid _ => 8 | .vlanPcp _ => 8
  | .dlAddr _ => 16 | .nwAddr _ => 8 | .nwTos _ => 8 | .tpPort _ => 8
  | .vendor _ d => 8 + d.length

/-- Its numbers fit their fields, addresses have their size, vendor data come in blocks of 8. -/
def ActInRange : ActBody → Prop
  | .strip => True
  | .output p m => (0 ≤ p ∧ p < 65536) ∧ (0 ≤ m ∧ m < 65536)
  | .enqueue p q => (0 ≤ p ∧ p < 65536) ∧ (0 ≤ q ∧ q < 2 ^ 32)
  | .vlanVid v => 0 ≤ v ∧ v < 65536
  | .vlanPcp v => 0 ≤ v ∧ v < 256
  | .dlAddr a => a.raw.length = 6
  | .nwAddr a => ∃ x, a = .v4 x
  | .nwTos v => 0 ≤ v ∧ v < 256
  | .tpPort v => 0 ≤ v ∧ v < 65536
  | .vendor v d => (0 ≤ v ∧ v < 2 ^ 32) ∧ d.length % 8 = 0 ∧ d.length < 65528

/-- An action as the constructors make them. -/
structure _root_.SY.OfAction.WF (a : OfAction) : Prop where
  type : a.type ∈ actTypes a.body
  len : a.len = actWireLen a.body
  range : ActInRange a.body

theorem actBody_fits {b : ActBody} (h : ActInRange b) : Fits b.fmt b.vals := by
  cases b <;> simp only [ActInRange] at h <;> simp [Fits, ActBody.fmt, ActBody.vals]
  case output => omega
  case enqueue => omega
  case vlanVid => omega
  case vlanPcp => omega
  case dlAddr => exact h
  case nwAddr => obtain ⟨x, rfl⟩ := h; simp [IPAddr.packed]
  case nwTos => omega
  case tpPort => omega
  case vendor => omega

theorem actWireLen_bounds {b : ActBody} (h : ActInRange b) : 4 ≤ actWireLen b ∧ actWireLen b < 65536 := by
  cases b <;> simp only [ActInRange] at h <;> simp only [actWireLen] <;> omega

theorem vendorLen_exact {n : Nat} (h : n % 8 = 0) : vendorLen n = n := by unfold vendorLen; omega

theorem actTail_length {b : ActBody} (h : ActInRange b) :
    calcsize b.fmt + b.tail.length + 4 = actWireLen b := by
  cases b <;> simp only [ActInRange] at h <;> simp [ActBody.fmt, ActBody.tail, calcsize, Fld.size, actWireLen]
  case vendor v d => rw [vendorLen_exact h.2.1]; omega

theorem actTypes_valid {b : ActBody} {t : Nat} (h : t ∈ actTypes b) : t ∈ ofActionTypes ∧ t < 65536 := by
  have k : ∀ l ∈ [[3], [0], [11], [1], [2], [4, 5], [6, 7], [8], [9, 10], [0xffff]], ∀ t ∈ l,
      t ∈ ofActionTypes ∧ t < 65536 := by decide
  refine k (actTypes b) ?_ t h
  cases b <;> simp [actTypes]

/-- The class made for a type of this class has the same format, and reads the values back. -/
theorem newBody_read {b : ActBody} {t : Nat} (h : t ∈ actTypes b) (r : ActInRange b) :
    (newBody t).fmt = b.fmt ∧ (newBody t).read b.vals b.tail = .ok b ∧
      b.lenRead (actWireLen b) = actWireLen b := by
  cases b <;> simp only [actTypes, List.mem_cons, List.not_mem_nil, or_false] at h
  case strip => subst h; exact ⟨rfl, rfl, rfl⟩
  case output => subst h; exact ⟨rfl, rfl, rfl⟩
  case enqueue => subst h; exact ⟨rfl, rfl, rfl⟩
  case vlanVid => subst h; exact ⟨rfl, rfl, rfl⟩
  case vlanPcp => subst h; exact ⟨rfl, rfl, rfl⟩
  case nwTos => subst h; exact ⟨rfl, rfl, rfl⟩
  case dlAddr a =>
    have e := EthAddr.mk'_raw6 r
    rcases h with rfl | rfl <;>
    · refine ⟨rfl, ?_, rfl⟩
      show (EthAddr.mk' (.raw a.raw) >>= fun a => Except.ok (ActBody.dlAddr a)) = _
      rw [e]; rfl
  case nwAddr a =>
    obtain ⟨x, rfl⟩ := r
    rcases h with rfl | rfl <;>
    · refine ⟨rfl, ?_, rfl⟩
      show (ipAddress (.raw (beEnc 4 x.toNat)) >>= fun a => Except.ok (ActBody.nwAddr a)) = _
      rw [ipAddress_enc4]; rfl
  case tpPort => rcases h with rfl | rfl <;> exact ⟨rfl, rfl, rfl⟩
  case vendor v d =>
    subst h
    refine ⟨rfl, ?_, ?_⟩
    · show Except.ok (ActBody.vendor v (ActBody.vendor v d).tail) = _
      simp [ActBody.tail, vendorLen_exact r.2.1, zeros]
    · simp [ActBody.lenRead, actWireLen, vendorLen_exact r.2.1]

/-- One action: written in as many bytes as its length says, and read back. -/
theorem action_roundtrip (a : OfAction) (w : a.WF) :
    ∃ b, a.toBytes = .ok b ∧ (b.length : Int) = a.len ∧ OfAction.fromBytes a.type b = .ok a ∧
      ∀ rest, unpack [.u 2, .u 2] ((b ++ rest).take 4) = .ok [.i a.type, .i a.len] := by
  obtain ⟨w1, w2, w3⟩ := w
  obtain ⟨v1, v2⟩ := actTypes_valid w1
  obtain ⟨l1, l2⟩ := actWireLen_bounds w3
  have hf : Fits [.u 2, .u 2] [.i a.type, .i a.len] := by
    simp [Fits]; omega
  obtain ⟨h, hh⟩ := pack_ok hf
  have hhl : h.length = 4 := length_pack hh
  obtain ⟨c, hc⟩ := pack_ok (actBody_fits w3)
  have hcl : c.length = calcsize a.body.fmt := length_pack hc
  have ht := actTail_length w3
  obtain ⟨n1, n2, n3⟩ := newBody_read w1 w3
  have hun : ∀ rest, unpack [.u 2, .u 2] ((h ++ c ++ a.body.tail ++ rest).take 4) =
      .ok [.i a.type, .i a.len] := by
    intro rest
    have := (unpack_take_append hf hh (c ++ a.body.tail ++ rest)).1
    simpa [calcsize, Fld.size] using this
  refine ⟨h ++ c ++ a.body.tail, ?_, ?_, ?_, hun⟩
  · simp [OfAction.toBytes, hh, hc]
  · rw [w2, ← ht]; simp [hhl, hcl]; omega
  · have e0 := hun []
    rw [List.append_nil] at e0
    have e1 : (h ++ c ++ a.body.tail).drop 4 = c ++ a.body.tail := by
      rw [List.append_assoc, ← hhl]; simp
    obtain ⟨e2, e3⟩ := unpack_take_append (actBody_fits w3) hc a.body.tail
    unfold OfAction.fromBytes
    rw [e0]
    simp only [bind_ok]
    rw [enumOf_nat v1]
    simp only [bind_ok]
    rw [n1, e1, e2, e3]
    simp only [bind_ok]
    rw [n2]
    simp only [bind_ok]
    rw [w2, n3, ← w2]

theorem unpackLoop_append (as : List OfAction) (w : ∀ a ∈ as, a.WF) (fuel : Nat) (acc : List OfAction) (b : Bytes)
    (h : joinActions as = .ok b) (hf : b.length < fuel) :
    unpackActionsLoop fuel b acc = some (.ok (acc ++ as)) := by
  induction as generalizing fuel acc b with
  | nil =>
    cases h
    cases fuel with
    | zero => simp at hf
    | succ n => simp [unpackActionsLoop]
  | cons a as ih =>
    obtain ⟨x, hx, h⟩ := bind_eq_ok.mp h
    obtain ⟨y, hy, h⟩ := bind_eq_ok.mp h
    cases h
    obtain ⟨x', h1, h2, h3, h4⟩ := action_roundtrip a (w a List.mem_cons_self)
    rw [hx] at h1; cases h1
    have hwa := w a List.mem_cons_self
    have hlb := actWireLen_bounds hwa.range
    have hl := hwa.len
    have hxl : x.length = a.len.toNat := by omega
    cases fuel with
    | zero => simp at hf
    | succ n =>
      have hne : x ++ y ≠ [] := by
        intro e
        have := congrArg List.length e
        simp only [List.length_append, List.length_nil] at this; omega
      unfold unpackActionsLoop
      rw [if_neg hne, h4 y]
      simp only [enumOf_nat (actTypes_valid hwa.type).1, bind_ok]
      have t1 : (x ++ y).take a.len.toNat = x := by rw [← hxl]; simp
      have t2 : (x ++ y).drop a.len.toNat = y := by rw [← hxl]; simp
      rw [t1, t2, h3]
      simp only
      rw [ih (fun a ha => w a (List.mem_cons_of_mem _ ha)) n _ y hy (by
        simp only [List.length_append] at hf; omega)]
      simp

/-- **C61**, partial: a list of actions as the constructors make them is written as the concatenation
of its actions, and read back as the same list.  Missing: vendor data that do not come in blocks of 8
bytes (they come back padded), actions whose `type` or `len` was changed by assignment. -/
theorem actions_roundtrip_partial (as : List OfAction) (w : ∀ a ∈ as, a.WF) :
    ∃ b, joinActions as = .ok b ∧ unpackActions b = .ok as := by
  have : ∃ b, joinActions as = .ok b := by
    induction as with
    | nil => exact ⟨[], rfl⟩
    | cons a as ih =>
      obtain ⟨y, hy⟩ := ih fun a ha => w a (List.mem_cons_of_mem _ ha)
      obtain ⟨x, hx, _⟩ := action_roundtrip a (w a List.mem_cons_self)
      exact ⟨x ++ y, by simp [joinActions, hx, hy]⟩
  obtain ⟨b, hb⟩ := this
  refine ⟨b, hb, ?_⟩
  unfold unpackActions
  rw [unpackLoop_append as w (b.length + 1) [] b hb (by omega)]
  simp

/-- The constructors make such actions, for arguments in range. -/
theorem action_constructors :
    actStrip.WF ∧ (∀ p : Nat, p < 65536 → (actOutput p).WF) ∧
    (∀ p q : Nat, p < 65536 → q < 2 ^ 32 → (actEnqueue p q).WF) ∧
    (∀ v : Nat, v < 65536 → (actVlanVid v).WF) ∧ (∀ v : Nat, v < 256 → (actVlanPcp v).WF) ∧
    (∀ v : Nat, v < 256 → (actNwTos v).WF) ∧
    (∀ (t : Nat) (a : EthAddr), a.raw.length = 6 → t = 4 ∨ t = 5 →
      ∃ x, actDlAddr t (.addr a) = .ok x ∧ x.WF ∧ x.type = t ∧ x.body = .dlAddr a) ∧
    (∀ (t : Nat) (a : BitVec 32), t = 6 ∨ t = 7 →
      ∃ x, actNwAddr t (.addr (.v4 a)) = .ok x ∧ x.WF ∧ x.type = t ∧ x.body = .nwAddr (.v4 a)) ∧
    (∀ t v : Nat, v < 65536 → t = 9 ∨ t = 10 →
      ∃ x, actTpPort t v = .ok x ∧ x.WF ∧ x.type = t ∧ x.body = .tpPort v) ∧
    (∀ (v : Nat) (d : Bytes), v < 2 ^ 32 → d.length % 8 = 0 → d.length < 65528 → (actVendor v d).WF) := by
  refine ⟨⟨by simp [actStrip, actTypes], rfl, trivial⟩, ?_, ?_, ?_, ?_, ?_, ?_, ?_, ?_, ?_⟩
  · intro p h; exact ⟨by simp [actOutput, actTypes], rfl, by simp only [actOutput, ActInRange]; omega⟩
  · intro p q h1 h2; exact ⟨by simp [actEnqueue, actTypes], rfl, by simp only [actEnqueue, ActInRange]; omega⟩
  · intro v h; exact ⟨by simp [actVlanVid, actTypes], rfl, by simp only [actVlanVid, ActInRange]; omega⟩
  · intro v h; exact ⟨by simp [actVlanPcp, actTypes], rfl, by simp only [actVlanPcp, ActInRange]; omega⟩
  · intro v h; exact ⟨by simp [actNwTos, actTypes], rfl, by simp only [actNwTos, ActInRange]; omega⟩
  · intro t a ha ht
    have hm := EthAddr.mk'_addr (a := a) (by intro e; rw [e] at ha; simp at ha)
    refine ⟨⟨t, 16, .dlAddr a⟩, ?_, ⟨by rcases ht with rfl | rfl <;> simp [actTypes], rfl, ha⟩, rfl, rfl⟩
    rcases ht with rfl | rfl <;> simp [actDlAddr, enumOf, ofActionTypes, hm]
  · intro t a ht
    refine ⟨⟨t, 8, .nwAddr (.v4 a)⟩, ?_,
      ⟨by rcases ht with rfl | rfl <;> simp [actTypes], rfl, ⟨a, rfl⟩⟩, rfl, rfl⟩
    rcases ht with rfl | rfl <;> simp [actNwAddr, enumOf, ofActionTypes, ipAddress]
  · intro t v hv ht
    refine ⟨⟨t, 8, .tpPort v⟩, ?_,
      ⟨by rcases ht with rfl | rfl <;> simp [actTypes], rfl, by simp only [ActInRange]; omega⟩, rfl, rfl⟩
    rcases ht with rfl | rfl <;> simp [actTpPort, enumOf, ofActionTypes]
  · intro v d h1 h2 h3
    refine ⟨by simp [actVendor, actTypes], ?_, by simp only [actVendor, ActInRange]; omega⟩
    simp [actVendor, actWireLen, vendorLen_exact h2]

example : ∀ a ∈ [actStrip, actOutput 7, actEnqueue 1 0xdeadbeef, actVendor 9 (zeros 8)], a.WF := by
  intro a ha
  obtain ⟨c1, c2, c3, _, _, _, _, _, _, c4⟩ := action_constructors
  simp only [List.mem_cons, List.not_mem_nil, or_false] at ha
  rcases ha with rfl | rfl | rfl | rfl
  · exact c1
  · exact c2 7 (by decide)
  · exact c3 1 0xdeadbeef (by decide) (by decide)
  · exact c4 9 (zeros 8) (by decide) (by decide) (by decide)

/-- **C61**: parsing any byte string terminates: every iteration consumes at least four bytes. -/
theorem actions_terminate (raw : Bytes) (fuel : Nat) (acc : List OfAction) (h : raw.length < fuel) :
    (unpackActionsLoop fuel raw acc).isSome = true := by
  induction fuel generalizing raw acc with
  | zero => omega
  | succ n ih =>
    unfold unpackActionsLoop
    split
    · rfl
    · rename_i hne
      split
      · rename_i ty alen he
        split
        · rename_i a ha
          apply ih
          obtain ⟨t, _, ha⟩ := bind_eq_ok.mp ha
          unfold OfAction.fromBytes at ha
          obtain ⟨fs, ha, _⟩ := bind_eq_ok.mp ha
          unfold unpack at ha
          split at ha
          · rename_i hl
            simp [calcsize, Fld.size] at hl
            simp only [List.length_drop]
            omega
          · cases ha
        · rfl
      · rfl
      · rfl

example : unpackActions [0, 0, 0, 8, 0, 3, 1, 0, 0, 3, 0, 4] = .ok [⟨0, 8, .output 3 256⟩, actStrip] := by
  decide +kernel

/-- **C61**: a `strip VLAN` action read from a conforming peer, which sends 8 bytes, is not written
back as it was received: four bytes are missing but the length still says 8. -/
theorem strip_vlan_violated :
    ∃ a b, unpackActions [0, 3, 0, 8, 0, 0, 0, 0] = .ok [a] ∧ a.toBytes = .ok b ∧ b.length = 4 ∧ a.len = 8 :=
  ⟨⟨3, 8, .strip⟩, [0, 3, 0, 8], by decide +kernel, by decide +kernel, rfl, rfl⟩

/-- **C61**: and forwarding such a list changes it: the output action after it reads as another strip. -/
theorem actions_forward_violated :
    ∃ as b as', unpackActions [0, 3, 0, 8, 0, 0, 0, 0, 0, 0, 0, 8, 0, 3, 1, 0] = .ok as ∧
      as.map (·.type) = [3, 0] ∧ joinActions as = .ok b ∧ unpackActions b = .ok as' ∧ as'.map (·.type) = [3, 3] :=
  ⟨[⟨3, 8, .strip⟩, ⟨0, 8, .output 3 256⟩], [0, 3, 0, 8, 0, 0, 0, 8, 0, 3, 1, 0],
    [⟨3, 8, .strip⟩, ⟨3, 256, .strip⟩], by decide +kernel, rfl, by decide +kernel, by decide +kernel, rfl⟩

/-- **C61**: vendor data are padded on the way. -/
theorem vendor_padding_violated :
    ∃ b, (actVendor 1 [5]).toBytes = .ok b ∧ unpackActions b = .ok [actVendor 1 [5, 0, 0, 0, 0, 0, 0, 0]] :=
  ⟨[0xff, 0xff, 0, 16, 0, 0, 0, 1, 5, 0, 0, 0, 0, 0, 0, 0], by decide +kernel, by decide +kernel⟩

/-- **C61**: the bytes are those of the OpenFlow 1.0 specification (5.2.4): type, length, then the
fields in order with the padding drawn there.  (`strip VLAN` is not: it must have 8 bytes.) -/
theorem action_layout (p q v : Nat) (a : EthAddr) (x : BitVec 32) (d : Bytes) (hp : p < 65536)
    (hq : q < 2 ^ 32) (hv : v < 256) (ha : a.raw.length = 6) (hd : d.length % 8 = 0) (hd' : d.length < 65528) :
    (actOutput p).toBytes = .ok ([0, 0, 0, 8] ++ beEnc 2 p ++ beEnc 2 1500) ∧
    (actEnqueue p q).toBytes = .ok ([0, 11, 0, 16] ++ beEnc 2 p ++ zeros 6 ++ beEnc 4 q) ∧
    (actVlanVid p).toBytes = .ok ([0, 1, 0, 8] ++ beEnc 2 p ++ zeros 2) ∧
    (actVlanPcp v).toBytes = .ok ([0, 2, 0, 8] ++ beEnc 1 v ++ zeros 3) ∧
    (actDlAddr 4 (.addr a) >>= OfAction.toBytes) = .ok ([0, 4, 0, 16] ++ a.raw ++ zeros 6) ∧
    (actDlAddr 5 (.addr a) >>= OfAction.toBytes) = .ok ([0, 5, 0, 16] ++ a.raw ++ zeros 6) ∧
    (actNwAddr 6 (.addr (.v4 x)) >>= OfAction.toBytes) = .ok ([0, 6, 0, 8] ++ beEnc 4 x.toNat) ∧
    (actNwAddr 7 (.addr (.v4 x)) >>= OfAction.toBytes) = .ok ([0, 7, 0, 8] ++ beEnc 4 x.toNat) ∧
    (actNwTos v).toBytes = .ok ([0, 8, 0, 8] ++ beEnc 1 v ++ zeros 3) ∧
    (actTpPort 9 p >>= OfAction.toBytes) = .ok ([0, 9, 0, 8] ++ beEnc 2 p ++ zeros 2) ∧
    (actTpPort 10 p >>= OfAction.toBytes) = .ok ([0, 10, 0, 8] ++ beEnc 2 p ++ zeros 2) ∧
    (actVendor q d).toBytes = .ok ([0xff, 0xff] ++ beEnc 2 (8 + d.length) ++ beEnc 4 q ++ d) := by
  have hp' : p < 256 ^ 2 := by omega
  have hq' : q < 256 ^ 4 := by omega
  have hv' : v < 256 ^ 1 := by omega
  have hm := EthAddr.mk'_addr (a := a) (by intro e; rw [e] at ha; simp at ha)
  have head : ∀ t l : Nat, t < 65536 → l < 65536 →
      pack [.u 2, .u 2] [.i t, .i l] = .ok (beEnc 2 t ++ beEnc 2 l) := by
    intro t l h1 h2
    rw [pack_cons_u (by omega), pack_cons_u (by omega)]; simp
  have h8 : (8 : Int) = ((8 : Nat) : Int) := rfl
  have h16 : (16 : Int) = ((16 : Nat) : Int) := rfl
  have k4 : actDlAddr 4 (.addr a) = .ok ⟨4, 16, .dlAddr a⟩ := by
    simp [actDlAddr, enumOf, ofActionTypes, hm]
  have k5 : actDlAddr 5 (.addr a) = .ok ⟨5, 16, .dlAddr a⟩ := by
    simp [actDlAddr, enumOf, ofActionTypes, hm]
  have k6 : actNwAddr 6 (.addr (.v4 x)) = .ok ⟨6, 8, .nwAddr (.v4 x)⟩ := by
    simp [actNwAddr, enumOf, ofActionTypes, ipAddress]
  have k7 : actNwAddr 7 (.addr (.v4 x)) = .ok ⟨7, 8, .nwAddr (.v4 x)⟩ := by
    simp [actNwAddr, enumOf, ofActionTypes, ipAddress]
  have k9 : actTpPort 9 p = .ok ⟨9, 8, .tpPort p⟩ := by simp [actTpPort, enumOf, ofActionTypes]
  have k10 : actTpPort 10 p = .ok ⟨10, 8, .tpPort p⟩ := by simp [actTpPort, enumOf, ofActionTypes]
  rw [k4, k5, k6, k7, k9, k10]
  simp only [bind_ok, OfAction.toBytes, actOutput, actEnqueue, actVlanVid, actVlanPcp, actNwTos, actVendor,
    ActBody.fmt, ActBody.vals, ActBody.tail, h8, h16]
  refine ⟨?_, ?_, ?_, ?_, ?_, ?_, ?_, ?_, ?_, ?_, ?_, ?_⟩
  · rw [head _ _ (by decide) (by decide), pack_cons_u hp', show (1500 : Int) = ((1500 : Nat) : Int) from rfl,
      pack_cons_u (by decide)]
    simp [beEnc]
  · rw [head _ _ (by decide) (by decide), pack_cons_u hp', pack_cons_x, pack_cons_u hq']
    simp [beEnc]
  · rw [head _ _ (by decide) (by decide), pack_cons_u hp', pack_cons_x]
    simp [beEnc]
  · rw [head _ _ (by decide) (by decide), pack_cons_u hv', pack_cons_x]
    simp [beEnc]
  · rw [head _ _ (by decide) (by decide), pack_cons_s ha, pack_cons_x]
    simp [beEnc]
  · rw [head _ _ (by decide) (by decide), pack_cons_s ha, pack_cons_x]
    simp [beEnc]
  · rw [head _ _ (by decide) (by decide), pack_cons_s (by simp [IPAddr.packed])]
    simp [beEnc, IPAddr.packed]
  · rw [head _ _ (by decide) (by decide), pack_cons_s (by simp [IPAddr.packed])]
    simp [beEnc, IPAddr.packed]
  · rw [head _ _ (by decide) (by decide), pack_cons_u hv', pack_cons_x]
    simp [beEnc]
  · rw [head _ _ (by decide) (by decide), pack_cons_u hp', pack_cons_x]
    simp [beEnc]
  · rw [head _ _ (by decide) (by decide), pack_cons_u hp', pack_cons_x]
    simp [beEnc]
  · rw [vendorLen_exact hd, show ((8 : Nat) : Int) + (d.length : Int) = ((8 + d.length : Nat) : Int) by omega,
      head _ _ (by decide) (by omega), pack_cons_u hq']
    simp [beEnc, zeros]

end SY.Props
