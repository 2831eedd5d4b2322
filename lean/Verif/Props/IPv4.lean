import Verif.IPv4

/-! # Properties C13–C21, C78, C79: the IPv4 header and its options -/

namespace SY.Props

/-! ## C13: round-trip -/

/-- **C13**: an option-less header survives the wire with any payload. -/
theorem ipv4_roundtrip (h : IPv4) (w : h.WF) (ho : h.options = []) (rest : Bytes) :
    ∃ b, h.toBytes = .ok b ∧ b.length = 20 ∧ IPv4.fromBytes (b ++ rest) = .ok (h, rest) := by
  obtain ⟨b, h1, h2, h3⟩ := IPv4.toBytes_ok w (by simp [ho]) (by simp [ho, padCount])
  refine ⟨b, h1, by simpa [ho, padCount] using h2, ?_⟩
  rw [h3]
  obtain ⟨⟩ := h
  simp only at ho
  subst ho
  simp [padCount]

/-- **C13** with options (up to the 40 bytes the format has room for): every field is
reconstructed, the options come back followed by one end-of-list option per pad byte. -/
theorem ipv4_roundtrip_options (h : IPv4) (w : h.WF) (wo : ∀ o ∈ h.options, o.WF)
    (hl : ∀ ob, optsToBytes h.options = .ok ob → ob.length ≤ 40) (rest : Bytes) :
    ∃ b n, h.toBytes = .ok b ∧ n ≤ 4 ∧ IPv4.fromBytes (b ++ rest) =
      .ok ({ h with options := h.options ++ List.replicate n (.single 0) }, rest) := by
  obtain ⟨ob, ho1, ho2, _, _⟩ := optsToBytes_ok wo
  obtain ⟨b, h1, h2, h3⟩ := IPv4.toBytes_ok w wo (by rw [← ho2]; exact hl ob ho1)
  exact ⟨b, padCount h.options, h1, by unfold padCount; split <;> omega, h3 rest⟩

/-- A header with a record-route option meets the hypotheses. -/
example : (⟨0xb8, 100, 7, 2, 0, 64, 17, .v4 0x0a000001, .v4 0x0a000002,
    [.routing 7 4 [0, 0], .single 1]⟩ : IPv4).WF ∧
    (∀ o ∈ [IPOpt.routing 7 4 [0, 0], .single 1], o.WF) ∧
    optsToBytes [IPOpt.routing 7 4 [0, 0], .single 1] =
      .ok [7, 11, 4, 0, 0, 0, 0, 0, 0, 0, 0, 1, 0, 0, 0, 0] := by
  refine ⟨by decide, ?_, by decide +kernel⟩
  intro o ho
  simp only [List.mem_cons, List.not_mem_nil, or_false] at ho
  rcases ho with rfl | rfl
  · simp [IPOpt.WF]
  · simp [IPOpt.WF]

/-! ## C14: what is on the wire is consistent -/

/-- Packing of the ten header fields, in the wire's order. -/
theorem ipv4_pack_split {h : IPv4} {b0 c : Nat} {d : Bytes} (hc : c < 65536)
    (hd : pack IPv4.fmt (h.vals b0 c) = .ok d) :
    ∃ pre post, pre.length = 10 ∧ post.length = 8 ∧ d = pre ++ beEnc 2 c ++ post ∧
      pre = beEnc 1 b0 ++ beEnc 1 h.tos ++ beEnc 2 h.totallen ++ beEnc 2 h.ipid ++
        beEnc 2 ((h.flags <<< 13) ||| h.frag) ++ beEnc 1 h.ttl ++ beEnc 1 h.protocol ∧
      post = (h.src.packed ++ zeros (4 - h.src.packed.length)).take 4 ++
        (h.dst.packed ++ zeros (4 - h.dst.packed.length)).take 4 ∧
      b0 < 256 ∧ h.totallen < 65536 := by
  have key : ∀ {w : Nat} {v : Nat} {fs : List Fld} {vs : List Val} {r : Bytes},
      pack (.u w :: fs) (.i v :: vs) = .ok r →
      v < 256 ^ w ∧ ∃ r', pack fs vs = .ok r' ∧ r = beEnc w v ++ r' := by
    intro w v fs vs r hr
    rw [pack.eq_4] at hr
    split at hr
    · rename_i hv
      obtain ⟨r', h1, h2⟩ := map_eq_ok.mp hr
      exact ⟨by exact_mod_cast hv.2, r', h1, by simpa using h2.symm⟩
    · cases hr
  unfold IPv4.fmt IPv4.vals at hd
  obtain ⟨v1, d1, hd1, rfl⟩ := key hd
  obtain ⟨v2, d2, hd2, rfl⟩ := key hd1
  obtain ⟨v3, d3, hd3, rfl⟩ := key hd2
  obtain ⟨v4, d4, hd4, rfl⟩ := key hd3
  obtain ⟨v5, d5, hd5, rfl⟩ := key hd4
  obtain ⟨v6, d6, hd6, rfl⟩ := key hd5
  obtain ⟨v7, d7, hd7, rfl⟩ := key hd6
  obtain ⟨v8, d8, hd8, rfl⟩ := key hd7
  have hl := length_pack hd8
  rw [pack.eq_5, pack.eq_5, pack_nil] at hd8
  simp only [map_ok, List.append_nil, Except.ok.injEq] at hd8
  refine ⟨_, d8, ?_, hl, ?_, rfl, hd8.symm, by simpa using v1, by simpa using v3⟩
  · simp
  · simp

/-- **C14**: in the bytes written for an IPv4 header by `Packet.to_bytes` (finalised against the
serialised rest of the packet), the checksum over the header and its options verifies, IHL*4 is
the header's length, the version nibble is 4, and the total length is header plus rest -- for
every header that serialises to at most 60 bytes.  The suffix is for the 60-byte bound. -/
theorem ipv4_wire_consistent_partial (h h' : IPv4) (tail b : Bytes)
    (hp : h.preSerialize tail = .ok h') (hb : h'.toBytes = .ok b) (hl : b.length ≤ 60) :
    checksum b = 0 ∧
    (∃ b0 r, b = b0 :: r ∧ b0.toNat / 16 = 4 ∧ b0.toNat % 16 * 4 = b.length) ∧
    beDec ((b.drop 2).take 2) = b.length + tail.length := by
  obtain ⟨o, d0, d, c, ho, hd0, hc, hd, rfl⟩ := IPv4.toBytes_inv hb
  have hm := optsToBytes_mod4 ho
  have hdl : d.length = 20 := length_pack hd
  have hol : o.length ≤ 40 := by simp [hdl] at hl; omega
  have hclt : c < 65536 := by rw [hc]; exact checksum_lt _
  rw [b0_eq (by omega)] at hd
  obtain ⟨pre, post, p1, p2, p3, p4, p5, p6, p7⟩ := ipv4_pack_split hclt hd
  obtain ⟨pre0, post0, q1, q2, q3, q4, q5, _⟩ := ipv4_pack_split (by omega) hd0
  have e1 : pre0 = pre := by rw [p4, q4]
  have e2 : post0 = post := by rw [p5, q5]
  subst e1 e2
  have ht : h'.totallen = 20 + o.length + tail.length := by
    unfold IPv4.preSerialize IPv4.size at hp
    obtain ⟨sz, hsz, hp⟩ := bind_eq_ok.mp hp
    obtain ⟨o', ho', hsz⟩ := bind_eq_ok.mp hsz
    cases hsz; cases hp
    simp only at ho
    rw [ho'] at ho; cases ho; rfl
  refine ⟨?_, ?_, ?_⟩
  · have := checksum_store pre0 (post0 ++ o) (by omega) (by simp; omega)
    rw [p3, hc, q3]
    have z : beEnc 2 0 = [0, 0] := by decide
    rw [z]
    simpa [List.append_assoc] using this
  · have hb1 : ∀ a : Nat, beEnc 1 a = [UInt8.ofNat a] := by intro a; simp [beEnc]
    have hcons : d ++ o = UInt8.ofNat (64 + (20 + o.length) / 4) :: (d ++ o).tail := by
      rw [p3, p4]
      simp only [List.append_assoc]
      rw [hb1, List.singleton_append, List.tail_cons]
    refine ⟨_, _, hcons, ?_, ?_⟩
    · simp; omega
    · simp [hdl]; omega
  · have hlen : (d ++ o).length + tail.length = h'.totallen := by simp [hdl, ht]
    rw [hlen, p3, p4]
    have : ∀ (a b : Nat) (t : Bytes), ((beEnc 1 a ++ (beEnc 1 b ++ t)).drop 2) = t := by
      intro a b t; simp [beEnc]
    simp only [List.append_assoc, this]
    rw [List.take_left' (by simp), beDec_beEnc (by simpa using p7)]

/-- The hypotheses are satisfiable: a finalised header with options and payload. -/
example : ∃ h' b, (⟨0, 20, 1, 0, 0, 64, 6, .v4 0x0a000001, .v4 0x0a000002, [.fourB 20 0 0x80]⟩ : IPv4).preSerialize
    [1, 2, 3] = .ok h' ∧ h'.toBytes = .ok b ∧ b.length = 28 := by
  obtain ⟨b, h1, h2⟩ := Except.of_test (r := IPv4.toBytes
    ⟨0, 31, 1, 0, 0, 64, 6, .v4 0x0a000001, .v4 0x0a000002, [.fourB 20 0 0x80]⟩)
    (p := fun b => b.length == 28) (by decide +kernel)
  exact ⟨_, b, by decide +kernel, h1, by simpa using h2⟩

/-- **C14 is false without the bound**: 40 bytes of options (the most IPv4 allows) are padded
to 44, the header length overflows its 4-bit field into the version, and the packet written has version 5 and IHL 0. -/
theorem ipv4_wire_consistent_violated :
    ∃ (h h' : IPv4) (b : Bytes), (∀ o ∈ h.options, o.WF) ∧ (h.options.map IPOpt.length).sum = 40 ∧
      h.preSerialize [] = .ok h' ∧ h'.toBytes = .ok b ∧ b.head? = some 0x50 := by
  obtain ⟨b, h1, h2⟩ := Except.of_test (r := IPv4.toBytes
    ⟨0, 64, 0, 0, 0, 0, 1, .v4 0, .v4 0, [.routing 7 4 (List.replicate 9 0), .single 1]⟩)
    (p := fun b => b.head? == some 0x50) (by decide +kernel)
  refine ⟨⟨0, 20, 0, 0, 0, 0, 1, .v4 0, .v4 0, [.routing 7 4 (List.replicate 9 0), .single 1]⟩, _, b,
    ?_, by decide, by decide +kernel, h1, by simpa using h2⟩
  intro o ho
  simp only [List.mem_cons, List.not_mem_nil, or_false] at ho
  rcases ho with rfl | rfl
  · refine ⟨by decide, by decide, by decide, by decide, by decide⟩
  · exact Or.inr rfl

/-- A header whose total length does not fit in 16 bits is never written: serialisation
raises. -/
theorem ipv4_oversize_raises (h h' : IPv4) (tail : Bytes) (hp : h.preSerialize tail = .ok h')
    (ht : 65536 ≤ 20 + tail.length) : ¬ ∃ b, h'.toBytes = .ok b := by
  rintro ⟨b, hb⟩
  obtain ⟨o, d0, d, c, ho, hd0, hc, hd, rfl⟩ := IPv4.toBytes_inv hb
  obtain ⟨_, _, _, _, _, _, _, _, h7⟩ := ipv4_pack_split (by rw [hc]; exact checksum_lt _) hd
  unfold IPv4.preSerialize IPv4.size at hp
  obtain ⟨sz, hsz, hp⟩ := bind_eq_ok.mp hp
  obtain ⟨o', ho', hsz⟩ := bind_eq_ok.mp hsz
  cases hsz; cases hp
  simp only at h7
  omega

/-! ## C15, C16, C79: option padding and the option list -/

/-- **C15, partial**: the output is the concatenation followed by 1 to 4 zero bytes up to a
multiple of 4.  Missing: with an aligned concatenation there should be none. -/
theorem ipv4_option_padding_partial (os : List IPOpt) (b : Bytes) (hne : os ≠ [])
    (hb : optsToBytes os = .ok b) :
    ∃ raw k, optsConcat os = .ok raw ∧ b = raw ++ zeros k ∧ b.length % 4 = 0 ∧ 1 ≤ k ∧ k ≤ 4 ∧
      (raw.length % 4 ≠ 0 → k < 4) := by
  unfold optsToBytes at hb
  split at hb
  · exact absurd rfl hne
  · obtain ⟨r, hr, hb⟩ := bind_eq_ok.mp hb
    cases hb
    refine ⟨r, 4 - r.length % 4, hr, rfl, ?_, by omega, by omega, by omega⟩
    simp only [List.length_append, length_zeros]; omega

/-- **C15 is false**: whenever the options are already aligned, four superfluous bytes are
added. -/
theorem ipv4_option_padding_violated (os : List IPOpt) (raw : Bytes) (hne : os ≠ [])
    (hr : optsConcat os = .ok raw) (h4 : raw.length % 4 = 0) :
    optsToBytes os = .ok (raw ++ [0, 0, 0, 0]) := by
  unfold optsToBytes
  split
  · exact absurd rfl hne
  · rw [hr]; simp [h4, zeros]

/-- Router alert is exactly four bytes long and is padded to eight. -/
example : optsToBytes [.fourB 20 0 0x80] = .ok [0x94, 4, 0, 0, 0, 0, 0, 0] := by decide +kernel

/-- **C16**: any list of serialisable options comes back from its bytes, followed only by
end-of-list options. -/
theorem ipv4_options_roundtrip (os : List IPOpt) (h : ∀ o ∈ os, o.WF) :
    ∃ b n, optsToBytes os = .ok b ∧ n ≤ 4 ∧
      parseOpts b = .ok (os ++ List.replicate n (.single 0)) := by
  obtain ⟨b, h1, _, _, h4⟩ := optsToBytes_ok h
  exact ⟨b, padCount os, h1, by unfold padCount; split <;> omega, h4⟩

/-- **C79 is false**: parsing a serialised non-empty option list and serialising the result
always gives four more bytes, so a forwarding node lengthens every packet that carries options. -/
theorem ipv4_options_grow_violated (os : List IPOpt) (h : ∀ o ∈ os, o.WF) (hne : os ≠ []) :
    ∃ b os' b', optsToBytes os = .ok b ∧ parseOpts b = .ok os' ∧ optsToBytes os' = .ok b' ∧
      b'.length = b.length + 4 := by
  obtain ⟨b, h1, h2, h3, h4⟩ := optsToBytes_ok h
  have h' : ∀ o ∈ os ++ List.replicate (padCount os) (IPOpt.single 0), o.WF := by
    intro o ho
    rw [List.mem_append] at ho
    rcases ho with ho | ho
    · exact h o ho
    · rw [(List.mem_replicate.mp ho).2]; exact Or.inl rfl
  obtain ⟨b', g1, g2, g3, g4⟩ := optsToBytes_ok h'
  refine ⟨b, _, b', h1, h4, g1, ?_⟩
  have hsum : ((os ++ List.replicate (padCount os) (IPOpt.single 0)).map IPOpt.length).sum =
      (os.map IPOpt.length).sum + padCount os := by
    rw [List.map_append, List.sum_append, List.map_replicate]; simp [IPOpt.length]
  rw [hsum, ← h2] at g2
  rw [g2, padCount, if_neg (by simp [hne]), hsum, ← h2, h3]

/-- **C79, partial**: without options nothing is added. -/
theorem ipv4_options_grow_partial : optsToBytes [] = .ok [] ∧ parseOpts [] = .ok [] :=
  ⟨rfl, scan_nil _⟩

/-! ## C17: termination of option parsing -/

/-- **C17 is false**: a timestamp option with length octet 0 makes `from_bytes` loop forever --
the loop, with any amount of fuel, has not finished. -/
theorem ipv4_option_parse_terminates_violated :
    ∀ fuel, scanLoop optStep fuel [68, 0, 5, 0] 0 [] = none :=
  (scanLoop_none_iff optStep optStep_no_diverges _).mpr (by decide +kernel)

/-- ... and it is reached from `IPv4.from_bytes` on a 24-byte datagram header. -/
theorem ipv4_from_bytes_hangs :
    IPv4.fromBytes ([0x46, 0, 0, 24, 0, 0, 0, 0, 64, 1, 0, 0, 10, 0, 0, 1, 10, 0, 0, 2] ++ [68, 0, 5, 0])
      = .error .diverges := by decide +kernel

/-- **C17, partial**: parsing stops, with a list or an exception, after at most one iteration per
byte, on every byte string in which no octet with low five bits 4 (timestamp) is followed by a zero octet. -/
theorem ipv4_option_parse_terminates_partial (raw : Bytes)
    (h : ∀ i t, raw[i]? = some t → t.toNat % 32 = 4 → raw[i+1]? ≠ some 0) (fuel : Nat)
    (hf : raw.length < fuel) :
    ∃ r, scanLoop optStep fuel raw 0 [] = some r ∧ r ≠ .error .diverges := by
  have hnd : scan optStep raw ≠ .error .diverges := by
    apply scan_terminates optStep_no_diverges
    intro i o hs
    obtain ⟨t, r, h1, h2⟩ := optStep_zero hs
    have g1 : raw[i]? = some t := by
      have := congrArg (fun l => l[0]?) h1
      simpa using this
    have g2 : raw[i+1]? = some 0 := by
      have := congrArg (fun l => l[1]?) h1
      simpa using this
    have h2' : t.toNat &&& 31 = t.toNat % 32 := Nat.and_two_pow_sub_one_eq_mod _ 5
    exact h i t g1 (by omega) g2
  exact ⟨_, scanLoop_eq_scan optStep optStep_no_diverges raw hnd fuel hf, hnd⟩

/-- A record-route option meets the hypothesis. -/
example : ∀ i t, ([7, 7, 5, 0, 0, 0, 0, 0] : Bytes)[i]? = some t → t.toNat % 32 = 4 →
    ([7, 7, 5, 0, 0, 0, 0, 0] : Bytes)[i+1]? ≠ some 0 := by
  intro i t h1 h2
  have hm := List.mem_of_getElem? h1
  simp only [List.mem_cons, List.not_mem_nil, or_false] at hm
  exfalso
  rcases hm with rfl | rfl | rfl | rfl | rfl | rfl | rfl | rfl <;> revert h2 <;> decide

/-! ## C18: attribute assignment histories -/

/-- One attribute assignment. -/
inductive IPv4Set
  | tos (v : Int) | dscp (v : Int) | ecn (v : Int) | ttl (v : Int) | ipid (v : Int)
  | flags (v : Int) | frag (v : Int) | protocol (v : Int) | src (v : IPArg) | dst (v : IPArg)

/-- The setter it calls. -/
def IPv4Set.run (h : IPv4) : IPv4Set → Res IPv4
  | .tos v => h.setTos v
  | .dscp v => h.setDscp v
  | .ecn v => h.setEcn v
  | .ttl v => h.setTtl v
  | .ipid v => h.setIpid v
  | .flags v => h.setFlags v
  | .frag v => h.setFrag v
  | .protocol v => h.setProtocol v
  | .src v => h.setSrc v
  | .dst v => h.setDst v

/-- Ranges of the integer fields. -/
def InRange (h : IPv4) : Prop :=
  h.tos < 256 ∧ h.ttl < 256 ∧ h.ipid < 65536 ∧ h.frag < 8192 ∧ h.flags ∈ [0, 2, 4] ∧
  h.protocol ∈ ipProtocols

theorem inRange_step {h h' : IPv4} (op : IPv4Set) (hr : InRange h) (hs : op.run h = .ok h') :
    InRange h' ∧ h'.totallen = h.totallen ∧ h'.options = h.options := by
  obtain ⟨r1, r2, r3, r4, r5, r6⟩ := hr
  cases op with
  | tos v =>
    simp only [IPv4Set.run, IPv4.setTos] at hs
    split at hs
    · cases hs; exact ⟨⟨by simp only; omega, r2, r3, r4, r5, r6⟩, rfl, rfl⟩
    · cases hs
  | dscp v =>
    simp only [IPv4Set.run, IPv4.setDscp] at hs
    split at hs
    · rename_i hv
      cases hs
      refine ⟨⟨?_, r2, r3, r4, r5, r6⟩, rfl, rfl⟩
      simp only
      apply Nat.or_lt_two_pow (n := 8)
      · exact Nat.lt_of_le_of_lt Nat.and_le_right (by decide)
      · rw [Nat.shiftLeft_eq]; omega
    · cases hs
  | ecn v =>
    simp only [IPv4Set.run, IPv4.setEcn] at hs
    split at hs
    · rename_i hv
      cases hs
      refine ⟨⟨?_, r2, r3, r4, r5, r6⟩, rfl, rfl⟩
      simp only
      apply Nat.or_lt_two_pow (n := 8)
      · exact Nat.lt_of_le_of_lt Nat.and_le_right (by decide)
      · omega
    · cases hs
  | ttl v =>
    simp only [IPv4Set.run, IPv4.setTtl] at hs
    split at hs
    · cases hs; exact ⟨⟨r1, by simp only; omega, r3, r4, r5, r6⟩, rfl, rfl⟩
    · cases hs
  | ipid v =>
    simp only [IPv4Set.run, IPv4.setIpid] at hs
    split at hs
    · cases hs; exact ⟨⟨r1, r2, by simp only; omega, r4, r5, r6⟩, rfl, rfl⟩
    · cases hs
  | flags v =>
    simp only [IPv4Set.run, IPv4.setFlags] at hs
    obtain ⟨f, hf, hs⟩ := bind_eq_ok.mp hs
    cases hs
    exact ⟨⟨r1, r2, r3, r4, (enumOf_ok hf).1, r6⟩, rfl, rfl⟩
  | frag v =>
    simp only [IPv4Set.run, IPv4.setFrag] at hs
    split at hs
    · cases hs; exact ⟨⟨r1, r2, r3, by simp only; omega, r5, r6⟩, rfl, rfl⟩
    · cases hs
  | protocol v =>
    simp only [IPv4Set.run, IPv4.setProtocol] at hs
    obtain ⟨f, hf, hs⟩ := bind_eq_ok.mp hs
    cases hs
    exact ⟨⟨r1, r2, r3, r4, r5, (enumOf_ok hf).1⟩, rfl, rfl⟩
  | src v =>
    simp only [IPv4Set.run, IPv4.setSrc] at hs
    obtain ⟨f, hf, hs⟩ := bind_eq_ok.mp hs
    cases hs
    exact ⟨⟨r1, r2, r3, r4, r5, r6⟩, rfl, rfl⟩
  | dst v =>
    simp only [IPv4Set.run, IPv4.setDst] at hs
    obtain ⟨f, hf, hs⟩ := bind_eq_ok.mp hs
    cases hs
    exact ⟨⟨r1, r2, r3, r4, r5, r6⟩, rfl, rfl⟩

/-- **C18**: whatever sequence of assignments is tried on a new header (with exceptions caught and
ignored), every field is in its wire range; and if both addresses are IPv4 addresses the header
serialises and parses back to itself. -/
theorem ipv4_setters_keep_serialisable (ops : List IPv4Set) :
    let h := ops.foldl (fun h op => assign h (op.run h)) IPv4.default
    InRange h ∧ (h.src.isV4 → h.dst.isV4 → ∀ rest,
      ∃ b, h.toBytes = .ok b ∧ IPv4.fromBytes (b ++ rest) = .ok (h, rest)) := by
  have inv : ∀ (ops : List IPv4Set) (h : IPv4), InRange h → h.totallen = 20 → h.options = [] →
      InRange (ops.foldl (fun h op => assign h (op.run h)) h) ∧
      (ops.foldl (fun h op => assign h (op.run h)) h).totallen = 20 ∧
      (ops.foldl (fun h op => assign h (op.run h)) h).options = [] := by
    intro ops
    induction ops with
    | nil => intro h h1 h2 h3; exact ⟨h1, h2, h3⟩
    | cons op ops ih =>
      intro h h1 h2 h3
      rw [List.foldl_cons]
      cases hs : op.run h with
      | error e => exact ih h h1 h2 h3
      | ok h' =>
        obtain ⟨g1, g2, g3⟩ := inRange_step op h1 hs
        exact ih h' g1 (by rw [g2, h2]) (by rw [g3, h3])
  obtain ⟨i1, i2, i3⟩ := inv ops IPv4.default (by unfold InRange; decide) rfl rfl
  refine ⟨i1, fun hs hd rest => ?_⟩
  obtain ⟨r1, r2, r3, r4, r5, r6⟩ := i1
  obtain ⟨b, h1, _, h3⟩ := ipv4_roundtrip _ ⟨r1, by rw [i2]; omega, r3, r5, r4, r2, r6, hs, hd⟩ i3 rest
  exact ⟨b, h1, h3⟩

/-- **C18**: an integer assignment raises exactly when the value is outside the field. -/
theorem ipv4_setters_raise_iff (h : IPv4) (v : Int) :
    ((∃ h', h.setTtl v = .ok h' ∧ (h'.ttl : Int) = v) ↔ 0 ≤ v ∧ v ≤ 255) ∧
    ((∃ h', h.setTos v = .ok h' ∧ (h'.tos : Int) = v) ↔ 0 ≤ v ∧ v ≤ 255) ∧
    ((∃ h', h.setIpid v = .ok h' ∧ (h'.ipid : Int) = v) ↔ 0 ≤ v ∧ v ≤ 65535) ∧
    ((∃ h', h.setFrag v = .ok h' ∧ (h'.frag : Int) = v) ↔ 0 ≤ v ∧ v ≤ 8191) ∧
    ((∃ h', h.setProtocol v = .ok h' ∧ (h'.protocol : Int) = v) ↔ ∃ n ∈ ipProtocols, v = (n : Int)) := by
  refine ⟨⟨?_, ?_⟩, ⟨?_, ?_⟩, ⟨?_, ?_⟩, ⟨?_, ?_⟩, ⟨?_, ?_⟩⟩
  · rintro ⟨h', h1, _⟩
    unfold IPv4.setTtl at h1
    split at h1
    · omega
    · cases h1
  · intro hv; unfold IPv4.setTtl; rw [if_pos (by omega)]; exact ⟨_, rfl, by simp only; omega⟩
  · rintro ⟨h', h1, _⟩
    unfold IPv4.setTos at h1
    split at h1
    · omega
    · cases h1
  · intro hv; unfold IPv4.setTos; rw [if_pos (by omega)]; exact ⟨_, rfl, by simp only; omega⟩
  · rintro ⟨h', h1, _⟩
    unfold IPv4.setIpid at h1
    split at h1
    · omega
    · cases h1
  · intro hv; unfold IPv4.setIpid; rw [if_pos (by omega)]; exact ⟨_, rfl, by simp only; omega⟩
  · rintro ⟨h', h1, _⟩
    unfold IPv4.setFrag at h1
    split at h1
    · omega
    · cases h1
  · intro hv; unfold IPv4.setFrag; rw [if_pos (by omega)]; exact ⟨_, rfl, by simp only; omega⟩
  · rintro ⟨h', h1, _⟩
    unfold IPv4.setProtocol at h1
    obtain ⟨p, hp, _⟩ := bind_eq_ok.mp h1
    exact ⟨p, enumOf_ok hp⟩
  · rintro ⟨n, hn, rfl⟩
    unfold IPv4.setProtocol; rw [enumOf_nat hn]; exact ⟨_, rfl, rfl⟩

/-! ## C19: DSCP and ECN -/

theorem and3 (t : Nat) : t &&& 3 = t % 4 := Nat.and_two_pow_sub_one_eq_mod t 2

theorem dscp_or (t v : Nat) : (t &&& 3) ||| (v <<< 2) = 4 * v + t % 4 := by
  rw [and3, Nat.or_comm, Nat.shiftLeft_eq, show v * 2 ^ 2 = 2 ^ 2 * v by omega,
    ← Nat.two_pow_add_eq_or_of_lt (show t % 4 < 2 ^ 2 by omega)]

/-- **C19**, DSCP half: assigning `dscp` reads back and leaves `ecn` alone. -/
theorem ipv4_dscp_independent (h : IPv4) (v : Nat) (hv : v < 64) :
    ∃ h', h.setDscp v = .ok h' ∧ h'.dscp = v ∧ h'.ecn = h.ecn ∧ h' = { h with tos := h'.tos } := by
  unfold IPv4.setDscp
  rw [if_pos (by omega)]
  refine ⟨_, rfl, ?_, ?_, rfl⟩
  · simp only [IPv4.dscp, Int.toNat_natCast, dscp_or, Nat.shiftRight_eq_div_pow]; omega
  · simp only [IPv4.ecn, Int.toNat_natCast, dscp_or]; rw [and3, and3]; omega

/-- **C19 is false** for ECN: the mask 0xfa clears the low DSCP bit and keeps the high ECN
bit. -/
theorem ipv4_ecn_independent_violated :
    (∃ h h' : IPv4, h.setEcn 0 = .ok h' ∧ h.dscp = 1 ∧ h'.dscp = 0) ∧
    (∃ h h' : IPv4, h.setEcn 1 = .ok h' ∧ h'.ecn = 3) :=
  ⟨⟨{ IPv4.default with tos := 4 }, _, rfl, by decide, by decide⟩,
   ⟨{ IPv4.default with tos := 2 }, _, rfl, by decide⟩⟩

/-- **C19, partial**: what assigning `ecn` does for every prior TOS: it is right exactly when
bits 1 and 2 of the prior TOS need no change.  Missing: the other TOS values. -/
theorem ipv4_ecn_independent_partial (h : IPv4) (ht : h.tos < 256) (v : Nat) (hv : v < 4) :
    ∃ h', h.setEcn v = .ok h' ∧
      (h'.ecn = v ∧ h'.dscp = h.dscp ↔ h.dscp % 2 = 0 ∧ (2 ≤ h.ecn → 2 ≤ v)) := by
  have key : ∀ t : Fin 256, ∀ v : Fin 4,
      ((((t.val &&& 0xfa) ||| v.val) &&& 3) = v.val ∧ ((t.val &&& 0xfa) ||| v.val) >>> 2 = t.val >>> 2) ↔
      ((t.val >>> 2) % 2 = 0 ∧ (2 ≤ t.val &&& 3 → 2 ≤ v.val)) := by decide +kernel
  unfold IPv4.setEcn
  rw [if_pos (by omega)]
  refine ⟨_, rfl, ?_⟩
  simp only [IPv4.ecn, IPv4.dscp, Int.toNat_natCast]
  exact key ⟨h.tos, ht⟩ ⟨v, hv⟩

/-! ## C20: fragment flags -/

/-- RFC 791: the 16-bit word with flags and fragment offset. -/
def rfcFlagsWord (df mf : Bool) (offset : Nat) : Nat :=
  (if df then 0x4000 else 0) + (if mf then 0x2000 else 0) + offset

/-- The flags word of a serialised header. -/
def wireFlagsWord (b : Bytes) : Nat := beDec ((b.drop 6).take 2)

/-- **C20 is false**, writing: the flag the API calls `MoreFragments` (4) sets the reserved bit
0x8000 on the wire and leaves MF clear. -/
theorem ipv4_fragment_flags_violated :
    ∃ (h : IPv4) (b : Bytes), IPv4.default.setFlags 4 = .ok h ∧ h.toBytes = .ok b ∧
      wireFlagsWord b = 0x8000 ∧ wireFlagsWord b ≠ rfcFlagsWord false true 0 := by
  obtain ⟨b, h1, h2⟩ := Except.of_test (r := IPv4.toBytes { IPv4.default with flags := 4 })
    (p := fun b => wireFlagsWord b == 0x8000) (by decide +kernel)
  have h2' : wireFlagsWord b = 0x8000 := by simpa using h2
  exact ⟨_, b, by decide +kernel, h1, h2', by rw [h2']; decide⟩

/-- What a parsed IPv4 header says about its bytes. -/
theorem ipv4_fromBytes_inv {raw rest : Bytes} {h : IPv4}
    (hp : IPv4.fromBytes raw = .ok (h, rest)) :
    ∃ b0 r, raw = b0 :: r ∧ 20 ≤ raw.length ∧ b0.toNat / 16 = 4 ∧ b0.toNat % 16 * 4 ≤ raw.length ∧
      rest = raw.drop (b0.toNat % 16 * 4) ∧ h.WF ∧
      h.vals b0.toNat (beDec ((raw.drop 10).take 2)) = unpackGo IPv4.fmt (raw.take 20) ∧
      parseOpts ((raw.take (b0.toNat % 16 * 4)).drop 20) = .ok h.options := by
  unfold IPv4.fromBytes at hp
  split at hp
  · cases hp
  rename_i hl
  have hl' : (raw.take 20).length = calcsize IPv4.fmt := by
    simp [IPv4.fmt, calcsize, Fld.size]; omega
  have hfit := fits_unpackGo IPv4.fmt (raw.take 20) hl'
  rw [unpack, if_pos hl'] at hp
  obtain ⟨b0, r, hraw⟩ : ∃ b0 r, raw = b0 :: r := by
    cases raw with
    | nil => simp at hl
    | cons a r => exact ⟨a, r, rfl⟩
  have e0 : beDec ((raw.take 20).take 1) = b0.toNat := by
    rw [hraw]; simp [beDec]
  have e10 : (List.take 2 (List.drop 1 (List.drop 1 (List.drop 2 (List.drop 2 (List.drop 2
      (List.drop 1 (List.drop 1 (raw.take 20))))))))) = (raw.drop 10).take 2 := by
    simp only [List.drop_drop]
    rw [List.drop_take, List.take_take]; rfl
  simp only [IPv4.fmt, unpackGo, bind_ok] at hp hfit ⊢
  rw [e0] at hp hfit ⊢
  rw [e10]
  simp only [Int.toNat_natCast, and_0f] at hp
  split at hp
  · cases hp
  rename_i hv
  split at hp
  · cases hp
  rename_i hlen
  obtain ⟨h', he, hp⟩ := bind_eq_ok.mp hp
  cases hp
  simp only [Fits] at hfit
  obtain ⟨f1, f2, f3, f4, f5, f6, f7, f8, f9, f10, _⟩ := hfit
  generalize hT : beDec (List.take 1 (List.drop 1 (raw.take 20))) = T at *
  generalize hL : beDec (List.take 2 (List.drop 1 (List.drop 1 (raw.take 20)))) = L at *
  generalize hI : beDec (List.take 2 (List.drop 2 (List.drop 1 (List.drop 1 (raw.take 20))))) = I at *
  generalize hF : beDec (List.take 2 (List.drop 2 (List.drop 2 (List.drop 1 (List.drop 1 (raw.take 20)))))) = F at *
  generalize hX : beDec (List.take 1 (List.drop 2 (List.drop 2 (List.drop 2 (List.drop 1 (List.drop 1 (raw.take 20))))))) = X at *
  generalize hP : beDec (List.take 1 (List.drop 1 (List.drop 2 (List.drop 2 (List.drop 2 (List.drop 1 (List.drop 1 (raw.take 20)))))))) = P at *
  have f2' : T < 256 := by have := f2.2; omega
  have f3' : L < 65536 := by have := f3.2; omega
  have f4' : I < 65536 := by have := f4.2; omega
  have f5' : F < 65536 := by have := f5.2; omega
  have f6' : X < 256 := by have := f6.2; omega
  have hfr : F &&& 0x1fff < 8192 := by rw [and_1fff]; omega
  simp only [IPv4.ofFields, IPv4.setTos_nat _ f2', IPv4.setIpid_nat _ f4', IPv4.setFlags,
    Int.toNat_natCast, bind_ok, IPv4.setProtocol, IPv4.setSrc, IPv4.setDst, ipAddress, if_pos f9,
    if_pos f10] at he
  obtain ⟨h1, he1, he⟩ := bind_eq_ok.mp he
  obtain ⟨fl, hfl, he1⟩ := bind_eq_ok.mp he1
  cases he1
  simp only [IPv4.setFrag_nat _ hfr, bind_ok, IPv4.setTtl_nat _ f6'] at he
  obtain ⟨h2, he2, he⟩ := bind_eq_ok.mp he
  obtain ⟨pr, hpr, he2⟩ := bind_eq_ok.mp he2
  cases he2
  simp only [bind_ok] at he
  obtain ⟨os, hos, he⟩ := bind_eq_ok.mp he
  cases he
  obtain ⟨m1, n1⟩ := enumOf_ok hfl
  obtain ⟨m2, n2⟩ := enumOf_ok hpr
  have hfl' : fl = F / 8192 := by
    rw [Nat.shiftRight_eq_div_pow] at n1; omega
  have hff : (fl <<< 13 ||| (F &&& 0x1fff)) = F := by
    rw [ff_eq hfr, and_1fff, hfl']; omega
  refine ⟨b0, r, hraw, by omega, ?_, by omega, rfl, ⟨f2', f3', f4', m1, hfr, f6', m2, trivial, trivial⟩,
    ?_, hos⟩
  · rw [Nat.shiftRight_eq_div_pow] at hv; omega
  · simp only [IPv4.vals, hff, n2, IPAddr.packed, enc_bv32_of_bytes f9, enc_bv32_of_bytes f10]

/-- **C20 is false**, reading: every IPv4 datagram with the MF bit set (and DF clear) is
rejected with `ValueError`, whatever else it contains, provided it parses otherwise. -/
theorem ipv4_more_fragments_unparseable (raw : Bytes) (b6 : UInt8) (hb : raw[6]? = some b6)
    (hm : b6.toNat / 32 = 1) : ¬ ∃ h rest, IPv4.fromBytes raw = .ok (h, rest) := by
  rintro ⟨h, rest, hp⟩
  obtain ⟨b0, r, h1, h2, h3, h4, h5, hw, h7, h8⟩ := ipv4_fromBytes_inv hp
  have hf := hw.2.2.2.1
  have hfr := hw.2.2.2.2.1
  have h7' := congrArg (fun l => l[4]?) h7
  simp only [IPv4.vals, IPv4.fmt, unpackGo, List.getElem?_cons_succ, List.getElem?_cons_zero,
    List.drop_drop, Option.some.injEq, Val.i.injEq] at h7'
  rw [List.drop_take, List.take_take] at h7'
  simp only [Nat.reduceAdd, Nat.reduceSub, Nat.min_def] at h7'
  have hlen : 7 < raw.length := by omega
  have h6 : raw.drop 6 = b6 :: raw[7] :: raw.drop 8 := by
    have g6 : raw[6] = b6 := by
      have := hb; rw [List.getElem?_eq_getElem (by omega)] at this; exact Option.some.inj this
    rw [List.drop_eq_getElem_cons (by omega), List.drop_eq_getElem_cons (by omega), g6]
  rw [h6] at h7'
  simp only [Nat.reduceLeDiff, if_true, List.take_succ_cons, List.take_zero, beDec, ff_eq hfr, List.length_cons,
    List.length_nil] at h7'
  have := raw[7].toNat_lt
  have := b6.toNat_lt
  have h6' : h.flags = 0 ∨ h.flags = 2 ∨ h.flags = 4 := by simpa [ipFragmentFlags] using hf
  omega

/-- A real MF fragment: it raises `ValueError`. -/
example : IPv4.fromBytes [0x45, 0, 0, 20, 0, 0, 0x20, 0, 64, 17, 0, 0, 10, 0, 0, 1, 10, 0, 0, 2] =
    .error .valueError := by decide +kernel

/-- **C20, partial**: headers without MF are right: the flags word written for flags 0 and 2 is
RFC 791's with DF clear or set, and they read back (`ipv4_roundtrip`).  Missing: MF. -/
theorem ipv4_fragment_flags_partial (h : IPv4) (w : h.WF) (ho : h.options = []) (hf : h.flags ≠ 4) :
    ∃ b, h.toBytes = .ok b ∧ wireFlagsWord b = rfcFlagsWord (h.flags == 2) false h.frag := by
  obtain ⟨b, hb, hl, _⟩ := ipv4_roundtrip h w ho []
  refine ⟨b, hb, ?_⟩
  obtain ⟨o, d0, d, c, ho', hd0, hc, hd, rfl⟩ := IPv4.toBytes_inv hb
  obtain ⟨pre, post, p1, p2, p3, p4, p5, p6⟩ := ipv4_pack_split (by rw [hc]; exact checksum_lt _) hd
  have hfr := w.2.2.2.2.1
  have hfl := ipFragmentFlags_lt w.2.2.2.1
  have hd6 : ∀ (a b c d : Nat) (t : Bytes),
      ((beEnc 1 a ++ (beEnc 1 b ++ (beEnc 2 c ++ (beEnc 2 d ++ t)))).drop 6) = t := by
    intro a b c d t; simp [beEnc]
  unfold wireFlagsWord
  rw [p3, p4]
  simp only [List.append_assoc, hd6]
  rw [List.take_left' (by simp), beDec_beEnc (by rw [ff_eq hfr]; omega), ff_eq hfr]
  have : h.flags = 0 ∨ h.flags = 2 := by
    have : h.flags = 0 ∨ h.flags = 2 ∨ h.flags = 4 := by simpa [ipFragmentFlags] using w.2.2.2.1
    omega
  rcases this with h0 | h0 <;> simp [h0, rfcFlagsWord]

/-! ## C21: payload boundaries -/

/-- **C21 is false**: with an IHL of 4 the last four header bytes are delivered as payload. -/
theorem ipv4_payload_after_header_violated :
    ∃ raw h rest, IPv4.fromBytes raw = .ok (h, rest) ∧ raw.length = 20 ∧ rest = [10, 0, 0, 2] := by
  obtain ⟨⟨h, rest⟩, h1, h2⟩ := Except.of_test (r := IPv4.fromBytes
      [0x44, 0, 0, 20, 0, 0, 0, 0, 64, 17, 0, 0, 10, 0, 0, 1, 10, 0, 0, 2])
    (p := fun x => x.2 == [10, 0, 0, 2]) (by decide +kernel)
  exact ⟨_, h, rest, h1, rfl, by simpa using h2⟩

/-- **C21, partial**: what is returned is exactly the input from byte 4*IHL on; so for a legal
IHL (at least 5) it excludes the fixed header.  Missing: rejection of IHL below 5. -/
theorem ipv4_payload_after_header_partial (raw rest : Bytes) (h : IPv4)
    (hp : IPv4.fromBytes raw = .ok (h, rest)) :
    ∃ b0, raw.head? = some b0 ∧ rest = raw.drop (b0.toNat % 16 * 4) ∧
      (5 ≤ b0.toNat % 16 → ∃ n, 20 ≤ n ∧ rest = raw.drop n) := by
  obtain ⟨b0, r, h1, h2, h3, h4, h5, _⟩ := ipv4_fromBytes_inv hp
  exact ⟨b0, by rw [h1]; rfl, h5, fun hi => ⟨_, by omega, h5⟩⟩

/-! ## C78: address family -/

/-- **C78 is false**: an IPv6 address is accepted as IPv4 source, and the packet is written with
the first four of its sixteen bytes. -/
theorem ipv4_rejects_ipv6_violated :
    ∃ (h : IPv4) (b : Bytes), IPv4.default.setSrc (.addr (.v6 0x20010db8000000000000000000000001)) = .ok h ∧
      h.toBytes = .ok b ∧ (b.drop 12).take 4 = [0x20, 0x01, 0x0d, 0xb8] := by
  obtain ⟨b, h1, h2⟩ := Except.of_test (r := IPv4.toBytes
      { IPv4.default with src := .v6 0x20010db8000000000000000000000001 })
    (p := fun b => (b.drop 12).take 4 == [0x20, 0x01, 0x0d, 0xb8]) (by decide +kernel)
  exact ⟨_, b, rfl, h1, by simpa using h2⟩

/-- **C78, partial**: four-byte strings and integers below 2^32 are stored as IPv4 addresses
and written in full.  Missing: rejection of IPv6 addresses. -/
theorem ipv4_rejects_ipv6_partial (h : IPv4) :
    (∀ b : Bytes, b.length = 4 → ∃ h', h.setSrc (.raw b) = .ok h' ∧ h'.src.packed = b) ∧
    (∀ n : Nat, n < 2 ^ 32 → ∃ h', h.setSrc (.int n) = .ok h' ∧ h'.src.packed = beEnc 4 n) := by
  constructor
  · intro b hb
    refine ⟨_, by simp only [IPv4.setSrc, ipAddress, if_pos hb, bind_ok]; rfl, ?_⟩
    simp only [IPAddr.packed, enc_bv32_of_bytes hb]
  · intro n hn
    refine ⟨{ h with src := .v4 (BitVec.ofNat 32 n) }, ?_, ?_⟩
    · simp only [IPv4.setSrc, ipAddress]
      rw [if_pos ⟨by omega, by exact_mod_cast hn⟩]; rfl
    · simp [IPAddr.packed, Nat.mod_eq_of_lt hn]

/-! ## C82: truncated headers -/

/-- **C82**, IPv4: fewer than 20 bytes, or fewer than the header length field announces, raise
`NotEnoughDataError`. -/
theorem ipv4_truncated (raw : Bytes) :
    (raw.length < 20 → IPv4.fromBytes raw = .error .notEnoughData) ∧
    (∀ b0 tl, raw = b0 :: tl → 20 ≤ raw.length → b0.toNat / 16 = 4 → raw.length < b0.toNat % 16 * 4 →
      IPv4.fromBytes raw = .error .notEnoughData) := by
  constructor
  · intro h
    simp [IPv4.fromBytes, h]
  · rintro b0 tl rfl hl hv hs
    unfold IPv4.fromBytes
    rw [if_neg (by omega)]
    have hu : ∃ r, unpack IPv4.fmt ((b0 :: tl).take 20) = .ok (.i b0.toNat :: r) ∧
        ∃ t l i f tt p c s d, r = [.i t, .i l, .i i, .i f, .i tt, .i p, .i c, .b s, .b d] := by
      have h20 : ((b0 :: tl).take 20).length = calcsize IPv4.fmt := by
        rw [show calcsize IPv4.fmt = 20 from rfl]; simp at hl ⊢; omega
      rw [unpack, if_pos h20]
      have e : beDec (((b0 :: tl).take 20).take 1) = b0.toNat := by simp [beDec]
      rw [← e]
      exact ⟨_, rfl, _, _, _, _, _, _, _, _, _, rfl⟩
    obtain ⟨r, hr, t, l, i, f, tt, p, c, s, d, rfl⟩ := hu
    rw [hr]
    simp only [bind_ok, Int.toNat_natCast, Nat.shiftRight_eq_div_pow]
    rw [if_neg (by simpa using hv), if_pos]
    rw [show (15 : Nat) = 2 ^ 4 - 1 from rfl, Nat.and_two_pow_sub_one_eq_mod]
    exact hs

example : IPv4.fromBytes (0x46 :: zeros 19) = .error .notEnoughData := by decide +kernel

/-- **C82**, IPv4 timestamp option: a length octet that reaches beyond the option bytes raises
`NotEnoughDataError`. -/
theorem ipv4_timestamp_truncated (t l p f : UInt8) (tl : Bytes) (ht : t.toNat % 32 = 4)
    (hl : 4 + tl.length < l.toNat) : parseOpts (t :: l :: p :: f :: tl) = .error .notEnoughData := by
  have h1 : optStep (t :: l :: p :: f :: tl) = .error .notEnoughData := by
    have e : t.toNat &&& 0x1f = 4 := by
      rw [show (0x1f : Nat) = 2 ^ 5 - 1 from rfl, Nat.and_two_pow_sub_one_eq_mod]; exact ht
    unfold optStep
    simp only [e]
    rw [show enumOf ipOptionNumbers ((4 : Nat) : Int) = .ok 4 from rfl]
    simp only [bind_ok]
    rw [if_neg (by decide), if_neg (by decide), if_pos trivial]
    have hu : unpack [.u 1, .u 1, .u 1, .u 1] ((t :: l :: p :: f :: tl).take 4) =
        .ok [.i t.toNat, .i l.toNat, .i p.toNat, .i f.toNat] := by
      simp [unpack, unpackGo, calcsize, Fld.size, beDec]
    rw [hu]
    simp only [bind_ok, Int.toNat_natCast]
    rw [if_pos (by simp only [List.length_cons]; omega)]
  unfold parseOpts
  rw [scan]
  simp [h1]

example : parseOpts [0x44, 12, 5, 0, 0, 0, 0, 0] = .error .notEnoughData :=
  ipv4_timestamp_truncated _ _ _ _ _ (by decide) (by decide)

/-- The negation of **C82** for the other options: a router alert or record route option cut off by the
end of the header raises `struct.error`, `IndexError` or `AddressValueError`. -/
theorem ipv4_option_truncated_violated :
    IPv4.fromBytes (0x46 :: 0 :: zeros 7 ++ 1 :: zeros 10 ++ [1, 1, 148, 4]) = .error .structError ∧
    IPv4.fromBytes (0x46 :: 0 :: zeros 7 ++ 1 :: zeros 10 ++ [1, 1, 1, 7]) = .error .indexError ∧
    IPv4.fromBytes (0x46 :: 0 :: zeros 7 ++ 1 :: zeros 10 ++ [7, 7, 4, 0]) = .error .addressValue := by
  decide +kernel

end SY.Props
