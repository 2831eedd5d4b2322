import Verif.Tcp
import Verif.Props.Udp

/-! # Properties C24–C27, C81: TCP -/

namespace SY.Props

/-- **C24**: every TCP header whose fields are in range serialises to 20 bytes and parses back to
a header equal to it (all compared fields), with the following bytes returned untouched. -/
theorem tcp_roundtrip (h : TCP) (w : h.WF) (rest : Bytes) :
    ∃ b h', h.toBytes = .ok b ∧ b.length = 20 ∧ TCP.fromBytes (b ++ rest) = .ok (h', rest) ∧
      h'.eq h = true ∧ h'.src = h.src ∧ h'.dst = h.dst ∧ h'.seq = h.seq ∧ h'.ack = h.ack ∧
      h'.flags = h.flags ∧ h'.window = h.window ∧ h'.urg = h.urg := by
  obtain ⟨b, hb, hl⟩ := TCP.toBytes_ok w
  exact ⟨b, _, hb, hl, TCP.fromBytes_toBytes w hb rest, by simp [TCP.eq, TCP.offset], rfl, rfl, rfl,
    rfl, rfl, rfl, rfl⟩

example : (⟨80, 40000, 4294967295, 17, 0x112, 1024, 3, 0xbeef⟩ : TCP).WF := by decide

/-- **C24**: the bytes returned by a parse start exactly 4 × (data offset) bytes into the input;
the only parse error is an input shorter than 20 bytes. -/
theorem tcp_parse_offset (raw : Bytes) :
    (raw.length < 20 → TCP.fromBytes raw = .error .notEnoughData) ∧
    (20 ≤ raw.length → ∃ h, TCP.fromBytes raw =
      .ok (h, raw.drop (4 * (beDec ((raw.drop 12).take 1) / 16)))) := by
  refine ⟨fun h => by unfold TCP.fromBytes; rw [if_pos h], fun hl => ?_⟩
  obtain ⟨h, h1, _⟩ := TCP.fromBytes_ok hl
  refine ⟨h, ?_⟩
  rw [h1]
  match hd : raw.drop 12 with
  | [] => have := congrArg List.length hd; simp at this; omega
  | [_] => have := congrArg List.length hd; simp at this; omega
  | x :: y :: t =>
    simp only [List.take_succ_cons, List.take_zero, beDec, List.length_cons, List.length_nil,
      Nat.add_zero]
    have h1 := x.toNat_lt
    have h2 := y.toNat_lt
    have e : (x.toNat * 256 ^ (0 + 1) + y.toNat * 256 ^ 0) / 4096 = x.toNat * 256 ^ 0 / 16 := by
      simp only [Nat.zero_add, Nat.pow_one, Nat.pow_zero, Nat.mul_one]; omega
    rw [e, Nat.mul_comm]

theorem tcp_isset_testBit (x : TCP) (k : TCPFlag) : x.isset k = x.flags.testBit k.value := by
  simp only [TCP.isset, Nat.one_shiftLeft]
  rw [Bool.eq_iff_iff, beq_iff_eq]
  constructor
  · intro h
    have := congrArg (fun n => n.testBit k.value) h
    simpa [Nat.testBit_and, Nat.testBit_two_pow_self] using this
  · intro h
    apply Nat.eq_of_testBit_eq
    intro i
    rw [Nat.testBit_and, Nat.testBit_two_pow]
    by_cases e : k.value = i
    · subst e; simp [h]
    · simp [e]

/-- **C25**: assigning a flag makes that flag read the assigned value and no other flag change. -/
theorem tcp_flag_independent (h : TCP) (f g : TCPFlag) (v : Bool) :
    (h.setflag f v).isset g = if g = f then v else h.isset g := by
  have inj : g.value = f.value ↔ g = f := by cases f <;> cases g <;> simp [TCPFlag.value]
  rw [tcp_isset_testBit, tcp_isset_testBit]
  unfold TCP.setflag
  cases v <;> simp only [Nat.one_shiftLeft, if_true, Bool.false_eq_true, if_false, Nat.testBit_or,
    Nat.testBit_xor, Nat.testBit_and, Nat.testBit_two_pow]
  · by_cases e : g = f
    · rw [if_pos e, decide_eq_true (inj.mpr e).symm]; simp
    · rw [if_neg e, decide_eq_false (fun c => e (inj.mp c.symm))]; simp
  · by_cases e : g = f
    · rw [if_pos e, decide_eq_true (inj.mpr e).symm]; simp
    · rw [if_neg e, decide_eq_false (fun c => e (inj.mp c.symm))]; simp

/-- **C25**: flag assignments keep the flag word within nine bits and touch nothing else. -/
theorem tcp_flag_range (h : TCP) (f : TCPFlag) (v : Bool) (hf : h.flags < 512) :
    (h.setflag f v).flags < 512 ∧ { h.setflag f v with flags := h.flags } = h := by
  have hm : (1 <<< f.value : Nat) < 2 ^ 9 := by cases f <;> decide
  unfold TCP.setflag
  cases v
  · refine ⟨?_, rfl⟩
    simp only [Bool.false_eq_true, if_false]
    exact Nat.xor_lt_two_pow (n := 9) hf (Nat.and_lt_two_pow _ hm)
  · exact ⟨Nat.or_lt_two_pow (n := 9) hf hm, rfl⟩

/-- The value a flag should read after a history of assignments (most recent last). -/
def lastAssigned (f : TCPFlag) (init : Bool) : List (TCPFlag × Bool) → Bool
  | [] => init
  | (g, v) :: ops => lastAssigned f (if f = g then v else init) ops

/-- **C25**: after any history of flag assignments, each flag reads the value of its last
assignment (or its initial value). -/
theorem tcp_flag_history (h : TCP) (ops : List (TCPFlag × Bool)) (f : TCPFlag) :
    (ops.foldl (fun t o => t.setflag o.1 o.2) h).isset f = lastAssigned f (h.isset f) ops := by
  induction ops generalizing h with
  | nil => rfl
  | cons o ops ih =>
    simp only [List.foldl_cons, ih, lastAssigned, tcp_flag_independent]

example : (([(.SYN, true), (.ACK, true), (.SYN, false)] : List (TCPFlag × Bool)).foldl
    (fun t o => t.setflag o.1 o.2) TCP.default).flags = 0x10 := by decide

/-- The bit of the offset-and-flags word that RFC 793, 3168 and 3540 give to each flag. -/
def rfcFlagBit : TCPFlag → Nat
  | .FIN => 0 | .SYN => 1 | .RST => 2 | .PSH => 3 | .ACK => 4 | .URG => 5 | .ECE => 6 | .CWR => 7 | .NS => 8

/-- The flag bits sit in the positions RFC 793/3168/3540 give them: the accessor of a flag reads
the bit of the header word that the RFC gives to the flag. -/
theorem tcp_flag_wire (h : TCP) (w : h.WF) (b : Bytes) (hb : h.toBytes = .ok b) (f : TCPFlag) :
    h.isset f = (beDec ((b.drop 12).take 2)).testBit (rfcFlagBit f) := by
  have hv : rfcFlagBit f = f.value := by cases f <;> rfl
  rw [hv]
  have w5 := w.2.2.2.2.1
  have hb' := hb
  simp only [TCP.toBytes, TCP.makeHeader, TCP.fmt, TCP.vals] at hb
  obtain ⟨-, y1, hy1, rfl⟩ := pack_u_inv hb
  obtain ⟨-, y2, hy2, rfl⟩ := pack_u_inv hy1
  obtain ⟨-, y3, hy3, rfl⟩ := pack_u_inv hy2
  obtain ⟨-, y4, hy4, rfl⟩ := pack_u_inv hy3
  obtain ⟨-, y5, hy5, rfl⟩ := pack_u_inv hy4
  have e : ∀ (a b c d e : Nat) (t : Bytes), ((beEnc 2 a ++ (beEnc 2 b ++ (beEnc 4 c ++ (beEnc 4 d ++
      (beEnc 2 e ++ t))))).drop 12).take 2 = beEnc 2 e := by
    intro a b c d e t; simp [beEnc]
  rw [e, Int.toNat_natCast, TCP.offset_flags h w5, beDec_beEnc (by omega)]
  rw [tcp_isset_testBit]
  have : (20480 + h.flags) = 2 ^ 12 * 5 + h.flags := by omega
  rw [this, Nat.testBit_two_pow_mul_add _ (by omega), if_pos (by cases f <;> decide)]

/-- What finalising and serialising a TCP header over IPv4 produces. -/
theorem tcp_wire {h h' : TCP} {ip : IPv4} {s d : BitVec 32} {tail b : Bytes} (hf : h.flags < 512)
    (hs : ip.src = .v4 s) (hd : ip.dst = .v4 d)
    (hp : h.preSerialize tail (some ip) = .ok h') (hb : h'.toBytes = .ok b) :
    ∃ pre post : Bytes, pre.length = 16 ∧ post.length = 2 ∧ 20 + tail.length < 65536 ∧
      b = pre ++ beEnc 2 h'.csum ++ post ∧
      h'.csum = checksum (pseudoHeader s d ip.protocol (20 + tail.length) ++ pre ++ [0, 0] ++
        (post ++ tail)) := by
  simp only [TCP.preSerialize, TCP.computeChecksum] at hp
  obtain ⟨c, hc, hp⟩ := bind_eq_ok.mp hp
  cases hp
  obtain ⟨x, hx, hc⟩ := bind_eq_ok.mp hc
  obtain ⟨t, ht, hc⟩ := bind_eq_ok.mp hc
  cases hc
  unfold TCP.pseudoFmt at hx
  obtain ⟨v1, x1, hx1, rfl⟩ := pack_u_inv hx
  obtain ⟨v2, x2, hx2, rfl⟩ := pack_u_inv hx1
  obtain ⟨x3, hx3, rfl⟩ := pack_x_inv hx2
  obtain ⟨v4, x4, hx4, rfl⟩ := pack_u_inv hx3
  obtain ⟨v5, x5, hx5, rfl⟩ := pack_u_inv hx4
  cases pack_nil_inv hx5
  simp only [TCP.toBytes, TCP.makeHeader, TCP.fmt, TCP.vals] at hb ht
  obtain ⟨-, y1, hy1, rfl⟩ := pack_u_inv hb
  obtain ⟨-, y2, hy2, rfl⟩ := pack_u_inv hy1
  obtain ⟨-, y3, hy3, rfl⟩ := pack_u_inv hy2
  obtain ⟨-, y4, hy4, rfl⟩ := pack_u_inv hy3
  obtain ⟨-, y5, hy5, rfl⟩ := pack_u_inv hy4
  obtain ⟨-, y6, hy6, rfl⟩ := pack_u_inv hy5
  obtain ⟨-, y7, hy7, rfl⟩ := pack_u_inv hy6
  obtain ⟨-, y8, hy8, rfl⟩ := pack_u_inv hy7
  cases pack_nil_inv hy8
  obtain ⟨-, z1, hz1, rfl⟩ := pack_u_inv ht
  obtain ⟨-, z2, hz2, rfl⟩ := pack_u_inv hz1
  obtain ⟨-, z3, hz3, rfl⟩ := pack_u_inv hz2
  obtain ⟨-, z4, hz4, rfl⟩ := pack_u_inv hz3
  obtain ⟨-, z5, hz5, rfl⟩ := pack_u_inv hz4
  obtain ⟨-, z6, hz6, rfl⟩ := pack_u_inv hz5
  obtain ⟨-, z7, hz7, rfl⟩ := pack_u_inv hz6
  obtain ⟨-, z8, hz8, rfl⟩ := pack_u_inv hz7
  cases pack_nil_inv hz8
  refine ⟨beEnc 2 h.src.toNat ++ beEnc 2 h.dst.toNat ++ beEnc 4 h.seq.toNat ++ beEnc 4 h.ack.toNat ++
    beEnc 2 (h.offset <<< 12 ||| h.flags) ++ beEnc 2 h.window.toNat, beEnc 2 h.urg.toNat,
    by simp, by simp, ?_, ?_, ?_⟩
  · have : h.size = 20 := rfl
    have := v5.2; omega
  · simp only [Int.toNat_natCast, List.append_nil, List.append_assoc, TCP.offset]
  · have z : beEnc 2 0 = [0, 0] := by decide
    have z1 : zeros 1 = [0] := rfl
    have z2 : h.size = 20 := rfl
    simp only [hs, hd, IPAddr.toNat, Int.toNat_natCast, pseudoHeader, z, z1, z2, List.append_assoc,
      List.append_nil, TCP.offset]

/-- **C26**: when a TCP header is finalised against the payload and the packet's IPv4 header, the
checksum verifies over the RFC 793 pseudo-header (with the true segment length), the header and
the payload. -/
theorem tcp_checksum (h h' : TCP) (ip : IPv4) (s d : BitVec 32) (tail b : Bytes)
    (hf : h.flags < 512) (hs : ip.src = .v4 s) (hd : ip.dst = .v4 d)
    (hp : h.preSerialize tail (some ip) = .ok h') (hb : h'.toBytes = .ok b) :
    b.length = 20 ∧
    checksum (pseudoHeader s d ip.protocol (b.length + tail.length) ++ b ++ tail) = 0 := by
  obtain ⟨pre, post, l1, l2, hlt, e, hc⟩ := tcp_wire hf hs hd hp hb
  have hbl : b.length = 20 := by rw [e]; simp [l1, l2]
  refine ⟨hbl, ?_⟩
  have := checksum_store (pseudoHeader s d ip.protocol (20 + tail.length) ++ pre) (post ++ tail)
    (by simp [pseudoHeader, l1]) (by simp [pseudoHeader, l1, l2]; omega)
  rw [← hc] at this
  rw [hbl, e]
  simpa only [List.append_assoc] using this

/-- Finalising and serialising over IPv4 succeeds for every in-range header and payload that
fits a 16-bit segment length. -/
theorem tcp_serialises (h : TCP) (w : h.WF) (ip : IPv4) (s d : BitVec 32) (tail : Bytes)
    (hs : ip.src = .v4 s) (hd : ip.dst = .v4 d) (hpr : ip.protocol < 256)
    (hl : 20 + tail.length ≤ 65535) :
    ∃ h' b, h.preSerialize tail (some ip) = .ok h' ∧ h'.toBytes = .ok b ∧ h'.WF := by
  have hf : Fits TCP.pseudoFmt [.i ip.src.toNat, .i ip.dst.toNat, .i ip.protocol,
      .i (h.size + tail.length : Nat)] := by
    have h1 := s.isLt
    have h2 := d.isLt
    have h3 : h.size = 20 := rfl
    rw [hs, hd, h3]
    simp only [TCP.pseudoFmt, Fits, IPAddr.toNat, and_true]
    omega
  obtain ⟨x, hx⟩ := pack_ok hf
  obtain ⟨t, ht⟩ := pack_ok (TCP.fits w 0 (by decide))
  have w' : ({ h with csum := checksum (x ++ t ++ tail) } : TCP).WF := by
    obtain ⟨w1, w2, w3, w4, w5, w6, w7, w8⟩ := w
    exact ⟨w1, w2, w3, w4, w5, w6, w7, checksum_lt _⟩
  obtain ⟨b, hb, _⟩ := TCP.toBytes_ok w'
  refine ⟨_, b, ?_, hb, w'⟩
  have ht' : h.makeHeader 0 = .ok t := ht
  simp only [TCP.preSerialize, TCP.computeChecksum, hx, ht', bind_ok]

example : ∃ h' b, (⟨80, 40000, 1, 2, 0x12, 1024, 0, 0⟩ : TCP).preSerialize [1, 2, 3]
    (some ⟨0, 20, 0, 0, 0, 64, 6, .v4 0x0a000001, .v4 0x0a000002, []⟩) = .ok h' ∧
      h'.toBytes = .ok b ∧ h'.WF :=
  tcp_serialises _ (by decide) _ _ _ _ rfl rfl (by decide) (by decide)

/-- **C27 is false**: a data offset below 5 makes header bytes reappear as payload; with offset 0
the whole header does. -/
theorem tcp_payload_violated :
    ∃ (raw rest : Bytes) (h : TCP), TCP.fromBytes raw = .ok (h, rest) ∧ raw.length = 20 ∧ rest = raw := by
  refine ⟨zeros 20, zeros 20, TCP.default, by decide +kernel, by decide, rfl⟩

/-- **C27 is false** for truncated segments too: an offset beyond the end of the input is
accepted. -/
theorem tcp_truncated_options_accepted :
    ∃ (raw : Bytes) (h : TCP), raw.length = 20 ∧ beDec ((raw.drop 12).take 1) / 16 = 15 ∧
      TCP.fromBytes raw = .ok (h, []) :=
  ⟨zeros 12 ++ [0xf0] ++ zeros 7, TCP.default, by decide, by decide, by decide +kernel⟩

/-- **C27, partial**: with a data offset of at least 5 the payload is a suffix of the input that
excludes the 20 fixed bytes.  Missing: offsets 0–4. -/
theorem tcp_payload_partial (raw rest : Bytes) (h : TCP) (hp : TCP.fromBytes raw = .ok (h, rest))
    (ho : 5 ≤ beDec ((raw.drop 12).take 1) / 16) :
    rest <:+ raw ∧ rest.length + 20 ≤ raw.length := by
  by_cases hl : raw.length < 20
  · rw [(tcp_parse_offset raw).1 hl] at hp; cases hp
  · obtain ⟨h', e⟩ := (tcp_parse_offset raw).2 (by omega)
    rw [e] at hp; cases hp
    exact ⟨List.drop_suffix _ _, by simp only [List.length_drop]; omega⟩

example : ∃ h, TCP.fromBytes (zeros 12 ++ [0x50] ++ zeros 7 ++ [1, 2, 3]) = .ok (h, [1, 2, 3]) :=
  ⟨TCP.default, by decide +kernel⟩

/-- **C81 is false**: a segment carrying an option (here a 4-byte MSS option) is re-serialised
without it. -/
theorem tcp_options_lost_violated :
    ∃ (raw rest b : Bytes) (h : TCP), TCP.fromBytes raw = .ok (h, rest) ∧ h.toBytes = .ok b ∧
      raw.length = 24 ∧ rest = [] ∧ b.length = 20 := by
  obtain ⟨b, h1, h2⟩ := Except.of_test (r := TCP.default.toBytes)
    (p := fun b => b.length == 20) (by decide +kernel)
  exact ⟨zeros 12 ++ [0x60] ++ zeros 7 ++ [2, 4, 5, 0xb4], [], b, TCP.default, by decide +kernel, h1,
    by decide, rfl, by simpa using h2⟩

/-- **C81, partial**: for segments without options (data offset 5, reserved bits zero) the fixed
header is reproduced exactly, up to the checksum field, which is not kept.  Missing: options. -/
theorem tcp_reserialise_partial (raw rest : Bytes) (h : TCP) (hp : TCP.fromBytes raw = .ok (h, rest))
    (ho : beDec ((raw.drop 12).take 2) / 512 = 40) :
    rest = raw.drop 20 ∧ ∃ c < 65536, h.makeHeader c = .ok (raw.take 20) := by
  by_cases hl : raw.length < 20
  · rw [(tcp_parse_offset raw).1 hl] at hp; cases hp
  · obtain ⟨h', e, w, hc0, f, c, hf, hfl, hfe, hv⟩ := TCP.fromBytes_ok (raw := raw) (by omega)
    rw [e] at hp; cases hp
    have hl' : (raw.take 20).length = calcsize TCP.fmt := by
      simp [TCP.fmt, calcsize, Fld.size]; omega
    have hpk := pack_unpackGo TCP.fmt (by simp [TCP.fmt, NoPad]) _ hl'
    rw [← hv] at hpk
    have hfit := fits_unpackGo TCP.fmt _ hl'
    rw [← hv] at hfit
    simp only [Fits, TCP.fmt, and_true] at hfit
    refine ⟨?_, c, by omega, ?_⟩
    · congr 1; omega
    · have e : h.vals c = [Val.i h.src, .i h.dst, .i h.seq, .i h.ack, .i (f : Nat), .i h.window,
          .i (c : Nat), .i h.urg] := by
        simp only [TCP.vals, TCP.offset_flags h w.2.2.2.2.1]; rw [hfl]
        rw [show 20480 + f % 512 = f by omega]
      rw [TCP.makeHeader, e]; exact hpk

/-- **C80 is false** for TCP: whatever was received, the parsed header reports checksum 0. -/
theorem tcp_reports_checksum_violated :
    (∀ (raw rest : Bytes) (h : TCP), TCP.fromBytes raw = .ok (h, rest) → h.csum = 0) ∧
    ∃ (raw rest : Bytes) (h : TCP), TCP.fromBytes raw = .ok (h, rest) ∧
      beDec ((raw.drop 16).take 2) = 0xbeef := by
  constructor
  · intro raw rest h hp
    by_cases hl : raw.length < 20
    · rw [(tcp_parse_offset raw).1 hl] at hp; cases hp
    · obtain ⟨h', e, _, hc0, _⟩ := TCP.fromBytes_ok (raw := raw) (by omega)
      rw [e] at hp; cases hp; exact hc0
  · exact ⟨zeros 12 ++ [0x50, 0, 0, 0, 0xbe, 0xef, 0, 0], [], TCP.default, by decide +kernel,
      by decide⟩

end SY.Props
