import Verif.LoopSend
import Verif.Props.Exact
import Verif.Props.PacketSeq
import Verif.Props.IPv4
import Verif.Props.IPv6
import Verif.Props.UdpStack

/-! # C95: what the loopback device is given -/

namespace SY.Props

open SY

/-- The destination port of the first UDP header. -/
def udpDst (p : Packet) : Option Int :=
  p.findSome? fun it => match it with
    | .hdr (.udp u) => some u.dst
    | _ => none

theorem rawPort_spec (p : Packet) : rawPort p = .ok ((udpDst p).getD 0) := by
  have hg : p.getHeader .udp = (p.find? fun x => x.isA .udp) := rfl
  have hd : udpDst p = match p.find? fun x => x.isA .udp with | some (.hdr (.udp u)) => some (u.dst : Int) | _ => none := by
    clear hg
    induction p with
    | nil => rfl
    | cons x p ih =>
      simp only [udpDst, List.findSome?_cons, List.find?_cons] at ih ⊢
      cases hx : x.isA .udp with
      | true =>
        obtain ⟨u, rfl⟩ := isA_udp hx
        rfl
      | false =>
        cases x with
        | hdr k =>
          cases k <;> first
            | exact ih
            | (exfalso; simp [Item.isA, Hdr.cls, Cls.isSub] at hx)
        | bytes b => exact ih
        | other o => exact ih
  unfold rawPort
  rcases lookup_first p .udp with ⟨h1, h2, h3, h4, h5⟩ | ⟨l, x, r, h1, h2, h3, h4, h5, h6, h7⟩
  · rw [hg] at h2
    simp [h3, hd, h2]
  · obtain ⟨u, rfl⟩ := isA_udp h2
    rw [hg] at h4
    simp [h5, h7, hd, h4]

/-- **C95**: on the loopback device a packet is sent to the destination of its IP header, and to the destination port of
its first UDP header, or to port 0 if it has none. -/
theorem loopback_destination (mac : Bool) (p : Packet) (b : Bytes) (a : List Char × Int) (h : rawSendTo mac p = .ok (b, a)) :
    ∃ d : IPAddr, a = (d.text, (udpDst (rawSend p).1).getD 0) ∧
      ((∃ k rest, (rawSend p).1 = .hdr (.ip4 k) :: rest ∧ k.dst = d) ∨
       (∃ k rest, (rawSend p).1 = .hdr (.ip6 k) :: rest ∧ IPAddr.v6 k.dst = d)) := by
  unfold rawSendTo at h
  rcases hs : rawSend p with ⟨p', e | b0⟩
  · rw [hs] at h; cases h
  · rw [hs] at h
    obtain ⟨a', h1, h2⟩ := bind_eq_ok.mp h
    cases h2
    unfold rawTo at h1
    rw [rawPort_spec, bind_ok] at h1
    cases p' with
    | nil => cases h1
    | cons x rest =>
      rw [show Packet.getItem (x :: rest) 0 = .ok x by simp [Packet.getItem, Packet.checkIdx, listIndex], bind_ok] at h1
      cases x with
      | bytes b => cases h1
      | other o => cases h1
      | hdr k =>
        cases k with
        | ip4 k => cases h1; exact ⟨k.dst, rfl, .inl ⟨k, rest, rfl, rfl⟩⟩
        | ip6 k => cases h1; exact ⟨.v6 k.dst, rfl, .inr ⟨k, rest, rfl, rfl⟩⟩
        | _ => cases h1

theorem ipv4_length_bytes {h h' : IPv4} {tail b : Bytes} (hp : h.preSerialize tail = .ok h') (hb : h'.toBytes = .ok b) :
    ∃ b0 b1 l0 l1 i0 i1 f0 f1 r, b = b0 :: b1 :: l0 :: l1 :: i0 :: i1 :: f0 :: f1 :: r ∧
      256 * l0.toNat + l1.toNat = b.length + tail.length := by
  obtain ⟨o, d0, d, c, ho, hd0, hc, hd, rfl⟩ := IPv4.toBytes_inv hb
  have hdl : d.length = 20 := length_pack hd
  have hclt : c < 65536 := by rw [hc]; exact checksum_lt _
  obtain ⟨pre, post, p1, p2, p3, p4, p5, p6, p7⟩ := ipv4_pack_split hclt hd
  have ht : h'.totallen = 20 + o.length + tail.length := by
    unfold IPv4.preSerialize IPv4.size at hp
    obtain ⟨sz, hsz, hp⟩ := bind_eq_ok.mp hp
    obtain ⟨o', ho', hsz⟩ := bind_eq_ok.mp hsz
    cases hsz; cases hp
    simp only at ho
    rw [ho'] at ho; cases ho; rfl
  rw [p4] at p3
  have h2 : ∀ n : Nat, beEnc 2 n = [UInt8.ofNat (n / 256), UInt8.ofNat n] := by intro n; simp [beEnc]
  have h1 : ∀ n : Nat, beEnc 1 n = [UInt8.ofNat n] := by intro n; simp [beEnc]
  simp only [h1, h2] at p3
  subst p3
  refine ⟨_, _, _, _, _, _, _, _, _, rfl, ?_⟩
  rw [List.length_append, hdl, ← ht]
  simp
  omega

theorem ipv6_first_byte {h : IPv6} {b : Bytes} (hb : h.toBytes = .ok b) (t : Bytes) : ((b ++ t).headD 0).toNat / 16 ≠ 4 := by
  unfold IPv6.toBytes IPv6.fmt IPv6.vals at hb
  obtain ⟨v1, x1, hx1, rfl⟩ := pack_u_inv hb
  have : 96 ≤ IPv6.octet0 h.tc := by
    unfold IPv6.octet0 at v1 ⊢
    split
    · have := Nat.left_le_or (n := 6 <<< 4) (m := h.tc.toNat >>> 4)
      exact_mod_cast this
    · rw [if_neg (by assumption)] at v1; omega
  have h1 : ∀ n : Nat, beEnc 1 n = [UInt8.ofNat n] := by intro n; simp [beEnc]
  rw [h1]
  simp
  omega

/-- Swapping is undone by swapping, and changes nothing but the order of two pairs of bytes. -/
theorem swap_bytes (a b c d e f g h : UInt8) (r : Bytes) :
    rawSwap (a :: b :: c :: d :: e :: f :: g :: h :: r) = a :: b :: d :: c :: e :: f :: h :: g :: r := rfl

/-- **C95**, macOS: a packet can be sent there exactly if it can be sent on Linux, to the same address; the bytes given to the
socket are the same but for the total length and the fragment offset, which are in the other byte order; and what macOS
reads as the length is the number of bytes. -/
theorem loopback_mac (p : Packet) (a : List Char × Int) :
    (∀ b, rawSendTo true p = .ok (b, a) ↔ ∃ b0, rawSendTo false p = .ok (b0, a) ∧ b = rawSwap b0) ∧
    (∀ b, rawSendTo true p = .ok (b, a) → ∃ b0 b1 l0 l1 i0 i1 f0 f1 r, b = b0 :: b1 :: l0 :: l1 :: i0 :: i1 :: f0 :: f1 :: r ∧
      rawSendTo false p = .ok (b0 :: b1 :: l1 :: l0 :: i0 :: i1 :: f1 :: f0 :: r, a) ∧
      l0.toNat + 256 * l1.toNat = b.length) := by
  have first : ∀ b, rawSendTo true p = .ok (b, a) ↔ ∃ b0, rawSendTo false p = .ok (b0, a) ∧ b = rawSwap b0 := by
    intro b
    unfold rawSendTo
    rcases rawSend p with ⟨p', e | b0⟩
    · simp
    · dsimp only
      cases rawTo p' with
      | error e => simp
      | ok x =>
        simp only [bind_ok, if_true, Bool.false_eq_true, if_false, Except.ok.injEq, Prod.mk.injEq]
        constructor
        · rintro ⟨rfl, rfl⟩; exact ⟨b0, ⟨rfl, rfl⟩, rfl⟩
        · rintro ⟨_, ⟨rfl, rfl⟩, rfl⟩; exact ⟨rfl, rfl⟩
  refine ⟨first, fun b hb => ?_⟩
  obtain ⟨c, hc, rfl⟩ := (first b).mp hb
  have hr : (rawSend p).2 = .ok c := by
    unfold rawSendTo at hc
    rcases hs : rawSend p with ⟨p', e | b0⟩
    · rw [hs] at hc; cases hc
    · rw [hs] at hc
      obtain ⟨a', _, h2⟩ := bind_eq_ok.mp hc
      cases h2
      rfl
  obtain ⟨q, x, t, _, rfl, hx, hq, hv⟩ := (loopback_sends p c).mp hr
  obtain ⟨bs, hf, rfl⟩ := toBytes_inv (p := x :: t) (p' := (Packet.toBytes (x :: t)).1) (b := c) (Prod.ext rfl hq)
  simp only [finish] at hf
  obtain ⟨r, hr1, hf⟩ := bind_eq_ok.mp hf
  obtain ⟨x', hx', hf⟩ := bind_eq_ok.mp hf
  obtain ⟨bx, hbx, hf⟩ := bind_eq_ok.mp hf
  have hf := Except.ok.inj hf
  rw [Prod.mk.injEq] at hf
  obtain ⟨_, rfl⟩ := hf
  rw [List.append_nil] at hx'
  cases x with
  | bytes b => cases hx'
  | other o => cases hx'
  | hdr k =>
    obtain ⟨k', hk', rfl⟩ := map_eq_ok.mp hx'
    cases k with
    | ip4 k =>
      obtain ⟨k2, hk2, rfl⟩ := map_eq_ok.mp hk'
      obtain ⟨b0, b1, l0, l1, i0, i1, f0, f1, rest, rfl, hl⟩ := ipv4_length_bytes hk2 hbx
      refine ⟨b0, b1, l1, l0, i0, i1, f1, f0, rest ++ r.2.flatten, rfl, hc, ?_⟩
      simp only [List.flatten_cons, List.cons_append, swap_bytes, List.length_cons, List.length_append] at hl ⊢
      omega
    | ip6 k =>
      cases hk'
      have := ipv6_first_byte hbx r.2.flatten
      simp only [List.flatten_cons] at hv
      exact absurd hv this
    | _ => simp [Item.isA, Hdr.cls, Cls.isSub] at hx

example : (rawSendTo true exPacket).toOption.isSome = true ∧
    (rawSendTo false exPacket).toOption.map (fun x => (x.2.2, x.1.length)) = some (53, 30) ∧
    (rawSendTo true exPacket).toOption.map (fun x => (x.1.drop 2).take 2) = some [30, 0] := by decide +kernel

end SY.Props
