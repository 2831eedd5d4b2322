import Verif.Props.PacketSeq
import Verif.Props.PacketRT
import Verif.Props.Ethernet

/-! # Exactly which Ethernet headers come back (C08, C41) -/

namespace SY.Props
open SY

/-- The bytes of any header with six-byte addresses and type `EtherType.IEEE8023` (1500), parsed again. -/
theorem ieee8023_parse {d s : EthAddr} (hd : d.raw.length = 6) (hs : s.raw.length = 6) (rest : Bytes) :
    ∃ b, (⟨d, s, 1500⟩ : Ethernet).toBytes = .ok b ∧ Ethernet.fromBytes (b ++ rest) = .ok (⟨d, s, 0xFFFF⟩, rest) := by
  have w : (⟨d, s, 1500⟩ : Ethernet).WF := ⟨hd, hs, (by decide : 1500 ∈ etherTypes)⟩
  obtain ⟨b, hb, hl⟩ := Ethernet.toBytes_ok w
  obtain ⟨h1, h2⟩ := unpack_take_append (Ethernet.fits w) hb rest
  have h1' : unpack Ethernet.fmt ((b ++ rest).take 14) = .ok [.b d.raw, .b s.raw, .i 1500] := h1
  have h2' : (b ++ rest).drop 14 = rest := h2
  refine ⟨b, hb, ?_⟩
  unfold Ethernet.fromBytes
  rw [if_neg (by simp [hl]), h1', h2']
  simp only [bind_ok, Ethernet.setSrc, Ethernet.setDst, Ethernet.setEthertype,
    EthAddr.mk'_raw6 hd, EthAddr.mk'_raw6 hs]
  rw [if_pos (by omega)]
  rw [show enumOf etherTypes 65535 = .ok 65535 from enumOf_nat (tbl := etherTypes) (n := 65535) (by decide)]
  rfl

/-- **C08, exactly**: of the headers the API can hold, those that come back from their own bytes are
all but the ones of type `EtherType.IEEE8023`. -/
theorem ethernet_roundtrip_iff (h : Ethernet) (w : h.WF) (rest : Bytes) :
    (∃ b, h.toBytes = .ok b ∧ Ethernet.fromBytes (b ++ rest) = .ok (h, rest)) ↔ h.ethertype ≠ 1500 := by
  constructor
  · rintro ⟨b, hb, hp⟩ he
    obtain ⟨d, s, t⟩ := h
    cases he
    obtain ⟨b', hb', hp'⟩ := ieee8023_parse w.1 w.2.1 rest
    rw [hb] at hb'
    cases hb'
    rw [hp'] at hp
    cases hp
  · intro he
    have ht : ∀ n ∈ etherTypes, n ≠ 1500 → 1500 < n := by decide
    obtain ⟨b, hb, _, hp⟩ := ethernet_roundtrip h w (ht _ w.2.2 he) rest
    exact ⟨b, hb, hp⟩

example : (⟨⟨[1, 2, 3, 4, 5, 6]⟩, ⟨[2, 0, 0, 0, 0, 1]⟩, 1500⟩ : Ethernet).WF ∧
    (⟨⟨[1, 2, 3, 4, 5, 6]⟩, ⟨[2, 0, 0, 0, 0, 1]⟩, 0x88cc⟩ : Ethernet).WF := by decide

theorem ieee8023_eq (d s : EthAddr) : (⟨d, s, 0xFFFF⟩ : Ethernet).eq ⟨d, s, 1500⟩ = false := by
  unfold Ethernet.eq
  rw [decide_eq_false (show ¬ (0xFFFF : Nat) = 1500 by decide), Bool.and_false]

theorem noType_next : ethNext 0xFFFF = none := by decide

theorem ieee8023_bytes {d s : EthAddr} (hd : d.raw.length = 6) (hs : s.raw.length = 6) {b : Bytes}
    (hb : (⟨d, s, 1500⟩ : Ethernet).toBytes = .ok b) : (⟨d, s, 0xFFFF⟩ : Ethernet).toBytes ≠ .ok b := by
  intro hc
  have w : (⟨d, s, 0xFFFF⟩ : Ethernet).WF := ⟨hd, hs, (by decide : 0xFFFF ∈ etherTypes)⟩
  have w' : (⟨d, s, 1500⟩ : Ethernet).WF := ⟨hd, hs, (by decide : 1500 ∈ etherTypes)⟩
  have h1 := (unpack_take_append (Ethernet.fits w) hc []).1
  have h2 := (unpack_take_append (Ethernet.fits w') hb []).1
  rw [h2] at h1
  have h3 := congrArg (fun r => match r with
    | .ok [_, _, Val.i v] => v
    | _ => (0 : Int)) h1
  have h4 : (1500 : Nat) = 65535 := Int.ofNat.inj h3
  exact absurd h4 (by decide)

theorem eth_raw_toBytes {h : Ethernet} {c : Bytes} (hc : h.toBytes = .ok c) (y : Bytes) :
    (Packet.toBytes [.hdr (.eth h), .hdr (.raw y)]).2 = .ok (c ++ y) := by
  rw [(toBytes_eq_finish _).1]
  simp only [finish, Item.pre, Hdr.pre, map_ok, bind_ok, Item.toBytes, Hdr.toBytes, hc]
  simp

theorem ieee8023_packet_eq (d s : EthAddr) (y : Bytes) :
    Packet.eq [.hdr (.eth ⟨d, s, 0xFFFF⟩), .hdr (.raw y)] [.hdr (.eth ⟨d, s, 1500⟩), .hdr (.raw y)] = .ok false := by
  simp [Packet.eq, Packet.eqLoop, Item.matches, Hdr.cls, Cls.isSub, Hdr.eq, ieee8023_eq]

/-- **C41 is false for frames of type `EtherType.IEEE8023`**: whatever the addresses and the payload,
parsing the bytes of such a packet gives one whose type is `NoType`, which does not compare equal and does
not serialise to the same bytes. -/
theorem ieee8023_violated (d s : EthAddr) (hd : d.raw.length = 6) (hs : s.raw.length = 6) (x : UInt8) (xs : Bytes) :
    ∃ b q, (Packet.toBytes [.hdr (.eth ⟨d, s, 1500⟩), .hdr (.raw (x :: xs))]).2 = .ok b ∧
      Packet.parse b (some .eth) = .ok q ∧
      q = [.hdr (.eth ⟨d, s, 0xFFFF⟩), .hdr (.raw (x :: xs))] ∧
      q.eq [.hdr (.eth ⟨d, s, 1500⟩), .hdr (.raw (x :: xs))] = .ok false ∧ q.toBytes.2 ≠ .ok b := by
  obtain ⟨b, hb, hp⟩ := ieee8023_parse hd hs (x :: xs)
  refine ⟨b ++ (x :: xs), [.hdr (.eth ⟨d, s, 0xFFFF⟩), .hdr (.raw (x :: xs))], eth_raw_toBytes hb _, ?_, rfl,
    ieee8023_packet_eq d s _, ?_⟩
  · apply parse_of_loop (fuel := 1) (by simp)
    simp only [parseLoop, Cls.fromBytes, hp, bind_ok, Hdr.next, noType_next, parseEnd, List.nil_append]
    rfl
  · obtain ⟨c, hc, _⟩ := Ethernet.toBytes_ok (h := ⟨d, s, 0xFFFF⟩) ⟨hd, hs, (by decide : 0xFFFF ∈ etherTypes)⟩
    rw [eth_raw_toBytes hc]
    intro he
    have he' : c = b := List.append_cancel_right (Except.ok.inj he)
    exact ieee8023_bytes hd hs hb (he' ▸ hc)

end SY.Props
