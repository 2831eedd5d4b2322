import Verif.Props.OptApi
import Verif.Props.StrPacket

/-! # How bytes and truth values are written, and which errors routing options raise (C163, C181) -/

namespace SY.Props
open SY

/-- **C163**: the bytes of a packet are written between double quotes exactly if they contain a single and no double quote;
otherwise between single quotes. -/
theorem bytes_repr_delimiter (b : Bytes) :
    ((∃ s, bytesRepr b = 'b' :: '"' :: s ++ ['"']) ↔ 0x27 ∈ b ∧ 0x22 ∉ b) ∧
    ((∃ s, bytesRepr b = 'b' :: '\'' :: s ++ ['\'']) ↔ 0x27 ∉ b ∨ 0x22 ∈ b) := by
  unfold bytesRepr bytesQuote
  by_cases h : (39 : UInt8) ∈ b ∧ (34 : UInt8) ∉ b
  · simp only [if_pos h]
    refine ⟨⟨fun _ => h, fun _ => ⟨_, rfl⟩⟩, ⟨?_, ?_⟩⟩
    · rintro ⟨s, hs⟩
      have := (List.cons.inj (List.cons.inj hs).2).1
      exact absurd this (by decide)
    · rintro (h' | h')
      · exact absurd h.1 h'
      · exact absurd h' h.2
  · simp only [if_neg h]
    refine ⟨⟨?_, fun h' => absurd h' h⟩, ⟨fun _ => ?_, fun _ => ⟨_, rfl⟩⟩⟩
    · rintro ⟨s, hs⟩
      have := (List.cons.inj (List.cons.inj hs).2).1
      exact absurd this (by decide)
    · by_cases h1 : (39 : UInt8) ∈ b
      · exact .inr (Classical.byContradiction fun h2 => h ⟨h1, h2⟩)
      · exact .inl h1

example : bytesRepr [0x27, 0x61] = "b\"'a\"".toList ∧ bytesRepr [0x22, 0x27] = "b'\"\\''".toList := by decide +kernel

/-- **C163**: how truth values are written. -/
theorem bool_words : boolText true = "True".toList ∧ boolText false = "False".toList := by decide

/-- **C181**: what `opt[i] = a` does to a routing option, for every index and value: something that is neither an address nor
a text raises ValueError; an index outside the list IndexError; a text that is no address AddressValueError; otherwise the
address at this place is replaced. -/
theorem route_set_exact (o : RouteOption) (i : Int) (a : RouteArg) :
    o.set i a =
      if a = .other then .error .valueError
      else if i < -(o.addrs.length : Int) ∨ (o.addrs.length : Int) ≤ i then .error .indexError
      else match a with
        | .text s =>
          match ipv4Parse s with
          | none => .error .addressValue
          | some x => .ok { o with addrs := o.addrs.set (if i < 0 then i + o.addrs.length else i).toNat x }
        | .addr x => .ok { o with addrs := o.addrs.set (if i < 0 then i + o.addrs.length else i).toNat x }
        | .other => .error .valueError := by
  unfold RouteOption.set
  by_cases ha : a = .other
  · rw [if_pos ha, if_pos ha]
  rw [if_neg ha, if_neg ha]
  by_cases hi : i < -(o.addrs.length : Int) ∨ (o.addrs.length : Int) ≤ i
  · rw [if_pos hi]
    have : optIndex o.addrs.length i = .error .indexError := by
      unfold optIndex pyIndex
      have : ¬(0 ≤ (if i < 0 then (o.addrs.length : Int) + i else i) ∧
          (if i < 0 then (o.addrs.length : Int) + i else i) < o.addrs.length) := by
        split <;> omega
      simp only [if_neg this, Option.elim]
    rw [this]; rfl
  · rw [if_neg hi]
    have : optIndex o.addrs.length i = .ok (if i < 0 then i + o.addrs.length else i).toNat := by
      unfold optIndex pyIndex
      have : (0 ≤ (if i < 0 then (o.addrs.length : Int) + i else i) ∧
          (if i < 0 then (o.addrs.length : Int) + i else i) < o.addrs.length) := by
        split <;> omega
      simp only [if_pos this, Option.elim]
      rw [Int.add_comm]
    rw [this, bind_ok]
    cases a with
    | other => exact absurd rfl ha
    | addr x => rfl
    | text s =>
      simp only [RouteArg.value]
      cases ipv4Parse s <;> rfl

example : (RouteOption.set ⟨7, 4, [1, 2]⟩ (-1) (.text "10.0.0.1".toList)) = .ok ⟨7, 4, [1, 0x0A000001]⟩ := by decide +kernel

end SY.Props
