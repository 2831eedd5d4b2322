import Verif.Props.PacketParse
import Verif.Props.Rip
import Verif.Props.IPv6
import Verif.Props.Icmpv6
import Verif.Props.PacketSeq

/-!
# Further properties of packets and headers

C108 (the header chain of a parsed packet follows the assigned numbers), C109 (a RIPv2 header is a
list of routes), C110 (membership of headers in packets), C111 (what the remaining setters and
constructors of ICMPv6 and of the routing header accept).
-/

namespace SY.Props

open SY

/-! ## C108: the header chain -/

/-- The numbers assigned by IEEE, IANA and Linux to what follows a header: the header, the number it
carries, and what follows. -/
def assigned : List (Cls × Nat × Cls) :=
  [(.eth, 0x0800, .ip4), (.eth, 0x0806, .arp), (.eth, 0x86dd, .ip6), (.eth, 0x8100, .vlan),
   (.vlan, 0x0800, .ip4), (.vlan, 0x0806, .arp), (.vlan, 0x86dd, .ip6),
   (.ip4, 1, .icmp), (.ip4, 6, .tcp), (.ip4, 17, .udp),
   (.ip6, 0, .hop), (.ip6, 6, .tcp), (.ip6, 17, .udp), (.ip6, 43, .route), (.ip6, 44, .frag), (.ip6, 58, .icmp6),
   (.ip6, 60, .dst),
   (.hop, 0, .hop), (.hop, 6, .tcp), (.hop, 17, .udp), (.hop, 43, .route), (.hop, 44, .frag), (.hop, 58, .icmp6),
   (.hop, 60, .dst),
   (.dst, 0, .hop), (.dst, 6, .tcp), (.dst, 17, .udp), (.dst, 43, .route), (.dst, 44, .frag), (.dst, 58, .icmp6),
   (.dst, 60, .dst),
   (.route, 0, .hop), (.route, 6, .tcp), (.route, 17, .udp), (.route, 43, .route), (.route, 44, .frag),
   (.route, 58, .icmp6), (.route, 60, .dst),
   (.frag, 0, .hop), (.frag, 6, .tcp), (.frag, 17, .udp), (.frag, 43, .route), (.frag, 44, .frag),
   (.frag, 58, .icmp6), (.frag, 60, .dst),
   (.null, 2, .ip4), (.null, 10, .ip6)]

/-- The number a header carries for what follows it. -/
def carries : Hdr → Option Nat
  | .eth h => some h.ethertype
  | .vlan h => some h.ethertype
  | .ip4 h => some h.protocol
  | .ip6 h => some h.next
  | .route h => h.next
  | .frag h => h.next
  | .hop h => h.next
  | .dst h => h.next
  | .null af => some af.toNat
  | _ => none

/-- Class `c` is assigned to the number that the header carries. -/
def Announces (x : Hdr) (c : Cls) : Prop := ∃ t, carries x = some t ∧ (x.cls, t, c) ∈ assigned

/-- Every header is followed by a header of the class it announces; the last one announces none, or
is the raw contents after one that announces none. -/
inductive Chain : Packet → Prop
  | last (x : Hdr) : (∀ c, ¬ Announces x c) → Chain [.hdr x]
  | contents (x : Hdr) (b : Bytes) : (∀ c, ¬ Announces x c) → b ≠ [] → Chain [.hdr x, .hdr (.raw b)]
  | next (x y : Hdr) (p : Packet) : Announces x y.cls → Chain (.hdr y :: p) → Chain (.hdr x :: .hdr y :: p)

theorem ip6Next_assigned {k : Cls} (hk : k = .ip6 ∨ k = .hop ∨ k = .dst ∨ k = .route ∨ k = .frag) (t : Nat) (c : Cls) :
    ip6Next t = some c ↔ (k, t, c) ∈ assigned := by
  unfold ip6Next
  rcases hk with rfl | rfl | rfl | rfl | rfl <;>
    simp only [assigned, List.mem_cons, Prod.mk.injEq, reduceCtorEq, false_and, true_and, false_or, or_false,
      List.not_mem_nil, and_false] <;> grind

theorem next_announces {x : Hdr} {o : Option Cls} (h : x.next = .ok o) (c : Cls) : o = some c ↔ Announces x c := by
  have ext : ∀ (k : Cls) (m : Option Nat), (k = .ip6 ∨ k = .hop ∨ k = .dst ∨ k = .route ∨ k = .frag) →
      (m.bind ip6Next = some c ↔ ∃ t, m = some t ∧ (k, t, c) ∈ assigned) := by
    intro k m hk
    cases m with
    | none => simp
    | some t => simp [ip6Next_assigned hk t c]
  unfold Announces
  cases x <;> simp only [Hdr.next, Except.ok.injEq, carries, Hdr.cls] at h ⊢
  case ip6 a => subst h; simpa using ip6Next_assigned (.inl rfl) a.next c
  case route a => subst h; exact ext .route _ (by simp)
  case frag a => subst h; exact ext .frag _ (by simp)
  case hop a => subst h; exact ext .hop _ (by simp)
  case dst a => subst h; exact ext .dst _ (by simp)
  case eth a =>
    subst h
    simp only [ethNext, Option.some.injEq, exists_eq_left', assigned, List.mem_cons, Prod.mk.injEq, reduceCtorEq,
      false_and, true_and, false_or, or_false, List.not_mem_nil]
    grind
  case vlan a =>
    subst h
    simp only [vlanNext, Option.some.injEq, exists_eq_left', assigned, List.mem_cons, Prod.mk.injEq, reduceCtorEq,
      false_and, true_and, false_or, or_false, List.not_mem_nil]
    grind
  case ip4 a =>
    subst h
    simp only [ip4Next, Option.some.injEq, exists_eq_left', assigned, List.mem_cons, Prod.mk.injEq, reduceCtorEq,
      false_and, true_and, false_or, or_false, List.not_mem_nil]
    grind
  case null af =>
    simp only [Option.some.injEq, exists_eq_left', assigned, List.mem_cons, Prod.mk.injEq, reduceCtorEq,
      false_and, true_and, false_or, or_false, List.not_mem_nil]
    split at h
    · rename_i e; cases h; subst e; simp; grind
    · split at h
      · rename_i e; cases h; subst e; simp; grind
      · cases h
  all_goals (subst h; simp)

theorem accounts_chain {c : Cls} {raw : Bytes} {p : Packet} (h : Accounts c raw p) :
    Chain p ∧ ∃ x q, p = .hdr x :: q ∧ x.cls = c := by
  induction h with
  | @last c raw x n h1 h2 h3 =>
    exact ⟨.last x (fun k hk => by have := (next_announces h2 k).mpr hk; cases this), x, [], rfl, (fromBytes_rest h1).1⟩
  | @payload c raw x n h1 h2 h3 =>
    exact ⟨.contents x _ (fun k hk => by have := (next_announces h2 k).mpr hk; cases this) h3, x, _, rfl,
      (fromBytes_rest h1).1⟩
  | @more c raw x n c' p h1 h2 _ ih =>
    obtain ⟨ih1, y, q, rfl, hy⟩ := ih
    refine ⟨.next x y q ?_ ih1, x, _, rfl, (fromBytes_rest h1).1⟩
    rw [hy]
    exact (next_announces h2 c').mp rfl

/-- In every packet parsed from bytes the first header has the class asked for, every header is
followed by a header of the class that is assigned to the number it carries, and parsing stops only
at a number to which no class is assigned. -/
theorem parse_follows_numbers (raw : Bytes) (c : Cls) (p : Packet) (hr : raw ≠ []) (hc : c ≠ .rip)
    (h : Packet.parse raw (some c) = .ok p) : Chain p ∧ ∃ x q, p = .hdr x :: q ∧ x.cls = c :=
  accounts_chain (parse_accounts_partial raw c p hr hc h)

example : ∃ p b, exPacket.toBytes.2 = .ok b ∧ Packet.parse b (some .eth) = .ok p ∧
    p.map itemCls = [some .eth, some .ip4, some .udp, some .raw] := by
  obtain ⟨b, hb, hb2⟩ := Except.of_test (r := exPacket.toBytes.2) (p := fun b =>
    Except.test (Packet.parse b (some .eth)) fun q =>
      decide (q.map itemCls = [some .eth, some .ip4, some .udp, some .raw])) (by decide +kernel)
  obtain ⟨q, hq, hq2⟩ := Except.of_test hb2
  exact ⟨q, b, hb, hq, of_decide_eq_true hq2⟩

/-! ## C109: a RIPv2 header is a list of routes -/

/-- The index designates the element between `l` and `r`, counted from the front or from the back. -/
def Points {α : Type} (i : Int) (l r : List α) : Prop := i = l.length ∨ i = -(r.length + 1 : Int)

/-- `h[i]` is the route at position `i`, counted from the end if `i` is negative; every other index
raises `IndexError`. -/
theorem rip_get (h : RIPv2) (i : Int) :
    (∀ x, h.get i = .ok x ↔ ∃ l r, h.routes = l ++ x :: r ∧ Points i l r) ∧
    ((¬ ∃ x, h.get i = .ok x) → h.get i = .error .indexError) := by
  have key : ∀ k : Nat, ∀ x, h.routes[k]? = some x ↔ ∃ l r, h.routes = l ++ x :: r ∧ l.length = k := by
    intro k x
    constructor
    · intro hk
      obtain ⟨hlt, hx⟩ := List.getElem?_eq_some_iff.mp hk
      refine ⟨h.routes.take k, h.routes.drop (k + 1), ?_, by simp; omega⟩
      rw [← hx, List.getElem_cons_drop, List.take_append_drop]
    · rintro ⟨l, r, e, rfl⟩
      rw [e, List.getElem?_append_right (Nat.le_refl _)]
      simp
  simp only [RIPv2.get]
  obtain ⟨j, hj⟩ : ∃ j, (if i < 0 then (h.routes.length : Int) + i else i) = j := ⟨_, rfl⟩
  rw [hj]
  refine ⟨fun x => ?_, ?_⟩
  · constructor
    · intro hx
      split at hx
      · split at hx
        · rename_i y hy
          cases hx
          obtain ⟨l, r, e, hl⟩ := (key _ _).mp hy
          refine ⟨l, r, e, ?_⟩
          have hlen : h.routes.length = l.length + (r.length + 1) := by rw [e]; simp
          unfold Points
          grind
        · cases hx
      · cases hx
    · rintro ⟨l, r, e, hp⟩
      have hlen : h.routes.length = l.length + (r.length + 1) := by rw [e]; simp
      have hi : j = l.length := by
        unfold Points at hp
        grind
      subst hi
      rw [if_pos ⟨by omega, by omega⟩]
      have := (key l.length x).mpr ⟨l, r, e, rfl⟩
      simp only [Int.toNat_natCast, this]
  · intro hn
    split
    · rename_i hr
      split
      · rename_i y hy
        exact absurd ⟨y, by rw [if_pos hr]; simp only [hy]⟩ hn
      · rfl
    · rfl

/-- `h[i] = r` replaces the route at position `i` and no other. -/
theorem rip_set (h : RIPv2) (l r : List RIPRoute) (x y : RIPRoute) (i : Int) (hr : h.routes = l ++ x :: r)
    (hi : Points i l r) : h.set i y = .ok { h with routes := l ++ y :: r } := by
  have hlen : h.routes.length = l.length + (r.length + 1) := by rw [hr]; simp
  have hi' : (if i < 0 then (h.routes.length : Int) + i else i) = l.length := by
    unfold Points at hi; grind
  simp only [RIPv2.set]
  rw [hi', if_pos ⟨by omega, by omega⟩, hr]
  simp

/-- Assigning to a position that does not exist raises `IndexError`. -/
theorem rip_set_out (h : RIPv2) (y : RIPRoute) (i : Int) (hi : i < -(h.routes.length : Int) ∨ (h.routes.length : Int) ≤ i) :
    h.set i y = .error .indexError := by
  simp only [RIPv2.set]
  rw [if_neg]
  grind

/-- A message is accepted only in version 2 and with a known command, and then it has that command. -/
theorem rip_version (raw : Bytes) (h : RIPv2) (hp : RIPv2.fromBytes raw = .ok h) :
    ∃ c rest, raw = c :: 2 :: rest ∧ 2 ≤ rest.length ∧ h.command = c.toNat ∧ (c = 1 ∨ c = 2) := by
  have hcmd : ∀ n (h : RIPv2) b, (ripLoop n h b).1.command = h.command := by
    intro n
    induction n with
    | zero => exact fun _ _ => rfl
    | succ n ih =>
      intro h b
      simp only [ripLoop]
      split
      · rw [ih]; rfl
      · rfl
  match raw, hp with
  | [], hp => simp [RIPv2.fromBytes, RIPv2.load] at hp
  | [_], hp => simp [RIPv2.fromBytes, RIPv2.load] at hp
  | [_, _], hp => simp [RIPv2.fromBytes, RIPv2.load] at hp
  | [_, _, _], hp => simp [RIPv2.fromBytes, RIPv2.load] at hp
  | c :: v :: a :: b :: rest, hp =>
    have hun : unpack [.u 1, .u 1, .x 2] [c, v, a, b] = .ok [.i (c.toNat : Int), .i (v.toNat : Int)] := by
      simp [unpack, unpackGo, calcsize, Fld.size, beDec]
    have hk : ∃ t, RIPv2.fromBytes (c :: v :: a :: b :: rest) = t := ⟨_, rfl⟩
    simp only [RIPv2.fromBytes, RIPv2.load, List.length_cons, List.take_succ_cons, List.take_zero, hun,
      List.drop_succ_cons, List.drop_zero] at hp
    rw [if_neg (by omega)] at hp
    unfold RIPv2.setCommand enumOf at hp
    by_cases hc : (c.toNat : Int) = 1 ∨ (c.toNat : Int) = 2
    · have hc' : c = 1 ∨ c = 2 := by
        rcases hc with hc | hc
        · exact .inl (UInt8.toNat_inj.mp (by show c.toNat = _; exact Int.ofNat.inj hc))
        · exact .inr (UInt8.toNat_inj.mp (by show c.toNat = _; exact Int.ofNat.inj hc))
      by_cases hv : (v.toNat : Int) = 2
      · have hv' : v = 2 := UInt8.toNat_inj.mp (by show v.toNat = _; exact Int.ofNat.inj hv)
        subst hv'
        refine ⟨c, a :: b :: rest, rfl, by simp, ?_, hc'⟩
        rcases hc' with rfl | rfl <;> simp at hp <;>
        · split at hp
          · rename_i h0 hh
            cases hp
            have := congrArg (fun z => z.1.command) hh
            simp only [hcmd] at this
            exact this.symm
          · cases hp
      · rcases hc' with rfl | rfl <;> simp [hv] at hp
    · exfalso
      have : ¬ (0 ≤ (c.toNat : Int) ∧ (c.toNat : Int).toNat ∈ [1, 2]) := by simp; omega
      simp [this] at hp
      revert hp
      split <;> simp_all

/-- A route entry is read from exactly twenty bytes. -/
theorem rip_route_size (raw : Bytes) (h : raw.length ≠ 20) : RIPRoute.fromBytes raw = .error .notEnoughData := by
  simp only [RIPRoute.fromBytes]
  rw [if_pos h]

def exRoute (n : Nat) (m : Int) : RIPRoute := ⟨2, 0, n, 24, 0, m⟩
def exRip : RIPv2 := ⟨2, [exRoute 0x0a000100 1, exRoute 0x0a000200 2, exRoute 0x0a000300 3]⟩

example : exRip.get (-1) = .ok (exRoute 0x0a000300 3) ∧ exRip.get 3 = .error .indexError ∧
    exRip.set (-3) (exRoute 0 7) = .ok ⟨2, [exRoute 0 7, exRoute 0x0a000200 2, exRoute 0x0a000300 3]⟩ := by decide
example : Points (-3) ([] : List RIPRoute) [exRoute 0x0a000200 2, exRoute 0x0a000300 3] := by unfold Points; simp
example : ∃ b, exRip.toBytes = .ok b ∧ RIPv2.fromBytes b = .ok exRip := by
  obtain ⟨b, hb, hb2⟩ := Except.of_test (r := exRip.toBytes) (p := fun b => decide (RIPv2.fromBytes b = .ok exRip))
    (by decide +kernel)
  exact ⟨b, hb, of_decide_eq_true hb2⟩

/-! ## C110: membership -/

/-- `h in p` is true exactly if some item of the packet compares equal to `h` before any comparison
raises, and false exactly if none does. -/
theorem packet_contains (p : Packet) (y : Item) :
    (p.contains y = .ok true ↔ ∃ l x r, p = l ++ x :: r ∧ x.matches y = .ok true ∧ ∀ z ∈ l, z.matches y = .ok false) ∧
    (p.contains y = .ok false ↔ ∀ x ∈ p, x.matches y = .ok false) := by
  induction p with
  | nil => simp [Packet.contains]
  | cons x p ih =>
    simp only [Packet.contains]
    cases hx : x.matches y with
    | error e =>
      simp only [bind_error]
      refine ⟨⟨fun h => (by cases h), ?_⟩, ⟨fun h => (by cases h), fun h => (by have := h x (by simp); rw [hx] at this; cases this)⟩⟩
      rintro ⟨l, z, r, e1, e2, e3⟩
      cases l with
      | nil => simp at e1; rw [← e1.1, hx] at e2; cases e2
      | cons w l =>
        simp at e1
        have := e3 w (by simp)
        rw [← e1.1, hx] at this; cases this
    | ok b =>
      simp only [bind_ok]
      cases b with
      | true =>
        simp only [if_true]
        refine ⟨⟨fun _ => ⟨[], x, p, rfl, hx, by simp⟩, fun _ => (by trivial)⟩, ⟨fun h => (by cases h), fun h => (by
          have := h x (by simp); rw [hx] at this; cases this)⟩⟩
      | false =>
        simp only [Bool.false_eq_true, if_false]
        refine ⟨?_, ?_⟩
        · rw [ih.1]
          constructor
          · rintro ⟨l, z, r, e1, e2, e3⟩
            exact ⟨x :: l, z, r, by rw [e1]; rfl, e2, by simpa [hx] using e3⟩
          · rintro ⟨l, z, r, e1, e2, e3⟩
            cases l with
            | nil => simp at e1; rw [← e1.1, hx] at e2; cases e2
            | cons w l =>
              simp at e1
              exact ⟨l, z, r, e1.2, e2, fun u hu => e3 u (by simp [hu])⟩
        · rw [ih.2]; simp [hx]

/-- Two raw payloads compare equal exactly if they have the same bytes, so a payload is in a packet
of payloads exactly if it is one of them. -/
theorem packet_contains_payload (ps : List Bytes) (b : Bytes) :
    Packet.contains (ps.map fun x => .hdr (.raw x)) (.hdr (.raw b)) = .ok (decide (b ∈ ps)) := by
  induction ps with
  | nil => rfl
  | cons x ps ih =>
    simp only [List.map_cons, Packet.contains, Item.matches, Hdr.cls, Cls.isSub, ih]
    by_cases h : x = b
    · subst h; simp [Hdr.eq, Hdr.toBytes]
    · have h' : ¬ b = x := fun e => h e.symm
      simp [Hdr.eq, Hdr.toBytes, h, h']

/-! ## C111: setters and constructors of ICMPv6 options and data, and of the routing header -/

/-- A prefix-information option accepts every nonnegative valid lifetime and no negative one, and the
rest of the option stays. -/
theorem nd_valid_lifetime (l a : Bool) (v p x : Int) (ad : BitVec 128) (n : Nat) :
    NDOpt.setValid (.pfx l a v p ad n) x =
      if 0 ≤ x then .ok (.pfx l a x p ad n) else .error .valueError := by
  simp only [NDOpt.setValid]; split <;> split <;> first | rfl | omega

/-- The same for the preferred lifetime. -/
theorem nd_preferred_lifetime (l a : Bool) (v p x : Int) (ad : BitVec 128) (n : Nat) :
    NDOpt.setPreferred (.pfx l a v p ad n) x =
      if 0 ≤ x then .ok (.pfx l a v x ad n) else .error .valueError := by
  simp only [NDOpt.setPreferred]; split <;> split <;> first | rfl | omega

/-- The bytes of the data of a new ICMPv6 message of each type (router advertisement: hop limit 64,
router lifetime half an hour; everything else zero). -/
def freshData : Nat → Option Bytes
  | 1 | 128 | 129 | 133 => some [0, 0, 0, 0]
  | 130 | 131 | 132 | 143 => some []
  | 134 => some [64, 0, 0x07, 0x08, 0, 0, 0, 0, 0, 0, 0, 0]
  | 135 | 136 => some (zeros 20)
  | 137 => some (zeros 36)
  | _ => none

/-- Setting the type of an ICMPv6 message gives data with the default contents. -/
theorem icmp6_fresh (t : Nat) : (icmp6.new t).map ICMPv6Data.enc = (freshData t).map .ok := by
  show (ICMPv6Data.new t).map ICMPv6Data.enc = _
  unfold ICMPv6Data.new
  split
  case h_13 =>
    have : freshData t = none := by unfold freshData; split <;> simp_all
    rw [this]; rfl
  all_goals decide +kernel

/-- Only type-2 routing headers are accepted; the fields are the bytes of the header. -/
theorem routing_header_type (raw : Bytes) (h : RouteOpt) (rest : Bytes) (hp : RouteOpt.fromBytes raw = .ok (h, rest)) :
    ∃ nh l s more, raw = nh :: l :: 2 :: s :: more ∧ h.next = some nh.toNat ∧ h.optlen = l.toNat ∧ h.rtype = 2 ∧
      h.segleft = s.toNat ∧ 20 ≤ more.length ∧ h.addr = BitVec.ofNat 128 (beDec ((more.drop 4).take 16)) := by
  unfold RouteOpt.fromBytes at hp
  obtain ⟨c, h1, hp⟩ := bind_eq_ok.mp hp
  obtain ⟨t, h2, hp⟩ := bind_eq_ok.mp hp
  obtain ⟨s, h3, hp⟩ := bind_eq_ok.mp hp
  split at hp
  case isFalse => cases hp
  rename_i ht
  subst ht
  obtain ⟨a, h4, hp⟩ := bind_eq_ok.mp hp
  cases hp
  match raw, h1 with
  | nh :: l :: rest, h1 =>
    simp only [extParse] at h1
    obtain ⟨n, h5, h1⟩ := bind_eq_ok.mp h1
    have hn := (enumOf_ok h5)
    split at h1
    · cases h1
    cases h1
    simp only at h2 h3 h4
    match rest, h2, h3, h4 with
    | u :: v :: more, h2, h3, h4 =>
      simp [byteAt] at h2 h3
      subst h2 h3
      simp only [List.drop_succ_cons] at h4
      unfold ipv6OfBytes at h4
      split at h4
      · rename_i hl
        cases h4
        refine ⟨nh, l, v, more, rfl, ?_, rfl, rfl, rfl, ?_, rfl⟩
        · simp only [Option.some.injEq]; grind
        · simp at hl; omega
      · cases h4

example : ∃ h, RouteOpt.fromBytes ([6, 2, 2, 1, 0, 0, 0, 0] ++ zeros 15 ++ [9] ++ [1, 2, 3]) = .ok (h, [1, 2, 3]) ∧
    h.next = some 6 ∧ h.addr = 9 := ⟨⟨some 6, 2, 2, 1, 9⟩, by decide +kernel⟩

end SY.Props
