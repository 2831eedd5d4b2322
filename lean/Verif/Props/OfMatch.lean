import Verif.Props.OpenFlow

/-! # Properties of OpenFlow matches against packets: C117, C118 -/

namespace SY.Props
open SY

/-! ## C117: what a match accepts -/

/-- `h` is the first header of class `c` in the packet. -/
def FirstIs (p : Packet) (c : Cls) (h : Hdr) : Prop :=
  ∃ l r, p = l ++ .hdr h :: r ∧ h.cls.isSub c = true ∧ ∀ y ∈ l, y.isA c = false

/-- Bit `k` of the wildcard word (OpenFlow 1.0, 5.2.3) is among the wildcards. -/
def WildBit (m : OfMatch) (k : Nat) : Prop := ∃ v ∈ m.wildcards, v.testBit k = true

/-- The addresses agree in all but the `w` low bits; of an IPv6 address, a prefix of `32 - w` bits
counts. -/
def SamePrefix (a n : IPAddr) (w : Nat) : Prop :=
  match a, n with
  | .v4 a, .v4 n => ∀ i, w ≤ i → i < 32 → a.getLsbD i = n.getLsbD i
  | .v6 a, .v6 n => ∀ i, (if w = 0 then 0 else 96 + w) ≤ i → i < 128 → a.getLsbD i = n.getLsbD i
  | _, _ => False

/-- The packet's headers agree with the fields of the match that are not covered by wildcards.
Bits: 2 Ethernet source, 3 destination, 4 type, 5 IP protocol, 6 and 7 transport source and
destination, 21 type of service. -/
structure Agrees (m : OfMatch) (p : Packet) : Prop where
  eth : ∀ h, FirstIs p .eth (.eth h) → (¬WildBit m 2 → h.src = m.dlSrc) ∧ (¬WildBit m 3 → h.dst = m.dlDst) ∧
    (¬WildBit m 4 → h.ethertype = m.dlType)
  ip : ∀ h, FirstIs p .ip4 (.ip4 h) → (¬WildBit m 5 → h.protocol = m.nwProto) ∧ (¬WildBit m 21 → h.tos = m.nwTos) ∧
    SamePrefix h.src (.v4 m.nwSrc) m.nwSrcWild ∧ SamePrefix h.dst m.nwDst m.nwDstWild
  arp : ∀ h, FirstIs p .arp (.arp h) → (¬WildBit m 5 → h.prototype = m.nwProto) ∧
    SamePrefix h.senderprotoaddr (.v4 m.nwSrc) m.nwSrcWild ∧ SamePrefix h.targetprotoaddr m.nwDst m.nwDstWild
  tcp : ∀ h, FirstIs p .tcp (.tcp h) → (¬WildBit m 6 → h.src = m.tpSrc) ∧ (¬WildBit m 7 → h.dst = m.tpDst)
  udp : ∀ h, FirstIs p .udp (.udp h) → (¬WildBit m 6 → h.src = m.tpSrc)
  icmp : ∀ h, FirstIs p .icmp (.icmp h) → (¬WildBit m 6 → h.type = m.tpSrc) ∧ (¬WildBit m 7 → h.code = m.tpDst)
  icmp6 : ∀ h, FirstIs p .icmp6 (.icmp6 h) → (¬WildBit m 6 → h.type = m.tpSrc) ∧ (¬WildBit m 7 → h.code = m.tpDst)

theorem first_unique {p : Packet} {c : Cls} {h : Hdr} (f : FirstIs p c h) :
    p.hasHeader c = true ∧ p.getClass c = .ok (.hdr h) := by
  obtain ⟨l, r, rfl, hc, hl⟩ := f
  rcases lookup_first (l ++ .hdr h :: r) c with ⟨h1, _⟩ | ⟨l', x, r', e, hx, hl', _, h2, _, h3⟩
  · have := h1 (.hdr h) (by simp)
    simp [Item.isA, hc] at this
  · refine ⟨h2, ?_⟩
    rw [h3]
    have e1 : (l ++ .hdr h :: r).find? (·.isA c) = some (.hdr h) := by
      rw [List.find?_append, List.find?_eq_none.mpr (by intro y hy; simp [hl y hy])]
      simp [Item.isA, hc]
    have e2 : (l' ++ x :: r').find? (·.isA c) = some x := by
      rw [List.find?_append, List.find?_eq_none.mpr (by intro y hy; simp [hl' y hy])]
      simp [hx]
    rw [e, e2] at e1
    injection e1 with e1
    rw [e1]

theorem first_of_has {p : Packet} {c : Cls} (f : p.hasHeader c = true) : ∃ h, FirstIs p c h := by
  rcases lookup_first p c with ⟨_, _, h, _⟩ | ⟨l, x, r, e, hx, hl, _⟩
  · simp [h] at f
  · cases x with
    | hdr h => exact ⟨h, l, r, e, hx, hl⟩
    | bytes _ => simp [Item.isA] at hx
    | other _ => simp [Item.isA] at hx

theorem has_iff (p : Packet) (c : Cls) : p.hasHeader c = true ↔ ∃ h, FirstIs p c h :=
  ⟨first_of_has, fun ⟨_, f⟩ => (first_unique f).1⟩

theorem attr_first {p : Packet} {c : Cls} {h : Hdr} (f : FirstIs p c h) (a : OfAttr) :
    p.attrOf c a = h.ofAttr a := by
  unfold Packet.attrOf
  rw [(first_unique f).2]; rfl

/-- What one source requires. -/
theorem testSources_all {p : Packet} {test : OfVal → Res Bool} {srcs : List (Cls × OfAttr)} {P : OfVal → Prop}
    (h : ∀ s ∈ srcs, ∀ x, FirstIs p s.1 x → ∃ v b, x.ofAttr s.2 = .ok v ∧ test v = .ok b ∧ (b = true ↔ P v)) :
    ∃ bs, testSources p test srcs = .ok bs ∧
      (bs.all id = true ↔ ∀ s ∈ srcs, ∀ x, FirstIs p s.1 x → ∀ v, x.ofAttr s.2 = .ok v → P v) := by
  induction srcs with
  | nil => exact ⟨[], rfl, by simp⟩
  | cons s srcs ih =>
    obtain ⟨c, a⟩ := s
    obtain ⟨bs, h1, h2⟩ := ih fun s hs => h s (List.mem_cons_of_mem _ hs)
    unfold testSources
    by_cases hc : p.hasHeader c = true
    · obtain ⟨x, f⟩ := first_of_has hc
      obtain ⟨v, b, h3, h4, h5⟩ := h (c, a) List.mem_cons_self x f
      refine ⟨b :: bs, ?_, ?_⟩
      · rw [if_pos hc, attr_first f, h3]; simp only [bind_ok, h4, h1]
      · simp only [List.all_cons, Bool.and_eq_true, id_eq, h5, h2, List.mem_cons, forall_eq_or_imp]
        constructor
        · rintro ⟨k1, k2⟩
          refine ⟨?_, k2⟩
          intro y fy w hw
          have e1 := (first_unique f).2
          rw [(first_unique fy).2] at e1
          cases e1
          simp only at hw h3
          rw [h3] at hw; cases hw; exact k1
        · rintro ⟨k1, k2⟩
          exact ⟨k1 x f v h3, k2⟩
    · refine ⟨bs, by rw [if_neg hc]; exact h1, ?_⟩
      rw [h2]
      constructor
      · intro k s hs x f
        rcases List.mem_cons.mp hs with rfl | hs
        · exact absurd (first_unique f).1 hc
        · exact k s hs x f
      · intro k s hs
        exact k s (List.mem_cons_of_mem _ hs)

theorem testFields_all {m : OfMatch} {p : Packet} {fs : List OfField} {Q : OfField → Prop}
    (h : ∀ f ∈ fs, ∃ bs, m.testField p f = .ok bs ∧ (bs.all id = true ↔ Q f)) :
    ∃ bs, m.testFields p fs = .ok bs ∧ (bs.all id = true ↔ ∀ f ∈ fs, Q f) := by
  induction fs with
  | nil => exact ⟨[], rfl, by simp⟩
  | cons f fs ih =>
    obtain ⟨b, h1, h2⟩ := h f List.mem_cons_self
    obtain ⟨bs, h3, h4⟩ := ih fun f hf => h f (List.mem_cons_of_mem _ hf)
    refine ⟨b ++ bs, by simp [OfMatch.testFields, h1, h3], ?_⟩
    rw [List.all_append, Bool.and_eq_true, h2, h4]
    simp

theorem shr_eq_iff {n : Nat} (a b : BitVec n) (w : Nat) :
    (a.toNat >>> w = b.toNat >>> w) ↔ ∀ i, w ≤ i → i < n → a.getLsbD i = b.getLsbD i := by
  constructor
  · intro h i h1 _
    have := congrArg (fun x => x.testBit (i - w)) h
    simp only [Nat.testBit_shiftRight] at this
    rw [show w + (i - w) = i by omega] at this
    simpa [BitVec.getLsbD] using this
  · intro h
    apply Nat.eq_of_testBit_eq
    intro i
    rw [Nat.testBit_shiftRight, Nat.testBit_shiftRight]
    by_cases hi : w + i < n
    · simpa [BitVec.getLsbD] using h (w + i) (by omega) hi
    · have hp : 2 ^ n ≤ 2 ^ (w + i) := Nat.pow_le_pow_right (by decide) (by omega)
      rw [Nat.testBit_lt_two_pow (Nat.lt_of_lt_of_le a.isLt hp),
        Nat.testBit_lt_two_pow (Nat.lt_of_lt_of_le b.isLt hp)]

theorem inNet_iff (a n : IPAddr) (w : Nat) (hw : 0 < w) : inNet a n w = true ↔ SamePrefix a n w := by
  cases a <;> cases n <;> simp only [inNet, SamePrefix, Bool.false_eq_true]
  · rw [beq_iff_eq, shr_eq_iff]
  · rw [beq_iff_eq, shr_eq_iff, if_neg (by omega)]

theorem samePrefix_zero (a n : IPAddr) : SamePrefix a n 0 ↔ a = n := by
  cases a <;> cases n <;> simp only [SamePrefix]
  · constructor
    · intro h; congr 1; apply BitVec.eq_of_getLsbD_eq; intro i hi; exact h i (by omega) hi
    · intro h; cases h; simp
  · simp
  · simp
  · constructor
    · intro h; congr 1; apply BitVec.eq_of_getLsbD_eq; intro i hi; exact h i (by simp) hi
    · intro h; cases h; simp

theorem two_pow_and_ne (n k : Nat) : 2 ^ k &&& n ≠ 0 ↔ n.testBit k = true := by
  constructor
  · intro h
    cases hk : n.testBit k with
    | true => rfl
    | false =>
      exfalso; apply h
      apply Nat.eq_of_testBit_eq
      intro i
      rw [Nat.testBit_and, Nat.testBit_two_pow, Nat.zero_testBit]
      by_cases hi : k = i
      · subst hi; simp [hk]
      · simp [hi]
  · intro h e
    have := congrArg (fun x => x.testBit k) e
    simp [Nat.testBit_and, Nat.testBit_two_pow, h] at this

theorem covers_iff (m : OfMatch) (k : Nat) : 2 ^ k &&& makeBitmap m.wildcards ≠ 0 ↔ WildBit m k := by
  rw [two_pow_and_ne, testBit_makeBitmap, List.any_eq_true]
  exact Iff.rfl

/-- The wildcard bit of a field. -/
def wildBit : OfField → Nat
  | .dlSrc => 2 | .dlDst => 3 | .dlVlan => 1 | .dlVlanPcp => 20 | .dlType => 4 | .nwProto => 5
  | .nwTos => 21 | .tpSrc => 6 | .tpDst => 7 | .nwSrc => 0 | .nwDst => 0

/-- What a value of the packet has to satisfy. -/
def Sat (m : OfMatch) (f : OfField) (v : OfVal) : Prop :=
  match f with
  | .nwSrc => ∃ a, v = .ip a ∧ SamePrefix a (.v4 m.nwSrc) m.nwSrcWild
  | .nwDst => ∃ a, v = .ip a ∧ SamePrefix a m.nwDst m.nwDstWild
  | f => v = m.value f

/-- What one field requires of the packet. -/
def Req (m : OfMatch) (p : Packet) (f : OfField) : Prop :=
  (f ≠ .nwSrc ∧ f ≠ .nwDst ∧ WildBit m (wildBit f)) ∨
    ∀ s ∈ f.sources, ∀ x, FirstIs p s.1 x → ∀ v, x.ofAttr s.2 = .ok v → Sat m f v

theorem testField_simple {m : OfMatch} {p : Packet} {f : OfField} (h1 : f ≠ .nwSrc) (h2 : f ≠ .nwDst)
    (h : ∀ s ∈ f.sources, ∀ x, FirstIs p s.1 x → ∃ v, x.ofAttr s.2 = .ok v) :
    ∃ bs, m.testField p f = .ok bs ∧ (bs.all id = true ↔ Req m p f) := by
  unfold OfMatch.testField
  rw [if_neg (by simp [h1, h2])]
  have hw : f.wildcard = 2 ^ wildBit f := by cases f <;> simp_all [OfField.wildcard, wildBit]
  rw [hw]
  have hs : ∀ v, Sat m f v ↔ v = m.value f := by intro v; cases f <;> simp_all [Sat]
  split
  · rename_i hc
    refine ⟨[], rfl, ?_⟩
    simp only [List.all_nil, true_iff]
    exact .inl ⟨h1, h2, (covers_iff m _).mp hc⟩
  · rename_i hc
    obtain ⟨bs, k1, k2⟩ := testSources_all (p := p) (test := fun v => .ok (v == m.value f)) (srcs := f.sources)
      (P := Sat m f) (by
        intro s hsrc x fx
        obtain ⟨v, hv⟩ := h s hsrc x fx
        exact ⟨v, _, hv, rfl, by rw [hs]; simp⟩)
    refine ⟨bs, k1, k2.trans ⟨.inr, ?_⟩⟩
    rintro (⟨_, _, k⟩ | k)
    · exact absurd ((covers_iff m _).mpr k) hc
    · exact k

theorem testField_net {m : OfMatch} {p : Packet} {f : OfField} (h1 : f = .nwSrc ∨ f = .nwDst)
    (h : ∀ s ∈ f.sources, ∀ x, FirstIs p s.1 x → ∃ a, x.ofAttr s.2 = .ok (.ip a)) :
    ∃ bs, m.testField p f = .ok bs ∧ (bs.all id = true ↔ Req m p f) := by
  unfold OfMatch.testField
  rw [if_pos h1]
  have hs : ∃ n w, m.value f = .ip n ∧ m.wildBits f = w ∧
      ∀ v, Sat m f v ↔ ∃ a, v = .ip a ∧ SamePrefix a n w := by
    rcases h1 with rfl | rfl
    · exact ⟨_, _, rfl, rfl, fun v => Iff.rfl⟩
    · exact ⟨_, _, rfl, rfl, fun v => Iff.rfl⟩
  obtain ⟨n, w, e1, e2, hs⟩ := hs
  rw [e1, e2]
  have fin : ∀ bs : List Bool, (bs.all id = true ↔ ∀ s ∈ f.sources, ∀ x, FirstIs p s.1 x → ∀ v,
      x.ofAttr s.2 = .ok v → Sat m f v) → (bs.all id = true ↔ Req m p f) := by
    intro bs k
    refine k.trans ⟨.inr, ?_⟩
    rintro (⟨k1, k2, _⟩ | k)
    · rcases h1 with h1 | h1
      · exact absurd h1 k1
      · exact absurd h1 k2
    · exact k
  split
  · rename_i hw
    obtain ⟨bs, k1, k2⟩ := testSources_all (p := p) (test := fun v => v.inNet (.ip n) w) (srcs := f.sources)
      (P := Sat m f) (by
        intro s hsrc x fx
        obtain ⟨a, hv⟩ := h s hsrc x fx
        refine ⟨_, _, hv, rfl, ?_⟩
        rw [hs, inNet_iff a n w hw]
        simp)
    exact ⟨bs, k1, fin bs k2⟩
  · rename_i hw
    obtain ⟨bs, k1, k2⟩ := testSources_all (p := p) (test := fun v => .ok (v == .ip n)) (srcs := f.sources)
      (P := Sat m f) (by
        intro s hsrc x fx
        obtain ⟨a, hv⟩ := h s hsrc x fx
        refine ⟨_, _, hv, rfl, ?_⟩
        rw [hs, show w = 0 by omega]
        simp [samePrefix_zero])
    exact ⟨bs, k1, fin bs k2⟩

/-- The first header of a class is a header of that class. -/
theorem first_cls {p : Packet} {c : Cls} {h : Hdr} (f : FirstIs p c h) : h.cls.isSub c = true := by
  obtain ⟨_, _, _, k, _⟩ := f; exact k

theorem first_icmp6 {p : Packet} {h : ICMPMsg ICMPv6Data} (f : FirstIs p .icmp (.icmp6 h)) :
    FirstIs p .icmp6 (.icmp6 h) := by
  obtain ⟨l, r, e, _, hl⟩ := f
  refine ⟨l, r, e, rfl, ?_⟩
  intro y hy
  have := hl y hy
  cases y with
  | hdr x => cases x <;> simp_all [Item.isA, Hdr.cls, Cls.isSub]
  | bytes _ => rfl
  | other _ => rfl

/-- **C117**, partial: for a packet without VLAN tags and IPv6 headers, a match accepts exactly the
packets that agree with it in all fields not covered by wildcards.  Missing: VLAN and IPv6 packets
(they raise, see below), and UDP destination ports, which are never compared. -/
theorem match_semantics_partial (m : OfMatch) (p : Packet) (hv : p.hasHeader .vlan = false)
    (h6 : p.hasHeader .ip6 = false) :
    ∃ b, m.matchesPacket p = .ok b ∧ (b = true ↔ Agrees m p) := by
  have nv : ∀ h, ¬FirstIs p .vlan h := fun h f => by simp [(first_unique f).1] at hv
  have n6 : ∀ h, ¬FirstIs p .ip6 h := fun h f => by simp [(first_unique f).1] at h6
  obtain ⟨bs, h1, h2⟩ := testFields_all (m := m) (p := p) (fs := ofFields) (Q := Req m p) (by
    intro f _
    by_cases hf : f = .nwSrc ∨ f = .nwDst
    · apply testField_net hf
      intro s hs x fx
      have hc := first_cls fx
      rcases hf with rfl | rfl <;>
      · simp only [OfField.sources, List.mem_cons, List.not_mem_nil, or_false] at hs
        rcases hs with rfl | rfl | rfl <;> cases x <;> first
          | exact absurd fx (n6 _) | exact ⟨_, rfl⟩ | simp [Hdr.cls, Cls.isSub] at hc
    · rw [not_or] at hf
      apply testField_simple hf.1 hf.2
      intro s hs x fx
      have hc := first_cls fx
      cases f <;> simp only [OfField.sources, List.mem_cons, List.not_mem_nil, or_false] at hs
      case nwSrc => exact absurd rfl hf.1
      case nwDst => exact absurd rfl hf.2
      case dlSrc => subst hs; cases x <;> first | exact ⟨_, rfl⟩ | simp [Hdr.cls, Cls.isSub] at hc
      case dlDst => subst hs; cases x <;> first | exact ⟨_, rfl⟩ | simp [Hdr.cls, Cls.isSub] at hc
      case dlVlan => subst hs; exact absurd fx (nv _)
      case dlVlanPcp => subst hs; exact absurd fx (nv _)
      case dlType =>
        rcases hs with rfl | rfl
        · exact absurd fx (nv _)
        · cases x <;> first | exact ⟨_, rfl⟩ | simp [Hdr.cls, Cls.isSub] at hc
      case nwProto =>
        rcases hs with rfl | rfl | rfl <;> cases x <;> first
          | exact absurd fx (n6 _) | exact ⟨_, rfl⟩ | simp [Hdr.cls, Cls.isSub] at hc
      case nwTos =>
        rcases hs with rfl | rfl <;> cases x <;> first
          | exact absurd fx (n6 _) | exact ⟨_, rfl⟩ | simp [Hdr.cls, Cls.isSub] at hc
      case tpSrc =>
        rcases hs with rfl | rfl | rfl | rfl <;> cases x <;> first
          | exact ⟨_, rfl⟩ | simp [Hdr.cls, Cls.isSub] at hc
      case tpDst =>
        rcases hs with rfl | rfl | rfl | rfl <;> cases x <;> first
          | exact ⟨_, rfl⟩ | simp [Hdr.cls, Cls.isSub] at hc)
  refine ⟨bs.all id, by simp [OfMatch.matchesPacket, h1], h2.trans ?_⟩
  constructor
  · intro q
    have qs : ∀ f, f ≠ .nwSrc → f ≠ .nwDst → ¬WildBit m (wildBit f) → ∀ s ∈ f.sources, ∀ x, FirstIs p s.1 x →
        ∀ v, x.ofAttr s.2 = .ok v → Sat m f v := by
      intro f k1 k2 k3
      rcases q f (by cases f <;> decide) with ⟨_, _, k⟩ | k
      · exact absurd k k3
      · exact k
    have qn : ∀ f, f = .nwSrc ∨ f = .nwDst → ∀ s ∈ f.sources, ∀ x, FirstIs p s.1 x →
        ∀ v, x.ofAttr s.2 = .ok v → Sat m f v := by
      intro f k1
      rcases q f (by cases f <;> decide) with ⟨k, k', _⟩ | k
      · rcases k1 with k1 | k1
        · exact absurd k1 k
        · exact absurd k1 k'
      · exact k
    have num : ∀ {a b : Int}, OfVal.num a = .num b → a = b := by intro a b h; cases h; rfl
    have eth : ∀ {a b : EthAddr}, OfVal.eth a = .eth b → a = b := by intro a b h; cases h; rfl
    constructor
    · intro h f
      refine ⟨fun k => ?_, fun k => ?_, fun k => ?_⟩
      · have := qs .dlSrc (by decide) (by decide) k (.eth, .src) (by simp [OfField.sources]) _ f _ rfl
        exact eth this
      · have := qs .dlDst (by decide) (by decide) k (.eth, .dst) (by simp [OfField.sources]) _ f _ rfl
        exact eth this
      · have := num (qs .dlType (by decide) (by decide) k (.eth, .ethertype) (by simp [OfField.sources]) _ f _ rfl)
        omega
    · intro h f
      refine ⟨fun k => ?_, fun k => ?_, ?_, ?_⟩
      · have := num (qs .nwProto (by decide) (by decide) k (.ip4, .protocol) (by simp [OfField.sources]) _ f _ rfl)
        omega
      · have := num (qs .nwTos (by decide) (by decide) k (.ip4, .tos) (by simp [OfField.sources]) _ f _ rfl)
        omega
      · obtain ⟨a, e, k⟩ := qn .nwSrc (by decide) (.ip4, .src) (by simp [OfField.sources]) _ f _ rfl
        cases e; exact k
      · obtain ⟨a, e, k⟩ := qn .nwDst (by decide) (.ip4, .dst) (by simp [OfField.sources]) _ f _ rfl
        cases e; exact k
    · intro h f
      refine ⟨fun k => ?_, ?_, ?_⟩
      · have := num (qs .nwProto (by decide) (by decide) k (.arp, .protocoltype) (by simp [OfField.sources]) _ f _ rfl)
        omega
      · obtain ⟨a, e, k⟩ := qn .nwSrc (by decide) (.arp, .senderprotoaddr) (by simp [OfField.sources]) _ f _ rfl
        cases e; exact k
      · obtain ⟨a, e, k⟩ := qn .nwDst (by decide) (.arp, .targetprotoaddr) (by simp [OfField.sources]) _ f _ rfl
        cases e; exact k
    · intro h f
      exact ⟨fun k => num (qs .tpSrc (by decide) (by decide) k (.tcp, .src) (by simp [OfField.sources]) _ f _ rfl),
        fun k => num (qs .tpDst (by decide) (by decide) k (.tcp, .dst) (by simp [OfField.sources]) _ f _ rfl)⟩
    · intro h f
      exact fun k => num (qs .tpSrc (by decide) (by decide) k (.udp, .src) (by simp [OfField.sources]) _ f _ rfl)
    · intro h f
      refine ⟨fun k => ?_, fun k => ?_⟩
      · have := num (qs .tpSrc (by decide) (by decide) k (.icmp, .icmptype) (by simp [OfField.sources]) _ f _ rfl)
        omega
      · have := num (qs .tpDst (by decide) (by decide) k (.icmp, .icmpcode) (by simp [OfField.sources]) _ f _ rfl)
        omega
    · intro h f
      refine ⟨fun k => ?_, fun k => ?_⟩
      · have := num (qs .tpSrc (by decide) (by decide) k (.icmp6, .icmptype) (by simp [OfField.sources]) _ f _ rfl)
        omega
      · have := num (qs .tpDst (by decide) (by decide) k (.icmp6, .icmpcode) (by simp [OfField.sources]) _ f _ rfl)
        omega
  · intro g f _
    by_cases hc : f ≠ .nwSrc ∧ f ≠ .nwDst ∧ WildBit m (wildBit f)
    · exact .inl hc
    · refine .inr ?_
      intro s hs x fx v hv
      have hcls := first_cls fx
      cases f <;> simp only [OfField.sources, List.mem_cons, List.not_mem_nil, or_false] at hs <;>
        simp [wildBit] at hc
      case dlSrc =>
        subst hs; cases x <;> first | (simp [Hdr.cls, Cls.isSub] at hcls; done) | skip
        cases hv; exact congrArg _ ((g.eth _ fx).1 hc)
      case dlDst =>
        subst hs; cases x <;> first | (simp [Hdr.cls, Cls.isSub] at hcls; done) | skip
        cases hv; exact congrArg _ ((g.eth _ fx).2.1 hc)
      case dlVlan => subst hs; exact absurd fx (nv _)
      case dlVlanPcp => subst hs; exact absurd fx (nv _)
      case dlType =>
        rcases hs with rfl | rfl
        · exact absurd fx (nv _)
        · cases x <;> first | (simp [Hdr.cls, Cls.isSub] at hcls; done) | skip
          cases hv; exact congrArg (fun n : Nat => OfVal.num n) ((g.eth _ fx).2.2 hc)
      case nwProto =>
        rcases hs with rfl | rfl | rfl <;> cases x <;>
          first | exact absurd fx (n6 _) | (simp [Hdr.cls, Cls.isSub] at hcls; done) | skip
        · cases hv; exact congrArg (fun n : Nat => OfVal.num n) ((g.ip _ fx).1 hc)
        · cases hv; exact congrArg (fun n : Nat => OfVal.num n) ((g.arp _ fx).1 hc)
      case nwTos =>
        rcases hs with rfl | rfl <;> cases x <;>
          first | exact absurd fx (n6 _) | (simp [Hdr.cls, Cls.isSub] at hcls; done) | skip
        cases hv; exact congrArg (fun n : Nat => OfVal.num n) ((g.ip _ fx).2.1 hc)
      case nwSrc =>
        rcases hs with rfl | rfl | rfl <;> cases x <;>
          first | exact absurd fx (n6 _) | (simp [Hdr.cls, Cls.isSub] at hcls; done) | skip
        · cases hv; exact ⟨_, rfl, (g.ip _ fx).2.2.1⟩
        · cases hv; exact ⟨_, rfl, (g.arp _ fx).2.1⟩
      case nwDst =>
        rcases hs with rfl | rfl | rfl <;> cases x <;>
          first | exact absurd fx (n6 _) | (simp [Hdr.cls, Cls.isSub] at hcls; done) | skip
        · cases hv; exact ⟨_, rfl, (g.ip _ fx).2.2.2⟩
        · cases hv; exact ⟨_, rfl, (g.arp _ fx).2.2⟩
      case tpSrc =>
        rcases hs with rfl | rfl | rfl | rfl <;> cases x <;>
          first | (simp [Hdr.cls, Cls.isSub] at hcls; done) | skip
        · cases hv; exact congrArg _ ((g.tcp _ fx).1 hc)
        · cases hv; exact congrArg _ (g.udp _ fx hc)
        · cases hv; exact congrArg (fun n : Nat => OfVal.num n) ((g.icmp _ fx).1 hc)
        · cases hv; exact congrArg (fun n : Nat => OfVal.num n) ((g.icmp6 _ (first_icmp6 fx)).1 hc)
        · cases hv; exact congrArg (fun n : Nat => OfVal.num n) ((g.icmp6 _ fx).1 hc)
      case tpDst =>
        rcases hs with rfl | rfl | rfl | rfl <;> cases x <;>
          first | (simp [Hdr.cls, Cls.isSub] at hcls; done) | skip
        · cases hv; exact congrArg _ ((g.tcp _ fx).2 hc)
        · cases hv; exact congrArg _ ((g.tcp _ fx).2 hc)
        · cases hv; exact congrArg (fun n : Nat => OfVal.num n) ((g.icmp _ fx).2 hc)
        · cases hv; exact congrArg (fun n : Nat => OfVal.num n) ((g.icmp6 _ (first_icmp6 fx)).2 hc)
        · cases hv; exact congrArg (fun n : Nat => OfVal.num n) ((g.icmp6 _ fx).2 hc)

/-! ### Packets for which comparing raises -/

theorem testFields_append {m : OfMatch} {p : Packet} {l r : List OfField} {bs : List Bool} {e : PyErr}
    (hl : m.testFields p l = .ok bs) (hr : m.testFields p r = .error e) : m.testFields p (l ++ r) = .error e := by
  induction l generalizing bs with
  | nil => exact hr
  | cons f l ih =>
    obtain ⟨b, h1, hl⟩ := bind_eq_ok.mp hl
    obtain ⟨b', h2, _⟩ := bind_eq_ok.mp hl
    simp [OfMatch.testFields, h1, ih h2]

theorem link_fields (m : OfMatch) (p : Packet) : ∃ bs, m.testFields p [.dlSrc, .dlDst] = .ok bs := by
  obtain ⟨bs, h, _⟩ := testFields_all (m := m) (p := p) (fs := [.dlSrc, .dlDst]) (Q := Req m p) (by
    intro f hf
    simp only [List.mem_cons, List.not_mem_nil, or_false] at hf
    rcases hf with rfl | rfl <;>
    · apply testField_simple (by decide) (by decide)
      intro s hs x fx
      have hc := first_cls fx
      simp only [OfField.sources, List.mem_cons, List.not_mem_nil, or_false] at hs
      subst hs; cases x <;> first | exact ⟨_, rfl⟩ | simp [Hdr.cls, Cls.isSub] at hc)
  exact ⟨bs, h⟩

/-- **C117**: comparing a packet with a VLAN tag raises, unless the match has the wildcard for VLANs:
the attribute it asks the header for does not exist. -/
theorem match_vlan_violated (m : OfMatch) (p : Packet) (hv : p.hasHeader .vlan = true) (hc : ¬WildBit m 1) :
    m.matchesPacket p = .error .attributeError := by
  obtain ⟨bs, hl⟩ := link_fields m p
  obtain ⟨x, fx⟩ := first_of_has hv
  have hcls := first_cls fx
  have ha : p.attrOf .vlan .vlan = .error .attributeError := by
    rw [attr_first fx]
    cases x <;> first | rfl | simp [Hdr.cls, Cls.isSub] at hcls
  have ht : m.testField p .dlVlan = .error .attributeError := by
    unfold OfMatch.testField
    rw [if_neg (by decide), show OfField.dlVlan.wildcard = 2 ^ 1 from rfl, if_neg (fun h => hc ((covers_iff m 1).mp h))]
    simp [OfField.sources, testSources, hv, ha]
  unfold OfMatch.matchesPacket
  rw [show ofFields = [.dlSrc, .dlDst] ++ .dlVlan :: [.dlVlanPcp, .dlType, .nwProto, .nwTos, .nwSrc, .nwDst, .tpSrc,
    .tpDst] from rfl, testFields_append hl (e := .attributeError) (by simp [OfMatch.testFields, ht])]
  rfl

/-- **C117**: comparing an IPv6 packet raises, unless the match has the wildcard for IP protocols. -/
theorem match_ip6_violated (m : OfMatch) (p : Packet) (hv : p.hasHeader .vlan = false)
    (h6 : p.hasHeader .ip6 = true) (hc : ¬WildBit m 5) : m.matchesPacket p = .error .attributeError := by
  have nv : ∀ h, ¬FirstIs p .vlan h := fun h f => by simp [(first_unique f).1] at hv
  obtain ⟨bs, hl, _⟩ := testFields_all (m := m) (p := p) (fs := [.dlSrc, .dlDst, .dlVlan, .dlVlanPcp, .dlType])
    (Q := Req m p) (by
    intro f hf
    simp only [List.mem_cons, List.not_mem_nil, or_false] at hf
    rcases hf with rfl | rfl | rfl | rfl | rfl <;>
    · apply testField_simple (by decide) (by decide)
      intro s hs x fx
      have hc := first_cls fx
      simp only [OfField.sources, List.mem_cons, List.not_mem_nil, or_false] at hs
      first
      | (subst hs; exact absurd fx (nv _))
      | (subst hs; cases x <;> first | exact ⟨_, rfl⟩ | simp [Hdr.cls, Cls.isSub] at hc)
      | (rcases hs with rfl | rfl
         · exact absurd fx (nv _)
         · cases x <;> first | exact ⟨_, rfl⟩ | simp [Hdr.cls, Cls.isSub] at hc))
  obtain ⟨x, fx⟩ := first_of_has h6
  have hcls := first_cls fx
  have ha : p.attrOf .ip6 .protocol = .error .attributeError := by
    rw [attr_first fx]
    cases x <;> first | rfl | simp [Hdr.cls, Cls.isSub] at hcls
  have h4 : p.hasHeader .ip4 = true → ∃ v, p.attrOf .ip4 .protocol = .ok v := by
    intro h
    obtain ⟨y, fy⟩ := first_of_has h
    have hcy := first_cls fy
    rw [attr_first fy]
    cases y <;> first | exact ⟨_, rfl⟩ | simp [Hdr.cls, Cls.isSub] at hcy
  have ht : m.testField p .nwProto = .error .attributeError := by
    unfold OfMatch.testField
    rw [if_neg (by decide), show OfField.nwProto.wildcard = 2 ^ 5 from rfl, if_neg (fun h => hc ((covers_iff m 5).mp h))]
    by_cases h : p.hasHeader .ip4 = true
    · obtain ⟨v, hv⟩ := h4 h
      simp [OfField.sources, testSources, h6, ha, h, hv]
    · simp [OfField.sources, testSources, h6, ha, h]
  unfold OfMatch.matchesPacket
  rw [show ofFields = [.dlSrc, .dlDst, .dlVlan, .dlVlanPcp, .dlType] ++ .nwProto :: [.nwTos, .nwSrc, .nwDst, .tpSrc,
    .tpDst] from rfl, testFields_append hl (e := .attributeError) (by simp [OfMatch.testFields, ht])]
  rfl

/-- **C117**: the destination port of a UDP packet is not compared: whatever it is, the verdict is the
same. -/
theorem match_udp_dst_violated (m : OfMatch) (e : Ethernet) (i : IPv4) (u : UDP) (d : Int) (b : Bytes) :
    m.matchesPacket [.hdr (.eth e), .hdr (.ip4 i), .hdr (.udp u), .hdr (.raw b)] =
      m.matchesPacket [.hdr (.eth e), .hdr (.ip4 i), .hdr (.udp { u with dst := d }), .hdr (.raw b)] := by
  rfl

/-! ## C118: building a match from a packet -/

/-- Packets of Ethernet, IPv4 and one of TCP, UDP, ICMP (with anything else the match ignores), whose
fields have the values their setters allow. -/
structure PlainPkt (p : Packet) : Prop where
  vlan : p.hasHeader .vlan = false
  ip6 : p.hasHeader .ip6 = false
  arp : p.hasHeader .arp = false
  icmp6 : p.hasHeader .icmp6 = false
  eth : ∀ h, FirstIs p .eth (.eth h) → h.WF
  ip : ∀ h, FirstIs p .ip4 (.ip4 h) → h.tos < 256 ∧ h.protocol ∈ ipProtocols ∧ ∃ a b, h.src = .v4 a ∧ h.dst = .v4 b
  tcp : ∀ h, FirstIs p .tcp (.tcp h) → (0 ≤ h.src ∧ h.src < 65536) ∧ 0 ≤ h.dst ∧ h.dst < 65536
  udp : ∀ h, FirstIs p .udp (.udp h) → 0 ≤ h.src ∧ h.src < 65536
  icmp : ∀ h, FirstIs p .icmp (.icmp h) → h.type < 65536 ∧ h.code < 65536
  one : (p.hasHeader .tcp = true → p.hasHeader .udp = false ∧ p.hasHeader .icmp = false) ∧
    (p.hasHeader .udp = true → p.hasHeader .icmp = false)

theorem build_link (m : OfMatch) (p : Packet) (w : PlainPkt p) :
    ∃ m', (m.buildFields p [.dlSrc, .dlDst, .dlVlan, .dlVlanPcp, .dlType] = .ok m') ∧
      m' = { m with dlSrc := m'.dlSrc, dlDst := m'.dlDst, dlType := m'.dlType } ∧
      ∀ h, FirstIs p .eth (.eth h) → m'.dlSrc = h.src ∧ m'.dlDst = h.dst ∧ m'.dlType = h.ethertype := by
  cases hb : p.hasHeader .eth with
  | false =>
    refine ⟨m, ?_, rfl, ?_⟩
    · simp [OfMatch.buildFields, OfField.sources, OfMatch.buildField, hb, w.vlan]
    · intro h f; rw [(first_unique f).1] at hb; cases hb
  | true =>
    obtain ⟨x, f⟩ := first_of_has hb
    have hc := first_cls f
    cases x <;> first | (simp [Hdr.cls, Cls.isSub] at hc; done) | skip
    rename_i h
    have wf := w.eth h f
    obtain ⟨w1, w2, w3⟩ := wf
    refine ⟨{ m with dlSrc := h.src, dlDst := h.dst, dlType := h.ethertype }, ?_, rfl, ?_⟩
    · have a1 : p.attrOf .eth .src = .ok (.eth h.src) := attr_first f _
      have a2 : p.attrOf .eth .dst = .ok (.eth h.dst) := attr_first f _
      have a3 : p.attrOf .eth .ethertype = .ok (.num h.ethertype) := attr_first f _
      have e1 := EthAddr.mk'_addr (a := h.src) (by intro e; rw [e] at w2; simp at w2)
      have e2 := EthAddr.mk'_addr (a := h.dst) (by intro e; rw [e] at w1; simp at w1)
      have hne := dlType_ne_zero w3
      simp [OfMatch.buildFields, OfField.sources, OfMatch.buildField, hb, w.vlan, a1, a2, a3, OfMatch.setField,
        OfMatch.setDlSrc, OfMatch.setDlDst, OfMatch.setDlType, e1, e2, hne, enumOf_nat w3]
    · intro h' f'
      have := (first_unique f').2
      rw [(first_unique f).2] at this
      cases this; exact ⟨rfl, rfl, rfl⟩

theorem build_net (m : OfMatch) (p : Packet) (w : PlainPkt p) :
    ∃ m', (m.buildFields p [.nwProto, .nwTos, .nwSrc, .nwDst] = .ok m') ∧
      m' = { m with nwProto := m'.nwProto, nwTos := m'.nwTos, nwSrc := m'.nwSrc, nwDst := m'.nwDst } ∧
      ∀ h, FirstIs p .ip4 (.ip4 h) → m'.nwProto = h.protocol ∧ m'.nwTos = h.tos ∧ .v4 m'.nwSrc = h.src ∧ m'.nwDst = h.dst := by
  cases hb : p.hasHeader .ip4 with
  | false =>
    refine ⟨m, ?_, rfl, ?_⟩
    · simp [OfMatch.buildFields, OfField.sources, OfMatch.buildField, hb, w.ip6, w.arp]
    · intro h f; rw [(first_unique f).1] at hb; cases hb
  | true =>
    obtain ⟨x, f⟩ := first_of_has hb
    have hc := first_cls f
    cases x <;> first | (simp [Hdr.cls, Cls.isSub] at hc; done) | skip
    rename_i h
    obtain ⟨w1, w2, a, b, w3, w4⟩ := w.ip h f
    refine ⟨{ m with nwProto := h.protocol, nwTos := h.tos, nwSrc := a, nwDst := .v4 b }, ?_, rfl, ?_⟩
    · have a1 : p.attrOf .ip4 .src = .ok (.ip h.src) := attr_first f _
      have a2 : p.attrOf .ip4 .dst = .ok (.ip h.dst) := attr_first f _
      have a3 : p.attrOf .ip4 .protocol = .ok (.num h.protocol) := attr_first f _
      have a4 : p.attrOf .ip4 .tos = .ok (.num h.tos) := attr_first f _
      have e3 := enumOf_nat w2
      have e4 : ¬((h.tos : Int) < 0 ∨ 255 < (h.tos : Int)) := by omega
      simp [OfMatch.buildFields, OfField.sources, OfMatch.buildField, hb, w.ip6, w.arp, a1, a2, a3, a4, OfMatch.setField,
        OfMatch.setNwSrc, OfMatch.setNwDst, OfMatch.setNwProto, OfMatch.setNwTos, e3, e4, w3, w4, ipv4Arg, ipAddress]
    · intro h' f'
      have := (first_unique f').2
      rw [(first_unique f).2] at this
      cases this; exact ⟨rfl, rfl, w3.symm, w4.symm⟩

theorem build_tp (m : OfMatch) (p : Packet) (w : PlainPkt p) :
    ∃ m', (m.buildFields p [.tpSrc, .tpDst] = .ok m') ∧
      m' = { m with tpSrc := m'.tpSrc, tpDst := m'.tpDst } ∧
      (∀ h, FirstIs p .tcp (.tcp h) → m'.tpSrc = h.src ∧ m'.tpDst = h.dst) ∧
      (∀ h, FirstIs p .udp (.udp h) → m'.tpSrc = h.src) ∧
      (∀ h, FirstIs p .icmp (.icmp h) → m'.tpSrc = h.type ∧ m'.tpDst = h.code) := by
  have no : ∀ c, p.hasHeader c = false → ∀ h, ¬FirstIs p c h := by
    intro c hc h f; rw [(first_unique f).1] at hc; cases hc
  cases ht : p.hasHeader .tcp with
  | true =>
    obtain ⟨hu, hi⟩ := w.one.1 ht
    obtain ⟨x, f⟩ := first_of_has ht
    have hc := first_cls f
    cases x <;> first | (simp [Hdr.cls, Cls.isSub] at hc; done) | skip
    rename_i h
    obtain ⟨w1, w2⟩ := w.tcp h f
    refine ⟨{ m with tpSrc := h.src.toNat, tpDst := h.dst.toNat }, ?_, rfl, ?_, fun h f => absurd f (no _ hu _),
      fun h f => absurd f (no _ hi _)⟩
    · have a1 : p.attrOf .tcp .src = .ok (.num h.src) := attr_first f _
      have a2 : p.attrOf .tcp .dst = .ok (.num h.dst) := attr_first f _
      have e1 : ¬(h.src < 0 ∨ 65536 ≤ h.src) := by omega
      have e2 : ¬(h.dst < 0 ∨ 65536 ≤ h.dst) := by omega
      simp only [OfMatch.buildFields, OfField.sources, OfMatch.buildField, ht, hu, hi, w.icmp6, a1, a2, OfMatch.setField,
        OfMatch.setTpSrc, OfMatch.setTpDst, if_neg e1, if_neg e2, if_pos, bind_ok, Bool.false_eq_true, if_false]
    · intro h' f'
      have := (first_unique f').2
      rw [(first_unique f).2] at this
      cases this; simp only; omega
  | false =>
    cases hu : p.hasHeader .udp with
    | true =>
      have hi := w.one.2 hu
      obtain ⟨x, f⟩ := first_of_has hu
      have hc := first_cls f
      cases x <;> first | (simp [Hdr.cls, Cls.isSub] at hc; done) | skip
      rename_i h
      obtain ⟨w1, w2⟩ := w.udp h f
      refine ⟨{ m with tpSrc := h.src.toNat }, ?_, rfl, fun h f => absurd f (no _ ht _), ?_,
        fun h f => absurd f (no _ hi _)⟩
      · have a1 : p.attrOf .udp .src = .ok (.num h.src) := attr_first f _
        have e1 : ¬(h.src < 0 ∨ 65536 ≤ h.src) := by omega
        simp only [OfMatch.buildFields, OfField.sources, OfMatch.buildField, ht, hu, hi, w.icmp6, a1, OfMatch.setField,
          OfMatch.setTpSrc, if_neg e1, if_pos, bind_ok, Bool.false_eq_true, if_false]
      · intro h' f'
        have := (first_unique f').2
        rw [(first_unique f).2] at this
        cases this; simp only; omega
    | false =>
      cases hi : p.hasHeader .icmp with
      | true =>
        obtain ⟨x, f⟩ := first_of_has hi
        have hc := first_cls f
        cases x <;> first | (simp [Hdr.cls, Cls.isSub] at hc; done) | skip
        case icmp6 h => exact absurd (first_icmp6 f) (no _ w.icmp6 _)
        rename_i h
        obtain ⟨w1, w2⟩ := w.icmp h f
        refine ⟨{ m with tpSrc := h.type, tpDst := h.code }, ?_, rfl, fun h f => absurd f (no _ ht _),
          fun h f => absurd f (no _ hu _), ?_⟩
        · have a1 : p.attrOf .icmp .icmptype = .ok (.num h.type) := attr_first f _
          have a2 : p.attrOf .icmp .icmpcode = .ok (.num h.code) := attr_first f _
          have e1 : ¬((h.type : Int) < 0 ∨ 65536 ≤ (h.type : Int)) := by omega
          have e2 : ¬((h.code : Int) < 0 ∨ 65536 ≤ (h.code : Int)) := by omega
          simp only [OfMatch.buildFields, OfField.sources, OfMatch.buildField, ht, hu, hi, w.icmp6, a1, a2, OfMatch.setField,
            OfMatch.setTpSrc, OfMatch.setTpDst, if_neg e1, if_neg e2, if_pos, bind_ok, Bool.false_eq_true, if_false,
            Int.toNat_natCast]
        · intro h' f'
          have := (first_unique f').2
          rw [(first_unique f).2] at this
          cases this; exact ⟨rfl, rfl⟩
      | false =>
        refine ⟨m, ?_, rfl, fun h f => absurd f (no _ ht _), fun h f => absurd f (no _ hu _),
          fun h f => absurd f (no _ hi _)⟩
        simp [OfMatch.buildFields, OfField.sources, OfMatch.buildField, ht, hu, hi, w.icmp6]

theorem buildFields_append (m : OfMatch) (p : Packet) (l r : List OfField) :
    m.buildFields p (l ++ r) = m.buildFields p l >>= fun m => m.buildFields p r := by
  induction l generalizing m with
  | nil => rfl
  | cons f l ih =>
    simp only [List.cons_append, OfMatch.buildFields]
    cases m.buildField p f f.sources with
    | error e => rfl
    | ok m => simp only [bind_ok, ih]

/-- **C118**, partial: a match built from a packet has no wildcards, carries the fields of its headers
and accepts it.  Missing: ARP, VLAN and IPv6 packets, for which building raises; and the destination
port of UDP, which is left at 0. -/
theorem build_match_partial (p : Packet) (w : PlainPkt p) :
    ∃ m, OfMatch.build p = .ok m ∧ m.matchesPacket p = .ok true ∧
      m.wildcards = [] ∧ m.nwSrcWild = 0 ∧ m.nwDstWild = 0 ∧
      (∀ h, FirstIs p .eth (.eth h) → m.dlSrc = h.src ∧ m.dlDst = h.dst ∧ m.dlType = h.ethertype) ∧
      (∀ h, FirstIs p .ip4 (.ip4 h) → m.nwProto = h.protocol ∧ m.nwTos = h.tos ∧ .v4 m.nwSrc = h.src ∧ m.nwDst = h.dst) ∧
      (∀ h, FirstIs p .tcp (.tcp h) → m.tpSrc = h.src ∧ m.tpDst = h.dst) ∧
      (∀ h, FirstIs p .udp (.udp h) → m.tpSrc = h.src) ∧
      (∀ h, FirstIs p .icmp (.icmp h) → m.tpSrc = h.type ∧ m.tpDst = h.code) := by
  obtain ⟨m1, b1, s1, l1⟩ := build_link .default p w
  obtain ⟨m2, b2, s2, l2⟩ := build_net m1 p w
  obtain ⟨m3, b3, s3, t1, t2, t3⟩ := build_tp m2 p w
  have l1' : ∀ h, FirstIs p .eth (.eth h) → m3.dlSrc = h.src ∧ m3.dlDst = h.dst ∧ m3.dlType = h.ethertype := by
    rw [s3, s2]; exact l1
  have l2' : ∀ h, FirstIs p .ip4 (.ip4 h) → m3.nwProto = h.protocol ∧ m3.nwTos = h.tos ∧ .v4 m3.nwSrc = h.src ∧
      m3.nwDst = h.dst := by
    rw [s3]; exact l2
  have w1 : m3.wildcards = [] := by rw [s3, s2, s1]; rfl
  have w2 : m3.nwSrcWild = 0 := by rw [s3, s2, s1]; rfl
  have w3 : m3.nwDstWild = 0 := by rw [s3, s2, s1]; rfl
  have no : ∀ c, p.hasHeader c = false → ∀ h, ¬FirstIs p c h := by
    intro c hc h f; rw [(first_unique f).1] at hc; cases hc
  refine ⟨m3, ?_, ?_, w1, w2, w3, l1', l2', t1, t2, t3⟩
  · unfold OfMatch.build
    rw [show ofFields = [.dlSrc, .dlDst, .dlVlan, .dlVlanPcp, .dlType] ++ ([.nwProto, .nwTos, .nwSrc, .nwDst] ++
      [.tpSrc, .tpDst]) from rfl, buildFields_append, b1, bind_ok, buildFields_append, b2, bind_ok, b3]
  · obtain ⟨b, hb, k⟩ := match_semantics_partial m3 p w.vlan w.ip6
    rw [hb, k.mpr]
    constructor
    · intro h f
      obtain ⟨e1, e2, e3⟩ := l1' h f
      exact ⟨fun _ => e1.symm, fun _ => e2.symm, fun _ => e3.symm⟩
    · intro h f
      obtain ⟨e1, e2, e3, e4⟩ := l2' h f
      refine ⟨fun _ => e1.symm, fun _ => e2.symm, ?_, ?_⟩
      · rw [w2]; exact (samePrefix_zero _ _).mpr e3.symm
      · rw [w3]; exact (samePrefix_zero _ _).mpr e4.symm
    · intro h f; exact absurd f (no _ w.arp _)
    · intro h f
      obtain ⟨e1, e2⟩ := t1 h f
      exact ⟨fun _ => e1.symm, fun _ => e2.symm⟩
    · intro h f; exact fun _ => (t2 h f).symm
    · intro h f
      obtain ⟨e1, e2⟩ := t3 h f
      exact ⟨fun _ => e1.symm, fun _ => e2.symm⟩
    · intro h f; exact absurd f (no _ w.icmp6 _)

/-- The Ethernet part of building never fails for a well-formed header. -/
theorem build_eth_part (p : Packet) (m : OfMatch) (h : Ethernet) (f : FirstIs p .eth (.eth h)) (w : h.WF) :
    m.buildFields p [.dlSrc, .dlDst] = .ok { m with dlSrc := h.src, dlDst := h.dst } := by
  obtain ⟨w1, w2, _⟩ := w
  have hb := (first_unique f).1
  have a1 : p.attrOf .eth .src = .ok (.eth h.src) := attr_first f _
  have a2 : p.attrOf .eth .dst = .ok (.eth h.dst) := attr_first f _
  have e1 := EthAddr.mk'_addr (a := h.src) (by intro e; rw [e] at w2; simp at w2)
  have e2 := EthAddr.mk'_addr (a := h.dst) (by intro e; rw [e] at w1; simp at w1)
  simp [OfMatch.buildFields, OfField.sources, OfMatch.buildField, hb, a1, a2, OfMatch.setField,
    OfMatch.setDlSrc, OfMatch.setDlDst, e1, e2]

/-- **C118**: no match can be built from a packet with a VLAN tag. -/
theorem build_vlan_violated (p : Packet) (h : Ethernet) (f : FirstIs p .eth (.eth h)) (w : h.WF)
    (hv : p.hasHeader .vlan = true) : OfMatch.build p = .error .attributeError := by
  obtain ⟨x, fx⟩ := first_of_has hv
  have hcls := first_cls fx
  have ha : p.attrOf .vlan .vlan = .error .attributeError := by
    rw [attr_first fx]
    cases x <;> first | rfl | simp [Hdr.cls, Cls.isSub] at hcls
  unfold OfMatch.build
  rw [show ofFields = [.dlSrc, .dlDst] ++ .dlVlan :: [.dlVlanPcp, .dlType, .nwProto, .nwTos, .nwSrc, .nwDst, .tpSrc,
    .tpDst] from rfl, buildFields_append, build_eth_part p _ h f w]
  simp [OfMatch.buildFields, OfField.sources, OfMatch.buildField, hv, ha]

theorem build_type_part (p : Packet) (m : OfMatch) (h : Ethernet) (f : FirstIs p .eth (.eth h)) (w : h.WF)
    (hv : p.hasHeader .vlan = false) :
    m.buildFields p [.dlSrc, .dlDst, .dlVlan, .dlVlanPcp, .dlType] =
      .ok { m with dlSrc := h.src, dlDst := h.dst, dlType := h.ethertype } := by
  have hb := (first_unique f).1
  have a3 : p.attrOf .eth .ethertype = .ok (.num h.ethertype) := attr_first f _
  have w3 := w.2.2
  have hne := dlType_ne_zero w3
  rw [show [OfField.dlSrc, .dlDst, .dlVlan, .dlVlanPcp, .dlType] = [.dlSrc, .dlDst] ++ [.dlVlan, .dlVlanPcp, .dlType]
    from rfl, buildFields_append, build_eth_part p _ h f w]
  simp [OfMatch.buildFields, OfField.sources, OfMatch.buildField, hb, hv, a3, OfMatch.setField,
    OfMatch.setDlType, hne, enumOf_nat w3]

/-- **C118**: nor from an IPv6 packet. -/
theorem build_ip6_violated (p : Packet) (h : Ethernet) (f : FirstIs p .eth (.eth h)) (w : h.WF)
    (hv : p.hasHeader .vlan = false) (h4 : p.hasHeader .ip4 = false) (h6 : p.hasHeader .ip6 = true) :
    OfMatch.build p = .error .attributeError := by
  obtain ⟨x, fx⟩ := first_of_has h6
  have hcls := first_cls fx
  have ha : p.attrOf .ip6 .protocol = .error .attributeError := by
    rw [attr_first fx]
    cases x <;> first | rfl | simp [Hdr.cls, Cls.isSub] at hcls
  unfold OfMatch.build
  rw [show ofFields = [.dlSrc, .dlDst, .dlVlan, .dlVlanPcp, .dlType] ++ .nwProto :: [.nwTos, .nwSrc, .nwDst, .tpSrc,
    .tpDst] from rfl, buildFields_append, build_type_part p _ h f w hv]
  simp [OfMatch.buildFields, OfField.sources, OfMatch.buildField, h4, h6, ha]

/-- **C118**: nor from an ARP packet: the protocol it speaks for is an Ethernet type, and none of these
is an IP protocol number. -/
theorem build_arp_violated (p : Packet) (h : Ethernet) (a : Arp) (f : FirstIs p .eth (.eth h)) (w : h.WF)
    (fa : FirstIs p .arp (.arp a)) (wa : a.WF) (hv : p.hasHeader .vlan = false) (h4 : p.hasHeader .ip4 = false)
    (h6 : p.hasHeader .ip6 = false) : OfMatch.build p = .error .valueError := by
  have ha : p.attrOf .arp .protocoltype = .ok (.num a.prototype) := attr_first fa _
  have hb := (first_unique fa).1
  have hd : ∀ t ∈ etherTypes, enumOf ipProtocols t = .error .valueError := by decide +kernel
  have he := hd _ wa.2.1
  unfold OfMatch.build
  rw [show ofFields = [.dlSrc, .dlDst, .dlVlan, .dlVlanPcp, .dlType] ++ .nwProto :: [.nwTos, .nwSrc, .nwDst, .tpSrc,
    .tpDst] from rfl, buildFields_append, build_type_part p _ h f w hv]
  simp [OfMatch.buildFields, OfField.sources, OfMatch.buildField, h4, h6, hb, ha, OfMatch.setField,
    OfMatch.setNwProto, he]

/-! ### Instances -/

/-- A TCP packet. -/
def exTcpPkt : Packet :=
  [.hdr (.eth ⟨⟨[1, 2, 3, 4, 5, 6]⟩, ⟨[2, 2, 3, 4, 5, 6]⟩, 0x800⟩),
   .hdr (.ip4 ⟨0, 0, 0, 0, 0, 64, 6, .v4 0x0a000001, .v4 0x0a000002, []⟩),
   .hdr (.tcp ⟨1234, 80, 0, 0, 2, 0, 0, 0⟩)]

theorem first_head {c : Cls} {h : Hdr} {r : Packet} (k : h.cls.isSub c = true) : FirstIs (.hdr h :: r) c h :=
  ⟨[], r, rfl, k, by simp⟩

theorem first_tail {c : Cls} {h x : Hdr} {r : Packet} (k : h.cls.isSub c = false) (f : FirstIs r c x) :
    FirstIs (.hdr h :: r) c x := by
  obtain ⟨l, r', rfl, k1, k2⟩ := f
  refine ⟨.hdr h :: l, r', rfl, k1, ?_⟩
  intro y hy
  rcases List.mem_cons.mp hy with rfl | hy
  · exact k
  · exact k2 y hy

theorem first_inj {p : Packet} {c : Cls} {h h' : Hdr} (f : FirstIs p c h) (f' : FirstIs p c h') : h = h' := by
  have := (first_unique f).2
  rw [(first_unique f').2] at this
  cases this; rfl

example : PlainPkt exTcpPkt where
  vlan := by decide
  ip6 := by decide
  arp := by decide
  icmp6 := by decide
  eth h f := by
    have := first_inj f (first_head rfl); cases this; decide
  ip h f := by
    have := first_inj f (first_tail rfl (first_head rfl)); cases this
    exact ⟨by decide, by decide, _, _, rfl, rfl⟩
  tcp h f := by
    have := first_inj f (first_tail rfl (first_tail rfl (first_head rfl))); cases this
    decide
  udp h f := by
    have := (first_unique f).1
    exact absurd this (by decide)
  icmp h f := by
    have := (first_unique f).1
    exact absurd this (by decide)
  one := by decide

/-- A match on a /24 with everything else but the Ethernet type and the protocol wildcarded. -/
def exNetMatch : OfMatch :=
  ⟨[1, 2, 4, 8, 64, 128, 0x100000, 0x200000], 8, 32, 0, EthAddr.any, EthAddr.any, 0, 0, 0x800, 0, 6, 0x0a000063,
    .v4 0, 0, 0⟩

example : exNetMatch.matchesPacket exTcpPkt = .ok true := by decide +kernel
example : ({ exNetMatch with nwSrc := 0x0a000163 }).matchesPacket exTcpPkt = .ok false := by decide +kernel
example : ({ exNetMatch with nwProto := 17 }).matchesPacket exTcpPkt = .ok false := by decide +kernel
example : Packet.hasHeader [.hdr (.eth ⟨⟨[1, 2, 3, 4, 5, 6]⟩, ⟨[2, 2, 3, 4, 5, 6]⟩, 0x8100⟩), .hdr (.vlan ⟨5, 0, 0x800⟩)]
    .vlan = true ∧ ¬WildBit OfMatch.default 1 := by
  refine ⟨by decide, ?_⟩
  rintro ⟨v, hv, _⟩
  simp [OfMatch.default] at hv

/-! ## C120: comparing matches -/

theorem samePrefix_trans {a b c : IPAddr} {w v : Nat} (h1 : SamePrefix a b w) (h2 : SamePrefix b c v) (h : w ≤ v) :
    SamePrefix a c v := by
  cases a <;> cases b <;> cases c <;> simp only [SamePrefix] at *
  · intro i hi hi'
    rw [h1 i (by omega) hi', h2 i hi hi']
  · intro i hi hi'
    rw [h1 i (by split at hi <;> split <;> omega) hi', h2 i hi hi']

theorem samePrefix_refl (a : IPAddr) (w : Nat) : SamePrefix a a w := by
  cases a <;> simp [SamePrefix]

theorem entry_net {a : IPAddr} {n : BitVec 32} {w : Nat} (h : (inNet a (.v4 n) w || OfVal.ip a == .ip (.v4 n)) = true) :
    SamePrefix a (.v4 n) w := by
  rw [Bool.or_eq_true] at h
  rcases h with h | h
  · cases a <;> simp only [inNet, Bool.false_eq_true] at h
    rw [beq_iff_eq, shr_eq_iff] at h; exact h
  · rw [beq_iff_eq] at h; cases h; exact samePrefix_refl _ w

/-- **C120**, partial: if a match falls under another, and is not more wildcarded than it, every packet it
accepts is accepted by the other (packets without VLAN tags and IPv6 headers).  Missing: the condition
on the wildcards, which the comparison does not check. -/
theorem match_entry_partial (m o : OfMatch) (p : Packet) (hv : p.hasHeader .vlan = false)
    (h6 : p.hasHeader .ip6 = false) (d : BitVec 32) (hd : o.nwDst = .v4 d)
    (hw : ∀ k, WildBit m k → WildBit o k) (hs : m.nwSrcWild ≤ o.nwSrcWild) (hs' : m.nwDstWild ≤ o.nwDstWild)
    (he : m.matchesEntry o = true) (ha : m.matchesPacket p = .ok true) : o.matchesPacket p = .ok true := by
  obtain ⟨b, e1, k1⟩ := match_semantics_partial m p hv h6
  rw [ha] at e1; cases e1
  have g := k1.mp rfl
  obtain ⟨b, e2, k2⟩ := match_semantics_partial o p hv h6
  rw [e2, k2.mpr]
  unfold OfMatch.matchesEntry at he
  rw [Bool.and_eq_true, List.all_eq_true] at he
  have simple : ∀ f k, f ≠ .nwSrc → f ≠ .nwDst → f.wildcard = 2 ^ k → ¬WildBit o k → m.value f = o.value f := by
    intro f k n1 n2 hk hc
    have := he.1 f (by cases f <;> decide)
    unfold OfMatch.entryField at this
    rw [if_neg (by simp [n1, n2]), Bool.or_eq_true, beq_iff_eq] at this
    rcases this with h | h
    · exfalso; apply hc
      rw [List.contains_iff_mem] at h
      exact ⟨_, h, by rw [hk]; simp [Nat.testBit_two_pow]⟩
    · exact h
  have nsrc : SamePrefix (.v4 m.nwSrc) (.v4 o.nwSrc) o.nwSrcWild := by
    have := he.1 .nwSrc (by decide)
    exact entry_net this
  have ndst : SamePrefix m.nwDst (.v4 d) o.nwDstWild := by
    have := he.1 .nwDst (by decide)
    unfold OfMatch.entryField at this
    simp only [OfMatch.value, hd, OfMatch.wildBits] at this
    exact entry_net this
  have num : ∀ {a b : Int}, OfVal.num a = .num b → a = b := by intro a b h; cases h; rfl
  have eth : ∀ {a b : EthAddr}, OfVal.eth a = .eth b → a = b := by intro a b h; cases h; rfl
  constructor
  · intro h f
    obtain ⟨g1, g2, g3⟩ := g.eth h f
    refine ⟨fun k => ?_, fun k => ?_, fun k => ?_⟩
    · rw [g1 (fun c => k (hw _ c))]; exact eth (simple .dlSrc 2 (by decide) (by decide) rfl k)
    · rw [g2 (fun c => k (hw _ c))]; exact eth (simple .dlDst 3 (by decide) (by decide) rfl k)
    · have := num (simple .dlType 4 (by decide) (by decide) rfl k)
      rw [g3 (fun c => k (hw _ c))]; omega
  · intro h f
    obtain ⟨g1, g2, g3, g4⟩ := g.ip h f
    refine ⟨fun k => ?_, fun k => ?_, samePrefix_trans g3 nsrc hs, ?_⟩
    · have := num (simple .nwProto 5 (by decide) (by decide) rfl k)
      rw [g1 (fun c => k (hw _ c))]; omega
    · have := num (simple .nwTos 21 (by decide) (by decide) rfl k)
      rw [g2 (fun c => k (hw _ c))]; omega
    · rw [hd]; exact samePrefix_trans g4 ndst hs'
  · intro h f
    obtain ⟨g1, g3, g4⟩ := g.arp h f
    refine ⟨fun k => ?_, samePrefix_trans g3 nsrc hs, ?_⟩
    · have := num (simple .nwProto 5 (by decide) (by decide) rfl k)
      rw [g1 (fun c => k (hw _ c))]; omega
    · rw [hd]; exact samePrefix_trans g4 ndst hs'
  · intro h f
    obtain ⟨g1, g2⟩ := g.tcp h f
    refine ⟨fun k => ?_, fun k => ?_⟩
    · rw [g1 (fun c => k (hw _ c))]; exact num (simple .tpSrc 6 (by decide) (by decide) rfl k)
    · rw [g2 (fun c => k (hw _ c))]; exact num (simple .tpDst 7 (by decide) (by decide) rfl k)
  · intro h f k
    rw [g.udp h f (fun c => k (hw _ c))]; exact num (simple .tpSrc 6 (by decide) (by decide) rfl k)
  · intro h f
    obtain ⟨g1, g2⟩ := g.icmp h f
    refine ⟨fun k => ?_, fun k => ?_⟩
    · have := num (simple .tpSrc 6 (by decide) (by decide) rfl k)
      rw [g1 (fun c => k (hw _ c))]; omega
    · have := num (simple .tpDst 7 (by decide) (by decide) rfl k)
      rw [g2 (fun c => k (hw _ c))]; omega
  · intro h f
    obtain ⟨g1, g2⟩ := g.icmp6 h f
    refine ⟨fun k => ?_, fun k => ?_⟩
    · have := num (simple .tpSrc 6 (by decide) (by decide) rfl k)
      rw [g1 (fun c => k (hw _ c))]; omega
    · have := num (simple .tpDst 7 (by decide) (by decide) rfl k)
      rw [g2 (fun c => k (hw _ c))]; omega

example : exNetMatch.matchesEntry { exNetMatch with nwSrc := 0x0a000000, nwSrcWild := 24 } = true ∧
    exNetMatch.matchesPacket exTcpPkt = .ok true := by decide +kernel

/-- **C120**: the wildcards of the narrower match are not looked at: a match on all destination ports
falls under a match on port 0. -/
theorem match_entry_violated :
    ∃ m o : OfMatch, m.matchesEntry o = true ∧ m.matchesPacket exTcpPkt = .ok true ∧
      o.matchesPacket exTcpPkt = .ok false :=
  ⟨exNetMatch, { exNetMatch with wildcards := [1, 2, 4, 8, 64, 0x100000, 0x200000] }, by decide +kernel,
    by decide +kernel, by decide +kernel⟩

/-- **C120**: the match with all wildcards, which accepts this packet and every other packet without
IPv6 header, is not recognised as the wider one: matches whose fields differ do not fall under it. -/
theorem match_entry_all_violated :
    ∃ m : OfMatch, m.matchesPacket exTcpPkt = .ok true ∧ OfMatch.default.wildcardAll.matchesPacket exTcpPkt = .ok true ∧
      m.matchesEntry OfMatch.default.wildcardAll = false :=
  ⟨exNetMatch, by decide +kernel, by decide +kernel, by decide +kernel⟩

/-- **C120**: two matches overlap exactly if each falls under the other, so a narrow match inside a wide
one does not overlap it. -/
theorem match_overlap_violated :
    ∃ m o : OfMatch, m.matchesEntry o = true ∧ m.matchesPacket exTcpPkt = .ok true ∧
      o.matchesPacket exTcpPkt = .ok true ∧ m.overlaps o false = .ok false :=
  ⟨exNetMatch, { exNetMatch with wildcards := [1, 2, 4, 8, 32, 64, 128, 0x100000, 0x200000], nwProto := 17 },
    by decide +kernel, by decide +kernel, by decide +kernel, by decide +kernel⟩

end SY.Props
