import Verif.Props.PacketParse

/-! # Property C41: parsing what was serialised -/

namespace SY.Props

/-! ## The packets in question -/

/-- A header whose stored fields fit their wire format.  Fields that serialising computes (lengths,
checksums) may hold anything.  Restrictions: an Ethernet type above 1500 and a VLAN priority
below 4 (C08, C10); no IPv4 options (their padding comes back as options, C13); extension headers
as in C32; ICMP data of exactly the registered class. -/
def Storable : Hdr → Prop
  | .eth h => h.WF ∧ 1500 < h.ethertype
  | .vlan h => h.WF
  | .arp h => h.WF
  | .ip4 h => IPv4.WF { h with totallen := 0 } ∧ h.options = []
  | .ip6 h => IPv6.WF { h with plen := 0 }
  | .route h => ∃ n seg a, n ∈ ipProtocols ∧ seg < 256 ∧ h = ⟨some n, 0, 2, seg, a⟩
  | .frag h => ∃ (n ident offset : Nat) (mf : Bool), n ∈ ipProtocols ∧ ident < 2 ^ 32 ∧ offset < 8192 ∧
      h = ⟨some n, 0, ident, offset, mf⟩
  | .hop h | .dst h => ∃ n os, n ∈ ipProtocols ∧ (∀ o ∈ os, TLV.WF o) ∧ ((os.map TLV.wireLen).sum + 2) % 8 = 0 ∧
      (os.map TLV.wireLen).sum + 2 ≤ 2048 ∧ h = ⟨some n, os⟩
  | .udp h => UDP.WF { h with len := 0, csum := 0 }
  | .tcp h => TCP.WF { h with csum := 0 }
  | .icmp m => icmpCoherent m ∧ dataWF m.data ∧ m.data.typeOf = some m.type
  | .icmp6 m => icmp6Coherent m ∧ data6WF m.data
  | .rip h => (h.command = 1 ∨ h.command = 2) ∧ ∀ r ∈ h.routes, RouteWF r
  | .null af => 0 ≤ af ∧ af < 2 ^ 32
  | .raw _ | .nullHdr => False

/-- Classes that take everything after them as their own. -/
def Swallows (h : Hdr) : Prop := h.cls = .icmp ∨ h.cls = .icmp6 ∨ h.cls = .rip

/-- A stack of storable headers, starting with class `c`, in which every header announces the next one;
the last one announces nothing the library knows and may be followed by a non-empty raw payload. -/
def Stack : Cls → Packet → Prop
  | c, .hdr h :: rest => h.cls = c ∧ Storable h ∧
      match h.next with
      | .ok (some c') => Stack c' rest
      | .ok none => rest = [] ∨ (¬ Swallows h ∧ ∃ x xs, rest = [.hdr (.raw (x :: xs))])
      | .error _ => False
  | _, _ => False

/-- A header without the checksum that parsing does not keep (TCP) or that is recomputed on every
serialisation and not stored before (ICMP). -/
def unsum : Hdr → Hdr
  | .tcp h => .tcp { h with csum := 0 }
  | .icmp m => .icmp { m with csum := 0 }
  | h => h

def unsumItem : Item → Item
  | .hdr h => .hdr (unsum h)
  | x => x

/-! ## One header -/

/-- Integer fields in range, whatever the byte fields. -/
def IntsFit : List Fld → List Val → Prop
  | .x _ :: fs, vs => IntsFit fs vs
  | .u w :: fs, .i v :: vs => (0 ≤ v ∧ v < (256 ^ w : Nat)) ∧ IntsFit fs vs
  | .s _ :: fs, .b _ :: vs => IntsFit fs vs
  | _, _ => True

theorem pack_ints {fs : List Fld} {vs : List Val} {b : Bytes} (h : pack fs vs = .ok b) : IntsFit fs vs := by
  induction fs generalizing vs b with
  | nil => cases vs <;> trivial
  | cons f fs ih =>
    cases f with
    | x n =>
      obtain ⟨r, hr, _⟩ := pack_x_inv h
      simp only [IntsFit]; exact ih hr
    | u w =>
      cases vs with
      | nil => cases h
      | cons v vs =>
        cases v with
        | i v =>
          obtain ⟨h1, r, hr, _⟩ := pack_u_inv h
          simp only [IntsFit]; exact ⟨h1, ih hr⟩
        | b v => cases h
    | s w =>
      cases vs with
      | nil => cases h
      | cons v vs =>
        cases v with
        | i v => cases h
        | b v =>
          simp only [pack] at h
          obtain ⟨r, hr, _⟩ := map_eq_ok.mp h
          simp only [IntsFit]; exact ih hr

/-- Finalising changes only what serialising computes. -/
theorem pre_derived {h h' : Hdr} {t : Bytes} {ctx : Packet} (e : h.pre t ctx = .ok h') :
    hdrKey h' = hdrKey h ∧ h'.next = h.next ∧ (Comparable h → Comparable h') := by
  cases h with
  | ip4 a =>
    simp only [Hdr.pre] at e
    obtain ⟨b, hb, rfl⟩ := map_eq_ok.mp e
    unfold IPv4.preSerialize at hb
    obtain ⟨n, _, hb⟩ := bind_eq_ok.mp hb
    cases hb
    exact ⟨rfl, rfl, id⟩
  | ip6 a => cases e; exact ⟨rfl, rfl, id⟩
  | udp a =>
    simp only [Hdr.pre] at e
    obtain ⟨b, hb, rfl⟩ := map_eq_ok.mp e
    unfold UDP.preSerialize at hb
    obtain ⟨n, _, hb⟩ := bind_eq_ok.mp hb
    cases hb
    exact ⟨rfl, rfl, id⟩
  | tcp a =>
    simp only [Hdr.pre] at e
    obtain ⟨b, hb, rfl⟩ := map_eq_ok.mp e
    unfold TCP.preSerialize at hb
    obtain ⟨n, _, hb⟩ := bind_eq_ok.mp hb
    cases hb
    exact ⟨rfl, rfl, id⟩
  | icmp6 a =>
    simp only [Hdr.pre] at e
    obtain ⟨b, hb, rfl⟩ := map_eq_ok.mp e
    unfold icmp6PreSerialize at hb
    split at hb
    · cases hb
    obtain ⟨n, _, hb⟩ := bind_eq_ok.mp hb
    cases hb
    exact ⟨rfl, rfl, id⟩
  | _ => cases e; exact ⟨rfl, rfl, id⟩

/-- Parsing the bytes of a finalised header, whatever follows, gives the header back. -/
theorem hdr_roundtrip {h h' : Hdr} {t b : Bytes} {ctx : Packet} (hs : Storable h) (hp : h.pre t ctx = .ok h')
    (hb : h'.toBytes = .ok b) (rest : Bytes) (hr : Swallows h → rest = []) :
    ∃ h'' r, h.cls.fromBytes (b ++ rest) = .ok (h'', r) ∧ r.getD [] = rest ∧ (¬ Swallows h → r = some rest) ∧
      unsum h'' = unsum h' ∧ h''.next = h.next := by
  cases h with
  | eth a =>
    cases hp
    simp only [Hdr.toBytes] at hb
    exact ⟨_, _, by simp only [Hdr.cls, Cls.fromBytes, Ethernet.fromBytes_toBytes hs.1 hs.2 hb rest, bind_ok], rfl,
      fun _ => rfl, rfl, rfl⟩
  | vlan a =>
    cases hp
    simp only [Hdr.toBytes] at hb
    exact ⟨_, _, by simp only [Hdr.cls, Cls.fromBytes, Vlan.fromBytes_toBytes hs hb rest, bind_ok], rfl,
      fun _ => rfl, rfl, rfl⟩
  | arp a =>
    cases hp
    simp only [Hdr.toBytes] at hb
    exact ⟨_, _, by simp only [Hdr.cls, Cls.fromBytes, Arp.fromBytes_toBytes hs hb rest, bind_ok], rfl,
      fun _ => rfl, rfl, rfl⟩
  | ip4 a =>
    have hd := pre_derived hp
    simp only [Hdr.pre] at hp
    obtain ⟨a', ha, rfl⟩ := map_eq_ok.mp hp
    unfold IPv4.preSerialize at ha
    obtain ⟨n, _, ha⟩ := bind_eq_ok.mp ha
    cases ha
    simp only [Hdr.toBytes] at hb
    obtain ⟨o, d0, d, c, _, hd0, _, _, _⟩ := IPv4.toBytes_inv hb
    have hi := pack_ints hd0
    simp only [IntsFit, IPv4.fmt, IPv4.vals] at hi
    have hw : IPv4.WF { a with totallen := n + t.length } := by
      obtain ⟨⟨w1, w2, w3, w4, w5, w6, w7, w8, w9⟩, ho⟩ := hs
      exact ⟨w1, by simp only; omega, w3, w4, w5, w6, w7, w8, w9⟩
    obtain ⟨b', hb', _, hf⟩ := ipv4_roundtrip _ hw hs.2 rest
    rw [hb] at hb'
    cases hb'
    exact ⟨_, _, by simp only [Hdr.cls, Cls.fromBytes, hf, bind_ok], rfl, fun _ => rfl, rfl, rfl⟩
  | ip6 a =>
    cases hp
    simp only [Hdr.toBytes] at hb
    have hi := pack_ints hb
    simp only [IntsFit, IPv6.fmt, IPv6.vals, IPv6.preSerialize] at hi
    have hw : IPv6.WF (a.preSerialize t) := by
      obtain ⟨w1, w2, w3, w4, w5, w6, w7, w8⟩ := hs
      exact ⟨w1, w2, w3, w4, w5, w6, w7, by simp only [IPv6.preSerialize]; omega⟩
    obtain ⟨b', hb', _, hf⟩ := IPv6.toBytes_ok hw
    rw [hb] at hb'
    cases hb'
    exact ⟨_, _, by simp only [Hdr.cls, Cls.fromBytes, hf, bind_ok], rfl, fun _ => rfl, rfl, rfl⟩
  | route a =>
    cases hp
    obtain ⟨n, seg, ad, hn, hg, rfl⟩ := hs
    simp only [Hdr.toBytes] at hb
    obtain ⟨b', hb', _, hf⟩ := route_roundtrip n hn seg hg ad
    rw [hb] at hb'
    cases hb'
    exact ⟨_, _, by simp only [Hdr.cls, Cls.fromBytes, hf, bind_ok], rfl, fun _ => rfl, rfl, rfl⟩
  | frag a =>
    cases hp
    obtain ⟨n, ident, off, mf, hn, h1, h2, rfl⟩ := hs
    simp only [Hdr.toBytes] at hb
    obtain ⟨b', hb', _, hf⟩ := fragment_roundtrip n hn ident off mf h1 h2
    rw [hb] at hb'
    cases hb'
    exact ⟨_, _, by simp only [Hdr.cls, Cls.fromBytes, hf, bind_ok], rfl, fun _ => rfl, rfl, rfl⟩
  | hop a =>
    cases hp
    obtain ⟨n, os, hn, h1, h2, h3, rfl⟩ := hs
    simp only [Hdr.toBytes] at hb
    obtain ⟨b', hb', _, _, hf⟩ := hop_roundtrip_partial n hn os h1 h2 h3
    rw [hb] at hb'
    cases hb'
    exact ⟨_, _, by simp only [Hdr.cls, Cls.fromBytes, hf, bind_ok], rfl, fun _ => rfl, rfl, rfl⟩
  | dst a =>
    cases hp
    obtain ⟨n, os, hn, h1, h2, h3, rfl⟩ := hs
    simp only [Hdr.toBytes] at hb
    obtain ⟨b', hb', _, _, hf⟩ := hop_roundtrip_partial n hn os h1 h2 h3
    rw [hb] at hb'
    cases hb'
    exact ⟨_, _, by simp only [Hdr.cls, Cls.fromBytes, hf, bind_ok], rfl, fun _ => rfl, rfl, rfl⟩
  | udp a =>
    simp only [Hdr.pre] at hp
    obtain ⟨a', ha, rfl⟩ := map_eq_ok.mp hp
    unfold UDP.preSerialize at ha
    obtain ⟨n, _, ha⟩ := bind_eq_ok.mp ha
    cases ha
    simp only [Hdr.toBytes] at hb
    have hi := pack_ints hb
    simp only [IntsFit, UDP.fmt, UDP.vals] at hi
    have hw : UDP.WF { a with len := 8 + t.length, csum := n } := by
      obtain ⟨w1, w2, _, _⟩ := hs
      exact ⟨w1, w2, by simp only; omega, by simp only; omega⟩
    exact ⟨_, _, by simp only [Hdr.cls, Cls.fromBytes, UDP.fromBytes_toBytes hw hb rest, bind_ok], rfl,
      fun _ => rfl, rfl, rfl⟩
  | tcp a =>
    simp only [Hdr.pre] at hp
    obtain ⟨a', ha, rfl⟩ := map_eq_ok.mp hp
    unfold TCP.preSerialize at ha
    obtain ⟨n, _, ha⟩ := bind_eq_ok.mp ha
    cases ha
    simp only [Hdr.toBytes] at hb
    have hi := pack_ints hb
    simp only [IntsFit, TCP.fmt, TCP.vals] at hi
    have hw : TCP.WF { a with csum := n } := by
      obtain ⟨w1, w2, w3, w4, w5, w6, w7, _⟩ := hs
      exact ⟨w1, w2, w3, w4, w5, w6, w7, by simp only; omega⟩
    exact ⟨.tcp { a with csum := 0 }, some rest, by simp only [Hdr.cls, Cls.fromBytes, TCP.fromBytes_toBytes hw hb rest, bind_ok], rfl,
      fun _ => rfl, rfl, rfl⟩
  | icmp m =>
    cases hp
    cases hr (.inl rfl)
    simp only [Hdr.toBytes] at hb
    obtain ⟨b', m', hb', hf, _, e1, e2, e3⟩ := icmp_roundtrip_partial m hs.1 hs.2.1
    rw [hb] at hb'
    cases hb'
    refine ⟨.icmp m', some [], by simp only [Hdr.cls, Cls.fromBytes, List.append_nil, hf, bind_ok], rfl, fun h => absurd (.inl rfl) h, ?_, rfl⟩
    obtain ⟨t1, c1, d1, s1⟩ := m'
    simp only [unsum] at e1 e2 e3 ⊢
    rw [e1, e2, e3 hs.2.2]
  | icmp6 m =>
    cases hr (.inr (.inl rfl))
    simp only [Hdr.pre] at hp
    obtain ⟨a', ha, rfl⟩ := map_eq_ok.mp hp
    unfold icmp6PreSerialize at ha
    split at ha
    · cases ha
    obtain ⟨n, _, ha⟩ := bind_eq_ok.mp ha
    cases ha
    simp only [Hdr.toBytes] at hb
    have hn : n < 65536 := by
      unfold icmp6ToBytes ICMPKind.wire at hb
      obtain ⟨x, hx, _⟩ := bind_eq_ok.mp hb
      have hi := pack_ints hx
      simp only [IntsFit, ICMPKind.fmt] at hi
      omega
    obtain ⟨b', hb', hf⟩ := icmp6_roundtrip_partial { m with csum := n } hs.1 hs.2 hn
    rw [hb] at hb'
    cases hb'
    exact ⟨.icmp6 { m with csum := n }, some [], by simp only [Hdr.cls, Cls.fromBytes, List.append_nil, hf, bind_ok], rfl,
      fun h => absurd (.inr (.inl rfl)) h, rfl, rfl⟩
  | rip a =>
    cases hp
    cases hr (.inr (.inr rfl))
    simp only [Hdr.toBytes] at hb
    obtain ⟨b', hb', _, hf⟩ := rip_roundtrip a hs.1 hs.2
    rw [hb] at hb'
    cases hb'
    exact ⟨.rip a, none, by simp only [Hdr.cls, Cls.fromBytes, hf [] (by decide), bind_ok], rfl,
      fun h => absurd (.inr (.inr rfl)) h, rfl, rfl⟩
  | null af =>
    cases hp
    obtain ⟨n, rfl⟩ := Int.eq_ofNat_of_zero_le hs.1
    simp only [Hdr.toBytes] at hb
    obtain ⟨b', hb', _, hf⟩ := null_roundtrip n (by have := hs.2; omega) rest
    rw [hb] at hb'
    cases hb'
    exact ⟨_, _, by simp only [Hdr.cls, Cls.fromBytes, hf, bind_ok], rfl, fun _ => rfl, rfl, rfl⟩
  | raw x => cases hs
  | nullHdr => cases hs

/-! ## The whole packet -/

theorem stack_parse {p : Packet} {c : Cls} {ctx p' : Packet} {bs : List Bytes} (hs : Stack c p)
    (hf : finish ctx [] p = .ok (p', bs)) (acc : Packet) :
    ∃ q, parseLoop p.length c bs.flatten acc = some (.ok (acc ++ q)) ∧ q.map unsumItem = p'.map unsumItem := by
  induction p generalizing c p' bs acc with
  | nil => cases hs
  | cons x rest ih =>
    cases x with
    | bytes _ => cases hs
    | other _ => cases hs
    | hdr h =>
      simp only [Stack] at hs
      obtain ⟨hc, hst, hn⟩ := hs
      simp only [finish] at hf
      obtain ⟨r, hr, hf⟩ := bind_eq_ok.mp hf
      obtain ⟨x', hx, hf⟩ := bind_eq_ok.mp hf
      obtain ⟨b, hb, hf⟩ := bind_eq_ok.mp hf
      cases hf
      simp only [Item.pre] at hx
      obtain ⟨h', hx', rfl⟩ := map_eq_ok.mp hx
      clear hx
      replace hx := hx'
      simp only [Item.toBytes] at hb
      simp only [List.append_nil] at hx
      have hsw : Swallows h → r.2.flatten = [] := by
        intro hw
        cases hq : h.next with
        | error e => rw [hq] at hn; cases hn
        | ok o =>
          cases o with
          | none =>
            rw [hq] at hn
            rcases hn with rfl | ⟨hnw, _⟩
            · cases hr; rfl
            · exact absurd hw hnw
          | some c' =>
            exfalso
            rcases hw with hw | hw | hw <;>
              (cases h <;> simp only [Hdr.cls, reduceCtorEq] at hw; simp [Hdr.next] at hq)
      obtain ⟨h'', o, g1, g2, g3, g4, g5⟩ := hdr_roundtrip hst hx hb r.2.flatten hsw
      rw [hc] at g1
      simp only [List.length_cons, List.flatten_cons, parseLoop, g1, g5]
      cases hq : h.next with
      | error e => rw [hq] at hn; cases hn
      | ok k =>
        rw [hq] at hn
        cases k with
        | none =>
          simp only at hn ⊢
          rcases hn with rfl | ⟨hnw, y, ys, rfl⟩
          · cases hr
            refine ⟨[.hdr h''], ?_, by simp [unsumItem, g4]⟩
            simp only [List.flatten_nil] at g2
            cases o with
            | none => rfl
            | some w => simp only [Option.getD_some] at g2; subst g2; rfl
          · simp only [finish, bind_ok, Item.pre, Hdr.pre, map_ok, Item.toBytes, Hdr.toBytes] at hr
            cases hr
            rw [g3 hnw]
            exact ⟨[.hdr h'', .hdr (.raw (y :: ys))], by simp [parseEnd], by simp [unsumItem, g4]⟩
        | some c' =>
          simp only at hn ⊢
          obtain ⟨q, k1, k2⟩ := ih hn hr (acc ++ [.hdr h''])
          rw [g2]
          exact ⟨.hdr h'' :: q, by rw [k1]; simp, by simp [unsumItem, g4, k2]⟩

theorem unsum_wire {x y y' : Hdr} {t b : Bytes} {ctx : Packet} (h : unsum x = unsum y)
    (hp : y.pre t ctx = .ok y') (hb : y'.toBytes = .ok b) :
    ∃ x', x.pre t ctx = .ok x' ∧ x'.toBytes = .ok b := by
  cases y with
  | tcp a =>
    cases x <;> simp only [unsum, reduceCtorEq] at h
    rename_i a'
    obtain ⟨a1, a2, a3, a4, a5, a6, a7, a8⟩ := a
    obtain ⟨b1, b2, b3, b4, b5, b6, b7, b8⟩ := a'
    simp only [Hdr.tcp.injEq, TCP.mk.injEq] at h
    obtain ⟨rfl, rfl, rfl, rfl, rfl, rfl, rfl, _⟩ := h
    exact ⟨y', hp, hb⟩
  | icmp a =>
    cases x <;> simp only [unsum, reduceCtorEq] at h
    rename_i a'
    obtain ⟨a1, a2, a3, a4⟩ := a
    obtain ⟨b1, b2, b3, b4⟩ := a'
    simp only [Hdr.icmp.injEq, ICMPMsg.mk.injEq] at h
    obtain ⟨rfl, rfl, rfl, _⟩ := h
    cases hp
    exact ⟨_, rfl, hb⟩
  | _ =>
    cases x <;> simp only [unsum, reduceCtorEq] at h
    all_goals (cases h; exact ⟨y', hp, hb⟩)

theorem unsum_key {x y : Hdr} (h : unsum x = unsum y) : hdrKey x = hdrKey y ∧ x.cls = y.cls ∧
    (Comparable y → Comparable x) ∧ (∀ a, x = .ip4 a ↔ y = .ip4 a) ∧ (∀ a, x = .ip6 a ↔ y = .ip6 a) := by
  cases y with
  | tcp a =>
    cases x <;> simp only [unsum, reduceCtorEq] at h
    rename_i a'
    obtain ⟨a1, a2, a3, a4, a5, a6, a7, a8⟩ := a
    obtain ⟨b1, b2, b3, b4, b5, b6, b7, b8⟩ := a'
    simp only [Hdr.tcp.injEq, TCP.mk.injEq] at h
    obtain ⟨rfl, rfl, rfl, rfl, rfl, rfl, rfl, _⟩ := h
    exact ⟨rfl, rfl, id, fun _ => by simp, fun _ => by simp⟩
  | icmp a =>
    cases x <;> simp only [unsum, reduceCtorEq] at h
    rename_i a'
    obtain ⟨a1, a2, a3, a4⟩ := a
    obtain ⟨b1, b2, b3, b4⟩ := a'
    simp only [Hdr.icmp.injEq, ICMPMsg.mk.injEq] at h
    obtain ⟨rfl, rfl, rfl, _⟩ := h
    exact ⟨rfl, rfl, id, fun _ => by simp, fun _ => by simp⟩
  | _ =>
    cases x <;> simp only [unsum, reduceCtorEq] at h
    all_goals (cases h; exact ⟨rfl, rfl, id, fun _ => Iff.rfl, fun _ => Iff.rfl⟩)

theorem unsum_ctx {q p : Packet} (h : q.map unsumItem = p.map unsumItem) : q.ip4? = p.ip4? ∧ q.ip6? = p.ip6? := by
  induction q generalizing p with
  | nil => cases p with
    | nil => exact ⟨rfl, rfl⟩
    | cons y p => simp at h
  | cons x q ih =>
    cases p with
    | nil => simp at h
    | cons y p =>
      simp only [List.map_cons, List.cons.injEq] at h
      obtain ⟨i4, i6⟩ := ih h.2
      have e4 : ∀ (z : Item) (l : Packet), Packet.ip4? (z :: l) = (Packet.ip4? [z]).or (Packet.ip4? l) :=
        fun z l => ip4?_append [z] l
      have e6 : ∀ (z : Item) (l : Packet), Packet.ip6? (z :: l) = (Packet.ip6? [z]).or (Packet.ip6? l) :=
        fun z l => ip6?_append [z] l
      rw [e4 x, e4 y, e6 x, e6 y, i4, i6]
      have key : Packet.ip4? [x] = Packet.ip4? [y] ∧ Packet.ip6? [x] = Packet.ip6? [y] := by
        cases x <;> cases y <;> simp only [unsumItem, reduceCtorEq, Item.hdr.injEq, false_and] at h
        case hdr.hdr a b =>
          obtain ⟨_, hc, _, g4, g6⟩ := unsum_key h.1
          constructor
          · by_cases hb : b.cls = .ip4
            · cases b <;> simp only [Hdr.cls, reduceCtorEq] at hb
              rw [(g4 _).mpr rfl]
            · simp [Packet.ip4?, Packet.byName, hc, hb]
          · by_cases hb : b.cls = .ip6
            · cases b <;> simp only [Hdr.cls, reduceCtorEq] at hb
              rw [(g6 _).mpr rfl]
            · simp [Packet.ip6?, Packet.byName, hc, hb]
        all_goals exact ⟨rfl, rfl⟩
      rw [key.1, key.2]
      exact ⟨rfl, rfl⟩

theorem unsum_finish {ctx : Packet} {tail : Bytes} {q p p' : Packet} {bs : List Bytes}
    (h : q.map unsumItem = p.map unsumItem) (hf : finish ctx tail p = .ok (p', bs)) :
    ∃ q', finish ctx tail q = .ok (q', bs) := by
  induction q generalizing p p' bs with
  | nil => cases p with
    | nil => cases hf; exact ⟨[], rfl⟩
    | cons y p => simp at h
  | cons x q ih =>
    cases p with
    | nil => simp at h
    | cons y p =>
      simp only [List.map_cons, List.cons.injEq] at h
      simp only [finish] at hf ⊢
      obtain ⟨r, hr, hf⟩ := bind_eq_ok.mp hf
      obtain ⟨y', hy, hf⟩ := bind_eq_ok.mp hf
      obtain ⟨b, hb, hf⟩ := bind_eq_ok.mp hf
      cases hf
      obtain ⟨q', hq⟩ := ih h.2 hr
      cases y with
      | hdr k =>
        simp only [Item.pre] at hy
        obtain ⟨k', hk, rfl⟩ := map_eq_ok.mp hy
        cases x <;> simp only [unsumItem, reduceCtorEq, Item.hdr.injEq, false_and] at h
        obtain ⟨x', hx1, hx2⟩ := unsum_wire h.1 hk hb
        simp only [hq, bind_ok, Item.pre, hx1, map_ok, Item.toBytes, hx2]
        exact ⟨_, rfl⟩
      | _ => cases hy

theorem fromBytes_nil (c : Cls) (h : c ≠ .nullHdr) : ∃ e, c.fromBytes [] = .error e := by
  have : ∀ x : Res (Hdr × Option Bytes), x.toOption.isSome = false → ∃ e, x = .error e := by
    intro x hx
    cases x with
    | ok a => cases hx
    | error e => exact ⟨e, rfl⟩
  cases c <;> first | exact absurd rfl h | exact this _ (by decide +kernel)

/-- The headers of a finalised stack can be compared, and the stack compares equal to the original. -/
theorem stack_comparable {c : Cls} {p ctx p' : Packet} {tail : Bytes} {bs : List Bytes} (hs : Stack c p)
    (hf : finish ctx tail p = .ok (p', bs)) :
    AllComparable p' ∧ AllComparable p ∧ p'.map itemCls = p.map itemCls ∧ p'.map itemKey = p.map itemKey := by
  induction p generalizing c p' bs with
  | nil => cases hs
  | cons x rest ih =>
    cases x with
    | bytes _ => cases hs
    | other _ => cases hs
    | hdr h =>
      simp only [Stack] at hs
      obtain ⟨hc, hst, hn⟩ := hs
      simp only [finish] at hf
      obtain ⟨r, hr, hf⟩ := bind_eq_ok.mp hf
      obtain ⟨x', hx, hf⟩ := bind_eq_ok.mp hf
      obtain ⟨b, hb, hf⟩ := bind_eq_ok.mp hf
      cases hf
      simp only [Item.pre] at hx
      obtain ⟨h', hx', rfl⟩ := map_eq_ok.mp hx
      clear hx
      replace hx := hx'
      simp only [Item.toBytes] at hb
      obtain ⟨d1, _, d3⟩ := pre_derived hx
      obtain ⟨d4, _⟩ := Hdr.pre_keys hx
      have hcomp : Comparable h := by
        cases h with
        | icmp m => exact hst.1.2
        | icmp6 m => exact hst.1.2
        | route a => cases hx; exact ⟨b, hb⟩
        | frag a => cases hx; exact ⟨b, hb⟩
        | hop a => cases hx; exact ⟨b, hb⟩
        | dst a => cases hx; exact ⟨b, hb⟩
        | rip a => cases hx; exact ⟨b, hb⟩
        | _ => trivial
      have hrest : AllComparable r.1 ∧ AllComparable rest ∧ r.1.map itemCls = rest.map itemCls ∧
          r.1.map itemKey = rest.map itemKey := by
        cases hq : h.next with
        | error e => rw [hq] at hn; cases hn
        | ok k =>
          rw [hq] at hn
          cases k with
          | some c' => exact ih hn hr
          | none =>
            rcases hn with rfl | ⟨_, y, ys, rfl⟩
            · cases hr
              exact ⟨fun a ha => (by cases ha), fun a ha => (by cases ha), rfl, rfl⟩
            · simp only [finish, bind_ok, Item.pre, Hdr.pre, map_ok, Item.toBytes, Hdr.toBytes] at hr
              cases hr
              refine ⟨?_, ?_, rfl, rfl⟩ <;>
              · intro a ha
                simp only [List.mem_cons, List.not_mem_nil, or_false, Item.hdr.injEq] at ha
                subst ha; trivial
      obtain ⟨q1, q2, q3, q4⟩ := hrest
      refine ⟨?_, ?_, by simp [itemCls, d4, q3], by simp [itemKey, d1, q4]⟩
      · intro a ha
        rcases List.mem_cons.mp ha with ha | ha
        · cases ha; exact d3 hcomp
        · exact q1 a ha
      · intro a ha
        rcases List.mem_cons.mp ha with ha | ha
        · cases ha; exact hcomp
        · exact q2 a ha

/-- **C41**, partial: for every stack of storable headers that announce one another, with an optional
non-empty payload, that serialises: parsing the bytes from the class of the first header gives the
same headers in the same order with the same contents (except that the TCP checksum is forgotten
and ICMP's is filled in), the result compares equal to the packet, and serialises to the same bytes.
Missing: the headers excluded by `Storable`, and empty payloads (`empty_payload_violated`). -/
theorem packet_roundtrip_partial (c : Cls) (p p' : Packet) (b : Bytes) (hs : Stack c p) (h : p.toBytes = (p', .ok b)) :
    ∃ q, Packet.parse b (some c) = .ok q ∧ q.map unsumItem = p'.map unsumItem ∧ q.eq p = .ok true ∧
      q.toBytes.2 = .ok b := by
  obtain ⟨bs, hf, rfl⟩ := toBytes_inv h
  obtain ⟨q, hq1, hq2⟩ := stack_parse hs hf []
  rw [List.nil_append] at hq1
  have hne : bs.flatten ≠ [] := by
    intro he
    have hcn : c ≠ .nullHdr := by
      rintro rfl
      cases p with
      | nil => cases hs
      | cons x p =>
        cases x with
        | hdr a =>
          have hs1 := hs.1
          cases a <;> simp only [Hdr.cls, reduceCtorEq] at hs1
          exact hs.2.1
        | _ => cases hs
    obtain ⟨e, hx⟩ := fromBytes_nil c hcn
    cases p with
    | nil => cases hs
    | cons x p => simp [he, parseLoop, hx] at hq1
  refine ⟨q, parse_of_loop hne hq1, hq2, ?_, ?_⟩
  · obtain ⟨c1, c2, c3, c4⟩ := stack_comparable hs hf
    have hmap : ∀ {q p' : Packet}, q.map unsumItem = p'.map unsumItem → AllComparable p' →
        AllComparable q ∧ q.map itemCls = p'.map itemCls ∧ q.map itemKey = p'.map itemKey := by
      intro q
      induction q with
      | nil =>
        intro p' hm _
        cases p' with
        | nil => exact ⟨fun a ha => (by cases ha), rfl, rfl⟩
        | cons y p' => simp at hm
      | cons x q ih =>
        intro p' hm ha
        cases p' with
        | nil => simp at hm
        | cons y p' =>
          simp only [List.map_cons, List.cons.injEq] at hm
          obtain ⟨i1, i2, i3⟩ := ih hm.2 (fun a h => ha a (List.mem_cons_of_mem _ h))
          cases x <;> cases y <;> simp only [unsumItem, reduceCtorEq, Item.hdr.injEq, false_and] at hm
          case hdr.hdr a b =>
            obtain ⟨k1, k2, k3, _⟩ := unsum_key hm.1
            refine ⟨?_, by simp [itemCls, k2, i2], by simp [itemKey, k1, i3]⟩
            intro z hz
            rcases List.mem_cons.mp hz with hz | hz
            · cases hz; exact k3 (ha b (by simp))
            · exact i1 z hz
          all_goals
            refine ⟨?_, by simp_all [itemCls], by simp_all [itemKey]⟩
            intro z hz
            rcases List.mem_cons.mp hz with hz | hz
            · cases hz
            · exact i1 z hz
    obtain ⟨m1, m2, m3⟩ := hmap hq2 c1
    rw [packet_eq_partial q p (m2.trans c3) m1 c2, m3.trans c4]
    simp
  · have hidem := finish_idem hf
    have hctx : SameCtx p q := by
      have h1 : SameCtx p p' := finish_sameCtx hf []
      obtain ⟨i4, i6⟩ := unsum_ctx hq2
      exact h1.trans ⟨by rw [i4], by rw [i6]⟩
    obtain ⟨q', hq'⟩ := unsum_finish hq2 hidem
    rw [finish_ctx hctx] at hq'
    rw [toBytes_of_finish hq']

/-- The UDP packet of C39 is such a stack. -/
example : Stack .eth exPacket ∧ ∃ p' b, exPacket.toBytes = (p', .ok b) := by
  refine ⟨⟨rfl, ⟨by decide, by decide⟩, rfl, ⟨by decide, rfl⟩, rfl, by show UDP.WF _; decide, .inr ⟨?_, 104, [105], rfl⟩⟩, ?_⟩
  · intro h; rcases h with h | h | h <;> cases h
  · obtain ⟨p', b, h, _⟩ := exPacket_ok
    exact ⟨p', b, h⟩

/-- The negation of **C41** for an empty payload: the payload object does not come back, so the parsed
packet has fewer headers and compares unequal. -/
theorem empty_payload_violated :
    ∃ (p : Packet) (b : Bytes) (q : Packet), p.toBytes.2 = .ok b ∧ p.length = 4 ∧
      Packet.parse b (some .eth) = .ok q ∧ q.length = 3 ∧ q.eq p = .ok false := by
  let p : Packet :=
    [.hdr (.eth ⟨⟨[1, 2, 3, 4, 5, 6]⟩, ⟨[2, 0, 0, 0, 0, 1]⟩, 0x0800⟩),
     .hdr (.ip4 ⟨0, 0, 7, 2, 0, 64, 17, .v4 0x0a000001, .v4 0x0a000002, []⟩),
     .hdr (.udp ⟨5353, 53, 0, 0⟩), .hdr (.raw [])]
  obtain ⟨b, hb, hb2⟩ := Except.of_test (r := p.toBytes.2) (p := fun b =>
    Except.test (Packet.parse b (some .eth)) fun q => decide (q.length = 3)) (by decide +kernel)
  obtain ⟨q, hq, hq2⟩ := Except.of_test hb2
  refine ⟨p, b, q, hb, rfl, hq, by simpa using hq2, packet_eq_length _ _ ?_⟩
  have : q.length = 3 := by simpa using hq2
  rw [this]; decide

end SY.Props
