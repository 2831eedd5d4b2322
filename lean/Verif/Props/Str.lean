import Verif.Str
import Verif.Props.IPText
import Verif.Props.Packet

/-! # Packets as text: C162 (every packet can be printed) and C163 (what the text shows) -/

namespace SY.Props
open SY

/-! ## C162: printing -/

/-- The headers that can be printed: not router advertisements, and not option headers with a Home Address. -/
def Printable : Hdr → Prop
  | .hop h | .dst h => ∀ a, TLV.homeAddress a ∉ h.opts
  | .icmp6 m => ∀ hop f o h p rl re rt os b, m.data ≠ .ra hop f o h p rl re rt os b
  | _ => True

/-- All headers of the packet can be printed. -/
def PrintablePkt (p : Packet) : Prop := ∀ h, .hdr h ∈ p → Printable h

theorem tlvStrs_ok {os : List TLV} (h : ∀ a, TLV.homeAddress a ∉ os) : ∃ l, tlvStrs os = .ok l := by
  induction os with
  | nil => exact ⟨[], rfl⟩
  | cons o os ih =>
    obtain ⟨l, hl⟩ := ih (fun a ha => h a (List.mem_cons_of_mem _ ha))
    cases o with
    | homeAddress a => exact absurd List.mem_cons_self (h a)
    | _ => exact ⟨_, by simp only [tlvStrs, TLV.str, hl, bind_ok]; rfl⟩

theorem tlvStrs_error {os : List TLV} {a : BitVec 128} (h : TLV.homeAddress a ∈ os) :
    tlvStrs os = .error .attributeError := by
  induction os with
  | nil => cases h
  | cons o os ih =>
    rcases List.mem_cons.mp h with h | h
    · subst h; rfl
    · have := ih h
      cases o <;> simp only [tlvStrs, TLV.str, this, bind_ok, bind_error]

theorem hopStr_cases (n : String) (h : HopOpt) :
    ((∃ t, h.str n = .ok t) ∧ ∀ a, TLV.homeAddress a ∉ h.opts) ∨
    (h.str n = .error .attributeError ∧ ∃ a, TLV.homeAddress a ∈ h.opts) := by
  by_cases hh : ∃ a, TLV.homeAddress a ∈ h.opts
  · obtain ⟨a, ha⟩ := hh
    right
    exact ⟨by simp only [HopOpt.str, tlvStrs_error ha, bind_error], a, ha⟩
  · have hh' : ∀ a, TLV.homeAddress a ∉ h.opts := fun a ha => hh ⟨a, ha⟩
    left
    obtain ⟨l, hl⟩ := tlvStrs_ok hh'
    exact ⟨⟨_, by simp only [HopOpt.str, hl, bind_ok]; rfl⟩, hh'⟩

theorem data6Str_cases (d : ICMPv6Data) :
    ((∃ t, d.str = .ok t) ∧ ∀ hop f o h p rl re rt os b, d ≠ .ra hop f o h p rl re rt os b) ∨
    (d.str = .error .attributeError ∧ ∃ hop f o h p rl re rt os b, d = .ra hop f o h p rl re rt os b) := by
  cases d with
  | ra hop f o h p rl re rt os b => right; exact ⟨rfl, hop, f, o, h, p, rl, re, rt, os, b, rfl⟩
  | _ => left; exact ⟨⟨_, rfl⟩, fun _ _ _ _ _ _ _ _ _ _ e => by cases e⟩

/-- A header either can be printed, or printing it raises `AttributeError`. -/
theorem hdr_str_cases (h : Hdr) :
    ((∃ t, h.str = .ok t) ∧ Printable h) ∨ (h.str = .error .attributeError ∧ ¬ Printable h) := by
  cases h with
  | hop x =>
    rcases hopStr_cases "IPv6HopOption" x with ⟨h1, h2⟩ | ⟨h1, a, h2⟩
    · exact .inl ⟨h1, h2⟩
    · exact .inr ⟨h1, fun h => h a h2⟩
  | dst x =>
    rcases hopStr_cases "IPv6DestinationOption" x with ⟨h1, h2⟩ | ⟨h1, a, h2⟩
    · exact .inl ⟨h1, h2⟩
    · exact .inr ⟨h1, fun h => h a h2⟩
  | icmp6 m =>
    rcases data6Str_cases m.data with ⟨⟨t, h1⟩, h2⟩ | ⟨h1, hop, f, o, h, p, rl, re, rt, os, b, h2⟩
    · exact .inl ⟨⟨_, by simp only [Hdr.str, icmp6Str, h1, bind_ok]; rfl⟩, h2⟩
    · exact .inr ⟨by simp only [Hdr.str, icmp6Str, h1, bind_error], fun h' => h' _ _ _ _ _ _ _ _ _ _ h2⟩
  | _ => exact .inl ⟨⟨_, rfl⟩, trivial⟩

theorem strs_cases (p : Packet) :
    ((∃ l, p.strs = .ok l) ∧ PrintablePkt p) ∨ (p.strs = .error .attributeError ∧ ¬ PrintablePkt p) := by
  induction p with
  | nil => exact .inl ⟨⟨[], rfl⟩, fun h hh => by cases hh⟩
  | cons x p ih =>
    have skip : (∀ h, x ≠ .hdr h) → (PrintablePkt (x :: p) ↔ PrintablePkt p) := by
      intro hx
      constructor
      · exact fun h k hk => h k (List.mem_cons_of_mem _ hk)
      · intro h k hk
        rcases List.mem_cons.mp hk with e | e
        · exact absurd e.symm (hx k)
        · exact h k e
    cases x with
    | hdr h =>
      rcases hdr_str_cases h with ⟨⟨t, h1⟩, h2⟩ | ⟨h1, h2⟩
      · rcases ih with ⟨⟨l, h3⟩, h4⟩ | ⟨h3, h4⟩
        · refine .inl ⟨⟨_, by simp only [Packet.strs, h1, h3, bind_ok]; rfl⟩, fun k hk => ?_⟩
          rcases List.mem_cons.mp hk with e | e
          · cases e; exact h2
          · exact h4 k e
        · exact .inr ⟨by simp only [Packet.strs, h1, h3, bind_ok, bind_error],
            fun h' => h4 fun k hk => h' k (List.mem_cons_of_mem _ hk)⟩
      · exact .inr ⟨by simp only [Packet.strs, h1, bind_error], fun h' => h2 (h' h List.mem_cons_self)⟩
    | bytes b => rw [skip (by simp), show Packet.strs (.bytes b :: p) = Packet.strs p from rfl]; exact ih
    | other i => rw [skip (by simp), show Packet.strs (.other i :: p) = Packet.strs p from rfl]; exact ih

/-- **C162**, partial: a packet can be printed exactly if it holds no router advertisement and no Home Address option;
otherwise printing raises `AttributeError`.  Missing: those (`advertisement_str_violated`,
`home_address_str_violated`). -/
theorem packet_str_partial (p : Packet) :
    ((∃ t, p.str = .ok t) ↔ PrintablePkt p) ∧ (p.str = .error .attributeError ↔ ¬ PrintablePkt p) := by
  rcases strs_cases p with ⟨⟨l, h1⟩, h2⟩ | ⟨h1, h2⟩ <;> simp [Packet.str, h1, h2, bind_ok, bind_error]

/-- No packet with a router advertisement can be printed. -/
theorem advertisement_str_violated (p : Packet) (t c s : Nat) (hop rl re rt : Int) (f o h q : Bool) (os : List NDOpt)
    (b : Bytes) (hm : .hdr (.icmp6 ⟨t, c, .ra hop f o h q rl re rt os b, s⟩) ∈ p) : p.str = .error .attributeError :=
  (packet_str_partial p).2.mpr fun h' => h' _ hm _ _ _ _ _ _ _ _ _ _ rfl

/-- No packet with a Home Address option can be printed. -/
theorem home_address_str_violated (p : Packet) (h : HopOpt) (a : BitVec 128) (ha : TLV.homeAddress a ∈ h.opts)
    (hm : .hdr (.hop h) ∈ p ∨ .hdr (.dst h) ∈ p) : p.str = .error .attributeError :=
  (packet_str_partial p).2.mpr fun h' => by
    rcases hm with hm | hm
    · exact h' _ hm a ha
    · exact h' _ hm a ha

/-- The cases: a UDP packet, a router advertisement and a Home Address. -/
example : Packet.str [.hdr (.eth ⟨⟨[1, 2, 3, 4, 5, 6]⟩, ⟨[2, 0, 0, 0, 0, 0xfe]⟩, 0x0800⟩),
      .hdr (.ip4 ⟨0, 0, 7, 2, 0, 64, 17, .v4 0x0a000001, .v4 0x0a000002, []⟩), .hdr (.udp ⟨5353, 53, 0, 0⟩),
      .hdr (.raw [104, 105, 39, 10, 0xfe])] =
    .ok ("Ethernet 02:00:00:00:00:fe->01:02:03:04:05:06 IP | IPv4 10.0.0.1->10.0.0.2 UDP | UDP 5353->53 | " ++
      "RawPacketContents (5 bytes) b\"hi'\\n\\xfe\"").toList ∧
    Packet.str [.hdr (.icmp6 ⟨134, 0, .ra 64 false false false false 1800 0 0 [] [], 0⟩)] = .error .attributeError ∧
    Packet.str [.hdr (.hop ⟨some 59, [.padN 4, .homeAddress 1]⟩)] = .error .attributeError := by decide +kernel

/-! ### Serialising a packet does not change its text -/

theorem pre_str {x x' : Hdr} {t : Bytes} {ctx : Packet} (h : x.pre t ctx = .ok x') : x'.str = x.str := by
  cases x <;> simp only [Hdr.pre] at h
  case ip4 k =>
    obtain ⟨k', hk, rfl⟩ := map_eq_ok.mp h
    unfold IPv4.preSerialize at hk
    obtain ⟨n, _, hk⟩ := bind_eq_ok.mp hk
    cases hk; rfl
  case ip6 k => cases h; rfl
  case udp k =>
    obtain ⟨k', hk, rfl⟩ := map_eq_ok.mp h
    unfold UDP.preSerialize at hk
    obtain ⟨c, _, hk⟩ := bind_eq_ok.mp hk
    cases hk; rfl
  case tcp k =>
    obtain ⟨k', hk, rfl⟩ := map_eq_ok.mp h
    unfold TCP.preSerialize at hk
    obtain ⟨c, _, hk⟩ := bind_eq_ok.mp hk
    cases hk; rfl
  case icmp6 k =>
    obtain ⟨k', hk, rfl⟩ := map_eq_ok.mp h
    unfold icmp6PreSerialize at hk
    split at hk
    · cases hk
    · obtain ⟨c, _, hk⟩ := bind_eq_ok.mp hk
      cases hk; rfl
  all_goals (cases h; rfl)

theorem finish_strs {ctx : Packet} {tail : Bytes} {p p' : Packet} {bs : List Bytes}
    (h : finish ctx tail p = .ok (p', bs)) : p'.strs = p.strs := by
  induction p generalizing p' bs with
  | nil => cases h; rfl
  | cons y p ih =>
    simp only [finish] at h
    obtain ⟨r, hr, h⟩ := bind_eq_ok.mp h
    obtain ⟨y', hy, h⟩ := bind_eq_ok.mp h
    obtain ⟨b, hb, h⟩ := bind_eq_ok.mp h
    cases h
    cases y with
    | hdr k =>
      simp only [Item.pre] at hy
      obtain ⟨k', hk, e⟩ := map_eq_ok.mp hy
      cases e
      simp only [Packet.strs, pre_str hk, ih hr]
    | _ => cases hy

/-- **C162**: serialising a packet, which fills in lengths and checksums, does not change its text. -/
theorem str_after_bytes (p p' : Packet) (b : Bytes) (h : p.toBytes = (p', .ok b)) : p'.str = p.str := by
  obtain ⟨bs, hf, _⟩ := toBytes_inv h
  simp only [Packet.str, finish_strs hf]

/-! ## C163: what the text shows -/

/-- Ethernet addresses of six bytes and known types and protocols, as the setters leave them (C05, C06). -/
def PlainHdr : Hdr → Prop
  | .eth h => h.src.raw.length = 6 ∧ h.dst.raw.length = 6 ∧ h.ethertype ∈ etherTypes
  | .vlan h => h.ethertype ∈ etherTypes
  | .arp h => h.senderhwaddr.raw.length = 6 ∧ h.targethwaddr.raw.length = 6
  | .ip4 h => h.protocol ∈ ipProtocols
  | .ip6 h => h.next ∈ ipProtocols
  | .udp _ | .tcp _ => True
  | _ => False

/-- The headers agree in what is shown: class, addresses, ports, the type of what follows; for VLAN tags the
identifier, for TCP flags and sequence numbers. -/
def LookAlike : Hdr → Hdr → Prop
  | .eth x, .eth y => x.src = y.src ∧ x.dst = y.dst ∧ x.ethertype = y.ethertype
  | .vlan x, .vlan y => x.vlanid = y.vlanid ∧ x.ethertype = y.ethertype
  | .arp x, .arp y => x.senderhwaddr = y.senderhwaddr ∧ x.senderprotoaddr = y.senderprotoaddr ∧
      x.targethwaddr = y.targethwaddr ∧ x.targetprotoaddr = y.targetprotoaddr
  | .ip4 x, .ip4 y => x.src = y.src ∧ x.dst = y.dst ∧ x.protocol = y.protocol
  | .ip6 x, .ip6 y => x.src = y.src ∧ x.dst = y.dst ∧ x.next = y.next
  | .udp x, .udp y => x.src = y.src ∧ x.dst = y.dst
  | .tcp x, .tcp y => x.src = y.src ∧ x.dst = y.dst ∧ (∀ f, x.isset f = y.isset f) ∧ x.seq = y.seq ∧ x.ack = y.ack
  | _, _ => False

theorem cut_at {c : Char} {a b x y : Text} (ha : c ∉ a) (hb : c ∉ b) (h : a ++ c :: x = b ++ c :: y) : a = b ∧ x = y := by
  induction a generalizing b with
  | nil =>
    cases b with
    | nil => simpa using h
    | cons d b =>
      simp only [List.nil_append, List.cons_append, List.cons.injEq] at h
      exact absurd (h.1 ▸ List.mem_cons_self) hb
  | cons d a ih =>
    cases b with
    | nil =>
      simp only [List.nil_append, List.cons_append, List.cons.injEq] at h
      exact absurd (h.1 ▸ List.mem_cons_self) ha
    | cons e b =>
      simp only [List.cons_append, List.cons.injEq] at h
      obtain ⟨rfl, h⟩ := h
      obtain ⟨rfl, rfl⟩ := ih (fun m => ha (List.mem_cons_of_mem _ m)) (fun m => hb (List.mem_cons_of_mem _ m)) h
      exact ⟨rfl, rfl⟩

theorem intText_inj {a b : Int} (h : intText a = intText b) : a = b := by
  have neg : ∀ n m : Nat, natText n ≠ '-' :: natText m := fun n m e =>
    natText_not_mem n '-' (by decide) (by rw [e]; exact List.mem_cons_self)
  unfold intText at h
  split at h <;> split at h
  · have := natText_inj h; omega
  · exact absurd h (neg _ _)
  · exact absurd h.symm (neg _ _)
  · have := natText_inj (List.cons.inj h).2; omega

theorem intText_not_mem (a : Int) (c : Char) (hc : c.isDigit = false) (hm : c ≠ '-') : c ∉ intText a := by
  unfold intText
  split
  · exact natText_not_mem _ _ hc
  · simp only [List.mem_cons, not_or]
    exact ⟨hm, natText_not_mem _ _ hc⟩

theorem etherName_inj : ∀ v ∈ etherTypes, ∀ w ∈ etherTypes, enumName etherTypeNames v = enumName etherTypeNames w → v = w := by
  decide +kernel

theorem protoName_inj : ∀ v ∈ ipProtocols, ∀ w ∈ ipProtocols, enumName ipProtocolNames v = enumName ipProtocolNames w → v = w := by
  decide +kernel

theorem toStr_length (a : EthAddr) (h : a.raw.length = 6) : a.toStr.length = 17 := by
  obtain ⟨r⟩ := a
  match r, h with
  | [a, b, c, d, e, f], _ => rfl

theorem toStr_not_mem (a : EthAddr) (c : Char) (hc : ∀ k : Fin 16, hexChar k.val ≠ c) (hd : c ≠ ':') : c ∉ a.toStr := by
  unfold EthAddr.toStr
  apply not_mem_join c ':' hd
  intro q hq
  obtain ⟨x, _, rfl⟩ := List.mem_map.mp hq
  have := x.toNat_lt
  simp only [fmt02x, List.mem_cons, List.not_mem_nil, or_false, not_or]
  exact ⟨fun e => hc ⟨x.toNat / 16, by omega⟩ e.symm, fun e => hc ⟨x.toNat % 16, by omega⟩ e.symm⟩

theorem ipText_not_mem (a : IPAddr) (c : Char) (hc : ∀ k : Fin 16, k.val.digitChar ≠ c) (hi : c.isDigit = false)
    (hd : c ≠ ':') (he : c ≠ '.') : c ∉ a.text := by
  cases a with
  | v4 a => exact ipv4Text_not_mem a c hi he
  | v6 a =>
    simp only [IPAddr.text, ipv6Text]
    apply not_mem_join c ':' hd
    intro q hq
    rcases mem_compress _ _ hq with rfl | hq
    · simp
    · unfold hextets at hq
      obtain ⟨i, _, rfl⟩ := List.mem_map.mp hq
      exact hex_not_mem _ _ hc

theorem flagstr_inj {x y : TCP} (h : x.flagstr = y.flagstr) (f : TCPFlag) : x.isset f = y.isset f := by
  have key : ∀ z : TCP, f.letter ∈ z.flagstr ↔ z.isset f = true := by
    intro z
    unfold TCP.flagstr
    rw [List.mem_map]
    constructor
    · rintro ⟨g, hg, e⟩
      have : g = f := by revert e; cases g <;> cases f <;> decide
      subst this
      exact (List.mem_filter.mp hg).2
    · intro hz
      exact ⟨f, List.mem_filter.mpr ⟨by cases f <;> decide, hz⟩, rfl⟩
  have h1 := key x
  rw [h, key y] at h1
  cases hx : x.isset f <;> cases hy : y.isset f <;> simp_all

theorem flagstr_congr {x y : TCP} (h : ∀ f, x.isset f = y.isset f) : x.flagstr = y.flagstr := by
  unfold TCP.flagstr
  rw [List.filter_congr (fun f _ => h f)]

theorem flagstr_not_mem (x : TCP) (c : Char) (hc : ∀ f : TCPFlag, f.letter ≠ c) : c ∉ x.flagstr := by
  unfold TCP.flagstr
  rw [List.mem_map]
  rintro ⟨f, _, e⟩
  exact hc f e

/-- The first four characters of the text of a header. -/
def tag : Hdr → Text
  | .eth _ => "Ethe".toList | .vlan _ => "Vlan".toList | .arp _ => "Arp ".toList | .ip4 _ => "IPv4".toList
  | .ip6 _ => "IPv6".toList | .udp _ => "UDP ".toList | .tcp _ => "TCP ".toList | _ => []

theorem str_tag {x : Hdr} {t : Text} (hx : PlainHdr x) (h : x.str = .ok t) : t.take 4 = tag x := by
  cases x <;> first | exact hx.elim | (cases h; rfl)

theorem eth_str_inj {x y : Ethernet} (hx : PlainHdr (.eth x)) (hy : PlainHdr (.eth y)) (h : x.str = y.str) :
    x.src = y.src ∧ x.dst = y.dst ∧ x.ethertype = y.ethertype := by
  unfold Ethernet.str at h
  simp only [List.append_assoc] at h
  have h := List.append_cancel_left h
  obtain ⟨h1, h⟩ := cut_at (c := '-') (toStr_not_mem _ _ (by decide) (by decide)) (toStr_not_mem _ _ (by decide) (by decide)) h
  obtain ⟨h2, h⟩ := cut_at (c := ' ') (toStr_not_mem _ _ (by decide) (by decide)) (toStr_not_mem _ _ (by decide) (by decide))
    (List.cons.inj h).2
  exact ⟨ethaddr_text_injective _ _ hx.1 hy.1 h1, ethaddr_text_injective _ _ hx.2.1 hy.2.1 h2,
    etherName_inj _ hx.2.2 _ hy.2.2 h⟩

theorem vlan_str_inj {x y : Vlan} (hx : PlainHdr (.vlan x)) (hy : PlainHdr (.vlan y)) (h : x.str = y.str) :
    x.vlanid = y.vlanid ∧ x.ethertype = y.ethertype := by
  unfold Vlan.str at h
  simp only [List.append_assoc] at h
  have h := List.append_cancel_left h
  obtain ⟨h1, h⟩ := cut_at (c := ' ') (intText_not_mem _ _ (by decide) (by decide)) (intText_not_mem _ _ (by decide) (by decide)) h
  exact ⟨by have := intText_inj h1; omega, etherName_inj _ hx _ hy h⟩

theorem arp_str_inj {x y : Arp} (hx : PlainHdr (.arp x)) (hy : PlainHdr (.arp y)) (h : x.str = y.str) :
    x.senderhwaddr = y.senderhwaddr ∧ x.senderprotoaddr = y.senderprotoaddr ∧
      x.targethwaddr = y.targethwaddr ∧ x.targetprotoaddr = y.targetprotoaddr := by
  unfold Arp.str at h
  simp only [List.append_assoc] at h
  have h := List.append_cancel_left h
  obtain ⟨h1, h⟩ := List.append_inj h (by rw [toStr_length _ hx.1, toStr_length _ hy.1])
  have h := List.append_cancel_left h
  obtain ⟨h2, h⟩ := cut_at (c := ' ') (ipText_not_mem _ _ (by decide) (by decide) (by decide) (by decide))
    (ipText_not_mem _ _ (by decide) (by decide) (by decide) (by decide)) h
  have hl : x.targethwaddr.toStr.length = y.targethwaddr.toStr.length := by rw [toStr_length _ hx.2, toStr_length _ hy.2]
  obtain ⟨h3, h4⟩ := List.append_inj (s₁ := x.targethwaddr.toStr) (s₂ := y.targethwaddr.toStr) h hl
  have h := List.append_cancel_left h4
  exact ⟨ethaddr_text_injective _ _ hx.1 hy.1 h1, ipText_inj h2, ethaddr_text_injective _ _ hx.2 hy.2 h3, ipText_inj h⟩

theorem ip4_str_inj {x y : IPv4} (hx : PlainHdr (.ip4 x)) (hy : PlainHdr (.ip4 y)) (h : x.str = y.str) :
    x.src = y.src ∧ x.dst = y.dst ∧ x.protocol = y.protocol := by
  unfold IPv4.str at h
  simp only [List.append_assoc] at h
  have h := List.append_cancel_left h
  obtain ⟨h1, h⟩ := cut_at (c := '-') (ipText_not_mem _ _ (by decide) (by decide) (by decide) (by decide))
    (ipText_not_mem _ _ (by decide) (by decide) (by decide) (by decide)) h
  obtain ⟨h2, h⟩ := cut_at (c := ' ') (ipText_not_mem _ _ (by decide) (by decide) (by decide) (by decide))
    (ipText_not_mem _ _ (by decide) (by decide) (by decide) (by decide)) (List.cons.inj h).2
  exact ⟨ipText_inj h1, ipText_inj h2, protoName_inj _ hx _ hy h⟩

theorem ip6_str_inj {x y : IPv6} (hx : PlainHdr (.ip6 x)) (hy : PlainHdr (.ip6 y)) (h : x.str = y.str) :
    x.src = y.src ∧ x.dst = y.dst ∧ x.next = y.next := by
  have nm : ∀ (a : BitVec 128) (c : Char), (∀ k : Fin 16, k.val.digitChar ≠ c) → c.isDigit = false → c ≠ ':' → c ≠ '.' →
      c ∉ ipv6Text a := fun a c => ipText_not_mem (.v6 a) c
  have inj : ∀ {a b : BitVec 128}, ipv6Text a = ipv6Text b → a = b := by
    intro a b e
    have := ipText_inj (a := .v6 a) (b := .v6 b) e
    cases this; rfl
  unfold IPv6.str at h
  simp only [List.append_assoc] at h
  have h := List.append_cancel_left h
  obtain ⟨h1, h⟩ := cut_at (c := '-') (nm _ _ (by decide) (by decide) (by decide) (by decide))
    (nm _ _ (by decide) (by decide) (by decide) (by decide)) h
  obtain ⟨h2, h⟩ := cut_at (c := ' ') (nm _ _ (by decide) (by decide) (by decide) (by decide))
    (nm _ _ (by decide) (by decide) (by decide) (by decide)) (List.cons.inj h).2
  exact ⟨inj h1, inj h2, protoName_inj _ hx _ hy h⟩

theorem arrow_inj {a b : Int} {x y : Text} (h : intText a ++ ("->".toList ++ x) = intText b ++ ("->".toList ++ y)) :
    a = b ∧ x = y := by
  have nm : ∀ c : Int, '>' ∉ intText c ++ ['-'] := fun c => by
    simp only [List.mem_append, not_or]
    exact ⟨intText_not_mem _ _ (by decide) (by decide), by decide⟩
  have e : (intText a ++ ['-']) ++ '>' :: x = (intText b ++ ['-']) ++ '>' :: y := by simpa using h
  obtain ⟨h1, h2⟩ := cut_at (nm a) (nm b) e
  exact ⟨intText_inj (List.append_cancel_right h1), h2⟩

theorem udp_str_inj {x y : UDP} (h : x.str = y.str) : x.src = y.src ∧ x.dst = y.dst := by
  unfold UDP.str at h
  simp only [List.append_assoc] at h
  obtain ⟨h1, h2⟩ := arrow_inj (List.append_cancel_left h)
  exact ⟨h1, intText_inj h2⟩

theorem tcp_str_inj {x y : TCP} (h : x.str = y.str) :
    x.src = y.src ∧ x.dst = y.dst ∧ (∀ f, x.isset f = y.isset f) ∧ x.seq = y.seq ∧ x.ack = y.ack := by
  unfold TCP.str at h
  simp only [List.append_assoc] at h
  obtain ⟨h1, h⟩ := arrow_inj (List.append_cancel_left h)
  obtain ⟨h2, h⟩ := cut_at (c := ' ') (intText_not_mem _ _ (by decide) (by decide)) (intText_not_mem _ _ (by decide) (by decide)) h
  obtain ⟨h3, h⟩ := cut_at (c := ' ') (flagstr_not_mem _ _ (by intro f; cases f <;> decide))
    (flagstr_not_mem _ _ (by intro f; cases f <;> decide)) (List.cons.inj h).2
  obtain ⟨h4, h⟩ := cut_at (c := ':') (intText_not_mem _ _ (by decide) (by decide)) (intText_not_mem _ _ (by decide) (by decide)) h
  exact ⟨h1, intText_inj h2, flagstr_inj h3, intText_inj h4, intText_inj (List.append_cancel_right h)⟩

theorem eth_str_congr {x y : Ethernet} (h : x.src = y.src ∧ x.dst = y.dst ∧ x.ethertype = y.ethertype) : x.str = y.str := by
  unfold Ethernet.str; rw [h.1, h.2.1, h.2.2]

theorem vlan_str_congr {x y : Vlan} (h : x.vlanid = y.vlanid ∧ x.ethertype = y.ethertype) : x.str = y.str := by
  unfold Vlan.str; rw [h.1, h.2]

theorem arp_str_congr {x y : Arp} (h : x.senderhwaddr = y.senderhwaddr ∧ x.senderprotoaddr = y.senderprotoaddr ∧
    x.targethwaddr = y.targethwaddr ∧ x.targetprotoaddr = y.targetprotoaddr) : x.str = y.str := by
  unfold Arp.str; rw [h.1, h.2.1, h.2.2.1, h.2.2.2]

theorem ip4_str_congr {x y : IPv4} (h : x.src = y.src ∧ x.dst = y.dst ∧ x.protocol = y.protocol) : x.str = y.str := by
  unfold IPv4.str; rw [h.1, h.2.1, h.2.2]

theorem ip6_str_congr {x y : IPv6} (h : x.src = y.src ∧ x.dst = y.dst ∧ x.next = y.next) : x.str = y.str := by
  unfold IPv6.str; rw [h.1, h.2.1, h.2.2]

theorem udp_str_congr {x y : UDP} (h : x.src = y.src ∧ x.dst = y.dst) : x.str = y.str := by
  unfold UDP.str; rw [h.1, h.2]

theorem tcp_str_congr {x y : TCP} (h : x.src = y.src ∧ x.dst = y.dst ∧ (∀ f, x.isset f = y.isset f) ∧ x.seq = y.seq ∧
    x.ack = y.ack) : x.str = y.str := by
  unfold TCP.str; rw [h.1, h.2.1, flagstr_congr h.2.2.1, h.2.2.2.1, h.2.2.2.2]

theorem lookAlike_str {x y : Hdr} (h : LookAlike x y) : x.str = y.str := by
  unfold LookAlike at h
  split at h
  · exact congrArg Except.ok (eth_str_congr h)
  · exact congrArg Except.ok (vlan_str_congr h)
  · exact congrArg Except.ok (arp_str_congr h)
  · exact congrArg Except.ok (ip4_str_congr h)
  · exact congrArg Except.ok (ip6_str_congr h)
  · exact congrArg Except.ok (udp_str_congr h)
  · exact congrArg Except.ok (tcp_str_congr h)
  · exact h.elim

/-- **C163** for one header: the texts are the same exactly if the headers agree in what is shown. -/
theorem hdr_str_same {x y : Hdr} (hx : PlainHdr x) (hy : PlainHdr y) : x.str = y.str ↔ LookAlike x y := by
  constructor
  · intro h
    have ht : tag x = tag y := by
      obtain ⟨t, hs⟩ : ∃ t, x.str = .ok t := by cases x <;> first | exact hx.elim | exact ⟨_, rfl⟩
      rw [← str_tag hx hs, ← str_tag hy (h ▸ hs)]
    cases x <;> first
      | exact hx.elim
      | (cases y <;> first
          | exact hy.elim
          | (exfalso; revert ht; simp only [tag]; decide)
          | exact eth_str_inj hx hy (Except.ok.inj h)
          | exact vlan_str_inj hx hy (Except.ok.inj h)
          | exact arp_str_inj hx hy (Except.ok.inj h)
          | exact ip4_str_inj hx hy (Except.ok.inj h)
          | exact ip6_str_inj hx hy (Except.ok.inj h)
          | exact udp_str_inj (Except.ok.inj h)
          | exact tcp_str_inj (Except.ok.inj h))
  · exact lookAlike_str

theorem names_no_bar : (∀ v ∈ etherTypes, '|' ∉ enumName etherTypeNames v) ∧
    (∀ v ∈ ipProtocols, '|' ∉ enumName ipProtocolNames v) := by decide +kernel

theorem plain_no_bar {x : Hdr} {t : Text} (hx : PlainHdr x) (h : x.str = .ok t) : '|' ∉ t ∧ t ≠ [] := by
  have i : ∀ v : Int, '|' ∉ intText v := fun v => intText_not_mem _ _ (by decide) (by decide)
  have e : ∀ a : EthAddr, '|' ∉ a.toStr := fun a => toStr_not_mem _ _ (by decide) (by decide)
  have ip : ∀ a : IPAddr, '|' ∉ a.text := fun a => ipText_not_mem _ _ (by decide) (by decide) (by decide) (by decide)
  have ip6 : ∀ a : BitVec 128, '|' ∉ ipv6Text a := fun a => ip (.v6 a)
  have fl : ∀ x : TCP, '|' ∉ x.flagstr := fun x => flagstr_not_mem _ _ (by intro f; cases f <;> decide)
  refine ⟨?_, fun hn => ?_⟩
  · cases x <;> first | exact hx.elim | obtain rfl := Except.ok.inj h
    case eth x => unfold Ethernet.str; simp [e, names_no_bar.1 _ hx.2.2]
    case vlan x => unfold Vlan.str; simp [i, names_no_bar.1 _ hx]
    case arp x => unfold Arp.str; simp [e, ip]
    case ip4 x => unfold IPv4.str; simp [ip, names_no_bar.2 _ hx]
    case ip6 x => unfold IPv6.str; simp [ip6, names_no_bar.2 _ hx]
    case udp x => unfold UDP.str; simp [i]
    case tcp x => unfold TCP.str; simp [i, fl]
  · have := str_tag hx h
    subst hn
    cases x <;> first | exact hx.elim | (revert this; simp only [tag]; decide)

theorem joinBar_inj {l m : List Text} (hl : ∀ t ∈ l, '|' ∉ t ∧ t ≠ []) (hm : ∀ t ∈ m, '|' ∉ t ∧ t ≠ [])
    (h : joinText " | ".toList l = joinText " | ".toList m) : l = m := by
  have sp : ∀ (a b : Text), a ++ " | ".toList ++ b = (a ++ [' ']) ++ '|' :: (' ' :: b) := fun a b => by simp
  have ns : ∀ a : Text, '|' ∉ a → '|' ∉ a ++ [' '] := fun a ha => by simp [ha]
  induction l generalizing m with
  | nil =>
    match m with
    | [] => rfl
    | [x] => exact absurd (show x = [] from h.symm) (hm x List.mem_cons_self).2
    | x :: y :: r =>
      rw [joinText, joinText, sp] at h
      exact absurd h (by simp)
  | cons a l ih =>
    match l, m with
    | [], [] => exact absurd (show a = [] from h) (hl a List.mem_cons_self).2
    | [], [x] => rw [show a = x from h]
    | [], x :: y :: r =>
      rw [joinText, joinText, sp] at h
      exact absurd (h ▸ by simp) (hl a List.mem_cons_self).1
    | b :: l, [] =>
      rw [joinText, joinText, sp] at h
      exact absurd h (by simp)
    | b :: l, [x] =>
      rw [joinText, joinText, sp] at h
      exact absurd (h ▸ by simp) (hm x List.mem_cons_self).1
    | b :: l, x :: y :: r =>
      rw [joinText, joinText, sp, sp] at h
      obtain ⟨h1, h2⟩ := cut_at (ns _ (hl a List.mem_cons_self).1) (ns _ (hm x List.mem_cons_self).1) h
      rw [List.append_cancel_right h1, ih (m := y :: r) (fun t ht => hl t (List.mem_cons_of_mem _ ht))
        (fun t ht => hm t (List.mem_cons_of_mem _ ht)) (List.cons.inj h2).2]

/-- A packet of such headers. -/
def ShownPkt (p : Packet) : Prop := ∀ x ∈ p, ∃ h, x = .hdr h ∧ PlainHdr h

/-- The packets have equally many headers, which agree one by one in what is shown. -/
def LookAlikePkt : Packet → Packet → Prop
  | [], [] => True
  | .hdr x :: p, .hdr y :: q => LookAlike x y ∧ LookAlikePkt p q
  | _, _ => False

theorem plain_strs {p : Packet} (hp : ShownPkt p) : ∃ l, p.strs = .ok l ∧ ∀ t ∈ l, '|' ∉ t ∧ t ≠ [] := by
  induction p with
  | nil => exact ⟨[], rfl, fun t ht => by cases ht⟩
  | cons x p ih =>
    obtain ⟨h, rfl, hh⟩ := hp x List.mem_cons_self
    obtain ⟨l, hl, hn⟩ := ih fun y hy => hp y (List.mem_cons_of_mem _ hy)
    obtain ⟨t, ht⟩ : ∃ t, h.str = .ok t := by cases h <;> first | exact hh.elim | exact ⟨_, rfl⟩
    refine ⟨t :: l, by simp only [Packet.strs, ht, hl, bind_ok], fun u hu => ?_⟩
    rcases List.mem_cons.mp hu with rfl | hu
    · exact plain_no_bar hh ht
    · exact hn u hu

theorem strs_same {p q : Packet} (hp : ShownPkt p) (hq : ShownPkt q) : p.strs = q.strs ↔ LookAlikePkt p q := by
  induction p generalizing q with
  | nil =>
    cases q with
    | nil => simp [LookAlikePkt]
    | cons y q =>
      obtain ⟨k, rfl, hk⟩ := hq y List.mem_cons_self
      obtain ⟨l, hl, _⟩ := plain_strs (p := q) fun y hy => hq y (List.mem_cons_of_mem _ hy)
      obtain ⟨t, ht⟩ : ∃ t, k.str = .ok t := by cases k <;> first | exact hk.elim | exact ⟨_, rfl⟩
      simp [LookAlikePkt, Packet.strs, ht, hl, bind_ok]
  | cons x p ih =>
    obtain ⟨h, rfl, hh⟩ := hp x List.mem_cons_self
    have hp' : ShownPkt p := fun y hy => hp y (List.mem_cons_of_mem _ hy)
    obtain ⟨l, hl, _⟩ := plain_strs hp'
    obtain ⟨t, ht⟩ : ∃ t, h.str = .ok t := by cases h <;> first | exact hh.elim | exact ⟨_, rfl⟩
    cases q with
    | nil => simp [LookAlikePkt, Packet.strs, ht, hl, bind_ok]
    | cons y q =>
      obtain ⟨k, rfl, hk⟩ := hq y List.mem_cons_self
      have hq' : ShownPkt q := fun y hy => hq y (List.mem_cons_of_mem _ hy)
      obtain ⟨m, hm, _⟩ := plain_strs hq'
      obtain ⟨u, hu⟩ : ∃ t, k.str = .ok t := by cases k <;> first | exact hk.elim | exact ⟨_, rfl⟩
      rw [LookAlikePkt, ← hdr_str_same hh hk, ← ih hp' hq']
      simp [Packet.strs, ht, hl, hu, hm, bind_ok]

/-- **C163**, partial: two packets of Ethernet, VLAN, ARP, IP, UDP and TCP headers have the same text exactly if they
have the same headers, which agree in addresses, ports, the type of what follows, VLAN identifiers, TCP flags and
sequence numbers.  Missing: the other headers, and what is not shown (`arp_operation_violated`,
`redirect_shown_violated`, `raw_rest_violated`). -/
theorem packet_str_same_partial (p q : Packet) (hp : ShownPkt p) (hq : ShownPkt q) :
    p.str = q.str ↔ LookAlikePkt p q := by
  rw [← strs_same hp hq]
  obtain ⟨l, hl, h1⟩ := plain_strs hp
  obtain ⟨m, hm, h2⟩ := plain_strs hq
  rw [Packet.str, Packet.str, hl, hm, bind_ok, bind_ok]
  exact ⟨fun h => by rw [joinBar_inj h1 h2 (Except.ok.inj h)], fun h => by cases h; rfl⟩

/-- Two TCP packets that differ in the flags, and two that differ only in time to live and window. -/
example : ∃ p q r : Packet, ShownPkt p ∧ ShownPkt q ∧ ShownPkt r ∧ ¬ LookAlikePkt p q ∧ LookAlikePkt p r ∧ p ≠ r ∧
    p.length = 3 := by
  refine ⟨[.hdr (.eth ⟨⟨[1, 2, 3, 4, 5, 6]⟩, ⟨[2, 0, 0, 0, 0, 0xfe]⟩, 0x0800⟩),
      .hdr (.ip4 ⟨0, 0, 7, 2, 0, 64, 6, .v4 0x0a000001, .v4 0x0a000002, []⟩), .hdr (.tcp ⟨80, 81, 1, 2, 2, 0, 0, 0⟩)],
    [.hdr (.eth ⟨⟨[1, 2, 3, 4, 5, 6]⟩, ⟨[2, 0, 0, 0, 0, 0xfe]⟩, 0x0800⟩),
      .hdr (.ip4 ⟨0, 0, 7, 2, 0, 64, 6, .v4 0x0a000001, .v4 0x0a000002, []⟩),
      .hdr (.tcp ⟨80, 81, 1, 2, 18, 0, 0, 0⟩)],
    [.hdr (.eth ⟨⟨[1, 2, 3, 4, 5, 6]⟩, ⟨[2, 0, 0, 0, 0, 0xfe]⟩, 0x0800⟩),
      .hdr (.ip4 ⟨0, 0, 7, 2, 0, 63, 6, .v4 0x0a000001, .v4 0x0a000002, []⟩),
      .hdr (.tcp ⟨80, 81, 1, 2, 2, 9, 0, 0⟩)], ?_, ?_, ?_, ?_, ?_, ?_, rfl⟩ <;>
    simp [ShownPkt, LookAlikePkt, LookAlike, PlainHdr] <;>
    first | decide | exact ⟨.ACK, by decide⟩ | (intro f; cases f <;> decide)

/-- An ARP request and the reply with the same addresses have the same text. -/
theorem arp_operation_violated (h : Arp) (op : Nat) : { h with operation := op }.str = h.str := rfl

/-- Redirects to different destinations have the same text. -/
theorem redirect_shown_violated (t d d' : BitVec 128) (os : List NDOpt) (b : Bytes) :
    (ICMPv6Data.redirect t d os b).str = (ICMPv6Data.redirect t d' os b).str := rfl

/-- Raw contents of the same length that agree in the first ten bytes have the same text. -/
theorem raw_rest_violated (b c : Bytes) (hl : b.length = c.length) (ht : b.take 10 = c.take 10) : rawStr b = rawStr c := by
  unfold rawStr; rw [hl, ht]

end SY.Props
