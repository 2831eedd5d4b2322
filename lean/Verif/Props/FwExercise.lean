import Verif.FwExercise
import Verif.Props.Forward
import Verif.Props.UdpStack
import Verif.Props.Arp

/-! # C226: the tests of the firewall exercise -/

namespace SY.Props

open SY

/-- The addresses 192.168.42.0 to 192.168.42.255. -/
def Forbidden (a : Nat) : Prop := 0xc0a82a00 ≤ a ∧ a ≤ 0xc0a82aff

/-- The addresses 192.168.0.0 to 192.168.255.255. -/
def Inside (a : Nat) : Prop := 0xc0a80000 ≤ a ∧ a ≤ 0xc0a8ffff

instance (a : Nat) : Decidable (Forbidden a) := by unfold Forbidden; infer_instance
instance (a : Nat) : Decidable (Inside a) := by unfold Inside; infer_instance

theorem verdict_forbidden {k : FwKey} (h : Forbidden k.src ∨ Forbidden k.dst) : fwVerdict exerciseRules k = false := by
  unfold exerciseRules
  unfold Forbidden at h
  simp only [fwVerdict, FwRule.matches, fwIs, fwInNet, Bool.true_and, Bool.and_true, decide_eq_true_eq]
  rcases h with h | h
  · rw [if_pos (by omega)]
  · by_cases h1 : k.src / 2 ^ (32 - 24) = 3232246272 / 2 ^ (32 - 24)
    · rw [if_pos h1]
    · rw [if_neg h1, if_pos (by omega)]

theorem verdict_udp {s d : Nat} {sp dp : Int} (h1 : ¬ Forbidden s) (h2 : ¬ Forbidden d) :
    fwVerdict exerciseRules ⟨17, s, sp, d, dp⟩ = true ↔ (Inside s ∧ dp = 53) ∨ (sp = 53 ∧ Inside d) := by
  unfold exerciseRules
  unfold Forbidden at h1 h2
  unfold Inside
  simp only [fwVerdict, FwRule.matches, fwIs, fwInNet, Bool.true_and, Bool.and_true, decide_eq_true_eq, Bool.and_eq_true]
  rw [if_neg (by omega), if_neg (by omega), if_neg (by omega), if_neg (by omega)]
  simp
  omega

theorem verdict_permit {ps rest : List FwRule} {k : FwKey} (hp : ∀ r ∈ ps, r.permit = true) (h : ∃ r ∈ ps, r.matches k = true) :
    fwVerdict (ps ++ rest) k = true := by
  induction ps with
  | nil => obtain ⟨r, hr, _⟩ := h; cases hr
  | cons r ps ih =>
    rw [List.cons_append, fwVerdict]
    by_cases hm : r.matches k = true
    · rw [if_pos hm]; exact hp r (by simp)
    · rw [if_neg hm]
      obtain ⟨x, hx, he⟩ := h
      rcases List.mem_cons.mp hx with rfl | hx
      · exact absurd he hm
      · exact ih (fun r hr => hp r (by simp [hr])) ⟨x, hx, he⟩

theorem verdict_allowed {k : FwKey} (h1 : ¬ Forbidden k.src) (h2 : ¬ Forbidden k.dst)
    (h : ∃ r ∈ (exerciseRules.drop 2).take 11, r.matches k = true) : fwVerdict exerciseRules k = true := by
  have he : exerciseRules = exerciseRules.take 2 ++ ((exerciseRules.drop 2).take 11 ++ exerciseRules.drop 13) := rfl
  rw [he]
  generalize hps : (exerciseRules.drop 2).take 11 ++ exerciseRules.drop 13 = rest
  unfold Forbidden at h1 h2
  simp only [exerciseRules, List.take_succ_cons, List.take_zero, List.cons_append, List.nil_append, fwVerdict, FwRule.matches, fwIs,
    fwInNet, Bool.true_and, Bool.and_true, decide_eq_true_eq]
  rw [if_neg (by omega), if_neg (by omega), ← hps]
  exact verdict_permit (by decide) h

theorem verdict_tcp {s d : Nat} {sp dp : Int} (h1 : ¬ Forbidden s) (h2 : ¬ Forbidden d)
    (h : (s = 0xc0a80d0d ∧ sp = 80) ∨ (d = 0xc0a80d0d ∧ dp = 80) ∨ (Inside s ∧ dp = 80) ∨ (Inside d ∧ sp = 80) ∨
      (Inside s ∧ dp = 443) ∨ (Inside d ∧ sp = 443)) : fwVerdict exerciseRules ⟨6, s, sp, d, dp⟩ = true := by
  refine verdict_allowed h1 h2 ?_
  unfold Inside at h
  rcases h with ⟨rfl, rfl⟩ | ⟨rfl, rfl⟩ | ⟨h, rfl⟩ | ⟨h, rfl⟩ | ⟨h, rfl⟩ | ⟨h, rfl⟩
  · exact ⟨⟨true, some 6, some (0xc0a80d0d, 32), some 80, none, none⟩, by decide, by simp [FwRule.matches, fwIs, fwInNet]⟩
  · exact ⟨⟨true, some 6, none, none, some (0xc0a80d0d, 32), some 80⟩, by decide, by simp [FwRule.matches, fwIs, fwInNet]⟩
  · exact ⟨⟨true, some 6, some (0xc0a80000, 16), none, none, some 80⟩, by decide, by simp [FwRule.matches, fwIs, fwInNet]; omega⟩
  · exact ⟨⟨true, some 6, none, some 80, some (0xc0a80000, 16), none⟩, by decide, by simp [FwRule.matches, fwIs, fwInNet]; omega⟩
  · exact ⟨⟨true, some 6, some (0xc0a80000, 16), none, none, some 443⟩, by decide, by simp [FwRule.matches, fwIs, fwInNet]; omega⟩
  · exact ⟨⟨true, some 6, none, some 443, some (0xc0a80000, 16), none⟩, by decide, by simp [FwRule.matches, fwIs, fwInNet]; omega⟩

theorem verdict_icmp {s d : Nat} {sp dp : Int} (h1 : ¬ Forbidden s) (h2 : ¬ Forbidden d) :
    fwVerdict exerciseRules ⟨1, s, sp, d, dp⟩ = true :=
  verdict_allowed h1 h2 ⟨⟨true, some 1, none, none, none, none⟩, by decide, rfl⟩

/-! ## The frames -/

/-- The address that is made from a number. -/
def drawnEth (n : Nat) : EthAddr := ⟨[0, 0, 0, 0, UInt8.ofNat n, UInt8.ofNat (n / 256)]⟩

theorem mkEth_ip (a b : Nat) : mkEth 0x0800 a b = .ok ⟨drawnEth b, drawnEth a, 0x0800⟩ := rfl

theorem mkEth_ip6 (a b : Nat) : mkEth 0x86dd a b = .ok ⟨drawnEth b, drawnEth a, 0x86dd⟩ := rfl

theorem low_bits {b n : Nat} (hb : b % 256 = 0) (hn : n < 256) : b ||| n = b + n := by
  obtain ⟨c, rfl⟩ : ∃ c, b = 2 ^ 8 * c := ⟨b / 256, by omega⟩
  exact (Nat.two_pow_add_eq_or_of_lt (i := 8) (by omega) c).symm

theorem fwArp_ok (d : FwDraw) (h1 : d.src < 2 ^ 32) (h2 : d.dst < 2 ^ 32) :
    fwArp d = .ok [.hdr (.eth ⟨.broadcast, drawnEth d.a, 0x0806⟩),
      .hdr (.arp ⟨1, 0x0800, 6, 4, 1, drawnEth d.a, .v4 (.ofNat 32 d.src), .broadcast, .v4 (.ofNat 32 d.dst)⟩)] := by
  have hi : ∀ n : Nat, n < 2 ^ 32 → ipAddress (.int n) = .ok (.v4 (.ofNat 32 n)) := by
    intro n hn
    simp only [ipAddress]
    rw [if_pos (by omega)]
    simp
  have hr := arp_request_fields (drawnEth d.a) (.v4 (.ofNat 32 d.src)) (.v4 (.ofNat 32 d.dst)) rfl
  unfold fwArp
  rw [mkEth_ip]
  simp only [bind_ok, createIpArpRequest, Arp.setSenderProto, Arp.setTargetProto, hi _ h1, hi _ h2] at hr ⊢
  have e : ∀ a, ipAddress (.addr a) = .ok a := fun _ => rfl
  simp only [e, bind_ok] at hr
  rw [hr]
  rfl

/-! ## The frames can be used in a test -/

/-- A frame that can be parsed again, serialised, and expected. -/
def GoodShape (p : Packet) : Prop :=
  Stack .eth p ∧ (∃ p' b, p.toBytes = (p', .ok b)) ∧ ∃ m, Matcher.new p true [] [] = .ok m

theorem drawnEth_length (n : Nat) : (drawnEth n).raw.length = 6 := rfl

theorem ip_finish {ctx tail tail' : Packet} {bs : List Bytes} {e : Ethernet} {h : IPv4} (he : e.WF)
    (hh : IPv4.WF { h with totallen := 0 }) (ho : h.options = []) (ht : finish ctx [] tail = .ok (tail', bs))
    (hl : bs.flatten.length < 65000) :
    ∃ p' bs', finish ctx [] (.hdr (.eth e) :: .hdr (.ip4 h) :: tail) = .ok (p', bs') := by
  obtain ⟨be, hbe, _⟩ := Ethernet.toBytes_ok he
  have hs : h.size = .ok 20 := by unfold IPv4.size; rw [ho]; rfl
  have hw : IPv4.WF { h with totallen := 20 + bs.flatten.length } := by
    obtain ⟨w1, _, w3⟩ := hh
    exact ⟨w1, by show 20 + bs.flatten.length < 65536; omega, w3⟩
  obtain ⟨bi, hbi, _⟩ := IPv4.toBytes_ok hw (by rw [ho]; simp) (by rw [ho]; decide)
  simp only [finish, ht, bind_ok, Item.pre, Hdr.pre, IPv4.preSerialize, hs, List.append_nil, map_ok, Item.toBytes, Hdr.toBytes, hbi,
    hbe]
  exact ⟨_, _, rfl⟩

theorem tcp_pre_ok {t : TCP} {h : IPv4} (ht : TCP.WF { t with csum := 0 }) (h1 : h.src.toNat < 2 ^ 32) (h2 : h.dst.toNat < 2 ^ 32)
    (hp : h.protocol < 256) : ∃ c, c < 65536 ∧ t.preSerialize [] (some h) = .ok { t with csum := c } := by
  have hf : Fits TCP.pseudoFmt [.i h.src.toNat, .i h.dst.toNat, .i h.protocol, .i (20 + 0 : Nat)] := by
    simp [Fits, TCP.pseudoFmt]; omega
  obtain ⟨b, hb⟩ := pack_ok hf
  obtain ⟨b', hb'⟩ := pack_ok (TCP.fits (h := { t with csum := 0 }) ht 0 (by omega))
  refine ⟨SY.checksum (b ++ b' ++ []), checksum_lt _, ?_⟩
  have hs : t.size + ([] : Bytes).length = 20 + 0 := rfl
  have hm : t.makeHeader 0 = .ok b' := hb'
  unfold TCP.preSerialize TCP.computeChecksum
  rw [hs]
  simp only [hb, hm, bind_ok]

theorem collect_ok {p : Packet} (h : ∀ it ∈ p, ∃ l, it.collectAttrs = .ok l) (d : Dict Klass (List HdrAttr)) :
    ∃ d', collectAll p d = .ok d' := by
  induction p generalizing d with
  | nil => exact ⟨d, rfl⟩
  | cons it p ih =>
    obtain ⟨l, hl⟩ := h it (by simp)
    obtain ⟨d', hd⟩ := ih (fun x hx => h x (by simp [hx])) (d.set it.klass l)
    exact ⟨d', by simp only [collectAll, hl, bind_ok, hd]⟩

theorem matcher_made {p : Packet} {n : Nat} (h : ∀ it ∈ p, ∃ l, it.collectAttrs = .ok l) (hn : p.size = .ok n) :
    ∃ m, Matcher.new p true [] [] = .ok m := by
  obtain ⟨d, hd⟩ := collect_ok h []
  unfold Matcher.new comparisonAttrs
  rw [if_pos rfl, hd, hn]
  exact ⟨_, rfl⟩

theorem ip4_collect {h : IPv4} (ho : h.options = []) : ∃ l, Item.collectAttrs (.hdr (.ip4 h)) = .ok l := by
  have hs : h.size = .ok 20 := by unfold IPv4.size; rw [ho]; rfl
  simp only [Item.collectAttrs, Hdr.attrs, hs, bind_ok]
  exact ⟨_, rfl⟩

theorem v4_lt {a : IPAddr} (h : a.isV4) : a.toNat < 2 ^ 32 := by
  cases a with
  | v4 a => exact a.isLt
  | v6 a => cases h

theorem good_tcp {e : Ethernet} {h : IPv4} {t : TCP} (he : e.WF) (ht : e.ethertype = 0x0800)
    (hh : IPv4.WF { h with totallen := 0 }) (ho : h.options = []) (hp : h.protocol = 6) (hw : TCP.WF { t with csum := 0 }) :
    GoodShape [.hdr (.eth e), .hdr (.ip4 h), .hdr (.tcp t)] := by
  refine ⟨⟨rfl, ⟨he, by omega⟩, ?_⟩, ?_, ?_⟩
  · simp only [Hdr.next, ht]
    refine ⟨rfl, ⟨hh, ho⟩, ?_⟩
    simp only [Hdr.next, hp]
    exact ⟨rfl, hw, .inl rfl⟩
  · obtain ⟨c, hc, e1⟩ := tcp_pre_ok (h := h) hw (v4_lt hh.2.2.2.2.2.2.2.1) (v4_lt hh.2.2.2.2.2.2.2.2) (by omega)
    have hw' : TCP.WF { t with csum := c } := by
      obtain ⟨w1, w2, w3, w4, w5, w6, w7, _⟩ := hw
      exact ⟨w1, w2, w3, w4, w5, w6, w7, hc⟩
    obtain ⟨bt, hbt, hl⟩ := TCP.toBytes_ok hw'
    have hf : finish [.hdr (.eth e), .hdr (.ip4 h), .hdr (.tcp t)] [] [.hdr (.tcp t)] =
        .ok ([.hdr (.tcp { t with csum := c })], [bt]) := by
      simp only [finish, bind_ok, Item.pre, Hdr.pre, Packet.ip4?, Packet.byName, Hdr.cls, List.flatten_nil, List.append_nil]
      simp [e1, map_ok, Item.toBytes, Hdr.toBytes, hbt, bind_ok]
    obtain ⟨p', bs', hfin⟩ := ip_finish (h := h) (e := e) he hh ho hf (by simp [hl])
    exact ⟨_, _, toBytes_of_finish hfin⟩
  · have hs : h.size = .ok 20 := by unfold IPv4.size; rw [ho]; rfl
    refine matcher_made (n := 14 + (20 + (20 + 0))) ?_ ?_
    · simp only [List.forall_mem_cons, List.not_mem_nil, false_implies, implies_true, and_true]
      exact ⟨⟨_, rfl⟩, ip4_collect ho, ⟨_, rfl⟩⟩
    · simp only [Packet.size, Item.size, Hdr.size, hs, bind_ok]
      rfl

theorem good_udp {e : Ethernet} {h : IPv4} {u : UDP} {rest : Packet} (he : e.WF) (ht : e.ethertype = 0x0800)
    (hh : IPv4.WF { h with totallen := 0 }) (ho : h.options = []) (hp : h.protocol = 17)
    (hs : 0 ≤ u.src ∧ u.src < 65536) (hd : 0 ≤ u.dst ∧ u.dst < 65536)
    (hr : rest = [] ∨ ∃ x xs, rest = [.hdr (.raw (x :: xs))] ∧ xs.length < 1000) :
    GoodShape (.hdr (.eth e) :: .hdr (.ip4 h) :: .hdr (.udp u) :: rest) := by
  obtain ⟨b, hb1, hb2, hb3⟩ : ∃ b : Bytes, (∀ ctx, ∃ bs, finish ctx [] rest = .ok (rest, bs) ∧ bs.flatten = b) ∧ b.length ≤ 1000 ∧
      rest.size = .ok b.length := by
    rcases hr with rfl | ⟨x, xs, rfl, hl⟩
    · exact ⟨[], fun ctx => ⟨[], rfl, rfl⟩, by simp, rfl⟩
    · refine ⟨x :: xs, fun ctx => ⟨[x :: xs], ?_, by simp⟩, by simp; omega, ?_⟩
      · simp [finish, Item.pre, Hdr.pre, Item.toBytes, Hdr.toBytes, bind_ok, map_ok]
      · simp [Packet.size, Item.size, Hdr.size, bind_ok]
  refine ⟨⟨rfl, ⟨he, by omega⟩, ?_⟩, ?_, ?_⟩
  · simp only [Hdr.next, ht]
    refine ⟨rfl, ⟨hh, ho⟩, ?_⟩
    simp only [Hdr.next, hp]
    refine ⟨rfl, ⟨hs, hd, by show (0 : Nat) < 65536; omega, by show (0 : Nat) < 65536; omega⟩, ?_⟩
    rcases hr with rfl | ⟨x, xs, rfl, hl⟩
    · exact .inl rfl
    · refine .inr ⟨?_, x, xs, rfl⟩
      rintro (h | h | h) <;> cases h
  · obtain ⟨bs, hf1, hf2⟩ := hb1 (.hdr (.eth e) :: .hdr (.ip4 h) :: .hdr (.udp u) :: rest)
    obtain ⟨c, hc, e1⟩ := udp_pre_ok (u := u) (h := h) (d := b) hs hd (by omega) (v4_lt hh.2.2.2.2.2.2.2.1) (v4_lt hh.2.2.2.2.2.2.2.2) (by omega)
    have hw' : UDP.WF { u with len := 8 + b.length, csum := c } := ⟨hs, hd, by show 8 + b.length < 65536; omega, hc⟩
    obtain ⟨bt, hbt, hl⟩ := UDP.toBytes_ok hw'
    have hf : finish (.hdr (.eth e) :: .hdr (.ip4 h) :: .hdr (.udp u) :: rest) [] (.hdr (.udp u) :: rest) =
        .ok (.hdr (.udp { u with len := 8 + b.length, csum := c }) :: rest, bt :: bs) := by
      simp only [finish, hf1, hf2, bind_ok, Item.pre, Hdr.pre, Packet.ip4?, Packet.byName, Hdr.cls, List.append_nil]
      simp [e1, map_ok, Item.toBytes, Hdr.toBytes, hbt, bind_ok]
    obtain ⟨p', bs', hfin⟩ := ip_finish (h := h) (e := e) he hh ho hf (by rw [List.flatten_cons, List.length_append, hf2]; omega)
    exact ⟨_, _, toBytes_of_finish hfin⟩
  · have hs : h.size = .ok 20 := by unfold IPv4.size; rw [ho]; rfl
    refine matcher_made (n := 14 + (20 + (8 + b.length))) ?_ ?_
    · simp only [List.forall_mem_cons]
      refine ⟨⟨_, rfl⟩, ip4_collect ho, ⟨_, rfl⟩, ?_⟩
      rcases hr with rfl | ⟨x, xs, rfl, hl⟩
      · simp
      · simp only [List.forall_mem_cons, List.not_mem_nil, false_implies, implies_true, and_true]
        exact ⟨_, rfl⟩
    · simp only [Packet.size, Item.size, Hdr.size, hs, bind_ok, hb3]
      rfl

theorem good_icmp {e : Ethernet} {h : IPv4} (he : e.WF) (ht : e.ethertype = 0x0800)
    (hh : IPv4.WF { h with totallen := 0 }) (ho : h.options = []) (hp : h.protocol = 1) :
    GoodShape [.hdr (.eth e), .hdr (.ip4 h), .hdr (.icmp ICMPMsg.default4)] := by
  refine ⟨⟨rfl, ⟨he, by omega⟩, ?_⟩, ?_, ?_⟩
  · simp only [Hdr.next, ht]
    refine ⟨rfl, ⟨hh, ho⟩, ?_⟩
    simp only [Hdr.next, hp]
    exact ⟨rfl, ⟨⟨by decide, by simp [dataMatches, ICMPMsg.default4]⟩, by simp [dataWF, ICMPMsg.default4], by decide⟩, .inl rfl⟩
  · have hb : ∃ b, Hdr.toBytes (.icmp ICMPMsg.default4) = .ok b ∧ decide (b.length < 100) = true :=
      Except.of_test (by decide +kernel)
    obtain ⟨b, hb1, hb2⟩ := hb
    have hf : finish [.hdr (.eth e), .hdr (.ip4 h), .hdr (.icmp ICMPMsg.default4)] [] [.hdr (.icmp ICMPMsg.default4)] =
        .ok ([.hdr (.icmp ICMPMsg.default4)], [b]) := by
      simp only [finish, bind_ok, Item.pre, Hdr.pre, map_ok, Item.toBytes, hb1]
    obtain ⟨p', bs', hfin⟩ := ip_finish (h := h) (e := e) he hh ho hf (by simp at hb2 ⊢; omega)
    exact ⟨_, _, toBytes_of_finish hfin⟩
  · have hs : h.size = .ok 20 := by unfold IPv4.size; rw [ho]; rfl
    refine matcher_made (n := 14 + (20 + (8 + 0))) ?_ ?_
    · simp only [List.forall_mem_cons, List.not_mem_nil, false_implies, implies_true, and_true]
      exact ⟨⟨_, rfl⟩, ip4_collect ho, ⟨_, rfl⟩⟩
    · simp only [Packet.size, Item.size, Hdr.size, hs, bind_ok]
      rfl

theorem good_arp {e : Ethernet} {a : Arp} (he : e.WF) (ht : e.ethertype = 0x0806) (ha : a.WF) :
    GoodShape [.hdr (.eth e), .hdr (.arp a)] := by
  refine ⟨⟨rfl, ⟨he, by omega⟩, ?_⟩, ?_, ?_⟩
  · simp only [Hdr.next, ht]
    exact ⟨rfl, ha, .inl rfl⟩
  · obtain ⟨b, hb, _⟩ := Ethernet.toBytes_ok he
    obtain ⟨c, hc, _⟩ := Arp.toBytes_ok ha
    have hf : finish [.hdr (.eth e), .hdr (.arp a)] [] [.hdr (.eth e), .hdr (.arp a)] =
        .ok ([.hdr (.eth e), .hdr (.arp a)], [b, c]) := by
      simp only [finish, bind_ok, Item.pre, Hdr.pre, map_ok, Item.toBytes, Hdr.toBytes, hb, hc]
    exact ⟨_, _, toBytes_of_finish hf⟩
  · refine matcher_made (n := 14 + (28 + 0)) ?_ rfl
    simp only [List.forall_mem_cons, List.not_mem_nil, false_implies, implies_true, and_true]
    exact ⟨⟨_, rfl⟩, ⟨_, rfl⟩⟩

theorem good_six {e : Ethernet} (he : e.WF) (ht : e.ethertype = 0x86dd) :
    GoodShape [.hdr (.eth e), .hdr (.ip6 IPv6.default), .hdr (.icmp6 ICMPMsg.default6)] := by
  refine ⟨⟨rfl, ⟨he, by omega⟩, ?_⟩, ?_, ?_⟩
  · simp only [Hdr.next, ht]
    refine ⟨rfl, (by decide : IPv6.WF { IPv6.default with plen := 0 }), ?_⟩
    exact ⟨rfl, ⟨⟨by decide, by decide⟩, by simp [data6WF, ICMPMsg.default6]⟩, .inl rfl⟩
  · obtain ⟨b, hb, _⟩ := Ethernet.toBytes_ok he
    have hx : ∃ y, finish [.hdr (.eth Ethernet.default), .hdr (.ip6 IPv6.default), .hdr (.icmp6 ICMPMsg.default6)] []
        [.hdr (.ip6 IPv6.default), .hdr (.icmp6 ICMPMsg.default6)] = .ok y ∧ true = true :=
      Except.of_test (p := fun _ => true) (by decide +kernel)
    obtain ⟨⟨t, bs⟩, hy, _⟩ := hx
    rw [finish_ctx (q := [.hdr (.eth e), .hdr (.ip6 IPv6.default), .hdr (.icmp6 ICMPMsg.default6)]) ?_] at hy
    · have hf : finish [.hdr (.eth e), .hdr (.ip6 IPv6.default), .hdr (.icmp6 ICMPMsg.default6)] []
          [.hdr (.eth e), .hdr (.ip6 IPv6.default), .hdr (.icmp6 ICMPMsg.default6)] = .ok (.hdr (.eth e) :: t, b :: bs) := by
        rw [finish, hy]
        simp only [bind_ok, Item.pre, Hdr.pre, map_ok, Item.toBytes, Hdr.toBytes, hb]
      exact ⟨_, _, toBytes_of_finish hf⟩
    · exact ⟨rfl, rfl⟩
  · refine matcher_made (n := 14 + (40 + (8 + 0))) ?_ rfl
    simp only [List.forall_mem_cons, List.not_mem_nil, false_implies, implies_true, and_true]
    exact ⟨⟨_, rfl⟩, ⟨_, rfl⟩, ⟨_, rfl⟩⟩

/-! ## What is expected and what is permitted -/

/-- The numbers with which the test is right: no address that should pass has been drawn from the forbidden ones, and the
one that should not is not the one of a question to a name server, or of an answer. -/
def Lucky (d : FwDraws) : Prop :=
  ¬ Forbidden d.web.dst ∧ ¬ Forbidden d.dns.dst ∧ ¬ Forbidden d.https.dst ∧ ¬ Forbidden d.http.dst ∧
  (¬ Forbidden d.ping.src ∧ ¬ Forbidden d.ping.dst) ∧
  (Forbidden d.other.src ∨ Forbidden d.other.dst ∨
    ¬ ((Inside d.other.src ∧ d.other.dport = 53) ∨ (d.other.sport = 53 ∧ Inside d.other.dst)))

instance (d : FwDraws) : Decidable (Lucky d) := by unfold Lucky; infer_instance

/-- A frame that can be used, with its answer, the verdicts on both, and what rules look at. -/
def FramePair (p : Packet) (k k' : FwKey) : Prop :=
  GoodShape p ∧ GoodShape (fwSwap p) ∧ fwPermits exerciseRules p = fwVerdict exerciseRules k ∧
    fwPermits exerciseRules (fwSwap p) = fwVerdict exerciseRules k' ∧ fwKey p = some k ∧ fwKey (fwSwap p) = some k' ∧
    k'.proto = k.proto ∧ (k.proto = 6 → p.size = .ok 54 ∧ (fwSwap p).size = .ok 54) ∧
    (k.proto = 1 → p.size = .ok 42 ∧ (fwSwap p).size = .ok 42)

theorem ipHeader_wf {proto ttl : Nat} (hp : proto ∈ ipProtocols) (ht : ttl < 256) (s d : BitVec 32) (n : Nat) (hn : n < 65536) :
    IPv4.WF ⟨0, 0, n, 0, 0, ttl, proto, .v4 s, .v4 d, []⟩ :=
  ⟨(by decide : 0 < 256), (by decide : 0 < 65536), hn, (by decide : 0 ∈ ipFragmentFlags), (by decide : 0 < 8192), ht, hp, by simp [IPAddr.isV4], by simp [IPAddr.isV4]⟩

theorem ethHeader_wf (a b : Nat) : Ethernet.WF ⟨drawnEth b, drawnEth a, 0x0800⟩ := ⟨rfl, rfl, (by decide : 0x0800 ∈ etherTypes)⟩

theorem addr_of {n : Nat} (h : n < 2 ^ 32) : (BitVec.ofNat 32 n).toNat = n := by simp; omega

theorem pair_tcp {a b ttl s d : Nat} {t : TCP} (ht : ttl < 256) (hs : s < 2 ^ 32) (hd : d < 2 ^ 32) (hw : TCP.WF { t with csum := 0 }) :
    FramePair [.hdr (.eth ⟨drawnEth b, drawnEth a, 0x0800⟩), .hdr (.ip4 (fwIp 6 ttl s d)), .hdr (.tcp t)]
      ⟨6, s, t.src, d, t.dst⟩ ⟨6, d, t.dst, s, t.src⟩ := by
  refine ⟨good_tcp (ethHeader_wf a b) rfl (ipHeader_wf (by decide : 6 ∈ ipProtocols) ht _ _ 0 (by decide)) rfl rfl hw,
    good_tcp (ethHeader_wf b a) rfl (ipHeader_wf (by decide : 6 ∈ ipProtocols) (by show 255 - ttl < 256; omega) _ _ 0 (by decide)) rfl rfl ?_, ?_, ?_, ?_, ?_, rfl, fun _ => ⟨rfl, rfl⟩, fun h => absurd h (by decide : (6 : Nat) ≠ 1)⟩
  · obtain ⟨w1, w2, w3, w4, w5, w6, w7, _⟩ := hw
    refine ⟨w2, w1, w4, w3, ?_, w6, w7, (by decide : 0 < 65536)⟩
    exact Nat.or_lt_two_pow (n := 9) w5 (by decide)
  · simp only [fwPermits, fwKey, fwPorts, fwIp, IPAddr.toNat, addr_of hs, addr_of hd]
  · simp only [fwSwap, swapPorts, TCP.setflag, if_true, fwPermits, fwKey, fwPorts, fwIp, IPAddr.toNat, addr_of hs, addr_of hd]
  · simp only [fwKey, fwPorts, fwIp, IPAddr.toNat, addr_of hs, addr_of hd]
  · simp only [fwSwap, swapPorts, TCP.setflag, if_true, fwKey, fwPorts, fwIp, IPAddr.toNat, addr_of hs, addr_of hd]

theorem pair_udp {a b ttl s d : Nat} {u : UDP} {rest : Packet} (ht : ttl < 256) (hs : s < 2 ^ 32) (hd : d < 2 ^ 32)
    (h1 : 0 ≤ u.src ∧ u.src < 65536) (h2 : 0 ≤ u.dst ∧ u.dst < 65536)
    (hr : rest = [] ∨ ∃ x xs, rest = [.hdr (.raw (x :: xs))] ∧ xs.length < 1000) :
    FramePair (.hdr (.eth ⟨drawnEth b, drawnEth a, 0x0800⟩) :: .hdr (.ip4 (fwIp 17 ttl s d)) :: .hdr (.udp u) :: rest)
      ⟨17, s, u.src, d, u.dst⟩ ⟨17, d, u.dst, s, u.src⟩ := by
  refine ⟨good_udp (ethHeader_wf a b) rfl (ipHeader_wf (by decide : 17 ∈ ipProtocols) ht _ _ 0 (by decide)) rfl rfl h1 h2 hr,
    good_udp (ethHeader_wf b a) rfl (ipHeader_wf (by decide : 17 ∈ ipProtocols) (by show 255 - ttl < 256; omega) _ _ 0 (by decide)) rfl rfl h2 h1 hr, ?_, ?_, ?_, ?_, rfl, fun h => absurd h (by decide : (17 : Nat) ≠ 6), fun h => absurd h (by decide : (17 : Nat) ≠ 1)⟩
  · simp only [fwPermits, fwKey, fwPorts, fwIp, IPAddr.toNat, addr_of hs, addr_of hd]
  · simp only [fwSwap, swapPorts, fwPermits, fwKey, fwPorts, fwIp, IPAddr.toNat, addr_of hs, addr_of hd]
  · simp only [fwKey, fwPorts, fwIp, IPAddr.toNat, addr_of hs, addr_of hd]
  · simp only [fwSwap, swapPorts, fwKey, fwPorts, fwIp, IPAddr.toNat, addr_of hs, addr_of hd]

theorem pair_icmp {a b ttl s d : Nat} (ht : ttl < 256) (hs : s < 2 ^ 32) (hd : d < 2 ^ 32) :
    FramePair [.hdr (.eth ⟨drawnEth b, drawnEth a, 0x0800⟩), .hdr (.ip4 (fwIp 1 ttl s d)), .hdr (.icmp ICMPMsg.default4)]
      ⟨1, s, 0, d, 0⟩ ⟨1, d, 0, s, 0⟩ := by
  refine ⟨good_icmp (ethHeader_wf a b) rfl (ipHeader_wf (by decide : 1 ∈ ipProtocols) ht _ _ 0 (by decide)) rfl rfl,
    good_icmp (ethHeader_wf b a) rfl (ipHeader_wf (by decide : 1 ∈ ipProtocols) (by show 255 - ttl < 256; omega) _ _ 0 (by decide)) rfl rfl, ?_, ?_, ?_, ?_, rfl, fun h => absurd h (by decide : (1 : Nat) ≠ 6), fun _ => ⟨rfl, rfl⟩⟩
  · simp only [fwPermits, fwKey, fwPorts, fwIp, IPAddr.toNat, addr_of hs, addr_of hd]
  · simp only [fwSwap, swapPorts, fwPermits, fwKey, fwPorts, fwIp, IPAddr.toNat, addr_of hs, addr_of hd]
  · simp only [fwKey, fwPorts, fwIp, IPAddr.toNat, addr_of hs, addr_of hd]
  · simp only [fwSwap, swapPorts, fwKey, fwPorts, fwIp, IPAddr.toNat, addr_of hs, addr_of hd]

/-- The frames of the test. -/
theorem fwSteps_frames (d : FwDraws) (hd : d.InRange) : ∃ web dns https http ping inner other arp six,
    fwSteps d = .ok (fwPass web ++ fwPass dns ++ fwPass https ++ fwPass http ++ fwPass ping ++
      [⟨fwPort0, inner, false⟩, ⟨fwPort1, inner, false⟩, ⟨fwPort0, fwSwap inner, false⟩, ⟨fwPort1, fwSwap inner, false⟩,
       ⟨fwPort0, other, false⟩, ⟨fwPort1, other, false⟩, ⟨fwPort0, arp, true⟩, ⟨fwPort1, arp, true⟩,
       ⟨fwPort0, six, true⟩, ⟨fwPort1, six, true⟩]) ∧
    FramePair web ⟨6, 0xc0a80d0d, 80, d.web.dst, d.web.dport⟩ ⟨6, d.web.dst, d.web.dport, 0xc0a80d0d, 80⟩ ∧
    FramePair dns ⟨17, 0xc0a87100 + d.dns.low, d.dns.sport, d.dns.dst, 53⟩ ⟨17, d.dns.dst, 53, 0xc0a87100 + d.dns.low, d.dns.sport⟩ ∧
    FramePair https ⟨6, 0xc0a87100 + d.https.low, d.https.sport, d.https.dst, 443⟩
      ⟨6, d.https.dst, 443, 0xc0a87100 + d.https.low, d.https.sport⟩ ∧
    FramePair http ⟨6, 0xc0a8d500 + d.http.low, d.http.sport, d.http.dst, 80⟩
      ⟨6, d.http.dst, 80, 0xc0a8d500 + d.http.low, d.http.sport⟩ ∧
    FramePair ping ⟨1, d.ping.src, 0, d.ping.dst, 0⟩ ⟨1, d.ping.dst, 0, d.ping.src, 0⟩ ∧
    FramePair inner ⟨6, 0xc0a82a00 + d.inner.low, d.inner.sport, d.inner.dst, 443⟩
      ⟨6, d.inner.dst, 443, 0xc0a82a00 + d.inner.low, d.inner.sport⟩ ∧
    FramePair other ⟨17, d.other.src, d.other.sport, d.other.dst, d.other.dport⟩
      ⟨17, d.other.dst, d.other.dport, d.other.src, d.other.sport⟩ ∧
    (GoodShape arp ∧ fwPermits exerciseRules arp = true ∧ fwKey arp = none) ∧
    (GoodShape six ∧ fwPermits exerciseRules six = true ∧ fwKey six = none) := by
  obtain ⟨h1, h2, h3, h4, h5, h6, h7, h8, h9⟩ := hd
  unfold FwDraw.InRange at h1 h2 h3 h4 h5 h6 h7 h8
  unfold fwSteps
  simp only [fwWeb, fwDns, fwHttps, fwHttp, fwPing, fwInner, fwOther, fwFrame, fwSix, mkEth_ip, mkEth_ip6, bind_ok,
    fwArp_ok d.arp (by omega : d.arp.src < 2 ^ 32) (by omega : d.arp.dst < 2 ^ 32)]
  rw [low_bits (n := d.dns.low) (by rfl) (by omega), low_bits (n := d.https.low) (by rfl) (by omega),
    low_bits (n := d.http.low) (by rfl) (by omega), low_bits (n := d.inner.low) (by rfl) (by omega)]
  refine ⟨_, _, _, _, _, _, _, _, _, rfl, ?_, ?_, ?_, ?_, ?_, ?_, ?_, ?_, ?_⟩
  · exact pair_tcp (by omega) (by omega) (by omega)
      ⟨by simp [TCP.setflag], by simp [TCP.setflag]; omega, by simp [TCP.setflag]; omega, by simp [TCP.setflag]; omega,
        (by decide : TCP.default.flags ||| (1 <<< TCPFlag.SYN.value) < 512), by simp [TCP.setflag]; omega, (by decide : (0 : Int) ≤ 0 ∧ (0 : Int) < 65536), (by decide : 0 < 65536)⟩
  · exact pair_udp (by omega) (by omega) (by omega) (by simp; omega) (by decide : (0 : Int) ≤ 53 ∧ (53 : Int) < 65536) (.inl rfl)
  · exact pair_tcp (by omega) (by omega) (by omega)
      ⟨by simp [TCP.setflag]; omega, by simp [TCP.setflag], by simp [TCP.setflag]; omega, by simp [TCP.setflag]; omega,
        (by decide : TCP.default.flags ||| (1 <<< TCPFlag.SYN.value) < 512), (by decide : (0 : Int) ≤ 0 ∧ (0 : Int) < 65536), (by decide : (0 : Int) ≤ 0 ∧ (0 : Int) < 65536), (by decide : 0 < 65536)⟩
  · exact pair_tcp (by omega) (by omega) (by omega)
      ⟨by simp [TCP.setflag]; omega, by simp [TCP.setflag], by simp [TCP.setflag]; omega, by simp [TCP.setflag]; omega,
        (by decide : TCP.default.flags ||| (1 <<< TCPFlag.SYN.value) < 512), by simp [TCP.setflag]; omega, (by decide : (0 : Int) ≤ 0 ∧ (0 : Int) < 65536), (by decide : 0 < 65536)⟩
  · exact pair_icmp (by omega) (by omega) (by omega)
  · exact pair_tcp (by omega) (by omega) (by omega)
      ⟨by simp [TCP.setflag]; omega, by simp [TCP.setflag], by simp [TCP.setflag]; omega, by simp [TCP.setflag]; omega,
        (by decide : TCP.default.flags ||| (1 <<< TCPFlag.ACK.value) ||| (1 <<< TCPFlag.PSH.value) < 512), by simp [TCP.setflag]; omega, (by decide : (0 : Int) ≤ 0 ∧ (0 : Int) < 65536), (by decide : 0 < 65536)⟩
  · exact pair_udp (by omega) (by omega) (by omega) (by simp; omega) (by simp; omega) (.inr ⟨_, _, rfl, by decide⟩)
  · refine ⟨good_arp ⟨rfl, rfl, (by decide : 0x0806 ∈ etherTypes)⟩ rfl ⟨?_, ?_, ?_, ?_, ?_, ?_, ?_, ?_, ?_⟩, rfl, rfl⟩ <;>
      first | decide | rfl | (simp [IPAddr.isV4]; done) | exact (by decide : 1 ∈ arpHwTypes) |
        exact (by decide : 2048 ∈ etherTypes) | exact (by decide : 1 ∈ arpOperations)
  · exact ⟨good_six ⟨rfl, rfl, (by decide : 0x86dd ∈ etherTypes)⟩ rfl, rfl, rfl⟩

/-- **C226**: whatever numbers are drawn, what the test of the firewall exercise expects is what the rules of the exercise
say, for every frame, exactly if the numbers are lucky. -/
theorem firewall_exercise_exact (d : FwDraws) (hd : d.InRange) :
    ∃ ss, fwSteps d = .ok ss ∧ ((∀ s ∈ ss, s.expected = fwPermits exerciseRules s.pkt) ↔ Lucky d) := by
  obtain ⟨web, dns, https, http, ping, inner, other, arp, six, hss, ⟨_, _, w1, w2, _⟩, ⟨_, _, n1, n2, _⟩, ⟨_, _, s1, s2, _⟩, ⟨_, _, t1, t2, _⟩,
    ⟨_, _, p1, p2, _⟩, ⟨_, _, i1, i2, _⟩, ⟨_, _, o1, o2, _⟩, ⟨_, a1, _⟩, ⟨_, x1, _⟩⟩ := fwSteps_frames d hd
  obtain ⟨_, h2, h3, h4, _, h6, _, _, _⟩ := hd
  have g2 : d.dns.low < 256 := by unfold FwDraw.InRange at h2; omega
  have g3 : d.https.low < 256 := by unfold FwDraw.InRange at h3; omega
  have g4 : d.http.low < 256 := by unfold FwDraw.InRange at h4; omega
  have g6 : d.inner.low < 256 := by unfold FwDraw.InRange at h6; omega
  refine ⟨_, hss, ?_⟩
  simp only [fwPass, List.cons_append, List.nil_append, List.forall_mem_cons, List.not_mem_nil, false_implies, implies_true, and_true,
    w1, w2, n1, n2, s1, s2, t1, t2, p1, p2, i1, i2, o1, a1, x1]
  rw [verdict_forbidden (k := ⟨6, 0xc0a82a00 + d.inner.low, d.inner.sport, d.inner.dst, 443⟩) (.inl (by simp [Forbidden]; omega)),
    verdict_forbidden (k := ⟨6, d.inner.dst, 443, 0xc0a82a00 + d.inner.low, d.inner.sport⟩) (.inr (by simp [Forbidden]; omega))]
  have f1 : ∀ n, n < 256 → ¬ Forbidden (0xc0a87100 + n) ∧ Inside (0xc0a87100 + n) := by intro n hn; unfold Forbidden Inside; omega
  have f2 : ∀ n, n < 256 → ¬ Forbidden (0xc0a8d500 + n) ∧ Inside (0xc0a8d500 + n) := by intro n hn; unfold Forbidden Inside; omega
  have ff : ∀ k : FwKey, true = fwVerdict exerciseRules k → ¬ Forbidden k.src ∧ ¬ Forbidden k.dst := by
    intro k h
    constructor
    · intro hf; rw [verdict_forbidden (.inl hf)] at h; cases h
    · intro hf; rw [verdict_forbidden (.inr hf)] at h; cases h
  constructor
  · rintro ⟨c1, _, c2, _, c3, _, c4, _, c5, _, _, _, _, _, c6, _⟩
    refine ⟨(ff _ c1).2, (ff _ c2).2, (ff _ c3).2, (ff _ c4).2, ff _ c5, ?_⟩
    by_cases q1 : Forbidden d.other.src
    · exact .inl q1
    by_cases q2 : Forbidden d.other.dst
    · exact .inr (.inl q2)
    refine .inr (.inr fun hq => ?_)
    rw [(verdict_udp q1 q2).mpr (hq.imp (fun h => ⟨h.1, by omega⟩) (fun h => ⟨by omega, h.2⟩))] at c6
    cases c6
  · rintro ⟨c1, c2, c3, c4, ⟨c5, c5'⟩, c6⟩
    have fw : ¬ Forbidden 0xc0a80d0d := by decide
    have e6 : false = fwVerdict exerciseRules ⟨17, d.other.src, d.other.sport, d.other.dst, d.other.dport⟩ := by
      by_cases q1 : Forbidden d.other.src
      · exact (verdict_forbidden (.inl q1)).symm
      by_cases q2 : Forbidden d.other.dst
      · exact (verdict_forbidden (.inr q2)).symm
      rcases c6 with c6 | c6 | c6
      · exact absurd c6 q1
      · exact absurd c6 q2
      · rcases hv : fwVerdict exerciseRules ⟨17, d.other.src, d.other.sport, d.other.dst, d.other.dport⟩ with _ | _
        · rfl
        · exact absurd (((verdict_udp q1 q2).mp hv).imp (fun h => ⟨h.1, by omega⟩) (fun h => ⟨by omega, h.2⟩)) c6
    refine ⟨(verdict_tcp fw c1 (.inl ⟨rfl, rfl⟩)).symm, (verdict_tcp c1 fw (.inr (.inl ⟨rfl, rfl⟩))).symm,
      ((verdict_udp (f1 _ g2).1 c2).mpr (.inl ⟨(f1 _ g2).2, rfl⟩)).symm,
      ((verdict_udp c2 (f1 _ g2).1).mpr (.inr ⟨rfl, (f1 _ g2).2⟩)).symm,
      (verdict_tcp (f1 _ g3).1 c3 (.inr (.inr (.inr (.inr (.inl ⟨(f1 _ g3).2, rfl⟩)))))).symm,
      (verdict_tcp c3 (f1 _ g3).1 (.inr (.inr (.inr (.inr (.inr ⟨(f1 _ g3).2, rfl⟩)))))).symm,
      (verdict_tcp (f2 _ g4).1 c4 (.inr (.inr (.inl ⟨(f2 _ g4).2, rfl⟩)))).symm,
      (verdict_tcp c4 (f2 _ g4).1 (.inr (.inr (.inr (.inl ⟨(f2 _ g4).2, rfl⟩))))).symm,
      (verdict_icmp c5 c5').symm, (verdict_icmp c5' c5).symm, rfl, rfl, rfl, rfl, e6, e6⟩

/-! ## What the rules look at does not change on the way -/

/-- What the rules look at in a header: its class, and the fields. -/
def fwSee : Item → Nat × List Int
  | .hdr (.eth _) => (1, [])
  | .hdr (.ip4 h) => (2, [h.protocol, h.src.toNat, h.dst.toNat])
  | .hdr (.tcp t) => (3, [t.src, t.dst])
  | .hdr (.udp u) => (4, [u.src, u.dst])
  | _ => (0, [])

def seePorts : List (Nat × List Int) → Int × Int
  | (3, [a, b]) :: _ => (a, b)
  | (4, [a, b]) :: _ => (a, b)
  | _ => (0, 0)

def seeKey : List (Nat × List Int) → Option FwKey
  | (1, _) :: (2, [a, b, c]) :: rest => some ⟨a.toNat, b.toNat, (seePorts rest).1, c.toNat, (seePorts rest).2⟩
  | _ => none

theorem seePorts_eq (p : Packet) : seePorts (p.map fwSee) = fwPorts p := by
  cases p with
  | nil => rfl
  | cons x p =>
    cases x with
    | hdr k => cases k <;> rfl
    | _ => rfl

theorem seeKey_eq (p : Packet) : seeKey (p.map fwSee) = fwKey p := by
  match p with
  | [] => rfl
  | [x] =>
    cases x with
    | hdr k => cases k <;> rfl
    | _ => rfl
  | x :: y :: rest =>
    cases x with
    | hdr k =>
      cases k with
      | eth e =>
        cases y with
        | hdr k =>
          cases k with
          | ip4 h =>
            simp only [List.map_cons, fwSee, seeKey, fwKey, seePorts_eq, Int.toNat_natCast]
          | _ => rfl
        | _ => rfl
      | _ => rfl
    | _ => rfl

theorem see_unsum (x : Item) : fwSee (unsumItem x) = fwSee x := by
  cases x with
  | hdr k => cases k <;> rfl
  | _ => rfl

theorem see_finish {ctx : Packet} {tail : Bytes} {p p' : Packet} {bs : List Bytes}
    (h : finish ctx tail p = .ok (p', bs)) : p'.map fwSee = p.map fwSee := by
  induction p generalizing p' bs with
  | nil => cases h; rfl
  | cons x p ih =>
    simp only [finish] at h
    obtain ⟨r, hr, h⟩ := bind_eq_ok.mp h
    obtain ⟨x', hx, h⟩ := bind_eq_ok.mp h
    obtain ⟨b, hb, h⟩ := bind_eq_ok.mp h
    cases h
    simp only [List.map_cons, ih hr, List.cons.injEq, and_true]
    cases x with
    | hdr k =>
      simp only [Item.pre] at hx
      obtain ⟨k', hk, rfl⟩ := map_eq_ok.mp hx
      cases k with
      | ip4 a =>
        simp only [Hdr.pre] at hk
        obtain ⟨c, hc, rfl⟩ := map_eq_ok.mp hk
        unfold IPv4.preSerialize at hc
        obtain ⟨n, _, hc⟩ := bind_eq_ok.mp hc
        cases hc; rfl
      | udp a =>
        simp only [Hdr.pre] at hk
        obtain ⟨c, hc, rfl⟩ := map_eq_ok.mp hk
        unfold UDP.preSerialize at hc
        obtain ⟨n, _, hc⟩ := bind_eq_ok.mp hc
        cases hc; rfl
      | tcp a =>
        simp only [Hdr.pre] at hk
        obtain ⟨c, hc, rfl⟩ := map_eq_ok.mp hk
        unfold TCP.preSerialize at hc
        obtain ⟨n, _, hc⟩ := bind_eq_ok.mp hc
        cases hc; rfl
      | icmp6 a =>
        simp only [Hdr.pre] at hk
        obtain ⟨c, hc, rfl⟩ := map_eq_ok.mp hk
        rfl
      | _ => cases hk; rfl
    | _ => cases hx

/-- The rules say the same about a frame and about the packet that arrives when it is delivered. -/
theorem permits_arrival {ifaces : Dict (List Char) Iface} {dev : List Char} {p q : Packet} (h : GoodFrame ifaces (dev, p))
    (ha : arrives p (some .eth) = some q) (rs : List FwRule) : fwPermits rs q = fwPermits rs p := by
  obtain ⟨_, _, r, b, q', _, hb, h2, _, h4, _⟩ := frame_arrives h
  rw [ha] at h2; cases h2
  obtain ⟨bs, hf, _⟩ := toBytes_inv hb
  have h1 : q.map fwSee = p.map fwSee := by
    rw [← see_finish hf]
    have := congrArg (List.map fwSee) h4
    simpa [List.map_map, Function.comp_def, see_unsum] using this
  unfold fwPermits
  rw [← seeKey_eq q, h1, seeKey_eq]

/-! ## The test as a test of forwarding -/

/-- What the test expects, by the number of frames that arrived before. -/
def stepWants (ss : List FwStep) : Wants := fun hist _ _ =>
  match ss[hist.length]? with
  | some s => if s.expected then [fwOtherPort s.dev] else []
  | none => []

/-- A frame that the rules permit is wanted on the other port, and any other nowhere. -/
def ruleWants (rs : List FwRule) (dev : List Char) (p : Packet) : List (List Char) :=
  if fwPermits rs p then [fwOtherPort dev] else []

/-- The frames of the steps. -/
def stepFrames (ss : List FwStep) : List (List Char × Packet) := ss.map fun s => (s.dev, s.pkt)

theorem steps_tests (W : Wants) (ss : List FwStep) (hist : List (List Char × Packet)) (hs : ∀ s ∈ ss, GoodShape s.pkt)
    (hW : ∀ i s, ss[i]? = some s → ∀ hist' : List (List Char × Packet), hist'.length = hist.length + i →
      W hist' s.dev s.pkt = if s.expected then [fwOtherPort s.dev] else []) :
    ∃ es, fwEvents ss = .ok es ∧ ForwardTests W true [] hist (stepFrames ss) es := by
  induction ss generalizing hist with
  | nil => exact ⟨[], rfl, .nil hist⟩
  | cons s ss ih =>
    obtain ⟨es, he, ht⟩ := ih ((s.dev, s.pkt) :: hist) (fun s hm => hs s (by simp [hm]))
      (fun i t hi hist' hl => hW (i + 1) t (by simpa using hi) hist' (by simp at hl; omega))
    have h0 := hW 0 s rfl hist rfl
    cases hx : s.expected with
    | false =>
      rw [hx, if_neg (by decide)] at h0
      exact ⟨.mkInput s.dev s.pkt :: es, by simp only [fwEvents, FwStep.events, hx, he, bind_ok]; rfl, .silent _ _ _ _ _ h0 ht⟩
    | true =>
      rw [hx, if_pos rfl] at h0
      obtain ⟨_, _, m, hm⟩ := hs s (by simp)
      have hout : ∃ e, Event.mkOutput [(fwOtherPort s.dev, s.pkt)] false true [] [] = .ok e := by
        simp only [Event.mkOutput, mkWaiting, hm, bind_ok]
        exact ⟨_, rfl⟩
      obtain ⟨e, hout⟩ := hout
      refine ⟨.mkInput s.dev s.pkt :: e :: es, ?_, .sent _ _ _ _ _ [(fwOtherPort s.dev, s.pkt)] e (by rw [h0]; exact .refl _) hout ht⟩
      simp only [fwEvents, FwStep.events, hx, he, hout, bind_ok, if_true]
      rfl

theorem steps_good (d : FwDraws) (hd : d.InRange) {ss : List FwStep} (h : fwSteps d = .ok ss) :
    ∀ s ∈ ss, GoodShape s.pkt ∧ (s.dev = fwPort0 ∨ s.dev = fwPort1) := by
  obtain ⟨web, dns, https, http, ping, inner, other, arp, six, hss, ⟨w1, w2, _⟩, ⟨n1, n2, _⟩, ⟨s1, s2, _⟩, ⟨t1, t2, _⟩,
    ⟨p1, p2, _⟩, ⟨i1, i2, _⟩, ⟨o1, o2, _⟩, ⟨a1, _⟩, ⟨x1, _⟩⟩ := fwSteps_frames d hd
  rw [hss] at h; cases h
  simp only [fwPass, List.cons_append, List.nil_append, List.forall_mem_cons, List.not_mem_nil, false_implies, implies_true, and_true,
    w1, w2, n1, n2, s1, s2, t1, t2, p1, p2, i1, i2, o1, a1, x1, true_and, true_or, or_true]

theorem asWanted_steps (G : List Char → Packet → Bool) (ss pre : List FwStep) (hist : List (List Char × Packet))
    (hl : hist.length = pre.length) :
    AsWanted (stepWants (pre ++ ss)) (fun dev p => if G dev p then [fwOtherPort dev] else []) hist (stepFrames ss) ↔
      ∀ s ∈ ss, s.expected = G s.dev s.pkt := by
  induction ss generalizing pre hist with
  | nil => simp [stepFrames, AsWanted]
  | cons s ss ih =>
    have hi := ih (pre ++ [s]) ((s.dev, s.pkt) :: hist) (by simp [hl])
    rw [List.append_assoc, List.singleton_append] at hi
    have hg : (pre ++ s :: ss)[hist.length]? = some s := by rw [hl]; simp
    simp only [stepFrames, List.map_cons, AsWanted, List.forall_mem_cons] at hi ⊢
    rw [hi]
    refine and_congr_left fun _ => ?_
    simp only [stepWants, hg]
    cases G s.dev s.pkt <;> cases s.expected <;> simp

theorem stepWants_nodup (ss : List FwStep) (hist : List (List Char × Packet)) (dev : List Char) (p : Packet) :
    (stepWants ss hist dev p).Nodup := by
  unfold stepWants
  split
  · split <;> simp
  · simp

theorem rule_handler (rs : List FwRule) {ifs : List Iface} (hi : ifs.map Iface.name = [fwPort0, fwPort1]) {dev : List Char}
    (hd : dev = fwPort0 ∨ dev = fwPort1) (q : Packet) (n : TestNet) :
    ruleHandler rs ifs () dev q n = reactive (resends (ruleWants rs)) () dev q n := by
  have hab : fwPort0 ≠ fwPort1 := by decide
  have hp : (portPair (ifs.map Iface.name)).get? dev = some (fwOtherPort dev) := by
    rw [hi]
    have h2 := (firewall_pairs (names := [fwPort0, fwPort1]) (by simp [hab])).1
    rcases hd with rfl | rfl
    · exact h2 0 (by simp)
    · exact h2 1 (by simp)
  unfold ruleHandler ruleWants
  cases hv : fwPermits rs q with
  | false => simp only [reactive, resends, hv]; rfl
  | true =>
    simp only [firewallHandler, hp, reactive, resends, hv, if_true, List.map_cons, List.map_nil, makeSends]
    rcases n.send (.name (fwOtherPort dev)) q with ⟨n2, p2, e⟩
    cases e <;> rfl

/-- **C226**: whatever numbers are drawn, the firewall that follows given rules passes the test of the exercise exactly if
what the test expects of every frame is what the rules say. -/
theorem firewall_rules_tests (rs : List FwRule) (d : FwDraws) (hd : d.InRange) {ss : List FwStep} (h : fwSteps d = .ok ss)
    (n : TestNet) (hn : fwEvents ss = .ok (eventsOf n)) (h0 : fwPort0 ∈ n.scen.ifaces.keys) (h1 : fwPort1 ∈ n.scen.ifaces.keys)
    {ifs : List Iface} (hi : ifs.map Iface.name = [fwPort0, fwPort1]) :
    testProgram (ruleHandler rs ifs) () n = .allPassed ↔ ∀ s ∈ ss, s.expected = fwPermits rs s.pkt := by
  have hg := steps_good d hd h
  have hgood : ∀ f ∈ stepFrames ss, GoodFrame n.scen.ifaces f ∧ (f.1 = fwPort0 ∨ f.1 = fwPort1) := by
    intro f hf
    obtain ⟨s, hs, rfl⟩ := List.mem_map.mp hf
    obtain ⟨⟨g1, g2, _⟩, g3⟩ := hg s hs
    exact ⟨⟨by rcases g3 with g3 | g3 <;> rw [g3] <;> assumption, g1, g2⟩, g3⟩
  obtain ⟨es, he, ht⟩ := steps_tests (stepWants ss) ss [] (fun s hs => (hg s hs).1) (by
    intro i s hs hist' hl
    have hl : hist'.length = i := by simpa using hl
    simp only [stepWants, hl, hs])
  rw [hn] at he; cases he
  rw [resends_tests_at (G := ruleWants rs) n ht (stepWants_nodup ss) (fun f hf => (hgood f hf).1) ?_ _ ?_]
  · exact asWanted_steps (fun _ p => fwPermits rs p) ss [] [] rfl
  · intro dev p q hm ha
    unfold ruleWants
    rw [permits_arrival (hgood _ hm).1 ha]
  · intro dev p hm q q' b _ _ _ _ _ n'
    exact rule_handler rs hi (hgood _ hm).2 q n'

/-- **C226**: the firewall that the exercise asks for passes its test exactly if the numbers drawn are lucky. -/
theorem firewall_exercise_partial (d : FwDraws) (hd : d.InRange) {ss : List FwStep} (h : fwSteps d = .ok ss)
    (n : TestNet) (hn : fwEvents ss = .ok (eventsOf n)) (h0 : fwPort0 ∈ n.scen.ifaces.keys) (h1 : fwPort1 ∈ n.scen.ifaces.keys)
    {ifs : List Iface} (hi : ifs.map Iface.name = [fwPort0, fwPort1]) :
    testProgram (ruleHandler exerciseRules ifs) () n = .allPassed ↔ Lucky d := by
  rw [firewall_rules_tests exerciseRules d hd h n hn h0 h1 hi]
  obtain ⟨ss', h', he⟩ := firewall_exercise_exact d hd
  rw [h] at h'; cases h'
  exact he

/-- **C226**: the program with which the exercise begins, which applies no rules, fails the test, whatever is drawn. -/
theorem firewall_skeleton_fails (d : FwDraws) (hd : d.InRange) {ss : List FwStep} (h : fwSteps d = .ok ss)
    (n : TestNet) (hn : fwEvents ss = .ok (eventsOf n)) (h0 : fwPort0 ∈ n.scen.ifaces.keys) (h1 : fwPort1 ∈ n.scen.ifaces.keys)
    {ifs : List Iface} (hi : ifs.map Iface.name = [fwPort0, fwPort1]) :
    testProgram (firewallHandler ifs) () n ≠ .allPassed := by
  have hr : firewallHandler ifs = ruleHandler [] ifs := by
    funext st dev p m
    unfold ruleHandler fwPermits
    cases fwKey p <;> rfl
  rw [hr]
  intro hp
  have := (firewall_rules_tests [] d hd h n hn h0 h1 hi).mp hp
  obtain ⟨web, dns, https, http, ping, inner, other, arp, six, hss, _⟩ := fwSteps_frames d hd
  rw [h] at hss; cases hss
  have h2 := this ⟨fwPort0, inner, false⟩ (by simp)
  simp only [fwPermits] at h2
  cases hk : fwKey inner <;> rw [hk] at h2 <;> cases h2

/-- **C226**: with lucky numbers, a program passes the test exactly if it forwards every frame that the rules permit to the
other port, and no other frame. -/
theorem firewall_exercise_tests (d : FwDraws) (hd : d.InRange) (hl : Lucky d) {ss : List FwStep} (h : fwSteps d = .ok ss)
    (n : TestNet) (hn : fwEvents ss = .ok (eventsOf n)) (h0 : fwPort0 ∈ n.scen.ifaces.keys) (h1 : fwPort1 ∈ n.scen.ifaces.keys)
    {σ : Type} (hdl : Handler σ) (P : Reaction σ) (st : σ) (hdo : Does hdl P (eventsOf n)) (hP : Sensible P (stepFrames ss)) :
    testProgram hdl st n = .allPassed ↔ Forwards (fun _ => ruleWants exerciseRules) true [] P [] st (stepFrames ss) := by
  have hg := steps_good d hd h
  obtain ⟨ss', h', he⟩ := firewall_exercise_exact d hd
  rw [h] at h'; cases h'
  have hv := he.mpr hl
  obtain ⟨es, hes, ht⟩ := steps_tests (fun _ => ruleWants exerciseRules) ss [] (fun s hs => (hg s hs).1) (by
    intro i s hs hist' _
    rw [hv s (List.mem_of_getElem? hs)]
    rfl)
  rw [hn] at hes; cases hes
  refine forward_tests_exact n ht ?_ ?_ hdl P st hdo hP
  · intro _ dev p
    unfold ruleWants
    split <;> simp
  · intro f hf
    obtain ⟨s, hs, rfl⟩ := List.mem_map.mp hf
    obtain ⟨⟨g1, g2, _⟩, g3⟩ := hg s hs
    exact ⟨by rcases g3 with g3 | g3 <;> rw [g3] <;> assumption, g1, g2⟩

/-! ## A case of these theorems, and the draws that break the test -/

/-- Numbers drawn for a frame. -/
def exDraw (src dst : Nat) : FwDraw := ⟨40000, 50000, 1, 2, 9000, 7, src, dst, 64, 3, 4⟩

/-- Lucky numbers, between 10.0.0.1 and 10.0.0.2. -/
def exDraws : FwDraws :=
  ⟨exDraw 0x0a000001 0x0a000002, exDraw 0x0a000001 0x0a000002, exDraw 0x0a000001 0x0a000002, exDraw 0x0a000001 0x0a000002,
    exDraw 0x0a000001 0x0a000002, exDraw 0x0a000001 0x0a000002, exDraw 0x0a000001 0x0a000002, exDraw 0x0a000001 0x0a000002,
    exDraw 0x0a000001 0x0a000002⟩

/-- The same, but the web server answers 192.168.42.7. -/
def exUnlucky : FwDraws := { exDraws with web := exDraw 0x0a000001 0xc0a82a07 }

/-- The two interfaces. -/
def exFwIfs : List Iface := [exIf "eth0" 1 1, exIf "eth1" 2 2]

/-- The scenario with given expectations. -/
def exFwNet (es : List Event) : TestNet :=
  { scen := { ifaces := exFwIfs.map fun i => (i.name, i), pending := es.map fun e => ⟨e, [], 0⟩ } }

theorem exFwNet_ok (d : FwDraws) (hd : d.InRange) : ∃ ss es, fwSteps d = .ok ss ∧ fwEvents ss = .ok es ∧
    eventsOf (exFwNet es) = es ∧ fwPort0 ∈ (exFwNet es).scen.ifaces.keys ∧ fwPort1 ∈ (exFwNet es).scen.ifaces.keys ∧
    exFwIfs.map Iface.name = [fwPort0, fwPort1] := by
  obtain ⟨ss, h, _⟩ := firewall_exercise_exact d hd
  obtain ⟨es, he, _⟩ := steps_tests (stepWants ss) ss [] (fun s hs => (steps_good d hd h s hs).1) (by
    intro i s hs hist' hl
    have hl : hist'.length = i := by simpa using hl
    simp only [stepWants, hl, hs])
  refine ⟨ss, es, h, he, ?_, (by decide : fwPort0 ∈ Dict.keys (exFwIfs.map fun i => (i.name, i))),
    (by decide : fwPort1 ∈ Dict.keys (exFwIfs.map fun i => (i.name, i))), by decide⟩
  simp [eventsOf, exFwNet, List.map_map, Function.comp_def]

/-- The firewall that follows the rules passes, for these draws. -/
example : ∃ n, testProgram (ruleHandler exerciseRules exFwIfs) () n = .allPassed ∧
    testProgram (firewallHandler exFwIfs) () n ≠ .allPassed := by
  obtain ⟨ss, es, h, he, hn, h0, h1, hi⟩ := exFwNet_ok exDraws (by decide)
  exact ⟨exFwNet es, (firewall_exercise_partial exDraws (by decide) h _ (by rw [hn]; exact he) h0 h1 hi).mpr (by decide),
    firewall_skeleton_fails exDraws (by decide) h _ (by rw [hn]; exact he) h0 h1 hi⟩

example : exDraws.InRange ∧ Lucky exDraws ∧ exUnlucky.InRange ∧ ¬ Lucky exUnlucky := by decide

/-- Rules are looked at in order, the first that matches decides. -/
example : fwVerdict exerciseRules ⟨6, 0xc0a80d0d, 80, 0x0a000001, 4000⟩ = true ∧
    fwVerdict exerciseRules ⟨6, 0xc0a80d0d, 80, 0xc0a82a01, 4000⟩ = false ∧
    fwVerdict exerciseRules ⟨6, 0xc0a80d0d, 81, 0x0a000001, 4000⟩ = false := by decide

/-- **C226**: some numbers may be drawn for which the test rejects the firewall that follows the rules. -/
theorem firewall_exercise_violated : ∃ d : FwDraws, d.InRange ∧ ∃ ss n, fwSteps d = .ok ss ∧ fwEvents ss = .ok (eventsOf n) ∧
    testProgram (ruleHandler exerciseRules exFwIfs) () n ≠ .allPassed := by
  obtain ⟨ss, es, h, he, hn, h0, h1, hi⟩ := exFwNet_ok exUnlucky (by decide)
  refine ⟨exUnlucky, by decide, ss, exFwNet es, h, by rw [hn]; exact he, ?_⟩
  rw [Ne, firewall_exercise_partial exUnlucky (by decide) h _ (by rw [hn]; exact he) h0 h1 hi]
  decide

end SY.Props
