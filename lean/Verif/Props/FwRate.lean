import Verif.FwRate
import Verif.Props.FwLimit

/-! # C227: the test of rate limits -/

namespace SY.Props

open SY

/-! ## The frames can be sent -/

theorem tcp_pre_raw {t : TCP} {h : IPv4} {d : Bytes} (ht : TCP.WF { t with csum := 0 }) (h1 : h.src.toNat < 2 ^ 32)
    (h2 : h.dst.toNat < 2 ^ 32) (hp : h.protocol < 256) (hd : d.length < 2000) :
    ∃ c, c < 65536 ∧ t.preSerialize d (some h) = .ok { t with csum := c } := by
  have hf : Fits TCP.pseudoFmt [.i h.src.toNat, .i h.dst.toNat, .i h.protocol, .i (20 + d.length : Nat)] := by
    simp [Fits, TCP.pseudoFmt]; omega
  obtain ⟨b, hb⟩ := pack_ok hf
  obtain ⟨b', hb'⟩ := pack_ok (TCP.fits (h := { t with csum := 0 }) ht 0 (by omega))
  refine ⟨SY.checksum (b ++ b' ++ d), checksum_lt _, ?_⟩
  have hs : t.size + d.length = 20 + d.length := rfl
  have hm : t.makeHeader 0 = .ok b' := hb'
  unfold TCP.preSerialize TCP.computeChecksum
  rw [hs]
  simp only [hb, hm, bind_ok]

theorem good_tcp_raw {e : Ethernet} {h : IPv4} {t : TCP} {x : UInt8} {xs : Bytes} (he : e.WF) (ht : e.ethertype = 0x0800)
    (hh : IPv4.WF { h with totallen := 0 }) (ho : h.options = []) (hp : h.protocol = 6) (hw : TCP.WF { t with csum := 0 })
    (hx : xs.length < 1500) : GoodShape [.hdr (.eth e), .hdr (.ip4 h), .hdr (.tcp t), .hdr (.raw (x :: xs))] := by
  refine ⟨⟨rfl, ⟨he, by omega⟩, ?_⟩, ?_, ?_⟩
  · simp only [Hdr.next, ht]
    refine ⟨rfl, ⟨hh, ho⟩, ?_⟩
    simp only [Hdr.next, hp]
    refine ⟨rfl, hw, .inr ⟨?_, x, xs, rfl⟩⟩
    rintro (h | h | h) <;> cases h
  · obtain ⟨c, hc, e1⟩ := tcp_pre_raw (h := h) (d := x :: xs) hw (v4_lt hh.2.2.2.2.2.2.2.1) (v4_lt hh.2.2.2.2.2.2.2.2) (by omega)
      (by simp; omega)
    have hw' : TCP.WF { t with csum := c } := by
      obtain ⟨w1, w2, w3, w4, w5, w6, w7, _⟩ := hw
      exact ⟨w1, w2, w3, w4, w5, w6, w7, hc⟩
    obtain ⟨bt, hbt, hl⟩ := TCP.toBytes_ok hw'
    have hf : finish [.hdr (.eth e), .hdr (.ip4 h), .hdr (.tcp t), .hdr (.raw (x :: xs))] [] [.hdr (.tcp t), .hdr (.raw (x :: xs))] =
        .ok ([.hdr (.tcp { t with csum := c }), .hdr (.raw (x :: xs))], [bt, x :: xs]) := by
      simp only [finish, bind_ok, Item.pre, Hdr.pre, Packet.ip4?, Packet.byName, Hdr.cls, List.flatten_nil, List.append_nil, map_ok,
        Item.toBytes, Hdr.toBytes]
      simp [e1, map_ok, hbt, bind_ok]
    obtain ⟨p', bs', hfin⟩ := ip_finish (h := h) (e := e) he hh ho hf (by simp [hl]; omega)
    exact ⟨_, _, toBytes_of_finish hfin⟩
  · have hs : h.size = .ok 20 := by unfold IPv4.size; rw [ho]; rfl
    refine matcher_made (n := 14 + (20 + (20 + ((x :: xs).length + 0)))) ?_ ?_
    · simp only [List.forall_mem_cons, List.not_mem_nil, false_implies, implies_true, and_true]
      exact ⟨⟨_, rfl⟩, ip4_collect ho, ⟨_, rfl⟩, ⟨_, rfl⟩⟩
    · simp only [Packet.size, Item.size, Hdr.size, hs, bind_ok]
      rfl

theorem tcp_raw_size {e : Ethernet} {h : IPv4} {t : TCP} {x : UInt8} {xs : Bytes} (ho : h.options = []) (hl : xs.length = 1399) :
    Packet.size [.hdr (.eth e), .hdr (.ip4 h), .hdr (.tcp t), .hdr (.raw (x :: xs))] = .ok 1454 := by
  have hs : h.size = .ok 20 := by unfold IPv4.size; rw [ho]; rfl
  simp only [Packet.size, Item.size, Hdr.size, hs, bind_ok, List.length_cons, hl, TCP.size, Ethernet.size]
  rw [show calcsize Ethernet.fmt = 14 from rfl, show calcsize TCP.fmt = 20 from rfl]

/-- The ICMP header of the last frame. -/
def bigMsg : ICMPMsg ICMPData := ⟨8, 0, .echo false 0 0 rateData, 0⟩

theorem good_big {e : Ethernet} {h : IPv4} (he : e.WF) (ht : e.ethertype = 0x0800)
    (hh : IPv4.WF { h with totallen := 0 }) (ho : h.options = []) (hp : h.protocol = 1) :
    GoodShape [.hdr (.eth e), .hdr (.ip4 h), .hdr (.icmp bigMsg)] ∧
      Packet.size [.hdr (.eth e), .hdr (.ip4 h), .hdr (.icmp bigMsg)] = .ok 1042 := by
  have hs : h.size = .ok 20 := by unfold IPv4.size; rw [ho]; rfl
  have hz : Hdr.size (.icmp bigMsg) = .ok 1008 := by decide +kernel
  have hz' : Packet.size [.hdr (.eth e), .hdr (.ip4 h), .hdr (.icmp bigMsg)] = .ok 1042 := by
    simp only [Packet.size, Item.size, hz, bind_ok]
    simp only [Hdr.size, hs, bind_ok]
    rfl
  refine ⟨⟨⟨rfl, ⟨he, by omega⟩, ?_⟩, ?_, ?_⟩, hz'⟩
  · simp only [Hdr.next, ht]
    refine ⟨rfl, ⟨hh, ho⟩, ?_⟩
    simp only [Hdr.next, hp]
    exact ⟨rfl, ⟨⟨by decide, by simp [dataMatches, bigMsg]⟩, by simp [dataWF, bigMsg], rfl⟩, .inl rfl⟩
  · have hb : ∃ b, Hdr.toBytes (.icmp bigMsg) = .ok b ∧ decide (b.length < 2000) = true :=
      Except.of_test (by decide +kernel)
    obtain ⟨b, hb1, hb2⟩ := hb
    have hf : finish [.hdr (.eth e), .hdr (.ip4 h), .hdr (.icmp bigMsg)] [] [.hdr (.icmp bigMsg)] =
        .ok ([.hdr (.icmp bigMsg)], [b]) := by
      simp only [finish, bind_ok, Item.pre, Hdr.pre, map_ok, Item.toBytes, hb1]
    obtain ⟨p', bs', hfin⟩ := ip_finish (h := h) (e := e) he hh ho hf (by simp at hb2 ⊢; omega)
    exact ⟨_, _, toBytes_of_finish hfin⟩
  · refine matcher_made ?_ hz'
    simp only [List.forall_mem_cons, List.not_mem_nil, false_implies, implies_true, and_true]
    exact ⟨⟨_, rfl⟩, ip4_collect ho, ⟨_, rfl⟩⟩

/-- A frame that can be used, with its answer, what rules look at in both, and their size. -/
def RatePair (p : Packet) (k k' : FwKey) (z : Nat) : Prop :=
  (GoodShape p ∧ GoodShape (fwSwap p)) ∧ (fwKey p = some k ∧ fwKey (fwSwap p) = some k') ∧
    fwSize p = z ∧ fwSize (fwSwap p) = z

theorem size_of {p : Packet} {m : Nat} (h : p.size = .ok m) : fwSize p = m - 14 := by simp [fwSize, h]

theorem rate_http {d : FwDraw} (hd : d.InRange 10000 0) : ∃ p, rateHttp d = .ok p ∧
    RatePair p ⟨6, 0xc0a8d500 + d.low, d.sport, d.dst, 80⟩ ⟨6, d.dst, 80, 0xc0a8d500 + d.low, d.sport⟩ 1440 := by
  unfold FwDraw.InRange at hd
  obtain ⟨x, xs, hb, hl⟩ : ∃ x xs, rateBody = x :: xs ∧ xs.length = 1399 :=
    ⟨0x25, List.replicate 1399 0x25, List.replicate_succ, List.length_replicate⟩
  have hs : 0xc0a8d500 + d.low < 2 ^ 32 := by omega
  have ha : d.dst < 2 ^ 32 := by omega
  unfold rateHttp
  simp only [fwFrame, mkEth_ip, bind_ok]
  rw [low_bits (n := d.low) (by rfl) (by omega), hb]
  refine ⟨_, rfl, ⟨?_, ?_⟩, ⟨?_, ?_⟩, ?_, ?_⟩
  · exact good_tcp_raw (ethHeader_wf d.a d.b) rfl (ipHeader_wf (ttl := d.ttl) (by decide : 6 ∈ ipProtocols) (by omega) _ _ 0 (by decide)) rfl rfl
      ⟨by simp [TCP.setflag]; omega, by simp [TCP.setflag], by simp [TCP.setflag]; omega, by simp [TCP.setflag]; omega,
        (by decide : TCP.default.flags ||| (1 <<< TCPFlag.SYN.value) < 512), by simp [TCP.setflag]; omega, (by decide : (0 : Int) ≤ 0 ∧ (0 : Int) < 65536), (by decide : 0 < 65536)⟩ (by omega)
  · exact good_tcp_raw (ethHeader_wf d.b d.a) rfl (ipHeader_wf (by decide : 6 ∈ ipProtocols) (by show 255 - d.ttl < 256; omega) _ _ 0 (by decide)) rfl rfl
      ⟨by simp [TCP.setflag], by simp [TCP.setflag]; omega, by simp [TCP.setflag]; omega, by simp [TCP.setflag]; omega,
        (by decide : TCP.default.flags ||| (1 <<< TCPFlag.SYN.value) ||| (1 <<< TCPFlag.ACK.value) < 512), by simp [TCP.setflag]; omega, (by decide : (0 : Int) ≤ 0 ∧ (0 : Int) < 65536), (by decide : 0 < 65536)⟩ (by omega)
  · simp only [fwKey, fwPorts, fwIp, IPAddr.toNat, addr_of hs, addr_of ha, TCP.setflag, if_true]
  · simp only [fwSwap, swapPorts, fwKey, fwPorts, fwIp, IPAddr.toNat, addr_of hs, addr_of ha, TCP.setflag, if_true]
  · exact size_of (tcp_raw_size rfl hl)
  · exact size_of (tcp_raw_size rfl hl)

theorem rate_ping {d : FwDraw} (hd : d.InRange 0 0) : ∃ p, fwPing d = .ok p ∧
    RatePair p ⟨1, d.src, 0, d.dst, 0⟩ ⟨1, d.dst, 0, d.src, 0⟩ 28 := by
  unfold FwDraw.InRange at hd
  unfold fwPing
  simp only [fwFrame, mkEth_ip, bind_ok]
  obtain ⟨g1, g2, _, _, k1, k2, _, _, z⟩ := pair_icmp (a := d.a) (b := d.b) (ttl := d.ttl) (s := d.src) (d := d.dst) (by omega) (by omega) (by omega)
  exact ⟨_, rfl, ⟨g1, g2⟩, ⟨k1, k2⟩, size_of (z rfl).1, size_of (z rfl).2⟩

theorem rate_big {d : FwDraw} (hd : d.InRange 0 0) : ∃ p, rateBig d = .ok p ∧
    RatePair p ⟨1, d.src, 0, d.dst, 0⟩ ⟨1, d.dst, 0, d.src, 0⟩ 1028 := by
  unfold FwDraw.InRange at hd
  have hs : d.src < 2 ^ 32 := by omega
  have ha : d.dst < 2 ^ 32 := by omega
  unfold rateBig
  simp only [fwFrame, mkEth_ip, bind_ok]
  obtain ⟨g1, z1⟩ := good_big (ethHeader_wf d.a d.b) rfl (h := fwIp 1 d.ttl d.src d.dst)
    (ipHeader_wf (by decide : 1 ∈ ipProtocols) (by show d.ttl < 256; omega) _ _ 0 (by decide)) rfl rfl
  obtain ⟨g2, z2⟩ := good_big (ethHeader_wf d.b d.a) rfl
    (h := { fwIp 1 d.ttl d.src d.dst with src := (fwIp 1 d.ttl d.src d.dst).dst, dst := (fwIp 1 d.ttl d.src d.dst).src, ttl := 255 - d.ttl, ipid := 0 })
    (ipHeader_wf (by decide : 1 ∈ ipProtocols) (by show 255 - d.ttl < 256; omega) _ _ 0 (by decide)) rfl rfl
  refine ⟨_, rfl, ⟨g1, g2⟩, ⟨?_, ?_⟩, size_of z1, size_of z2⟩
  · simp only [fwKey, fwPorts, fwIp, IPAddr.toNat, addr_of hs, addr_of ha]
  · simp only [fwSwap, swapPorts, fwKey, fwPorts, fwIp, IPAddr.toNat, addr_of hs, addr_of ha]

/-! ## The steps -/

/-- The draws of a loop of the test are such that its rules permit the frames. -/
def AllClear (ds : List FwDraw) : Prop := ∀ d ∈ ds, ¬ Forbidden d.src ∧ ¬ Forbidden d.dst

/-- No address that is drawn belongs to the hosts that may not communicate, other than in the last frame; the first loop
draws no source address. -/
def RateLucky (https pings : List FwDraw) : Prop := (∀ d ∈ https, ¬ Forbidden d.dst) ∧ AllClear pings

instance (https pings : List FwDraw) : Decidable (RateLucky https pings) := by unfold RateLucky AllClear Forbidden; infer_instance

/-- What is known of a loop of the test. -/
theorem rate_loop {f : FwDraw → Res Packet} {q z : Nat} {P : FwDraw → Prop} {ds : List FwDraw}
    (hf : ∀ d ∈ ds, ∃ p k k', f d = .ok p ∧ RatePair p k k' z ∧ k.proto = q ∧ k'.proto = q ∧
      (fwVerdict exerciseRules k = true ↔ P d) ∧ (fwVerdict exerciseRules k' = true ↔ P d)) :
    ∃ ss, ratePasses f ds = .ok ss ∧ (∀ s ∈ ss, GoodShape s.pkt ∧ (s.dev = fwPort0 ∨ s.dev = fwPort1)) ∧
      ((∀ s ∈ ss, s.expected = fwPermits exerciseRules s.pkt) ↔ ∀ d ∈ ds, P d) ∧ (∀ s ∈ ss, s.expected = true) ∧
      (∀ q', protoSize q' ss = if q = q' then 2 * z * ds.length else 0) := by
  induction ds with
  | nil => exact ⟨[], rfl, by simp, by simp, by simp, by simp [protoSize]⟩
  | cons d ds ih =>
    obtain ⟨ss, e1, e2, e3, e4, e5⟩ := ih (fun d hd => hf d (by simp [hd]))
    obtain ⟨p, k, k', p1, ⟨⟨g1, g2⟩, ⟨k1, k2⟩, z1, z2⟩, q1, q2, v1, v2⟩ := hf d (by simp)
    refine ⟨fwPass p ++ ss, by simp only [ratePasses, p1, e1, bind_ok], ?_, ?_, ?_, ?_⟩
    · simp only [fwPass, List.cons_append, List.nil_append, List.forall_mem_cons]
      exact ⟨⟨g1, .inl trivial⟩, ⟨g2, .inr trivial⟩, e2⟩
    · have w1 : fwPermits exerciseRules p = fwVerdict exerciseRules k := by unfold fwPermits; rw [k1]
      have w2 : fwPermits exerciseRules (fwSwap p) = fwVerdict exerciseRules k' := by unfold fwPermits; rw [k2]
      simp only [fwPass, List.cons_append, List.nil_append, List.forall_mem_cons, e3, w1, w2]
      constructor
      · rintro ⟨h1, _, h3⟩
        exact ⟨v1.mp h1.symm, h3⟩
      · rintro ⟨h1, h3⟩
        exact ⟨(v1.mpr h1).symm, (v2.mpr h1).symm, h3⟩
    · simp only [fwPass, List.cons_append, List.nil_append, List.forall_mem_cons]
      exact ⟨trivial, trivial, e4⟩
    · intro q'
      simp only [fwPass, List.cons_append, List.nil_append, protoSize, k1, k2, Option.map_some, Option.some.injEq, q1, q2, z1, z2, e5 q',
        List.length_cons]
      split
      · rw [Nat.mul_add]; omega
      · rfl

theorem proto_append (q : Nat) (a b : List FwStep) : protoSize q (a ++ b) = protoSize q a + protoSize q b := by
  induction a with
  | nil => simp [protoSize]
  | cons s a ih => simp only [List.cons_append, protoSize, ih]; omega

theorem verdict_not {k : FwKey} (h : fwVerdict exerciseRules k = true) : ¬ Forbidden k.src ∧ ¬ Forbidden k.dst := by
  constructor <;> intro hf
  · rw [verdict_forbidden (.inl hf)] at h; cases h
  · rw [verdict_forbidden (.inr hf)] at h; cases h

/-- The frames of the test. -/
theorem rate_frames {https pings : List FwDraw} {big : FwDraw} (hd : RateDraws https pings big) : ∃ hs ps p,
    rateSteps https pings big = .ok (hs ++ (ps ++ [⟨fwPort0, p, false⟩, ⟨fwPort1, fwSwap p, false⟩])) ∧
    (∀ s ∈ hs ++ (ps ++ [⟨fwPort0, p, false⟩, ⟨fwPort1, fwSwap p, false⟩]), GoodShape s.pkt ∧ (s.dev = fwPort0 ∨ s.dev = fwPort1)) ∧
    ((∀ s ∈ hs ++ ps, s.expected = fwPermits exerciseRules s.pkt) ↔ RateLucky https pings) ∧ (∀ s ∈ hs ++ ps, s.expected = true) ∧
    protoSize 6 (hs ++ ps) = 20160 ∧ protoSize 1 (hs ++ ps) = 112 ∧
    RatePair p ⟨1, big.src, 0, big.dst, 0⟩ ⟨1, big.dst, 0, big.src, 0⟩ 1028 := by
  obtain ⟨l1, l2, h1, h2, h3⟩ := hd
  obtain ⟨hs, a1, a2, a3, a4, a5⟩ := rate_loop (f := rateHttp) (q := 6) (z := 1440) (P := fun d => ¬ Forbidden d.dst) (ds := https) (by
    intro d hd
    obtain ⟨p, hp, hr⟩ := rate_http (h1 d hd)
    have hlow : d.low < 256 := by have := h1 d hd; unfold FwDraw.InRange at this; omega
    have hn : ¬ Forbidden (0xc0a8d500 + d.low) := by unfold Forbidden; omega
    have hin : Inside (0xc0a8d500 + d.low) := by unfold Inside; omega
    refine ⟨p, _, _, hp, hr, rfl, rfl, ⟨fun h => (verdict_not h).2, fun h => ?_⟩, ⟨fun h => (verdict_not h).1, fun h => ?_⟩⟩
    · exact verdict_tcp hn h (.inr (.inr (.inl ⟨hin, rfl⟩)))
    · exact verdict_tcp h hn (.inr (.inr (.inr (.inl ⟨hin, rfl⟩)))))
  obtain ⟨ps, b1, b2, b3, b4, b5⟩ := rate_loop (f := fwPing) (q := 1) (z := 28) (P := fun d => ¬ Forbidden d.src ∧ ¬ Forbidden d.dst)
    (ds := pings) (by
    intro d hd
    obtain ⟨p, hp, hr⟩ := rate_ping (h2 d hd)
    exact ⟨p, _, _, hp, hr, rfl, rfl, ⟨fun h => verdict_not h, fun h => verdict_icmp h.1 h.2⟩,
      ⟨fun h => (verdict_not h).symm, fun h => verdict_icmp h.2 h.1⟩⟩)
  obtain ⟨p, c1, c2⟩ := rate_big h3
  refine ⟨hs, ps, p, by simp only [rateSteps, a1, b1, c1, bind_ok], ?_, ?_, ?_, ?_, ?_, c2⟩
  · intro s hs
    rcases List.mem_append.mp hs with hs | hs
    · exact a2 s hs
    rcases List.mem_append.mp hs with hs | hs
    · exact b2 s hs
    simp only [List.mem_cons, List.not_mem_nil, or_false] at hs
    rcases hs with rfl | rfl
    · exact ⟨c2.1.1, .inl rfl⟩
    · exact ⟨c2.1.2, .inr rfl⟩
  · unfold RateLucky AllClear
    rw [← a3, ← b3]
    simp only [List.forall_mem_append]
  · simp only [List.forall_mem_append]
    exact ⟨a4, b4⟩
  · rw [proto_append, a5, b5, l1]; rfl
  · rw [proto_append, a5, b5, l2]; rfl

/-! ## What the test makes of a firewall -/

theorem agrees_tail {rs : List FwRule} {limits : Nat → Option Nat} {a b : List FwStep} {st : LimitState}
    (hb : ∀ s ∈ b, ∀ st, s.expected = (limitStep rs limits st s.pkt).2) :
    BucketsAgree rs limits st (a ++ b) ↔ BucketsAgree rs limits st a := by
  induction a generalizing st with
  | nil =>
    refine ⟨fun _ => trivial, fun _ => ?_⟩
    simp only [List.nil_append]
    induction b generalizing st with
    | nil => trivial
    | cons s b ih => exact ⟨hb s (by simp) st, ih (fun s hs => hb s (by simp [hs])) trivial⟩
  | cons s a ih => simp only [List.cons_append, BucketsAgree, ih]

theorem which_icmp {s d : Nat} {sp dp : Int} (h1 : ¬ Forbidden s) (h2 : ¬ Forbidden d) :
    fwWhich exerciseRules ⟨1, s, sp, d, dp⟩ = some 12 := by
  unfold exerciseRules
  unfold Forbidden at h1 h2
  simp only [fwWhich, FwRule.matches, fwIs, fwInNet, Bool.true_and, Bool.and_true, decide_eq_true_eq, Bool.and_eq_true]
  rw [if_neg (by omega), if_neg (by omega)]
  simp

theorem too_big {limits : Nat → Option Nat} (hl : limits 12 = some 150) {p : Packet} {s d : Nat} {sp dp : Int}
    (hk : fwKey p = some ⟨1, s, sp, d, dp⟩) (hz : fwSize p = 1028) (st : LimitState) :
    (limitStep exerciseRules limits st p).2 = false := by
  cases hv : (limitStep exerciseRules limits st p).2 with
  | false => rfl
  | true =>
    have hp := bucket_permits hv
    simp only [fwPermits, hk] at hp
    obtain ⟨h1, h2⟩ := verdict_not hp
    simp only [limitStep, askBuckets, hk, hp, if_true, which_icmp h1 h2, spend, hl, hz] at hv
    rw [if_neg] at hv
    · cases hv
    · simp only [refill, hl]
      omega

/-- **C227**: whatever numbers are drawn and however much time passes between the frames, a firewall that follows the rules,
enforces some of their limits and starts with full buckets passes the rate limit test exactly if no address drawn before the
last frame is of a host that may not communicate, and the limit on ICMP is enforced or an address of the last frame is. -/
theorem rate_test_exact (limits : Nat → Option Nat) (hsub : ∀ i r, limits i = some r → exerciseLimits i = some r)
    (st : LimitState) (hb : ∀ i r, limits i = some r → 2 * r ≤ st.tokens i)
    {https pings : List FwDraw} {big : FwDraw} (hd : RateDraws https pings big) {ss : List FwStep} (h : rateSteps https pings big = .ok ss)
    (n : TestNet) (hn : fwEvents ss = .ok (eventsOf n)) (h0 : fwPort0 ∈ n.scen.ifaces.keys) (h1 : fwPort1 ∈ n.scen.ifaces.keys)
    {ifs : List Iface} (hi : ifs.map Iface.name = [fwPort0, fwPort1]) :
    testProgram (limitHandler exerciseRules limits ifs) st n = .allPassed ↔
      RateLucky https pings ∧ (limits 12 = some 150 ∨ Forbidden big.src ∨ Forbidden big.dst) := by
  obtain ⟨hs, ps, p, e1, e2, e3, e4, e5, e6, _, ⟨k1, k2⟩, z1, z2⟩ := rate_frames hd
  rw [h] at e1; cases e1
  rw [limits_steps_tests exerciseRules limits st e2 n hn h0 h1 hi, ← List.append_assoc, ← e3]
  constructor
  · intro ha
    refine ⟨fun s hs => ?_, ?_⟩
    · obtain ⟨st', hst⟩ := bucketsAgree_mem ha (List.mem_append_left _ hs)
      rw [e4 s hs] at hst ⊢
      exact (bucket_permits hst.symm).symm
    · cases hl : limits 12 with
      | some r =>
        have := hsub 12 r hl
        cases this
        exact .inl rfl
      | none =>
        right
        obtain ⟨st', hst⟩ := bucketsAgree_mem ha (s := ⟨fwPort0, p, false⟩) (by simp)
        by_cases q1 : Forbidden big.src
        · exact .inl q1
        by_cases q2 : Forbidden big.dst
        · exact .inr q2
        rw [step_unlimited] at hst
        · simp only [fwPermits, k1, verdict_icmp q1 q2] at hst
          cases hst
        · intro k i hk hw
          rw [k1] at hk; cases hk
          rw [which_icmp q1 q2] at hw; cases hw
          exact hl
  · rintro ⟨hv, hl⟩
    rw [agrees_tail]
    · refine agrees_enough hv fun i r hr => ?_
      have hx := hsub i r hr
      have hfull := hb i r hr
      have hr' : (r = 12500 ∧ (i = 6 ∨ i = 7)) ∨ (r = 150 ∧ i = 12) := by
        unfold exerciseLimits at hx
        split at hx <;> cases hx <;> simp
      rcases hr' with ⟨rfl, _⟩ | ⟨rfl, rfl⟩
      · have hp := need_proto (q := 6) hx (fun k hk => by
          rcases limited_proto hk hx with h | h
          · exact h.2.2
          · omega) (hs ++ ps)
        omega
      · have hp := need_proto (q := 1) hx (fun k hk => by
          rcases limited_proto hk hx with h | h
          · omega
          · exact h.2.2) (hs ++ ps)
        omega
    · have hno : ∀ (p : Packet) (s d : Nat), fwKey p = some ⟨1, s, 0, d, 0⟩ → fwSize p = 1028 →
          (limits 12 = some 150 ∨ Forbidden s ∨ Forbidden d) → ∀ st, false = (limitStep exerciseRules limits st p).2 := by
        intro p s d hk hz hl st
        rcases hl with hl | hl
        · exact (too_big hl hk hz st).symm
        · cases hv : (limitStep exerciseRules limits st p).2 with
          | false => rfl
          | true =>
            have hp := bucket_permits hv
            simp only [fwPermits, hk, verdict_forbidden (k := ⟨1, s, 0, d, 0⟩) hl] at hp
            cases hp
      simp only [List.forall_mem_cons, List.not_mem_nil, false_implies, implies_true, and_true]
      exact ⟨hno p _ _ k1 z1 hl, hno _ _ _ k2 z2 (hl.imp id Or.symm)⟩

/-- **C227**: the firewall that enforces all limits and starts with full buckets passes the rate limit test exactly if no
address drawn before the last frame is of a host that may not communicate. -/
theorem rate_test_partial (st : LimitState) (hb : ∀ i r, exerciseLimits i = some r → 2 * r ≤ st.tokens i)
    {https pings : List FwDraw} {big : FwDraw} (hd : RateDraws https pings big) {ss : List FwStep} (h : rateSteps https pings big = .ok ss)
    (n : TestNet) (hn : fwEvents ss = .ok (eventsOf n)) (h0 : fwPort0 ∈ n.scen.ifaces.keys) (h1 : fwPort1 ∈ n.scen.ifaces.keys)
    {ifs : List Iface} (hi : ifs.map Iface.name = [fwPort0, fwPort1]) :
    testProgram (limitHandler exerciseRules exerciseLimits ifs) st n = .allPassed ↔ RateLucky https pings := by
  rw [rate_test_exact exerciseLimits (fun _ _ h => h) st hb hd h n hn h0 h1 hi]
  exact and_iff_left (.inl rfl)

/-- **C227**: a firewall that enforces no limit does not pass, unless the last frame has an address of a host that may not
communicate. -/
theorem rate_unlimited_fails (st : LimitState)
    {https pings : List FwDraw} {big : FwDraw} (hd : RateDraws https pings big) {ss : List FwStep} (h : rateSteps https pings big = .ok ss)
    (n : TestNet) (hn : fwEvents ss = .ok (eventsOf n)) (h0 : fwPort0 ∈ n.scen.ifaces.keys) (h1 : fwPort1 ∈ n.scen.ifaces.keys)
    {ifs : List Iface} (hi : ifs.map Iface.name = [fwPort0, fwPort1]) (hbig : ¬ Forbidden big.src ∧ ¬ Forbidden big.dst) :
    testProgram (limitHandler exerciseRules (fun _ => none) ifs) st n ≠ .allPassed := by
  rw [Ne, rate_test_exact (fun _ => none) (fun _ _ h => by cases h) st (fun _ _ h => by cases h) hd h n hn h0 h1 hi]
  rintro ⟨_, h | h | h⟩
  · cases h
  · exact hbig.1 h
  · exact hbig.2 h

/-- The limit on ICMP alone. -/
def icmpOnly : Nat → Option Nat
  | 12 => some 150
  | _ => none

theorem icmpOnly_sub (i r : Nat) (h : icmpOnly i = some r) : exerciseLimits i = some r := by
  unfold icmpOnly at h
  split at h <;> cases h
  rfl

/-- **C227**: the test does not see whether the limits on TCP are enforced: whatever is drawn, and whatever the buckets of
those rules hold, it passes a firewall without them whenever it passes one with them. -/
theorem rate_tcp_violated (st st' : LimitState) (hb : ∀ i r, exerciseLimits i = some r → 2 * r ≤ st.tokens i) (hb' : 300 ≤ st'.tokens 12)
    {https pings : List FwDraw} {big : FwDraw} (hd : RateDraws https pings big) {ss : List FwStep} (h : rateSteps https pings big = .ok ss)
    (n : TestNet) (hn : fwEvents ss = .ok (eventsOf n)) (h0 : fwPort0 ∈ n.scen.ifaces.keys) (h1 : fwPort1 ∈ n.scen.ifaces.keys)
    {ifs : List Iface} (hi : ifs.map Iface.name = [fwPort0, fwPort1]) :
    testProgram (limitHandler exerciseRules icmpOnly ifs) st' n = .allPassed ↔
      testProgram (limitHandler exerciseRules exerciseLimits ifs) st n = .allPassed := by
  rw [rate_test_partial st hb hd h n hn h0 h1 hi, rate_test_exact icmpOnly icmpOnly_sub st' ?_ hd h n hn h0 h1 hi]
  · exact and_iff_left (.inl rfl)
  · intro i r hr
    unfold icmpOnly at hr
    split at hr <;> cases hr
    exact hb'

/-- **C227**: with buckets that are empty at the start, the test is not passed if less than half a second passes before the
frames arrive, whatever is drawn: the pauses of the test, meant to let buckets fill, are made before the program starts. -/
theorem rate_empty_violated (st : LimitState) (hb : Dry exerciseLimits st)
    {https pings : List FwDraw} {big : FwDraw} (hd : RateDraws https pings big) {ss : List FwStep} (h : rateSteps https pings big = .ok ss)
    (n : TestNet) (hn : fwEvents ss = .ok (eventsOf n)) (h0 : fwPort0 ∈ n.scen.ifaces.keys) (h1 : fwPort1 ∈ n.scen.ifaces.keys)
    {ifs : List Iface} (hi : ifs.map Iface.name = [fwPort0, fwPort1]) :
    testProgram (limitHandler exerciseRules exerciseLimits ifs) st n ≠ .allPassed := by
  have hd' := hd
  obtain ⟨_, l2, _, g2, _⟩ := hd'
  obtain ⟨hs, ps, p, e1, e2, _⟩ := rate_frames hd
  rw [h] at e1; cases e1
  rw [Ne, limits_steps_tests exerciseRules exerciseLimits st e2 n hn h0 h1 hi]
  intro ha
  match pings, l2 with
  | d :: ds, _ =>
    obtain ⟨q, hq, _, ⟨k1, _⟩, z1, _⟩ := rate_ping (g2 d (by simp))
    have hm : (⟨fwPort0, q, true⟩ : FwStep) ∈ hs ++ (ps ++ [⟨fwPort0, p, false⟩, ⟨fwPort1, fwSwap p, false⟩]) := by
      unfold rateSteps at h
      obtain ⟨a, ha, h⟩ := bind_eq_ok.mp h
      obtain ⟨b, hb, h⟩ := bind_eq_ok.mp h
      obtain ⟨c, hc, h⟩ := bind_eq_ok.mp h
      simp only [ratePasses, hq, bind_ok] at hb
      obtain ⟨b', hb', hb⟩ := bind_eq_ok.mp hb
      cases hb
      have h := Except.ok.inj h
      rw [← h]
      simp [fwPass]
    obtain ⟨st', hst⟩ := bucketsAgree_mem ha hm
    have hv := bucket_permits hst.symm
    simp only [fwPermits, k1] at hv
    obtain ⟨q1, q2⟩ := verdict_not hv
    have := agrees_dry hb ha hm k1 (which_icmp q1 q2) (r := 150) rfl (by simp [z1])
    cases this

/-- **C227**: if two seconds or more pass before the first frame, the firewall that enforces all limits passes the test
exactly if no address drawn before the last frame is of a host that may not communicate, whatever its buckets hold at the
start. -/
theorem rate_waited_partial (b : Nat → Nat) {k : Nat} (hk : 4 ≤ k) (t : List Nat)
    {https pings : List FwDraw} {big : FwDraw} (hd : RateDraws https pings big) {ss : List FwStep} (h : rateSteps https pings big = .ok ss)
    (n : TestNet) (hn : fwEvents ss = .ok (eventsOf n)) (h0 : fwPort0 ∈ n.scen.ifaces.keys) (h1 : fwPort1 ∈ n.scen.ifaces.keys)
    {ifs : List Iface} (hi : ifs.map Iface.name = [fwPort0, fwPort1]) :
    testProgram (limitHandler exerciseRules exerciseLimits ifs) ⟨b, k :: t⟩ n = .allPassed ↔ RateLucky https pings := by
  obtain ⟨hs, ps, p, e1, e2, _⟩ := rate_frames hd
  rw [h] at e1; cases e1
  rw [← rate_test_partial ⟨refill exerciseLimits k b, 0 :: t⟩ ?_ hd h n hn h0 h1 hi,
    limits_steps_tests exerciseRules exerciseLimits _ e2 n hn h0 h1 hi,
    limits_steps_tests exerciseRules exerciseLimits _ e2 n hn h0 h1 hi]
  · exact agrees_waited _
  · intro i r hr
    have hr' : r = 12500 ∨ r = 150 := by
      unfold exerciseLimits at hr
      split at hr <;> cases hr <;> simp
    simp only [refill, hr]
    rcases hr' with rfl | rfl <;> omega

/-- **C227**: whatever is drawn, a program passes the test exactly if it forwards every frame to the other port, in turn, but
for the last two, which it ignores. -/
theorem rate_program_tests {https pings : List FwDraw} {big : FwDraw} (hd : RateDraws https pings big) {ss : List FwStep}
    (h : rateSteps https pings big = .ok ss)
    (n : TestNet) (hn : fwEvents ss = .ok (eventsOf n)) (h0 : fwPort0 ∈ n.scen.ifaces.keys) (h1 : fwPort1 ∈ n.scen.ifaces.keys)
    {σ : Type} (hdl : Handler σ) (P : Reaction σ) (st : σ) (hdo : Does hdl P (eventsOf n)) (hP : Sensible P (stepFrames ss)) :
    testProgram hdl st n = .allPassed ↔
      Forwards (fun hist dev _ => if hist.length < 18 then [fwOtherPort dev] else []) true [] P [] st (stepFrames ss) := by
  obtain ⟨hs, ps, p, e1, e2, _, e4, _, _, _⟩ := rate_frames hd
  have hlen : (hs ++ ps).length = 18 := by
    obtain ⟨l1, l2, _⟩ := hd
    have hl : ∀ (f : FwDraw → Res Packet) (ds : List FwDraw) (ss : List FwStep), ratePasses f ds = .ok ss → ss.length = 2 * ds.length := by
      intro f ds
      induction ds with
      | nil => intro ss h; cases h; rfl
      | cons d ds ih =>
        intro ss h
        simp only [ratePasses] at h
        obtain ⟨x, _, h⟩ := bind_eq_ok.mp h
        obtain ⟨y, hy, h⟩ := bind_eq_ok.mp h
        cases h
        simp only [fwPass, List.length_append, List.length_cons, List.length_nil, ih y hy]
        omega
    unfold rateSteps at e1
    obtain ⟨a, ha, h⟩ := bind_eq_ok.mp e1
    obtain ⟨b, hb, h⟩ := bind_eq_ok.mp h
    obtain ⟨c, hc, h⟩ := bind_eq_ok.mp h
    have h := congrArg List.length (Except.ok.inj h)
    have h1 := hl _ _ _ ha
    have h2 := hl _ _ _ hb
    simp only [List.length_append, List.length_cons, List.length_nil] at h ⊢
    omega
  rw [h] at e1; cases e1
  rw [← List.append_assoc] at hn e2 hP ⊢
  obtain ⟨es, hes, ht⟩ := steps_tests (fun hist dev _ => if hist.length < 18 then [fwOtherPort dev] else []) _ [] (fun s hs => (e2 s hs).1) (by
    intro i s hs hist' hl
    simp only [List.length_nil, Nat.zero_add] at hl
    rw [hl]
    by_cases hi : i < 18
    · rw [List.getElem?_append_left (by omega)] at hs
      rw [if_pos hi, e4 s (List.mem_of_getElem? hs), if_pos rfl]
    · rw [List.getElem?_append_right (by omega)] at hs
      have hs := List.mem_of_getElem? hs
      simp only [List.mem_cons, List.not_mem_nil, or_false] at hs
      rw [if_neg hi]
      rcases hs with rfl | rfl <;> rfl)
  rw [hn] at hes; cases hes
  refine forward_tests_exact n ht ?_ ?_ hdl P st hdo hP
  · intro _ dev p
    split <;> simp
  · intro f hf
    obtain ⟨s, hs, rfl⟩ := List.mem_map.mp hf
    obtain ⟨⟨g1, g2, _⟩, g3⟩ := e2 s hs
    exact ⟨by rcases g3 with g3 | g3 <;> rw [g3] <;> assumption, g1, g2⟩

/-- A program that looks at no rule and no size: it forwards the first eighteen frames. -/
def counts : Reaction Nat := fun k dev p => .ok (k + 1, if k < 18 then [(fwOtherPort dev, p)] else [])

/-- **C227**: such a program passes the test, whatever is drawn, with unlucky numbers too. -/
theorem rate_counter_violated {https pings : List FwDraw} {big : FwDraw} (hd : RateDraws https pings big) {ss : List FwStep}
    (h : rateSteps https pings big = .ok ss)
    (n : TestNet) (hn : fwEvents ss = .ok (eventsOf n)) (h0 : fwPort0 ∈ n.scen.ifaces.keys) (h1 : fwPort1 ∈ n.scen.ifaces.keys) :
    testProgram (reactive counts) 0 n = .allPassed := by
  have hg : ∀ f ∈ stepFrames ss, GoodFrame n.scen.ifaces f := by
    obtain ⟨hs, ps, p, e1, e2, _⟩ := rate_frames hd
    rw [h] at e1; cases e1
    intro f hf
    obtain ⟨s, hs, rfl⟩ := List.mem_map.mp hf
    obtain ⟨⟨g1, g2, _⟩, g3⟩ := e2 s hs
    exact ⟨by rcases g3 with g3 | g3 <;> rw [g3] <;> assumption, g1, g2⟩
  rw [rate_program_tests hd h n hn h0 h1 (reactive counts) counts 0 (does_self _ _) ?_]
  · have hgen : ∀ (fs hist : List (List Char × Packet)), (∀ f ∈ fs, GoodFrame n.scen.ifaces f) →
        Forwards (fun hist dev _ => if hist.length < 18 then [fwOtherPort dev] else []) true [] counts hist hist.length fs := by
      intro fs
      induction fs with
      | nil => intro hist _; trivial
      | cons f fs ih =>
        obtain ⟨dev, p⟩ := f
        intro hist hf
        obtain ⟨q, _, _, e1, _, _, _, e5⟩ := frame_facts (hf (dev, p) (by simp)) true []
        refine ⟨q, _, _, e1, rfl, ?_, ?_, ih ((dev, p) :: hist) (fun f hm => hf f (by simp [hm]))⟩
        · by_cases hk : hist.length < 18 <;> simp [hk]
        · intro x hx
          split at hx
          · rw [List.mem_singleton] at hx; subst hx; exact e5
          · cases hx
    exact hgen _ [] hg
  · intro k dev p q hm ha
    obtain ⟨q', x, b, e1, e2, _⟩ := frame_facts (hg _ hm) true []
    rw [ha] at e1; cases e1
    simp only [counts]
    intro y hy
    split at hy
    · rw [List.mem_singleton] at hy; subst hy; exact ⟨x, b, e2⟩
    · cases hy

/-! ## Cases of these theorems -/

/-- Draws for the test. -/
def exRate : List FwDraw × List FwDraw × FwDraw :=
  (List.replicate 7 (exDraw 0x0a000001 0x0a000002), [exDraw 0x0a000001 0x0a000002, exDraw 0x0a000003 0x0a000004], exDraw 5 6)

example : RateDraws exRate.1 exRate.2.1 exRate.2.2 ∧ RateLucky exRate.1 exRate.2.1 := by decide

theorem exRateNet_ok {https pings : List FwDraw} {big : FwDraw} (hd : RateDraws https pings big) :
    ∃ ss es, rateSteps https pings big = .ok ss ∧ fwEvents ss = .ok es ∧
    eventsOf (exFwNet es) = es ∧ fwPort0 ∈ (exFwNet es).scen.ifaces.keys ∧ fwPort1 ∈ (exFwNet es).scen.ifaces.keys ∧
    exFwIfs.map Iface.name = [fwPort0, fwPort1] := by
  obtain ⟨hs, ps, p, h, e2, _⟩ := rate_frames hd
  generalize hs ++ (ps ++ [⟨fwPort0, p, false⟩, ⟨fwPort1, fwSwap p, false⟩]) = ss at h e2
  obtain ⟨es, he, _⟩ := steps_tests (stepWants ss) ss [] (fun s hs => (e2 s hs).1) (by
    intro i s hs hist' hl
    have hl : hist'.length = i := by simpa using hl
    simp only [stepWants, hl, hs])
  refine ⟨ss, es, h, he, ?_, (by decide : fwPort0 ∈ Dict.keys (exFwIfs.map fun i => (i.name, i))),
    (by decide : fwPort1 ∈ Dict.keys (exFwIfs.map fun i => (i.name, i))), by decide⟩
  simp [eventsOf, exFwNet, List.map_map, Function.comp_def]

/-- One scenario, and what it makes of five firewalls. -/
example : ∃ n, testProgram (limitHandler exerciseRules exerciseLimits exFwIfs) exFull n = .allPassed ∧
    testProgram (limitHandler exerciseRules icmpOnly exFwIfs) exFull n = .allPassed ∧
    testProgram (limitHandler exerciseRules (fun _ => none) exFwIfs) exFull n ≠ .allPassed ∧
    testProgram (limitHandler exerciseRules exerciseLimits exFwIfs) exEmpty n ≠ .allPassed ∧
    testProgram (limitHandler exerciseRules exerciseLimits exFwIfs) ⟨fun _ => 0, [4, 0, 1]⟩ n = .allPassed := by
  have hd : RateDraws exRate.1 exRate.2.1 exRate.2.2 := by decide
  have hf : ∀ i r, exerciseLimits i = some r → 2 * r ≤ exFull.tokens i := by
    intro i r h
    simp [exFull, h]
  obtain ⟨ss, es, h, he, hn, h0, h1, hi⟩ := exRateNet_ok hd
  have he : fwEvents ss = .ok (eventsOf (exFwNet es)) := by rw [hn]; exact he
  have hp := (rate_test_partial exFull hf hd h _ he h0 h1 hi).mpr (by decide)
  exact ⟨exFwNet es, hp, (rate_tcp_violated exFull exFull hf (by decide) hd h _ he h0 h1 hi).mpr hp,
    rate_unlimited_fails exFull hd h _ he h0 h1 hi (by unfold Forbidden; decide),
    rate_empty_violated exEmpty ⟨fun i r h => rfl, fun k hk => by cases hk⟩ hd h _ he h0 h1 hi,
    (rate_waited_partial _ (by decide) _ hd h _ he h0 h1 hi).mpr (by decide)⟩

/-- The program that counts, in a scenario with an address of a host that may not communicate. -/
example : ∃ n, testProgram (reactive counts) 0 n = .allPassed ∧
    testProgram (limitHandler exerciseRules exerciseLimits exFwIfs) exFull n ≠ .allPassed := by
  have hd : RateDraws exRate.1 [exDraw 0xc0a82a01 0x0a000002, exDraw 0x0a000003 0x0a000004] exRate.2.2 := by decide
  obtain ⟨ss, es, h, he, hn, h0, h1, hi⟩ := exRateNet_ok hd
  have he : fwEvents ss = .ok (eventsOf (exFwNet es)) := by rw [hn]; exact he
  refine ⟨exFwNet es, rate_counter_violated hd h _ he h0 h1, ?_⟩
  rw [Ne, rate_test_partial exFull (fun i r h => by simp [exFull, h]) hd h _ he h0 h1 hi]
  decide

end SY.Props
