import Verif.UdpStack
import Verif.Props.Live
import Verif.Props.Socket
import Verif.Props.PacketParse
import Verif.Props.Of13

/-! # Properties C173–C176: the UDP stack example

`Verif/UdpStack.lean` models `/repo/examples/udpstack.py`, which connects the socket emulation to a live
network. -/

namespace SY.Props

/-! ## C173: what is sent -/

/-- The IPv4 header a message is sent with. -/
def flowIp (src dst : BitVec 32) (m : DownMsg) : IPv4 :=
  ⟨0, 28 + m.data.length, 0xabcd, 2, 0, 64, m.proto, .v4 src, .v4 dst, []⟩

/-- The UDP header a message is sent with. -/
def flowUdp (m : DownMsg) (csum : Nat) : UDP := ⟨m.localAddr.2, m.remoteAddr.2, 8 + m.data.length, csum⟩

theorem firstV4_of {i : Iface} {l r : List IPIface} {a : IPIface} (hi : i.ips = l ++ a :: r)
    (hl : ∀ x ∈ l, ¬ x.addr.isV4) (ha : a.addr.isV4) : i.firstV4 = .ok a := by
  unfold Iface.firstV4
  have : i.ips.filter (fun x => decide x.addr.isV4) = a :: r.filter (fun x => decide x.addr.isV4) := by
    rw [hi, List.filter_append, List.filter_cons_of_pos (by simpa using ha),
      List.filter_eq_nil_iff.mpr (by intro x hx; simpa using hl x hx), List.nil_append]
  rw [this]
  rfl

/-- The interface the stack uses: the first loopback interface; without one, it raises an exception. -/
theorem stack_interface (n : NetBase) :
    (∀ i, stackIntf n = .ok i ↔ ∃ l r, n.interfaces = l ++ i :: r ∧ i.iftype = .loopback ∧ ∀ j ∈ l, j.iftype ≠ .loopback) ∧
    (stackIntf n = .error .generic ↔ ∀ j ∈ n.interfaces, j.iftype ≠ .loopback) := by
  unfold stackIntf
  cases hf : n.interfaces.find? (fun i => i.iftype == .loopback) with
  | none =>
    have hn : ∀ j ∈ n.interfaces, j.iftype ≠ .loopback := by simpa using hf
    refine ⟨fun i => ⟨fun h => (nomatch h), ?_⟩, ⟨fun _ => hn, fun _ => rfl⟩⟩
    rintro ⟨l, r, he, hi, _⟩
    exact absurd hi (hn i (by rw [he]; simp))
  | some k =>
    obtain ⟨hk, l, r, he, hl⟩ := List.find?_eq_some_iff_append.mp hf
    have hk' : k.iftype = .loopback := by simpa using hk
    refine ⟨fun i => ⟨fun h => ?_, ?_⟩, ⟨fun h => (nomatch h), fun h => absurd hk' (h k (by rw [he]; simp))⟩⟩
    · cases h
      exact ⟨l, r, he, hk', fun j hj => by simpa using hl j hj⟩
    · rintro ⟨l', r', he', hi, hl'⟩
      have : n.interfaces.find? (fun i => i.iftype == .loopback) = some i :=
        List.find?_eq_some_iff_append.mpr ⟨by simpa using hi, l', r', he', fun j hj => by simpa using hl' j hj⟩
      rw [hf] at this
      cases this
      rfl

/-- Three headers: their bytes, one after the other. -/
theorem toBytes_flow {h h' : IPv4} {u u' : UDP} {d bi bu : Bytes} (hu : u.preSerialize d (some h) = .ok u')
    (hub : u'.toBytes = .ok bu) (hi : h.preSerialize (bu ++ d) = .ok h') (hib : h'.toBytes = .ok bi) :
    (Packet.toBytes [.hdr (.ip4 h), .hdr (.udp u), .hdr (.raw d)]).2 = .ok (bi ++ (bu ++ d)) := by
  have := packet_serialises [.hdr (.ip4 h), .hdr (.udp u), .hdr (.raw d)] [bi, bu, d] rfl ?_
  · rw [this]; simp
  · intro k it hk
    match k with
    | 0 => cases hk; exact ⟨.hdr (.ip4 h'), bi, by simp [Item.pre, Hdr.pre, hi, map_ok], hib, rfl⟩
    | 1 =>
      cases hk
      exact ⟨.hdr (.udp u'), bu, by simp [Item.pre, Hdr.pre, Packet.ip4?, Packet.byName, Hdr.cls, hu, map_ok], hub, rfl⟩
    | 2 => cases hk; exact ⟨.hdr (.raw d), d, by simp [Item.pre, Hdr.pre, map_ok], rfl, rfl⟩
    | k + 3 => cases hk

/-- The checksum of a UDP header can be computed. -/
theorem udp_pre_ok {u : UDP} {h : IPv4} {d : Bytes} (hs : 0 ≤ u.src ∧ u.src < 65536) (hd : 0 ≤ u.dst ∧ u.dst < 65536)
    (hl : 8 + d.length < 65536) (h1 : h.src.toNat < 2 ^ 32) (h2 : h.dst.toNat < 2 ^ 32) (hp : h.protocol < 256) :
    ∃ c, c < 65536 ∧ u.preSerialize d (some h) = .ok { u with len := 8 + d.length, csum := c } := by
  have hf : Fits UDP.pseudoFmt [.i h.src.toNat, .i h.dst.toNat, .i h.protocol, .i (8 + d.length : Nat), .i u.src,
      .i u.dst, .i (8 + d.length : Nat), .i 0] := by
    simp [Fits, UDP.pseudoFmt]; omega
  obtain ⟨b, hb⟩ := pack_ok hf
  refine ⟨SY.checksum (b ++ d), checksum_lt _, ?_⟩
  unfold UDP.preSerialize UDP.computeChecksum
  simp only [hb, bind_ok]

/-- What the loopback device is given for a packet with a null header. -/
theorem sendReal_loopback {n : NetBase} (hn : NetOk n) {i : Iface} (hi : i ∈ n.interfaces) (hl : i.iftype = .loopback)
    {h : IPv4} {p : Packet} {b : Bytes} (hb : (Packet.toBytes (.hdr (.ip4 h) :: p)).2 = .ok b)
    (hv : (b.headD 0).toNat / 16 = 4) :
    (sendReal n (.intf i) (.hdr (.null 2) :: .hdr (.ip4 h) :: p)).2 = .ok (i.name, b) := by
  obtain ⟨⟨k, v⟩, hx, e'⟩ := List.mem_map.mp hi
  simp only at e'
  subst e'
  have hk := hn.2 _ hx
  simp only at hk
  subst hk
  have hg := Dict.get?_of_mem hn.1 hx
  have hd : Packet.dropLink (.hdr (.null 2) :: .hdr (.ip4 h) :: p) = .hdr (.ip4 h) :: p := rfl
  have hf : Packet.firstIs (.hdr (.ip4 h) :: p) [.ip4, .ip6] = true := rfl
  simp only [sendReal, sendTarget, if_pos hl, hg, rawSend, hd, hf]
  rw [if_neg (by simp)]
  simp only [if_true, hb, bind_ok, rawVersion, if_pos hv, map_ok]

theorem flow_printable (h : IPv4) (u : UDP) (d : Bytes) :
    ∃ t, Packet.str [.hdr (.null 2), .hdr (.ip4 h), .hdr (.udp u), .hdr (.raw d)] = .ok t := by
  refine (packet_str_partial _).1.mpr ?_
  intro k hk
  simp only [List.mem_cons, Item.hdr.injEq, List.not_mem_nil, or_false] at hk
  rcases hk with rfl | rfl | rfl | rfl <;> trivial

theorem stackIPv4_ok {a : IPIface} {m : DownMsg} (hp : m.proto ∈ ipProtocols) :
    stackIPv4 a m = .ok ⟨0, 20, 0xabcd, 2, 0, 64, m.proto, a.addr, m.remoteAddr.1, []⟩ := by
  unfold stackIPv4
  simp only [IPv4.setProtocol, enumOf_nat hp, bind_ok, IPv4.setSrc, IPv4.setDst, ipAddress, IPv4.setIpid, IPv4.setTtl,
    IPv4.setFlags]
  rfl

/-- The first byte of an IPv4 header without options. -/
theorem ip4_first_byte {h : IPv4} (ho : h.options = []) {b : Bytes} (hb : h.toBytes = .ok b) (r : Bytes) :
    ((b ++ r).headD 0).toNat / 16 = 4 := by
  obtain ⟨o, d0, d, c, h1, h2, h3, h4, rfl⟩ := IPv4.toBytes_inv hb
  rw [ho] at h1
  cases h1
  unfold IPv4.fmt IPv4.vals at h4
  obtain ⟨_, r', _, rfl⟩ := pack_u_inv h4
  simp [beEnc]

/-- **C173**, partial: a message an application sends to an IPv4 address, with ports in range and data that
fits, is sent as one IPv4 packet on the loopback device, from its first IPv4 address: to the flow's remote
address, with the flow's protocol, the flow's ports, the right lengths and exactly the message's data.
Missing: the source address is not that of the flow (`stack_source_violated`), IPv6 destinations
(`stack_v6_violated`). -/
theorem stack_sends_partial (n : NetBase) (hn : NetOk n) (i : Iface) (hi : i ∈ n.interfaces) (hl : i.iftype = .loopback)
    (l r : List IPIface) (src : BitVec 32) (len : Nat) (ha : i.ips = l ++ ⟨.v4 src, len⟩ :: r)
    (hv : ∀ x ∈ l, ¬ x.addr.isV4) (m : DownMsg) (dst : BitVec 32) (hd : m.remoteAddr.1 = .v4 dst)
    (hp : m.proto ∈ ipProtocols) (h1 : 0 ≤ m.localAddr.2 ∧ m.localAddr.2 < 65536)
    (h2 : 0 ≤ m.remoteAddr.2 ∧ m.remoteAddr.2 < 65536) (hm : 28 + m.data.length < 65536) :
    ∃ b t c, stackSend n i m = .ok (i.name, b) ∧ IPv4.fromBytes b = .ok (flowIp src dst m, t) ∧
      UDP.fromBytes t = .ok (flowUdp m c, m.data) := by
  obtain ⟨c, hc, hu⟩ := udp_pre_ok (u := stackUDP m) (h := ⟨0, 20, 0xabcd, 2, 0, 64, m.proto, .v4 src, .v4 dst, []⟩)
    (d := m.data) h1 h2 (by omega) src.isLt dst.isLt (ipProtocols_lt hp)
  have hw : (flowUdp m c).WF := ⟨h1, h2, by simp only [flowUdp]; omega, hc⟩
  obtain ⟨bu, hbu, hbl⟩ := UDP.toBytes_ok hw
  have hiw : (flowIp src dst m).WF := by
    exact ⟨show 0 < 256 by decide, hm, show 0xabcd < 65536 by decide, show 2 ∈ ipFragmentFlags by decide,
      show 0 < 8192 by decide, show 64 < 256 by decide, hp, trivial, trivial⟩
  obtain ⟨bi, hbi, hbil, hrt⟩ := IPv4.toBytes_ok hiw (by intro o ho; cases ho) (by simp [flowIp, padCount])
  have hpre : (⟨0, 20, 0xabcd, 2, 0, 64, m.proto, .v4 src, .v4 dst, []⟩ : IPv4).preSerialize (bu ++ m.data) =
      .ok (flowIp src dst m) := by
    simp only [IPv4.preSerialize, IPv4.size, optsToBytes, bind_ok, List.length_nil, List.length_append, hbl, flowIp]
    rw [show 20 + 0 + (8 + m.data.length) = 28 + m.data.length by omega]
  have hb := toBytes_flow hu hbu hpre hbi
  refine ⟨bi ++ (bu ++ m.data), bu ++ m.data, c, ?_, ?_, UDP.fromBytes_toBytes hw hbu _⟩
  · unfold stackSend stackPacket
    rw [firstV4_of ha hv trivial, bind_ok, stackIPv4_ok hp, bind_ok, bind_ok, hd]
    obtain ⟨s, hs⟩ := flow_printable ⟨0, 20, 0xabcd, 2, 0, 64, m.proto, .v4 src, .v4 dst, []⟩ (stackUDP m) m.data
    rw [hs, bind_ok]
    exact sendReal_loopback hn hi hl hb (ip4_first_byte rfl hbi _)
  · rw [hrt]; rfl

/-! ### IPv6 destinations -/

theorem packed_small {x : BitVec 128} (hx : x.toNat < 2 ^ 32) : (IPAddr.packed (.v6 x)).take 4 = [0, 0, 0, 0] := by
  have h : ∀ k, 4 ≤ k → x.toNat / 256 ^ k = 0 := by
    intro k hk
    refine Nat.div_eq_of_lt (Nat.lt_of_lt_of_le hx ?_)
    exact Nat.le_trans (show 2 ^ 32 ≤ 256 ^ 4 by decide) (Nat.pow_le_pow_right (by decide) hk)
  show (beEnc (12 + 1 + 1 + 1 + 1) x.toNat).take 4 = _
  simp only [beEnc, h 15 (by decide), h 14 (by decide), h 13 (by decide), h 12 (by decide)]
  rfl

theorem pack_v6 {h : IPv4} {x : BitVec 128} (hx : x.toNat < 2 ^ 32) (b0 c : Nat) :
    pack IPv4.fmt (IPv4.vals { h with dst := .v6 x } b0 c) = pack IPv4.fmt (IPv4.vals { h with dst := .v4 0 } b0 c) := by
  have key : pack [.s 4] [.b (IPAddr.packed (.v6 x))] = pack [.s 4] [.b (IPAddr.packed (.v4 0))] := by
    have hl : (IPAddr.packed (.v6 x)).length = 16 := length_beEnc _ _
    rw [pack.eq_5, pack.eq_5, hl]
    simp only [show 4 - 16 = 0 from rfl, zeros, List.replicate_zero, List.append_nil, packed_small hx]
    rfl
  have pu : ∀ (w : Nat) (v : Int) (fs : List Fld) (vs vs' : List Val), pack fs vs = pack fs vs' →
      pack (.u w :: fs) (.i v :: vs) = pack (.u w :: fs) (.i v :: vs') := by
    intro w v fs vs vs' e
    rw [pack.eq_4, pack.eq_4, e]
  have ps : ∀ (w : Nat) (v : Bytes) (fs : List Fld) (vs vs' : List Val), pack fs vs = pack fs vs' →
      pack (.s w :: fs) (.b v :: vs) = pack (.s w :: fs) (.b v :: vs') := by
    intro w v fs vs vs' e
    rw [pack.eq_5, pack.eq_5, e]
  unfold IPv4.fmt IPv4.vals
  exact pu _ _ _ _ _ (pu _ _ _ _ _ (pu _ _ _ _ _ (pu _ _ _ _ _ (pu _ _ _ _ _ (pu _ _ _ _ _ (pu _ _ _ _ _
    (pu _ _ _ _ _ (ps _ _ _ _ _ key))))))))

theorem toBytes_v6 {h : IPv4} {x : BitVec 128} (hx : x.toNat < 2 ^ 32) :
    IPv4.toBytes { h with dst := .v6 x } = IPv4.toBytes { h with dst := .v4 0 } := by
  unfold IPv4.toBytes IPv4.checksum IPv4.size
  simp only [pack_v6 hx]

/-- **C173** is false of the code for IPv6 destinations: a message for an IPv6 address whose number is small, `::1`
for example, is sent, to the IPv4 address 0.0.0.0. -/
theorem stack_v6_violated (n : NetBase) (hn : NetOk n) (i : Iface) (hi : i ∈ n.interfaces) (hl : i.iftype = .loopback)
    (l r : List IPIface) (src : BitVec 32) (len : Nat) (ha : i.ips = l ++ ⟨.v4 src, len⟩ :: r)
    (hv : ∀ x ∈ l, ¬ x.addr.isV4) (m : DownMsg) (dst : BitVec 128) (hd : m.remoteAddr.1 = .v6 dst)
    (hx : dst.toNat < 2 ^ 32) (hp : m.proto ∈ ipProtocols) (h1 : 0 ≤ m.localAddr.2 ∧ m.localAddr.2 < 65536)
    (h2 : 0 ≤ m.remoteAddr.2 ∧ m.remoteAddr.2 < 65536) (hm : 28 + m.data.length < 65536) :
    ∃ b t c, stackSend n i m = .ok (i.name, b) ∧ IPv4.fromBytes b = .ok (flowIp src 0 m, t) ∧
      UDP.fromBytes t = .ok (flowUdp m c, m.data) := by
  obtain ⟨c, hc, hu⟩ := udp_pre_ok (u := stackUDP m) (h := ⟨0, 20, 0xabcd, 2, 0, 64, m.proto, .v4 src, .v6 dst, []⟩)
    (d := m.data) h1 h2 (by omega) src.isLt hx (ipProtocols_lt hp)
  have hw : (flowUdp m c).WF := ⟨h1, h2, by simp only [flowUdp]; omega, hc⟩
  obtain ⟨bu, hbu, hbl⟩ := UDP.toBytes_ok hw
  have hiw : (flowIp src 0 m).WF := by
    exact ⟨show 0 < 256 by decide, hm, show 0xabcd < 65536 by decide, show 2 ∈ ipFragmentFlags by decide,
      show 0 < 8192 by decide, show 64 < 256 by decide, hp, trivial, trivial⟩
  obtain ⟨bi, hbi, hbil, hrt⟩ := IPv4.toBytes_ok hiw (by intro o ho; cases ho) (by simp [flowIp, padCount])
  have hbi' : IPv4.toBytes { flowIp src 0 m with dst := .v6 dst } = .ok bi := by
    rw [toBytes_v6 hx]; exact hbi
  have hpre : (⟨0, 20, 0xabcd, 2, 0, 64, m.proto, .v4 src, .v6 dst, []⟩ : IPv4).preSerialize (bu ++ m.data) =
      .ok { flowIp src 0 m with dst := .v6 dst } := by
    simp only [IPv4.preSerialize, IPv4.size, optsToBytes, bind_ok, List.length_nil, List.length_append, hbl, flowIp]
    rw [show 20 + 0 + (8 + m.data.length) = 28 + m.data.length by omega]
  have hb := toBytes_flow hu hbu hpre hbi'
  refine ⟨bi ++ (bu ++ m.data), bu ++ m.data, c, ?_, ?_, UDP.fromBytes_toBytes hw hbu _⟩
  · unfold stackSend stackPacket
    rw [firstV4_of ha hv trivial, bind_ok, stackIPv4_ok hp, bind_ok, bind_ok, hd]
    obtain ⟨s, hs⟩ := flow_printable ⟨0, 20, 0xabcd, 2, 0, 64, m.proto, .v4 src, .v6 dst, []⟩ (stackUDP m) m.data
    rw [hs, bind_ok]
    exact sendReal_loopback hn hi hl hb (ip4_first_byte rfl hbi' _)
  · rw [hrt]; rfl

/-- The loopback interface of a machine. -/
def exLo : Iface := ⟨"lo".toList, ⟨[0, 0, 0, 0, 0, 0]⟩, [⟨.v6 1, 128⟩, ⟨.v4 0x7f000001, 32⟩], 1, .loopback⟩

/-- Its network object. -/
def exLoNet : NetBase :=
  ⟨none, [("eth0".toList, ⟨"eth0".toList, ⟨[0, 0, 0, 0, 0, 1]⟩, [⟨.v4 0x0a000001, 24⟩], 0, .wired⟩), ("lo".toList, exLo)], []⟩

example : stackIntf exLoNet = .ok exLo := by decide +kernel

example : NetOk exLoNet ∧ exLo ∈ exLoNet.interfaces ∧ exLo.iftype = .loopback ∧
    (∀ x ∈ [(⟨.v6 1, 128⟩ : IPIface)], ¬ x.addr.isV4) ∧
    (∃ b, stackSend exLoNet exLo ⟨17, (.v4 0, 40000), (.v4 0x7f000001, 53), [104, 105]⟩ = .ok ("lo".toList, b) ∧ b.length = 30) ∧
    ∃ b, stackSend exLoNet exLo ⟨17, (.v4 0, 40000), (.v6 1, 53), [104, 105]⟩ = .ok ("lo".toList, b) ∧
      (b.drop 12).take 8 = [127, 0, 0, 1, 0, 0, 0, 0] := by
  have h1 : ∃ r, stackSend exLoNet exLo ⟨17, (.v4 0, 40000), (.v4 0x7f000001, 53), [104, 105]⟩ = .ok r ∧
      (decide (r.1 = "lo".toList) && decide (r.2.length = 30)) = true := Except.of_test (by decide +kernel)
  have h2 : ∃ r, stackSend exLoNet exLo ⟨17, (.v4 0, 40000), (.v6 1, 53), [104, 105]⟩ = .ok r ∧
      (decide (r.1 = "lo".toList) && decide ((r.2.drop 12).take 8 = [127, 0, 0, 1, 0, 0, 0, 0])) = true :=
    Except.of_test (by decide +kernel)
  obtain ⟨⟨d1, b1⟩, e1, t1⟩ := h1
  obtain ⟨⟨d2, b2⟩, e2, t2⟩ := h2
  simp only [Bool.and_eq_true, decide_eq_true_eq] at t1 t2
  obtain ⟨rfl, t1⟩ := t1
  obtain ⟨rfl, t2⟩ := t2
  exact ⟨by decide, by decide, rfl, by decide, ⟨b1, e1, t1⟩, b2, e2, t2⟩

/-! ## C174: what is delivered -/

/-- The frame `f` carries the IPv4 packet `b`: after an Ethernet header, as on Linux, or after a null header, as
on other systems. -/
def Carries (f : Frame) (b : Bytes) : Prop :=
  (f.dlt = 1 ∧ ∃ d s : Bytes, d.length = 6 ∧ s.length = 6 ∧ f.raw = d ++ s ++ [0x08, 0x00] ++ b) ∨
  (f.dlt = 0 ∧ f.raw = [2, 0, 0, 0] ++ b)

/-- The payload as a parsed packet holds it. -/
def rawTail (d : Bytes) : Packet := if d = [] then [] else [.hdr (.raw d)]

theorem parseEnd_rawTail (d : Bytes) (acc : Packet) : parseEnd (some d) acc = acc ++ rawTail d := by
  cases d <;> simp [parseEnd, rawTail]

/-- A frame that carries a UDP packet is received as such. -/
theorem frame_flow {f : Frame} {b t d : Bytes} {ip : IPv4} {u : UDP} (hf : Carries f b)
    (hi : IPv4.fromBytes b = .ok (ip, t)) (hp : ip.protocol = 17) (hu : UDP.fromBytes t = .ok (u, d)) :
    ∃ x, ((∃ e, x = Hdr.eth e) ∨ ∃ a, x = Hdr.null a) ∧
      f.result = some (.packet f.ts f.dev (.hdr x :: .hdr (.ip4 ip) :: .hdr (.udp u) :: rawTail d)) := by
  have go : ∀ acc, parseLoop 2 .ip4 b acc = some (.ok (acc ++ .hdr (.ip4 ip) :: .hdr (.udp u) :: rawTail d)) := by
    intro acc
    simp [parseLoop, Cls.fromBytes, hi, hu, bind_ok, Hdr.next, hp, ip4Next, parseEnd_rawTail]
  rcases hf with ⟨hd, dm, sm, hdl, hsl, hr⟩ | ⟨hd, hr⟩
  · have hw : (⟨⟨dm⟩, ⟨sm⟩, 0x0800⟩ : Ethernet).WF := ⟨hdl, hsl, by show 0x0800 ∈ etherTypes; decide⟩
    have hb : (⟨⟨dm⟩, ⟨sm⟩, 0x0800⟩ : Ethernet).toBytes = .ok (dm ++ sm ++ [0x08, 0x00]) := by
      unfold Ethernet.toBytes Ethernet.fmt
      rw [pack_cons_s hdl, pack_cons_s hsl]
      show _ <$> _ <$> pack [.u 2] [.i (0x0800 : Nat)] = _
      rw [SY.pack_u (by decide)]
      simp [map_ok, beEnc]
    have he := Ethernet.fromBytes_toBytes hw (by show 1500 < 0x0800; decide) hb b
    refine ⟨.eth ⟨⟨dm⟩, ⟨sm⟩, 0x0800⟩, .inl ⟨_, rfl⟩, ?_⟩
    have hl : parseLoop 3 .eth f.raw [] = some (.ok (.hdr (.eth ⟨⟨dm⟩, ⟨sm⟩, 0x0800⟩) :: .hdr (.ip4 ip) :: .hdr (.udp u) :: rawTail d)) := by
      rw [hr, parseLoop]
      simp only [Cls.fromBytes, he, bind_ok, Hdr.next, ethNext, if_true, Option.getD_some]
      exact go _
    simp only [Frame.result, dltDecoder, hd, if_true, parse_of_loop (by rw [hr]; simp) hl]
  · have he : nullFromBytes ([2, 0, 0, 0] ++ b) = .ok (2, b) := by
      unfold nullFromBytes
      rw [if_neg (by simp)]
      rfl
    refine ⟨.null 2, .inr ⟨_, rfl⟩, ?_⟩
    have hl : parseLoop 3 .null f.raw [] = some (.ok (.hdr (.null 2) :: .hdr (.ip4 ip) :: .hdr (.udp u) :: rawTail d)) := by
      rw [hr, parseLoop]
      simp only [Cls.fromBytes, he, bind_ok, Hdr.next, if_true, Option.getD_some]
      exact go _
    simp [Frame.result, dltDecoder, hd, parse_of_loop (by rw [hr]; simp) hl]

theorem receive_flow {x : Hdr} {ip : IPv4} {u : UDP} {d : Bytes} (hx : (∃ e, x = Hdr.eth e) ∨ ∃ a, x = Hdr.null a)
    (hp : ip.protocol = 17) :
    stackReceive (.hdr x :: .hdr (.ip4 ip) :: .hdr (.udp u) :: rawTail d) =
      if d = [] then .error .attributeError else .ok (some ⟨(ip.dst, u.dst), (ip.src, u.src), d⟩) := by
  have hpr : PrintablePkt (.hdr x :: .hdr (.ip4 ip) :: .hdr (.udp u) :: rawTail d) := by
    intro k hk
    rcases List.mem_cons.mp hk with e | hk
    · cases e
      rcases hx with ⟨_, rfl⟩ | ⟨_, rfl⟩ <;> trivial
    · rcases List.mem_cons.mp hk with e | hk
      · cases e; trivial
      · rcases List.mem_cons.mp hk with e | hk
        · cases e; trivial
        · unfold rawTail at hk
          split at hk
          · cases hk
          · cases List.mem_singleton.mp hk; trivial
  obtain ⟨s, hs⟩ := (packet_str_partial _).1.mpr hpr
  have hi : Packet.getHeader (.hdr x :: .hdr (.ip4 ip) :: .hdr (.udp u) :: rawTail d) .ip4 = some (.hdr (.ip4 ip)) := by
    rcases hx with ⟨_, rfl⟩ | ⟨_, rfl⟩ <;> rfl
  have hu : Packet.getHeader (.hdr x :: .hdr (.ip4 ip) :: .hdr (.udp u) :: rawTail d) .udp = some (.hdr (.udp u)) := by
    rcases hx with ⟨_, rfl⟩ | ⟨_, rfl⟩ <;> rfl
  unfold stackReceive
  rw [hs, bind_ok, hi]
  simp only [stackIp, if_pos hp, stackUp, hu]
  by_cases hd : d = []
  · subst hd; rfl
  · simp only [rawTail, if_neg hd]; rfl

/-- What the frames carry is what an application is given: the theorem about both ends. -/
structure StackRuns (n : NetBase) (i : Iface) (src : BitVec 32) : Prop where
  net : NetOk n
  reg : i ∈ n.interfaces
  loop : i.iftype = .loopback
  addr : ∃ l r len, i.ips = l ++ ⟨.v4 src, len⟩ :: r ∧ ∀ x ∈ l, ¬ x.addr.isV4

/-- A message the stack can carry. -/
structure Carriable (m : DownMsg) (dst : BitVec 32) : Prop where
  to : m.remoteAddr.1 = .v4 dst
  sport : 0 ≤ m.localAddr.2 ∧ m.localAddr.2 < 65536
  dport : 0 ≤ m.remoteAddr.2 ∧ m.remoteAddr.2 < 65536
  fits : 28 + m.data.length < 65536

/-- The stack takes the first message of its queue and sends it. -/
theorem stack_poll (n : NetBase) (i : Iface) (src dst : BitVec 32) (hr : StackRuns n i src) (s : UdpStack)
    (hw : s.ended = .waiting) (ha : s.atNet = false) (m : DownMsg) (q : List DownMsg) (hq : s.st.fromApp = m :: q)
    (hm : Carriable m dst) (hp : m.proto ∈ ipProtocols) :
    ∃ b t c, s.step n i .poll = some { s with st := { s.st with fromApp := q }, sent := s.sent ++ [(i.name, b)], atNet := true } ∧
      IPv4.fromBytes b = .ok (flowIp src dst m, t) ∧ UDP.fromBytes t = .ok (flowUdp m c, m.data) := by
  obtain ⟨l, r, len, h1, h2⟩ := hr.addr
  obtain ⟨b, t, c, k1, k2, k3⟩ := stack_sends_partial n hr.net i hr.reg hr.loop l r src len h1 h2 m dst hm.to hp hm.sport
    hm.dport hm.fits
  refine ⟨b, t, c, ?_, k2, k3⟩
  simp [UdpStack.step, hw, ha, UdpStack.poll, SockState.recvFromApp, hq, queueGet, UdpStack.onApp, k1]

/-- **C174**, partial: a message one stack takes from an application and sends, when a frame with it reaches a
stack (this or another one), goes to the open UDP socket with the destination's address and port; if there is
none, to the one with that port and address 0.0.0.0; if there is none either, nowhere.  The data is the same and
the remote address is the one that was sent from, so that an answer goes back there; nothing else changes, and the
stack goes on.  Missing: empty messages (`stack_empty_violated`). -/
theorem stack_delivers_partial (n : NetBase) (i : Iface) (src dst : BitVec 32) (hr : StackRuns n i src) (s : UdpStack)
    (hw : s.ended = .waiting) (ha : s.atNet = false) (m : DownMsg) (q : List DownMsg) (hq : s.st.fromApp = m :: q)
    (hm : Carriable m dst) (hp : m.proto = 17) (hne : m.data ≠ []) :
    ∃ b, s.step n i .poll = some { s with st := { s.st with fromApp := q }, sent := s.sent ++ [(i.name, b)], atNet := true } ∧
      ∀ (n' : NetBase) (i' : Iface) (s' : UdpStack) (o : List Nat) (f : Frame), Reach s'.st o → s'.ended = .waiting →
        s'.atNet = true → Carries f b → ∃ res s'', f.result = some res ∧ s'.step n' i' (.net res) = some s'' ∧
          s''.ended = .waiting ∧ s''.atNet = false ∧ s''.sent = s'.sent ∧
          let isAt (a : IPAddr) (j : Nat) (k : Sock) :=
            j ∈ o ∧ s'.st.socks[j]? = some k ∧ k.proto = 17 ∧ k.localAddr = (a, m.remoteAddr.2)
          let up : UpMsg := ⟨m.remoteAddr, (.v4 src, m.localAddr.2), m.data⟩
          (∀ j k, isAt (.v4 dst) j k → s''.st = delivered s'.st j k up) ∧
          ((∀ j k, ¬ isAt (.v4 dst) j k) → ∀ j k, isAt (.v4 0) j k → s''.st = delivered s'.st j k up) ∧
          ((∀ j k, ¬ isAt (.v4 dst) j k) → (∀ j k, ¬ isAt (.v4 0) j k) → s''.st = s'.st) := by
  obtain ⟨b, t, c, k1, k2, k3⟩ := stack_poll n i src dst hr s hw ha m q hq hm (by rw [hp]; decide)
  refine ⟨b, k1, fun n' i' s' o f hre hw' ha' hc => ?_⟩
  obtain ⟨x, hx, hres⟩ := frame_flow hc k2 hp k3
  have hrc := receive_flow (x := x) (ip := flowIp src dst m) (u := flowUdp m c) (d := m.data) hx hp
  rw [if_neg hne] at hrc
  have hd := socket_delivery_partial hre (proto := 17) (pr := 17) (la := (.addr (.v4 dst), .num m.remoteAddr.2))
    (ra := (.addr (.v4 src), .num m.localAddr.2)) (lip := .v4 dst) (rip := .v4 src) (data := m.data) rfl rfl rfl
  have hml : m.remoteAddr = (.v4 dst, m.remoteAddr.2) := Prod.ext hm.to rfl
  refine ⟨_, { s' with st := (s'.st.step (.sendToApp 17 (.addr (.v4 dst), .num m.remoteAddr.2)
    (.addr (.v4 src), .num m.localAddr.2) m.data)).1, atNet := false }, hres, ?_, hw', rfl, rfl, ?_⟩
  · simp only [UdpStack.step, hw', ha', and_self, if_true, UdpStack.net, UdpStack.onNet, hrc]
    rfl
  · obtain ⟨d1, d2, d3⟩ := hd
    refine ⟨fun j k hj => ?_, fun h1 j k hj => ?_, fun h1 h2 => ?_⟩
    · rw [hml, d1 j k hj]; rfl
    · rw [hml, d2 h1 j k hj]; rfl
    · rw [d3 h1 h2]

/-- **C174** is false of the code for empty messages: they are sent, but the stack they reach ends with
`AttributeError`. -/
theorem stack_empty_violated (n : NetBase) (i : Iface) (src dst : BitVec 32) (hr : StackRuns n i src) (s : UdpStack)
    (hw : s.ended = .waiting) (ha : s.atNet = false) (m : DownMsg) (q : List DownMsg) (hq : s.st.fromApp = m :: q)
    (hm : Carriable m dst) (hp : m.proto = 17) (he : m.data = []) :
    ∃ b, s.step n i .poll = some { s with st := { s.st with fromApp := q }, sent := s.sent ++ [(i.name, b)], atNet := true } ∧
      ∀ (n' : NetBase) (i' : Iface) (s' : UdpStack) (f : Frame), s'.ended = .waiting → s'.atNet = true → Carries f b →
        ∃ res, f.result = some res ∧ s'.step n' i' (.net res) = some { s' with ended := .crashed .attributeError } := by
  obtain ⟨b, t, c, k1, k2, k3⟩ := stack_poll n i src dst hr s hw ha m q hq hm (by rw [hp]; decide)
  refine ⟨b, k1, fun n' i' s' f hw' ha' hc => ?_⟩
  obtain ⟨x, hx, hres⟩ := frame_flow hc k2 hp k3
  have hrc := receive_flow (x := x) (ip := flowIp src dst m) (u := flowUdp m c) (d := m.data) hx hp
  rw [if_pos he] at hrc
  refine ⟨_, hres, ?_⟩
  simp only [UdpStack.step, hw', ha', and_self, if_true, UdpStack.net, UdpStack.onNet, hrc, UdpStack.crash]

/-! ## C175: the address a socket is bound to -/

/-- The address of the flow is not looked at: messages that differ in nothing else are sent as the same bytes. -/
theorem stack_source_violated (n : NetBase) (i : Iface) (m : DownMsg) (a : IPAddr) :
    stackSend n i { m with localAddr := (a, m.localAddr.2) } = stackSend n i m := rfl

/-- **C175**: so an application that binds a socket to another address than the first one of the interface never
gets an answer: what is sent to the address its messages come from is dropped, whatever it is, although the
socket is open. -/
theorem stack_answer_violated (n : NetBase) (i : Iface) (src a peer : BitVec 32) (s : UdpStack) (o : List Nat)
    (hre : Reach s.st o) (hw : s.ended = .waiting) (ha : s.atNet = true) (j : Nat) (k : Sock) (hj : j ∈ o)
    (hk : s.st.socks[j]? = some k) (hl : k.localAddr.1 = .v4 a) (hne : a ≠ src) (h0 : a ≠ 0)
    (f : Frame) (b : Bytes) (hc : Carries f b) (ans : DownMsg) (t : Bytes) (c : Nat)
    (hi : IPv4.fromBytes b = .ok (flowIp peer src ans, t)) (hu : UDP.fromBytes t = .ok (flowUdp ans c, ans.data))
    (hp : ans.proto = 17) (hport : ans.remoteAddr.2 = k.localAddr.2) (hd : ans.data ≠ []) :
    ∃ res, f.result = some res ∧ s.step n i (.net res) = some { s with atNet := false } := by
  obtain ⟨x, hx, hres⟩ := frame_flow hc hi hp hu
  have hrc := receive_flow (x := x) (ip := flowIp peer src ans) (u := flowUdp ans c) (d := ans.data) hx hp
  rw [if_neg hd] at hrc
  have hde := socket_delivery_partial hre (proto := 17) (pr := 17) (la := (.addr (.v4 src), .num ans.remoteAddr.2))
    (ra := (.addr (.v4 peer), .num ans.localAddr.2)) (lip := .v4 src) (rip := .v4 peer) (data := ans.data) rfl rfl rfl
  have none : ∀ (y : BitVec 32), a ≠ y → ∀ (j' : Nat) (k' : Sock), ¬ (j' ∈ o ∧ s.st.socks[j']? = some k' ∧ k'.proto = 17 ∧
      k'.localAddr = (.v4 y, ans.remoteAddr.2)) := by
    rintro y hy j' k' ⟨h1, h2, _, h4⟩
    have : j' = j := hre.inv.ports j' j k' k h1 hj h2 hk (by rw [h4, hport])
    subst this
    rw [hk] at h2
    cases h2
    rw [h4] at hl
    exact hy (IPAddr.v4.inj hl).symm
  have hst := hde.2.2 (none src hne) (none 0 h0)
  refine ⟨_, hres, ?_⟩
  simp only [UdpStack.step, hw, ha, and_self, if_true, UdpStack.net, UdpStack.onNet, hrc]
  have : s.st.sendToApp 17 (.addr (.v4 src), .num ans.remoteAddr.2) (.addr (.v4 peer), .num ans.localAddr.2) ans.data =
      (s.st, .bool false) := hst
  simp only [flowIp, flowUdp, this]

/-! ## C176: the stack goes on -/

/-- The packets the stack can handle: printable, and without an IPv4 header, or with UDP and raw contents at the
end, or with ICMP and a header after the IPv4 header. -/
def Handled (p : Packet) : Prop :=
  PrintablePkt p ∧ ∀ l ip r, p = l ++ .hdr (.ip4 ip) :: r → (∀ y ∈ l, y.isA .ip4 = false) →
    (ip.protocol = 17 ∧ (∃ y ∈ p, y.isA .udp = true) ∧ ∃ q d, p = q ++ [.hdr (.raw d)]) ∨ (ip.protocol = 1 ∧ r ≠ [])

theorem isA_ip4 {y : Item} (h : y.isA .ip4 = true) : ∃ ip, y = .hdr (.ip4 ip) := by
  cases y with
  | hdr h' => cases h' <;> first | exact ⟨_, rfl⟩ | cases h
  | bytes b => cases h
  | other i => cases h

theorem isA_udp {y : Item} (h : y.isA .udp = true) : ∃ u, y = .hdr (.udp u) := by
  cases y with
  | hdr h' => cases h' <;> first | exact ⟨_, rfl⟩ | cases h
  | bytes b => cases h
  | other i => cases h

theorem getHeader_split {p : Packet} {c : Cls} {x : Item} (h : p.getHeader c = some x) :
    x.isA c = true ∧ ∃ l r, p = l ++ x :: r ∧ ∀ y ∈ l, y.isA c = false := by
  obtain ⟨h1, l, r, h2, h3⟩ := List.find?_eq_some_iff_append.mp h
  exact ⟨h1, l, r, h2, fun y hy => by simpa using h3 y hy⟩

theorem getHeader_of_split {l r : Packet} {c : Cls} {x : Item} (h : x.isA c = true) (hl : ∀ y ∈ l, y.isA c = false) :
    Packet.getHeader (l ++ x :: r) c = some x :=
  List.find?_eq_some_iff_append.mpr ⟨h, l, r, rfl, fun y hy => by simpa using hl y hy⟩

theorem getItem_last (q : Packet) (x : Item) : Packet.getItem (q ++ [x]) (-1) = .ok x := by
  have hc : Packet.checkIdx (q ++ [x]) (-1) = .ok q.length := by
    unfold Packet.checkIdx
    simp only [List.length_append, List.length_singleton]
    rw [if_pos (show (-1 : Int) < 0 by decide), if_pos (by omega)]
    exact congrArg Except.ok (by omega)
  rw [Packet.getItem, hc, bind_ok]
  unfold listIndex
  rw [if_neg (by omega)]
  simp

theorem getItem_nat (p : Packet) (k : Nat) :
    p.getItem ((k : Int)) = match p[k]? with | some x => .ok x | none => .error .indexError := by
  by_cases hk : k < p.length
  · have hc : Packet.checkIdx p (k : Int) = .ok k := by
      unfold Packet.checkIdx
      rw [if_neg (show ¬ ((k : Int) < 0) by omega), if_pos (by omega)]
      exact congrArg Except.ok (by omega)
    rw [Packet.getItem, hc, bind_ok]
    unfold listIndex
    rw [if_neg (by omega), Int.toNat_natCast, List.getElem?_eq_getElem hk]
    simp
  · have hc : Packet.checkIdx p (k : Int) = .error .indexError := by
      unfold Packet.checkIdx
      rw [if_neg (show ¬ ((k : Int) < 0) by omega), if_neg (by omega)]
    rw [Packet.getItem, hc, bind_error, List.getElem?_eq_none (by omega)]

/-- **C176**, partial: a packet that is received makes the stack raise an exception exactly if it is not one of
those above. -/
theorem stack_survives_partial (p : Packet) : (∃ r, stackReceive p = .ok r) ↔ Handled p := by
  unfold stackReceive Handled
  by_cases hpr : PrintablePkt p
  case neg =>
    rw [(packet_str_partial p).2.mpr hpr, bind_error]
    exact ⟨fun ⟨_, h⟩ => (nomatch h), fun h => absurd h.1 hpr⟩
  obtain ⟨s, hs⟩ := (packet_str_partial p).1.mpr hpr
  rw [hs, bind_ok]
  cases hg : p.getHeader .ip4 with
  | none =>
    refine ⟨fun _ => ⟨hpr, fun l ip r he hl => ?_⟩, fun _ => ⟨_, rfl⟩⟩
    rw [he, getHeader_of_split (c := .ip4) rfl hl] at hg
    cases hg
  | some x =>
    obtain ⟨hx, l, r, he, hl⟩ := getHeader_split hg
    obtain ⟨ip, rfl⟩ := isA_ip4 hx
    have uniq : ∀ l' ip' r', p = l' ++ .hdr (.ip4 ip') :: r' → (∀ y ∈ l', y.isA .ip4 = false) →
        ip' = ip ∧ r' = r := by
      intro l' ip' r' he' hl'
      have : l' = l ∧ Item.hdr (.ip4 ip') :: r' = .hdr (.ip4 ip) :: r := by
        have e : l' ++ .hdr (.ip4 ip') :: r' = l ++ .hdr (.ip4 ip) :: r := by rw [← he', ← he]
        clear he he' hg hs hpr
        induction l' generalizing l with
        | nil =>
          cases l with
          | nil => exact ⟨rfl, e⟩
          | cons y l =>
            simp only [List.nil_append, List.cons_append, List.cons.injEq] at e
            have := hl y List.mem_cons_self
            rw [← e.1] at this
            cases this
        | cons y l' ih =>
          cases l with
          | nil =>
            simp only [List.nil_append, List.cons_append, List.cons.injEq] at e
            have := hl' y List.mem_cons_self
            rw [e.1] at this
            cases this
          | cons z l =>
            simp only [List.cons_append, List.cons.injEq] at e
            obtain ⟨h1, h2⟩ := ih l (fun y hy => hl y (List.mem_cons_of_mem _ hy))
              (fun y hy => hl' y (List.mem_cons_of_mem _ hy)) e.2
            exact ⟨by rw [e.1, h1], h2⟩
      simp only [List.cons.injEq, Item.hdr.injEq, Hdr.ip4.injEq] at this
      exact ⟨this.2.1, this.2.2⟩
    simp only [stackIp]
    have key : (∃ r, (if ip.protocol = 17 then stackUp p ip else if ip.protocol = 1 then stackIcmp p
        else .error .indexError) = .ok r) ↔
        (ip.protocol = 17 ∧ (∃ y ∈ p, y.isA .udp = true) ∧ ∃ q d, p = q ++ [.hdr (.raw d)]) ∨ (ip.protocol = 1 ∧ r ≠ []) := by
      by_cases h17 : ip.protocol = 17
      · rw [if_pos h17]
        have : ¬ (ip.protocol = 1) := by omega
        simp only [h17, true_and, false_and, or_false, show ¬ ((17 : Nat) = 1) by decide]
        unfold stackUp
        cases hu : p.getHeader .udp with
        | none =>
          refine ⟨fun ⟨_, h⟩ => (nomatch h), ?_⟩
          rintro ⟨⟨y, hy, hy'⟩, _⟩
          have := List.find?_eq_none.mp hu y hy
          exact absurd hy' this
        | some x =>
          obtain ⟨hxu, lu, ru, heu, _⟩ := getHeader_split hu
          obtain ⟨u, rfl⟩ := isA_udp hxu
          have hne : p ≠ [] := by rw [heu]; simp
          obtain ⟨q, z, hq⟩ : ∃ q z, p = q ++ [z] := ⟨p.dropLast, p.getLast hne, (List.dropLast_concat_getLast hne).symm⟩
          have hlast : p.getItem (-1) = .ok z := by rw [hq, getItem_last]
          simp only [hlast, bind_ok]
          constructor
          · rintro ⟨r, h⟩
            obtain ⟨d, hd, _⟩ := bind_eq_ok.mp h
            refine ⟨⟨_, by rw [heu]; simp, hxu⟩, q, ?_⟩
            cases z with
            | hdr k => cases k <;> first | exact ⟨_, hq⟩ | cases hd
            | bytes b => cases hd
            | other i => cases hd
          · rintro ⟨_, q', d, hq'⟩
            have : z = .hdr (.raw d) := by
              rw [hq] at hq'
              have := congrArg List.getLast? hq'
              simpa using this
            subst this
            exact ⟨_, rfl⟩
      · rw [if_neg h17]
        simp only [h17, false_and, false_or]
        by_cases h1 : ip.protocol = 1
        · rw [if_pos h1]
          simp only [h1, true_and]
          have hi := headerIndex_found (c := .ip4) (x := .hdr (.ip4 ip)) (r := r) rfl hl []
          simp only [List.nil_append, List.length_nil, Nat.zero_add, ← he] at hi
          unfold stackIcmp
          rw [show ((0 : Nat) : Int) = 0 from rfl] at hi
          rw [hi, bind_ok]
          cases r with
          | nil =>
            have : p.getItem ((l.length : Int) + 1) = .error .indexError := by
              have := getItem_nat p (l.length + 1)
              rw [he] at this ⊢
              simpa using this
            rw [this, bind_error]
            exact ⟨fun ⟨_, h⟩ => (nomatch h), fun h => absurd rfl h⟩
          | cons y r =>
            have : p.getItem ((l.length : Int) + 1) = .ok y := by
              have := getItem_nat p (l.length + 1)
              rw [he] at this ⊢
              simpa using this
            rw [this, bind_ok]
            refine ⟨fun _ h => (nomatch h), fun _ => ?_⟩
            cases y with
            | hdr k =>
              have hk : Printable k := hpr k (by rw [he]; simp)
              have hk' : PrintablePkt [.hdr k] := by
                intro k' hk'
                cases List.mem_singleton.mp hk'
                exact hk
              obtain ⟨t, ht⟩ := (packet_str_partial _).1.mpr hk'
              unfold Packet.str Packet.strs at ht
              obtain ⟨l', hl', _⟩ := bind_eq_ok.mp ht
              obtain ⟨t', ht', _⟩ := bind_eq_ok.mp hl'
              exact ⟨none, by simp only [Item.logged, ht', bind_ok]⟩
            | bytes b => exact ⟨_, rfl⟩
            | other i => exact ⟨_, rfl⟩
        · rw [if_neg h1]
          simp only [h1, false_and]
          exact ⟨fun ⟨_, h⟩ => (nomatch h), fun h => h.elim⟩
    rw [key]
    refine ⟨fun h => ⟨hpr, fun l' ip' r' he' hl' => ?_⟩, fun h => h.2 l ip r he hl⟩
    obtain ⟨rfl, rfl⟩ := uniq l' ip' r' he' hl'
    exact h

/-- **C176** is false of the code: every printable packet with another protocol than UDP and ICMP, every TCP packet
for example, ends the stack with `IndexError`. -/
theorem stack_protocol_violated (n : NetBase) (i : Iface) (s : UdpStack) (hw : s.ended = .waiting) (ha : s.atNet = true)
    (ts : Nat) (dev : List Char) (x : Hdr) (ip : IPv4) (r : Packet) (hx : x.cls ≠ .ip4)
    (hp : PrintablePkt (.hdr x :: .hdr (.ip4 ip) :: r)) (h17 : ip.protocol ≠ 17) (h1 : ip.protocol ≠ 1) :
    s.step n i (.net (.packet ts dev (.hdr x :: .hdr (.ip4 ip) :: r))) = some { s with ended := .crashed .indexError } := by
  obtain ⟨t, ht⟩ := (packet_str_partial _).1.mpr hp
  have hg : Packet.getHeader (.hdr x :: .hdr (.ip4 ip) :: r) .ip4 = some (.hdr (.ip4 ip)) :=
    getHeader_of_split (l := [.hdr x]) rfl (by
      intro y hy
      cases List.mem_singleton.mp hy
      cases x <;> first | rfl | exact absurd rfl hx)
  simp only [UdpStack.step, hw, ha, and_self, if_true, UdpStack.net, UdpStack.onNet, stackReceive, ht, bind_ok, hg, stackIp,
    if_neg h17, if_neg h1, UdpStack.crash]

/-- The checksum cannot be computed for a destination port that is not one. -/
theorem udp_pre_fails (h : IPv4) {m : DownMsg} (d : Bytes) (hd : m.remoteAddr.2 < 0 ∨ 65536 ≤ m.remoteAddr.2) :
    (stackUDP m).preSerialize d (some h) = .error .structError := by
  unfold UDP.preSerialize UDP.computeChecksum
  dsimp only
  cases he : pack UDP.pseudoFmt [.i h.src.toNat, .i h.dst.toNat, .i h.protocol, .i (8 + d.length : Nat),
      .i (stackUDP m).src, .i (stackUDP m).dst, .i (8 + d.length : Nat), .i 0] with
  | error e => rw [bind_error, bind_error, pack_error he]
  | ok b =>
    exfalso
    unfold UDP.pseudoFmt at he
    obtain ⟨_, b1, e1, _⟩ := pack_u_inv he
    obtain ⟨_, b2, e2, _⟩ := pack_u_inv e1
    obtain ⟨b3, e3, _⟩ := pack_x_inv e2
    obtain ⟨_, b4, e4, _⟩ := pack_u_inv e3
    obtain ⟨_, b5, e5, _⟩ := pack_u_inv e4
    obtain ⟨_, b6, e6, _⟩ := pack_u_inv e5
    obtain ⟨k, _⟩ := pack_u_inv e6
    have k' : 0 ≤ m.remoteAddr.2 ∧ m.remoteAddr.2 < (256 ^ 2 : Nat) := k
    omega

theorem toBytes_snd (p : Packet) : p.toBytes.2 = List.flatten <$> (Packet.serLoop p.length p []).2 := rfl

theorem serLoop_fails {k : Nat} {p : Packet} {rl : List Bytes} {it : Item} {e : PyErr} (h1 : listIndex p (k : Int) = .ok it)
    (h2 : it.pre rl.flatten p = .error e) : (Packet.serLoop (k + 1) p rl).2 = .error e := by
  simp only [Packet.serLoop, h1, h2]

theorem toBytes_fails {h : IPv4} {u : UDP} {d : Bytes} {e : PyErr} (hu : u.preSerialize d (some h) = .error e) :
    (Packet.toBytes [.hdr (.ip4 h), .hdr (.udp u), .hdr (.raw d)]).2 = .error e := by
  have s3 : Packet.serLoop 3 [.hdr (.ip4 h), .hdr (.udp u), .hdr (.raw d)] [] =
      Packet.serLoop 2 [.hdr (.ip4 h), .hdr (.udp u), .hdr (.raw d)] [d] := by
    have l2 : listIndex ([.hdr (.ip4 h), .hdr (.udp u), .hdr (.raw d)] : Packet) ((2 : Nat) : Int) = .ok (.hdr (.raw d)) := rfl
    have p2 : ∀ t c, Item.pre (.hdr (.raw d)) t c = .ok (.hdr (.raw d)) := fun _ _ => rfl
    rw [Packet.serLoop, l2]
    dsimp only
    rw [p2]
    rfl
  have l1 : listIndex ([.hdr (.ip4 h), .hdr (.udp u), .hdr (.raw d)] : Packet) ((1 : Nat) : Int) = .ok (.hdr (.udp u)) := rfl
  have p1 : Item.pre (.hdr (.udp u)) [d].flatten [.hdr (.ip4 h), .hdr (.udp u), .hdr (.raw d)] = .error e := by
    have hi : Packet.ip4? [.hdr (.ip4 h), .hdr (.udp u), .hdr (.raw d)] = some h := rfl
    simp only [Item.pre, Hdr.pre, hi, List.flatten_cons, List.flatten_nil, List.append_nil, hu]
    rfl
  have s2 : (Packet.serLoop 2 [.hdr (.ip4 h), .hdr (.udp u), .hdr (.raw d)] [d]).2 = .error e := by
    exact serLoop_fails l1 p1
  have hl : List.length ([.hdr (.ip4 h), .hdr (.udp u), .hdr (.raw d)] : Packet) = 3 := rfl
  rw [toBytes_snd, hl, s3, s2]
  rfl

theorem sendReal_fails {n : NetBase} (hn : NetOk n) {i : Iface} (hi : i ∈ n.interfaces) (hl : i.iftype = .loopback)
    {h : IPv4} {p : Packet} {e : PyErr} (hb : (Packet.toBytes (.hdr (.ip4 h) :: p)).2 = .error e) :
    (sendReal n (.intf i) (.hdr (.null 2) :: .hdr (.ip4 h) :: p)).2 = .error e := by
  obtain ⟨⟨k, v⟩, hx, e'⟩ := List.mem_map.mp hi
  simp only at e'
  subst e'
  have hk := hn.2 _ hx
  simp only at hk
  subst hk
  have hg := Dict.get?_of_mem hn.1 hx
  have hd : Packet.dropLink (.hdr (.null 2) :: .hdr (.ip4 h) :: p) = .hdr (.ip4 h) :: p := rfl
  have hf : Packet.firstIs (.hdr (.ip4 h) :: p) [.ip4, .ip6] = true := rfl
  simp only [sendReal, sendTarget, if_pos hl, hg, rawSend, hd, hf]
  rw [if_neg (by simp)]
  simp only [if_true, hb, bind_error]
  rfl

/-- **C176** is false of the code also for what applications do: `sendto` accepts every number as a port, and the
stack ends with `struct.error` when it is not one. -/
theorem stack_port_violated (n : NetBase) (i : Iface) (src : BitVec 32) (hr : StackRuns n i src) (s : UdpStack)
    (hw : s.ended = .waiting) (ha : s.atNet = false) (m : DownMsg) (q : List DownMsg) (hq : s.st.fromApp = m :: q)
    (hp : m.proto ∈ ipProtocols) (hd : m.remoteAddr.2 < 0 ∨ 65536 ≤ m.remoteAddr.2) :
    s.step n i .poll = some { s with st := { s.st with fromApp := q }, ended := .crashed .structError } := by
  obtain ⟨l, r, len, h1, h2⟩ := hr.addr
  have hs : stackSend n i m = .error .structError := by
    unfold stackSend stackPacket
    rw [firstV4_of h1 h2 trivial, bind_ok, stackIPv4_ok hp, bind_ok, bind_ok]
    generalize (⟨0, 20, 0xabcd, 2, 0, 64, m.proto, .v4 src, m.remoteAddr.1, []⟩ : IPv4) = h
    obtain ⟨t, ht⟩ := flow_printable h (stackUDP m) m.data
    rw [ht, bind_ok]
    exact sendReal_fails hr.net hr.reg hr.loop (toBytes_fails (udp_pre_fails h _ hd))
  simp [UdpStack.step, hw, ha, UdpStack.poll, SockState.recvFromApp, hq, queueGet, UdpStack.onApp, hs, UdpStack.crash]

/-! ## C177: every message, once and in order -/

/-- The messages applications send during a run. -/
def appSent (n : NetBase) (i : Iface) : UdpStack → List StackEv → List DownMsg
  | _, [] => []
  | s, .app op :: es => sentIn (s.st, op, (s.st.step op).2) ++ appSent n i { s with st := (s.st.step op).1 } es
  | s, e :: es => match s.step n i e with
    | some s' => appSent n i s' es
    | none => []

/-- Applications do not take messages from the downward queue. -/
def isApp : StackEv → Prop
  | .app (.recvFromApp _) => False
  | _ => True

/-- The messages handled so far, the one on which the stack ended, if any, and what was sent for them. -/
def AllKept (n : NetBase) (i : Iface) (s s' : UdpStack) (queued : List DownMsg) : Prop :=
  ∃ ms lost xs, queued = ms ++ lost ++ s'.st.fromApp ∧ s'.sent = s.sent ++ xs ∧ ms.map (stackSend n i) = xs.map Except.ok ∧
    (lost = [] ∨ ∃ m e, lost = [m] ∧ stackSend n i m = .error e ∧ s'.ended = .crashed e)

theorem sendToApp_fromApp (st : SockState) (p : Int) (l r : IPArg × PortArg) (d : Bytes) :
    (st.sendToApp p l r d).1.fromApp = st.fromApp := by
  have := fifo_down_step st (.sendToApp p l r d)
  simpa [sentIn, takenIn, SockState.step] using this.symm

theorem net_keeps (s : UdpStack) (r : RecvResult) : (s.net r).st.fromApp = s.st.fromApp ∧ (s.net r).sent = s.sent := by
  cases r with
  | packet ts dev p =>
    show (s.onNet p).st.fromApp = _ ∧ (s.onNet p).sent = _
    unfold UdpStack.onNet
    rcases stackReceive p with e | o
    · exact ⟨rfl, rfl⟩
    · cases o with
      | none => exact ⟨rfl, rfl⟩
      | some m => exact ⟨sendToApp_fromApp _ _ _ _ _, rfl⟩
  | noPackets => exact ⟨rfl, rfl⟩
  | shutdown => exact ⟨rfl, rfl⟩
  | raised e => exact ⟨rfl, rfl⟩
  | badTimeout => exact ⟨rfl, rfl⟩

theorem poll_none (n : NetBase) (i : Iface) (s : UdpStack) (h : s.st.fromApp = []) : s.poll n i = { s with atNet := true } := by
  simp [UdpStack.poll, SockState.recvFromApp, h, queueGet]

theorem poll_some (n : NetBase) (i : Iface) (s : UdpStack) {m : DownMsg} {q : List DownMsg} (h : s.st.fromApp = m :: q) :
    s.poll n i = ({ s with st := { s.st with fromApp := q } } : UdpStack).onApp n i m := by
  simp [UdpStack.poll, SockState.recvFromApp, h, queueGet]

theorem ended_stays (n : NetBase) (i : Iface) (s : UdpStack) (hs : s.ended ≠ .waiting) (es : List StackEv) (s' : UdpStack)
    (h : s.run n i es = some s') : s'.ended = s.ended ∧ s'.sent = s.sent := by
  induction es generalizing s with
  | nil => cases h; exact ⟨rfl, rfl⟩
  | cons e es ih =>
    obtain ⟨s1, h1, h2⟩ := Option.bind_eq_some_iff.mp h
    cases e with
    | app op =>
      cases h1
      exact ih { s with st := (s.st.step op).1 } hs h2
    | poll =>
      simp only [UdpStack.step, hs, false_and, if_false] at h1
      cases h1
    | net r =>
      simp only [UdpStack.step, hs, false_and, if_false] at h1
      cases h1

theorem stack_fifo_after (n : NetBase) (i : Iface) (s : UdpStack) (hs : s.ended ≠ .waiting) (es : List StackEv)
    (s' : UdpStack) (h : s.run n i es = some s') (ha : ∀ e ∈ es, isApp e) :
    s.st.fromApp ++ appSent n i s es = s'.st.fromApp := by
  induction es generalizing s with
  | nil => cases h; simp [appSent]
  | cons e es ih =>
    obtain ⟨s1, h1, h2⟩ := Option.bind_eq_some_iff.mp h
    cases e with
    | app op =>
      cases h1
      have hop := ha _ List.mem_cons_self
      have hd := fifo_down_step s.st op
      have ht : takenIn (s.st, op, (s.st.step op).2) = [] := by
        cases op <;> first | rfl | exact hop.elim
      rw [ht, List.nil_append] at hd
      rw [appSent, ← List.append_assoc, hd]
      exact ih { s with st := (s.st.step op).1 } hs h2 (fun e he => ha e (List.mem_cons_of_mem _ he))
    | poll =>
      simp only [UdpStack.step, hs, false_and, if_false] at h1
      cases h1
    | net r =>
      simp only [UdpStack.step, hs, false_and, if_false] at h1
      cases h1

/-- **C177**: over every run, whatever applications and the network do in between: the messages in the queue and
those sent by applications are, in order, those for which exactly one packet was sent each, in the same order, then
at most one on which the stack ended, then those still waiting. -/
theorem stack_fifo (n : NetBase) (i : Iface) (s : UdpStack) (es : List StackEv) (s' : UdpStack)
    (h : s.run n i es = some s') (ha : ∀ e ∈ es, isApp e) : AllKept n i s s' (s.st.fromApp ++ appSent n i s es) := by
  by_cases hs : s.ended = .waiting
  case neg =>
    refine ⟨[], [], [], ?_, ?_, rfl, .inl rfl⟩
    · rw [stack_fifo_after n i s hs es s' h ha]; rfl
    · rw [(ended_stays n i s hs es s' h).2, List.append_nil]
  induction es generalizing s with
  | nil =>
    cases h
    exact ⟨[], [], [], by simp [appSent], by simp, rfl, .inl rfl⟩
  | cons e es ih =>
    obtain ⟨s1, h1, h2⟩ := Option.bind_eq_some_iff.mp h
    have ha' : ∀ e ∈ es, isApp e := fun e he => ha e (List.mem_cons_of_mem _ he)
    -- what follows a step that took nothing from the queue and sent nothing
    have quiet : s1.st.fromApp = s.st.fromApp → s1.sent = s.sent → AllKept n i s s' (s.st.fromApp ++ appSent n i s1 es) := by
      intro hq hst
      by_cases hs1 : s1.ended = .waiting
      · obtain ⟨ms, lost, xs, k1, k2, k3, k4⟩ := ih s1 h2 ha' hs1
        exact ⟨ms, lost, xs, by rw [← hq]; exact k1, by rw [k2, hst], k3, k4⟩
      · refine ⟨[], [], [], ?_, ?_, rfl, .inl rfl⟩
        · rw [← hq, stack_fifo_after n i s1 hs1 es s' h2 ha']; rfl
        · rw [(ended_stays n i s1 hs1 es s' h2).2, hst, List.append_nil]
    cases e with
    | app op =>
      cases h1
      have hop := ha _ List.mem_cons_self
      have hd := fifo_down_step s.st op
      have ht : takenIn (s.st, op, (s.st.step op).2) = [] := by
        cases op <;> first | rfl | exact hop.elim
      rw [ht, List.nil_append] at hd
      have := ih { s with st := (s.st.step op).1 } h2 ha' hs
      rw [appSent, ← List.append_assoc, hd]
      exact this
    | poll =>
      have hstep : s.step n i .poll = some s1 := h1
      simp only [appSent, hstep]
      have hs1 : s1 = s.poll n i := by
        simp only [UdpStack.step] at h1
        split at h1
        · exact (Option.some.inj h1).symm
        · cases h1
      cases hq : s.st.fromApp with
      | nil =>
        rw [poll_none n i s hq] at hs1
        have := quiet (by rw [hs1]) (by rw [hs1])
        rw [hq] at this
        exact this
      | cons m q =>
        rw [poll_some n i s hq] at hs1
        cases hm : stackSend n i m with
        | error e =>
          have hs1 : s1 = { s with st := { s.st with fromApp := q }, ended := .crashed e } := by
            simp only [hs1, UdpStack.onApp, hm, UdpStack.crash]
          have hne : s1.ended ≠ .waiting := by rw [hs1]; simp
          refine ⟨[], [m], [], ?_, ?_, rfl, .inr ⟨m, e, rfl, hm, ?_⟩⟩
          · rw [← stack_fifo_after n i s1 hne es s' h2 ha', hs1]; rfl
          · rw [(ended_stays n i s1 hne es s' h2).2, List.append_nil, hs1]
          · rw [(ended_stays n i s1 hne es s' h2).1, hs1]
        | ok x =>
          have hs1 : s1 = { s with st := { s.st with fromApp := q }, sent := s.sent ++ [x], atNet := true } := by
            simp only [hs1, UdpStack.onApp, hm]
          obtain ⟨ms, lost, xs, k1, k2, k3, k4⟩ := ih s1 h2 ha' (by rw [hs1]; exact hs)
          rw [show s1.st.fromApp = q by rw [hs1]] at k1
          rw [show s1.sent = s.sent ++ [x] by rw [hs1]] at k2
          refine ⟨m :: ms, lost, x :: xs, ?_, ?_, ?_, k4⟩
          · simp only [List.cons_append, List.append_assoc, List.cons.injEq, true_and] at k1 ⊢
            exact k1
          · simp [k2]
          · simp [hm, k3]
    | net r =>
      have hstep : s.step n i (.net r) = some s1 := h1
      simp only [appSent, hstep]
      simp only [UdpStack.step] at h1
      split at h1
      · cases h1
        have hn := net_keeps s r
        exact quiet hn.1 hn.2
      · cases h1

/-! ## A run -/

/-- Socket 0, bound to no address, and socket 1, bound to 127.0.0.2, send; the loopback device brings the packets
back. -/
def stackApps : List SockOp :=
  [.new 0 [] [40000] none, .new 0 [] [40001] none, .bind 1 (.addr (.v4 0x7f000002), .num 5000) [] none,
   .sendto 0 [104, 105] (.addr (.v4 0x7f000002), .num 5000), .sendto 1 [1] (.addr (.v4 0x7f000001), .num 40000)]

/-- The state after these calls. -/
def stackReady : SockState × List Nat := runSock (.init, []) stackApps

theorem stackReady_reach : Reach stackReady.1 stackReady.2 :=
  reach_runSock .init stackApps (by
    refine ⟨trivial, trivial, ?_, trivial, trivial, trivial⟩
    decide +kernel)

/-- Both stacks' hypotheses hold for the interface above and these messages. -/
theorem exLo_runs : StackRuns exLoNet exLo 0x7f000001 :=
  ⟨by decide, by decide, rfl, [⟨.v6 1, 128⟩], [], 32, rfl, by decide⟩

example : ∃ m q, stackReady.1.fromApp = m :: q ∧ Carriable m 0x7f000002 ∧ m.proto = 17 ∧ m.data ≠ [] ∧
    Handled [.hdr (.null 2), .hdr (.ip4 (flowIp 0x7f000001 0x7f000002 m)), .hdr (.udp (flowUdp m 0)), .hdr (.raw m.data)] := by
  refine ⟨_, _, rfl, ⟨rfl, by decide +kernel, by decide +kernel, by decide +kernel⟩, by decide +kernel, by decide +kernel, ?_⟩
  rw [← stack_survives_partial]
  exact ⟨_, receive_flow (x := .null 2) (d := [104, 105]) (.inr ⟨_, rfl⟩) rfl⟩

/-- Both messages go around: the first arrives at socket 1, whose answer arrives at socket 0. -/
def exLoop : Nat → UdpStack → UdpStack
  | 0, s => s
  | k + 1, s =>
    match s.step exLoNet exLo .poll with
    | none => s
    | some s1 =>
      match (Frame.mk "lo".toList 0 0 ([2, 0, 0, 0] ++ (s1.sent.getLastD ([], [])).2)).result with
      | some r => exLoop k ((s1.step exLoNet exLo (.net r)).getD s1)
      | none => s1

example : (exLoop 2 (.start stackReady.1)).ended = .waiting ∧
    (exLoop 2 (.start stackReady.1)).st.socks.map Sock.inbox =
      [[⟨(.v4 0x7f000001, 40000), (.v4 0x7f000001, 5000), [1]⟩], [⟨(.v4 0x7f000002, 5000), (.v4 0x7f000001, 40000), [104, 105]⟩]] := by
  decide +kernel

end SY.Props
