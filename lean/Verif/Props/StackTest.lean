import Verif.StackTest
import Verif.Props.FwExercise
import Verif.Props.CopyOut

/-! # C228: what the test of the UDP stack example finds out -/

namespace SY.Props

open SY

/-- A UDP packet with the header of a loopback device is serialised with its lengths filled in. -/
theorem null_flow_bytes {h : IPv4} {u : UDP} {d : Bytes} (hh : IPv4.WF { h with totallen := 0 }) (ho : h.options = [])
    (hs : 0 ≤ u.src ∧ u.src < 65536) (hd : 0 ≤ u.dst ∧ u.dst < 65536) (hl : d.length < 65000) :
    ∃ c b, Packet.toBytes [.hdr (.null 2), .hdr (.ip4 h), .hdr (.udp u), .hdr (.raw d)] =
      ([.hdr (.null 2), .hdr (.ip4 { h with totallen := 28 + d.length }), .hdr (.udp { u with len := 8 + d.length, csum := c }),
        .hdr (.raw d)], .ok b) := by
  have hpr : h.protocol < 256 := ipProtocols_lt hh.2.2.2.2.2.2.1
  obtain ⟨c, hc, e1⟩ := udp_pre_ok (u := u) (h := h) (d := d) hs hd (by omega) (v4_lt hh.2.2.2.2.2.2.2.1)
    (v4_lt hh.2.2.2.2.2.2.2.2) hpr
  have hw' : UDP.WF { u with len := 8 + d.length, csum := c } := ⟨hs, hd, by show 8 + d.length < 65536; omega, hc⟩
  obtain ⟨bt, hbt, hbl⟩ := UDP.toBytes_ok hw'
  have hz : h.size = .ok 20 := by unfold IPv4.size; rw [ho]; rfl
  have hw : IPv4.WF { h with totallen := 28 + d.length } := by
    obtain ⟨w1, _, w3⟩ := hh
    exact ⟨w1, by show 28 + d.length < 65536; omega, w3⟩
  obtain ⟨bi, hbi, _⟩ := IPv4.toBytes_ok hw (by rw [ho]; simp) (by rw [ho]; decide)
  have hf : finish [.hdr (.null 2), .hdr (.ip4 h), .hdr (.udp u), .hdr (.raw d)] []
      [.hdr (.null 2), .hdr (.ip4 h), .hdr (.udp u), .hdr (.raw d)] =
      .ok ([.hdr (.null 2), .hdr (.ip4 { h with totallen := 28 + d.length }), .hdr (.udp { u with len := 8 + d.length, csum := c }),
        .hdr (.raw d)], [[2, 0, 0, 0], bi, bt, d]) := by
    have hr : ∀ ctx, finish ctx [] [.hdr (.raw d)] = .ok ([.hdr (.raw d)], [d]) := by
      intro ctx
      simp [finish, Item.pre, Hdr.pre, Item.toBytes, Hdr.toBytes, bind_ok, SY.map_ok]
    have hu : finish [.hdr (.null 2), .hdr (.ip4 h), .hdr (.udp u), .hdr (.raw d)] [] [.hdr (.udp u), .hdr (.raw d)] =
        .ok ([.hdr (.udp { u with len := 8 + d.length, csum := c }), .hdr (.raw d)], [bt, d]) := by
      rw [finish, hr]
      simp only [bind_ok, Item.pre, Hdr.pre, Packet.ip4?, Packet.byName, Hdr.cls, List.append_nil]
      simp [e1, SY.map_ok, Item.toBytes, Hdr.toBytes, hbt, bind_ok]
    have hi : finish [.hdr (.null 2), .hdr (.ip4 h), .hdr (.udp u), .hdr (.raw d)] []
        [.hdr (.ip4 h), .hdr (.udp u), .hdr (.raw d)] =
        .ok ([.hdr (.ip4 { h with totallen := 28 + d.length }), .hdr (.udp { u with len := 8 + d.length, csum := c }),
          .hdr (.raw d)], [bi, bt, d]) := by
      rw [finish, hu]
      have : 20 + (bt ++ d).length = 28 + d.length := by rw [List.length_append, hbl]; omega
      simp only [bind_ok, Item.pre, Hdr.pre, IPv4.preSerialize, hz, List.append_nil, List.flatten_cons, List.flatten_nil, this, SY.map_ok,
        Item.toBytes, Hdr.toBytes, hbi]

    rw [finish, hi]
    rfl
  exact ⟨c, _, toBytes_of_finish hf⟩

theorem home_flow_wf {p : Nat} {s d : BitVec 32} {tl id fl ttl : Nat} (hp : p ∈ ipProtocols) (htl : tl < 65536) (h1 : id < 65536)
    (h2 : fl ∈ ipFragmentFlags) (h3 : ttl < 256) : IPv4.WF ⟨0, tl, id, fl, 0, ttl, p, .v4 s, .v4 d, []⟩ :=
  ⟨show 0 < 256 by decide, htl, h1, h2, show 0 < 8192 by decide, h3, hp, trivial, trivial⟩

/-- The expectation of the test accepts a UDP packet exactly if both its addresses are 127.0.0.1 and it goes to
port 10000. -/
theorem stack_matcher {m : Matcher} (hm : Matcher.new stackWanted false [(.udp, .src)] [] = .ok m) {src dst : BitVec 32} {pr : Nat}
    {sp dp : Int} {d : Bytes} (hpr : pr ∈ ipProtocols) (hs : 0 ≤ sp ∧ sp < 65536) (hd : 0 ≤ dp ∧ dp < 65536) (hl : d.length < 65000) :
    Admits m [.hdr (.null 2), .hdr (.ip4 ⟨0, 20, 0xabcd, 2, 0, 64, pr, .v4 src, .v4 dst, []⟩), .hdr (.udp ⟨sp, dp, 8, 0⟩), .hdr (.raw d)] ↔
      src = stackHome ∧ dst = stackHome ∧ pr = 17 ∧ dp = 10000 := by
  obtain ⟨c, b, hb⟩ := null_flow_bytes (h := ⟨0, 20, 0xabcd, 2, 0, 64, pr, .v4 src, .v4 dst, []⟩) (u := ⟨sp, dp, 8, 0⟩) (d := d)
    (home_flow_wf hpr (by decide : 0 < 65536) (by decide : 0xabcd < 65536) (by decide : 2 ∈ ipFragmentFlags) (by decide : 64 < 256)) rfl hs hd hl
  have hw : ∃ c b, stackWanted.toBytes = ([.hdr (.null 2), .hdr (.ip4 ⟨0, 39, 0, 0, 0, 0, 17, .v4 stackHome, .v4 stackHome, []⟩),
      .hdr (.udp ⟨65535, 10000, 19, c⟩), .hdr (.raw stackHello)], .ok b) := null_flow_bytes (h := { IPv4.default with src := .v4 stackHome, dst := .v4 stackHome, protocol := 17 })
    (u := (UDP.default.setSrc 65535).setDst 10000) (d := stackHello)
    (home_flow_wf (by decide) (by decide) (by decide) (by decide) (by decide)) rfl (by decide) (by decide) (by decide)
  obtain ⟨c', b', hb'⟩ := hw
  unfold Admits
  rw [matcher_accepts _ _ _ _ _ hm]
  constructor
  · rintro ⟨p', b1, r, b2, e1, e2, e3, _⟩
    rw [hb] at e1
    rw [hb'] at e2
    cases e1
    cases e2
    obtain ⟨_, _, _, k1, _, k2, _⟩ := e3
    obtain ⟨u1, v1, x1, y1, z1⟩ := k1 .src ⟨by decide, by decide⟩
    obtain ⟨u2, v2, x2, y2, z2⟩ := k1 .dst ⟨by decide, by decide⟩
    obtain ⟨u3, v3, x3, y3, z3⟩ := k1 .protocol ⟨by decide, by decide⟩
    obtain ⟨u4, v4, x4, y4, z4⟩ := k2 .dst ⟨by simp [Hdr.cls, essentialOf], by simp [Hdr.cls]⟩
    cases x1; cases y1; cases x2; cases y2; cases x3; cases y3; cases x4; cases y4
    simp only [AVal.eq, Except.ok.injEq, decide_eq_true_eq, AVal.ip.injEq, IPAddr.v4.injEq, AVal.num.injEq] at z1 z2 z3 z4
    exact ⟨z1.symm, z2.symm, by simp at z3; omega, z4.symm⟩
  · rintro ⟨rfl, rfl, rfl, rfl⟩
    refine ⟨_, _, _, _, hb, hb', ⟨rfl, ?_, rfl, ?_, rfl, ?_, rfl, ?_, trivial⟩, by simp⟩
    · rintro a ⟨ha, _⟩
      cases ha
    · rintro a ⟨ha, _⟩
      simp only [Hdr.cls, essentialOf, Bool.false_eq_true, if_false, List.mem_cons, List.not_mem_nil, or_false] at ha
      rcases ha with rfl | rfl | rfl
      · exact ⟨_, _, rfl, rfl, by simp [AVal.eq]⟩
      · exact ⟨_, _, rfl, rfl, by simp [AVal.eq]⟩
      · exact ⟨_, _, rfl, rfl, by simp [AVal.eq]⟩
    · rintro a ⟨ha, hw⟩
      simp only [Hdr.cls, essentialOf, Bool.false_eq_true, if_false, List.mem_cons, List.not_mem_nil, or_false] at ha
      rcases ha with rfl | rfl
      · simp [Hdr.cls] at hw
      · exact ⟨_, _, rfl, rfl, by simp [AVal.eq]⟩
    · rintro a ⟨ha, _⟩
      cases ha

/-- The reply as the program receives it before the port is copied. -/
theorem stack_answer : ∃ p' b c, stackAnswer.toBytes = (p', .ok b) ∧ Packet.parse b (some .null) =
    .ok [.hdr (.null 2), .hdr (.ip4 ⟨0, 39, 0, 0, 0, 0, 17, .v4 stackHome, .v4 stackHome, []⟩), .hdr (.udp ⟨10000, 65535, 19, c⟩),
      .hdr (.raw stackHello)] := by
  refine ⟨stackAnswer.toBytes.1, _, 30443, Prod.ext rfl (show stackAnswer.toBytes.2 = .ok [2, 0, 0, 0, 69, 0, 0, 39, 0, 0, 0, 0, 0, 17, 188, 196, 127, 0, 0, 1,
    127, 0, 0, 1, 39, 16, 255, 255, 0, 19, 118, 235, 72, 101, 108, 108, 111, 32, 115, 116, 97, 99, 107] by decide +kernel), by decide +kernel⟩

theorem stack_expects {n : TestNet} (hn : stackEvents = .ok (eventsOf n)) :
    ∃ o x w m, n.scen.pending = [o, x] ∧ o.event = .output w [] ∧ w = [(stackDev, m)] ∧
      Matcher.new stackWanted false [(.udp, .src)] [] = .ok m ∧
      x.event = .input stackDev stackAnswer (some .null) [⟨stackDev, .udp, .src, .udp, .dst⟩] := by
  unfold stackEvents at hn
  obtain ⟨a, ha, hn⟩ := bind_eq_ok.mp hn
  obtain ⟨b, hb, hn⟩ := bind_eq_ok.mp hn
  cases hb
  unfold Event.mkOutput at ha
  rw [if_neg (by simp), if_neg (by simp)] at ha
  obtain ⟨d, hd, ha⟩ := bind_eq_ok.mp ha
  cases ha
  simp only [mkWaiting] at hd
  obtain ⟨m, hm, hd⟩ := bind_eq_ok.mp hd
  cases hd
  simp only [eventsOf, Except.ok.injEq] at hn
  match hp : n.scen.pending with
  | [] => rw [hp] at hn; cases hn
  | [_] => rw [hp] at hn; simp at hn
  | _ :: _ :: _ :: _ => rw [hp] at hn; simp at hn
  | [o, x] =>
    rw [hp] at hn
    simp only [List.map_cons, List.map_nil, List.cons.injEq, and_true] at hn
    exact ⟨o, x, _, m, rfl, hn.1.symm, rfl, hm, hn.2.symm⟩

theorem stack_packet {i : Iface} {l r : List IPIface} {src dst : BitVec 32} {len : Nat} (ha : i.ips = l ++ ⟨.v4 src, len⟩ :: r)
    (hv : ∀ x ∈ l, ¬ x.addr.isV4) {m : DownMsg} (hd : m.remoteAddr.1 = .v4 dst) (hp : m.proto ∈ ipProtocols) :
    stackPacket i m = .ok [.hdr (.null 2), .hdr (.ip4 ⟨0, 20, 0xabcd, 2, 0, 64, m.proto, .v4 src, .v4 dst, []⟩),
      .hdr (.udp ⟨m.localAddr.2, m.remoteAddr.2, 8, 0⟩), .hdr (.raw m.data)] := by
  unfold stackPacket
  rw [firstV4_of ha hv trivial, bind_ok, stackIPv4_ok hp, bind_ok, hd]
  rfl

/-- **C228**, the part that holds: whatever port an application's flow has, if it sends a message to port 10000 of
127.0.0.1, the packet the stack makes of it meets the test's expectation, and the reply the stack then receives
is, for the application, one from there to its own port. -/
theorem stack_test_partial (n : TestNet) (hn : stackEvents = .ok (eventsOf n)) (hk : stackDev ∈ n.scen.ifaces.keys) (i : Iface)
    (l r : List IPIface) (len : Nat) (ha : i.ips = l ++ ⟨.v4 stackHome, len⟩ :: r) (hv : ∀ x ∈ l, ¬ x.addr.isV4) (m : DownMsg)
    (hp : m.proto = 17) (hr : m.remoteAddr = (.v4 stackHome, 10000)) (h1 : 0 ≤ m.localAddr.2 ∧ m.localAddr.2 < 65536)
    (hm : m.data.length < 65000) :
    ∃ s n' q, stackPacket i m = .ok s ∧ program n [.send stackDev s] = (n', none) ∧ n'.recv.2 = .ok ⟨n'.ts, stackDev, q⟩ ∧
      stackReceive q = .ok (some ⟨(.v4 stackHome, m.localAddr.2), (.v4 stackHome, 10000), stackHello⟩) := by
  obtain ⟨o, x, w, mt, e1, e2, e3, e4, e5⟩ := stack_expects hn
  subst e3
  have hpr : m.proto ∈ ipProtocols := by rw [hp]; decide
  have hs := stack_packet (m := m) (dst := stackHome) ha hv (by rw [hr]) hpr
  have hadm := (stack_matcher e4 (src := stackHome) (dst := stackHome) (d := m.data) hpr h1 (dp := m.remoteAddr.2) (by rw [hr]; simp) hm).mpr
    ⟨rfl, rfl, hp, by rw [hr]⟩
  obtain ⟨p', b, c, hb, hq⟩ := stack_answer
  obtain ⟨n', pre, post, g1, g2, g3, _⟩ := copy_delivered_partial n o x [] [] _ [(stackDev, _)] stackDev stackAnswer p' _ _ (some .null) b
    ⟨stackDev, .udp, .src, .udp, .dst⟩ (.udp ⟨m.localAddr.2, m.remoteAddr.2, 8, 0⟩) (.udp ⟨10000, 65535, 19, c⟩)
    (.udp ⟨10000, m.localAddr.2, 19, c⟩) (.num 65535) (.num m.localAddr.2) e1 e2 (by simp [Dict.Uniq, Dict.keys]) (by simp)
    ⟨by simp [Dict.keys], by
      intro y hy
      rw [List.mem_singleton] at hy
      subst hy
      exact ⟨mt, by simp [Dict.get?], hadm⟩⟩ (by simp) e5 hk hb hq (List.mem_singleton.mpr rfl) rfl rfl (by decide) (by decide) rfl rfl trivial
    trivial rfl
  have hpost : pre ++ .hdr (.udp ⟨10000, m.localAddr.2, 19, c⟩) :: post =
      .hdr (.null 2) :: .hdr (.ip4 ⟨0, 39, 0, 0, 0, 0, 17, .v4 stackHome, .v4 stackHome, []⟩) ::
        .hdr (.udp ⟨10000, m.localAddr.2, 19, c⟩) :: rawTail stackHello := by
    match pre, g2 with
    | [], g2 => cases g2
    | [_], g2 => cases g2
    | [_, _], g2 => cases g2; rfl
    | [_, _, _], g2 => cases g2
    | _ :: _ :: _ :: _ :: _, g2 =>
      have := congrArg List.length g2
      simp at this
  refine ⟨_, n', _, hs, g1, g3, ?_⟩
  rw [hpost, receive_flow (.inr ⟨_, rfl⟩) rfl]
  rfl

/-- **C228**: the reply goes to the application's socket: to the open UDP socket that has the port the message came from and
the address 127.0.0.1, or else to the one that has this port and no address, as the sockets of clients have; the data is
that of the test and the remote address is the one the message went to.  The stack goes on. -/
theorem stack_test_answer (n : TestNet) (hn : stackEvents = .ok (eventsOf n)) (hk : stackDev ∈ n.scen.ifaces.keys) (i : Iface)
    (l r : List IPIface) (len : Nat) (ha : i.ips = l ++ ⟨.v4 stackHome, len⟩ :: r) (hv : ∀ x ∈ l, ¬ x.addr.isV4) (m : DownMsg)
    (hp : m.proto = 17) (hr : m.remoteAddr = (.v4 stackHome, 10000)) (h1 : 0 ≤ m.localAddr.2 ∧ m.localAddr.2 < 65536)
    (hm : m.data.length < 65000) (nb : NetBase) (s' : UdpStack) (o : List Nat) (hre : Reach s'.st o) (hw : s'.ended = .waiting)
    (hat : s'.atNet = true) :
    ∃ s n' q s'', stackPacket i m = .ok s ∧ program n [.send stackDev s] = (n', none) ∧
      n'.recv.2 = .ok ⟨n'.ts, stackDev, q⟩ ∧ s'.step nb i (.net (.packet n'.ts stackDev q)) = some s'' ∧
      s''.ended = .waiting ∧ s''.atNet = false ∧ s''.sent = s'.sent ∧
      let isAt (a : IPAddr) (j : Nat) (k : Sock) :=
        j ∈ o ∧ s'.st.socks[j]? = some k ∧ k.proto = 17 ∧ k.localAddr = (a, m.localAddr.2)
      let up : UpMsg := ⟨(.v4 stackHome, m.localAddr.2), (.v4 stackHome, 10000), stackHello⟩
      (∀ j k, isAt (.v4 stackHome) j k → s''.st = delivered s'.st j k up) ∧
      ((∀ j k, ¬ isAt (.v4 stackHome) j k) → ∀ j k, isAt (.v4 0) j k → s''.st = delivered s'.st j k up) ∧
      ((∀ j k, ¬ isAt (.v4 stackHome) j k) → (∀ j k, ¬ isAt (.v4 0) j k) → s''.st = s'.st) := by
  obtain ⟨s, n', q, g1, g2, g3, g4⟩ := stack_test_partial n hn hk i l r len ha hv m hp hr h1 hm
  have hd := socket_delivery_partial hre (proto := 17) (pr := 17) (la := (.addr (.v4 stackHome), .num m.localAddr.2))
    (ra := (.addr (.v4 stackHome), .num 10000)) (lip := .v4 stackHome) (rip := .v4 stackHome) (data := stackHello) rfl rfl rfl
  refine ⟨s, n', q, { s' with st := (s'.st.step (.sendToApp 17 (.addr (.v4 stackHome), .num m.localAddr.2)
    (.addr (.v4 stackHome), .num 10000) stackHello)).1, atNet := false }, g1, g2, g3, ?_, hw, rfl, rfl, ?_⟩
  · simp only [UdpStack.step, hw, hat, and_self, if_true, UdpStack.net, UdpStack.onNet, g4]
    rfl
  · obtain ⟨d1, d2, d3⟩ := hd
    refine ⟨fun j k hj => ?_, fun h1 j k hj => ?_, fun h1 h2 => ?_⟩
    · rw [d1 j k hj]; rfl
    · rw [d2 h1 j k hj]; rfl
    · rw [d3 h1 h2]

/-- **C228** is false of the test as a test of the data: a stack that sends anything else in place of the message
meets it as well. -/
theorem stack_test_data_violated (n : TestNet) (hn : stackEvents = .ok (eventsOf n)) (hk : stackDev ∈ n.scen.ifaces.keys) (i : Iface)
    (l r : List IPIface) (len : Nat) (ha : i.ips = l ++ ⟨.v4 stackHome, len⟩ :: r) (hv : ∀ x ∈ l, ¬ x.addr.isV4) (m : DownMsg)
    (hp : m.proto = 17) (hr : m.remoteAddr = (.v4 stackHome, 10000)) (h1 : 0 ≤ m.localAddr.2 ∧ m.localAddr.2 < 65536)
    (f : Bytes → Bytes) (hm : (f m.data).length < 65000) :
    ∃ s n' q, stackPacket i { m with data := f m.data } = .ok s ∧ s.getItem (-1) = .ok (.hdr (.raw (f m.data))) ∧
      program n [.send stackDev s] = (n', none) ∧ n'.recv.2 = .ok ⟨n'.ts, stackDev, q⟩ ∧
      stackReceive q = .ok (some ⟨(.v4 stackHome, m.localAddr.2), (.v4 stackHome, 10000), stackHello⟩) := by
  obtain ⟨s, n', q, g1, g2, g3, g4⟩ := stack_test_partial n hn hk i l r len ha hv { m with data := f m.data } hp hr h1 hm
  refine ⟨s, n', q, g1, ?_, g2, g3, g4⟩
  rw [stack_packet (dst := stackHome) ha hv (by show m.remoteAddr.1 = _; rw [hr]) (by show m.proto ∈ _; rw [hp]; decide)] at g1
  cases g1
  rfl

/-- A packet is sent without an exception exactly if the matcher of its port accepts it. -/
theorem sent_iff_admits {n : TestNet} {o : Entry} {xs : List Entry} {d : List Char} {mt : Matcher} {sn : Dict (List Char) Sent}
    (e1 : n.scen.pending = o :: xs) (e2 : o.event = .output [(d, mt)] sn) (s : Packet) :
    (program n [.send d s]).2 = none ↔ Admits mt s := by
  have hg : Dict.get? [(d, mt)] d = some mt := by simp [Dict.get?]
  constructor
  · intro h
    unfold Admits
    rcases hmm : mt.matchPkt s with ⟨m', p', q⟩
    rcases q with e | (_ | _)
    · exfalso
      simp [program, perform, TestNet.send, Scenario.done, e1, TestNet.port, TestNet.sendOn, Scenario.next, e2,
        Event.matchOutput, hg, hmm, TestNet.afterMatch] at h
    · exfalso
      simp [program, perform, TestNet.send, Scenario.done, e1, TestNet.port, TestNet.sendOn, Scenario.next, e2,
        Event.matchOutput, hg, hmm, TestNet.afterMatch] at h
    · rfl
  · intro h
    obtain ⟨n', k, _⟩ := send_accepted e1 e2 hg h
    simp only [program, k]

/-- **C228**: of the packets the stack makes, the test accepts exactly those from 127.0.0.1 to port 10000 of
127.0.0.1 whose protocol is UDP. -/
theorem stack_test_exact (n : TestNet) (hn : stackEvents = .ok (eventsOf n)) (i : Iface)
    (l r : List IPIface) (src dst : BitVec 32) (len : Nat) (ha : i.ips = l ++ ⟨.v4 src, len⟩ :: r) (hv : ∀ x ∈ l, ¬ x.addr.isV4)
    (m : DownMsg) (hp : m.proto ∈ ipProtocols) (hd : m.remoteAddr.1 = .v4 dst) (h1 : 0 ≤ m.localAddr.2 ∧ m.localAddr.2 < 65536)
    (h2 : 0 ≤ m.remoteAddr.2 ∧ m.remoteAddr.2 < 65536) (hm : m.data.length < 65000) :
    ∃ s, stackPacket i m = .ok s ∧ ((program n [.send stackDev s]).2 = none ↔
      src = stackHome ∧ dst = stackHome ∧ m.proto = 17 ∧ m.remoteAddr.2 = 10000) := by
  obtain ⟨o, x, w, mt, e1, e2, e3, e4, e5⟩ := stack_expects hn
  subst e3
  exact ⟨_, stack_packet ha hv hd hp, (sent_iff_admits e1 e2 _).trans (stack_matcher e4 hp h1 h2 hm)⟩

/-- A packet that the matcher of its port does not accept ends the program with an exception. -/
theorem refused_report {n : TestNet} {o : Entry} {xs : List Entry} {d : List Char} {mt : Matcher} {sn : Dict (List Char) Sent}
    (e1 : n.scen.pending = o :: xs) (e2 : o.event = .output [(d, mt)] sn) {s : Packet} (hs : (mt.matchPkt s).2.2 ≠ .error .shutdown)
    (ha : ¬ Admits mt s) (as : List Act) : report n (.send d s :: as) ≠ .allPassed := by
  have hg : Dict.get? [(d, mt)] d = some mt := by simp [Dict.get?]
  have : ∃ e, (perform n (.send d s)).2 = some e ∧ e ≠ .shutdown := by
    rcases hmm : mt.matchPkt s with ⟨m', p', q⟩
    rw [hmm] at hs
    rcases q with e | (_ | _)
    · refine ⟨e, ?_, fun h => hs (by rw [h])⟩
      simp [perform, TestNet.send, Scenario.done, e1, TestNet.port, TestNet.sendOn, Scenario.next, e2,
        Event.matchOutput, hg, hmm, TestNet.afterMatch]
    · refine ⟨.testFailure, ?_, by decide⟩
      simp [perform, TestNet.send, Scenario.done, e1, TestNet.port, TestNet.sendOn, Scenario.next, e2,
        Event.matchOutput, hg, hmm, TestNet.afterMatch]
    · exact absurd (by rw [Admits, hmm]) ha
  obtain ⟨e, h1, h2⟩ := this
  rcases hp : perform n (.send d s) with ⟨n', r⟩
  rw [hp] at h1
  simp only at h1
  subst h1
  simp only [report, program, hp]
  exact verdict_error h2

/-- **C228**: a stack that sends the packet it makes of a message and then asks for a packet passes the test exactly if
the packet goes from 127.0.0.1 to port 10000 of 127.0.0.1 and its protocol is UDP. -/
theorem stack_test_reports (n : TestNet) (hn : stackEvents = .ok (eventsOf n)) (hk : stackDev ∈ n.scen.ifaces.keys) (i : Iface)
    (l r : List IPIface) (src dst : BitVec 32) (len : Nat) (ha : i.ips = l ++ ⟨.v4 src, len⟩ :: r) (hv : ∀ x ∈ l, ¬ x.addr.isV4)
    (m : DownMsg) (hp : m.proto ∈ ipProtocols) (hd : m.remoteAddr.1 = .v4 dst) (h1 : 0 ≤ m.localAddr.2 ∧ m.localAddr.2 < 65536)
    (h2 : 0 ≤ m.remoteAddr.2 ∧ m.remoteAddr.2 < 65536) (hm : m.data.length < 65000) :
    ∃ s, stackPacket i m = .ok s ∧ (report n [.send stackDev s, .recv] = .allPassed ↔
      src = stackHome ∧ dst = stackHome ∧ m.proto = 17 ∧ m.remoteAddr.2 = 10000) := by
  obtain ⟨o, x, w, mt, e1, e2, e3, e4, e5⟩ := stack_expects hn
  subst e3
  have hs := stack_packet ha hv hd hp
  have hmt := stack_matcher e4 (src := src) (dst := dst) hp h1 h2 hm
  refine ⟨_, hs, ?_⟩
  constructor
  · intro h
    refine hmt.mp (Classical.byContradiction fun hna => refused_report e1 e2 ?_ hna _ h)
    obtain ⟨c, b, hb⟩ := null_flow_bytes (h := ⟨0, 20, 0xabcd, 2, 0, 64, m.proto, .v4 src, .v4 dst, []⟩)
      (u := ⟨m.localAddr.2, m.remoteAddr.2, 8, 0⟩) (d := m.data)
      (home_flow_wf hp (by decide : 0 < 65536) (by decide : 0xabcd < 65536) (by decide : 2 ∈ ipFragmentFlags) (by decide : 64 < 256))
      rfl h1 h2 hm
    obtain ⟨c', b', hb'⟩ := null_flow_bytes (h := { IPv4.default with src := .v4 stackHome, dst := .v4 stackHome, protocol := 17 })
      (u := (UDP.default.setSrc 65535).setDst 10000) (d := stackHello)
      (home_flow_wf (by decide) (by decide) (by decide) (by decide) (by decide)) rfl (by decide) (by decide) (by decide)
    have hmt' : mt.preds = [] ∧ mt.ref = stackWanted := by
      unfold Matcher.new at e4
      obtain ⟨_, _, e4⟩ := bind_eq_ok.mp e4
      obtain ⟨_, _, e4⟩ := bind_eq_ok.mp e4
      cases e4
      exact ⟨rfl, rfl⟩
    exact match_notShut hmt'.1 hb (by rw [hmt'.2]; exact hb')
  · intro h
    have hadm := hmt.mpr h
    obtain ⟨rfl, rfl, hpr, hport⟩ := h
    obtain ⟨s, n1, q, g1, g2, g3, _⟩ := stack_test_partial n hn hk i l r len ha hv m hpr (Prod.ext hd hport) h1 hm
    rw [hs] at g1
    cases g1
    obtain ⟨n2, k1, _, k2⟩ := send_accepted e1 e2 (d := stackDev) (m := mt) (by simp [Dict.get?]) hadm
    rw [if_pos (by simp [Dict.erase])] at k2
    have hn2 : n2 = n1 := by
      simp only [program, k1] at g2
      exact (Prod.mk.inj g2).1
    subst hn2
    have hr : (perform n2 .recv).2 = none ∧ (perform n2 .recv).1.scen.pending = [] := by
      have hrp : n2.recv.1.scen.pending = [] := by
        obtain ⟨t1, _, _⟩ := testpass_lists k2.1
        simp only [TestNet.recv, Scenario.next, k2.1, e5, Event.matchInput, t1]
      rcases hrr : n2.recv with ⟨n3, res⟩
      rw [hrr] at g3 hrp
      simp only at g3 hrp
      subst g3
      simp only [perform, hrr]
      exact ⟨trivial, hrp⟩
    rcases hpp : perform n2 .recv with ⟨n3, res⟩
    rw [hpp] at hr
    obtain ⟨rfl, hr⟩ := hr
    simp only [report, program, k1, hpp, verdict, Scenario.failedTest]
    simp only at hr
    rw [hr]
    rfl

/-- The interface of the test. -/
def exStackIf : Iface := ⟨stackDev, ⟨zeros 6⟩, [⟨.v4 stackHome, 8⟩], 0, .loopback⟩

/-- The scenario with given expectations. -/
def exStackNet (es : List Event) : TestNet :=
  { scen := { ifaces := [(stackDev, exStackIf)], pending := es.map fun e => ⟨e, [], 0⟩ } }

theorem exStack_events : ∃ es, stackEvents = .ok (eventsOf (exStackNet es)) := by
  have h : stackEvents.isOk = true := by decide +kernel
  match he : stackEvents with
  | .error e => rw [he] at h; cases h
  | .ok es => exact ⟨es, by simp [eventsOf, exStackNet, List.map_map, Function.comp_def]⟩

/-- Two messages that pass, one of them empty, and one to another port that does not. -/
example : ∃ n s s' s'', stackPacket exStackIf ⟨17, (.v4 0, 5555), (.v4 stackHome, 10000), stackHello⟩ = .ok s ∧
    stackPacket exStackIf ⟨17, (.v4 0, 5555), (.v4 stackHome, 10000), []⟩ = .ok s' ∧
    stackPacket exStackIf ⟨17, (.v4 0, 5555), (.v4 stackHome, 10001), stackHello⟩ = .ok s'' ∧
    (program n [.send stackDev s]).2 = none ∧ (program n [.send stackDev s']).2 = none ∧
    (program n [.send stackDev s'']).2 ≠ none := by
  obtain ⟨es, he⟩ := exStack_events
  have go := stack_test_exact _ he exStackIf [] [] stackHome stackHome 8 rfl (by simp)
  obtain ⟨s, h1, h2⟩ := go ⟨17, (.v4 0, 5555), (.v4 stackHome, 10000), stackHello⟩ (by decide) rfl (by decide) (by decide) (by decide)
  obtain ⟨s', h1', h2'⟩ := go ⟨17, (.v4 0, 5555), (.v4 stackHome, 10000), []⟩ (by decide) rfl (by decide) (by decide) (by decide)
  obtain ⟨s'', h1'', h2''⟩ := go ⟨17, (.v4 0, 5555), (.v4 stackHome, 10001), stackHello⟩ (by decide) rfl (by decide) (by decide) (by decide)
  exact ⟨_, s, s', s'', h1, h1', h1'', h2.mpr ⟨rfl, rfl, rfl, rfl⟩, h2'.mpr ⟨rfl, rfl, rfl, rfl⟩, fun h => by
    have := (h2''.mp h).2.2.2
    simp at this⟩

/-- The hypotheses of `stack_test_partial` are met for this message. -/
example : ∃ s n n' q, stackPacket exStackIf ⟨17, (.v4 0, 5555), (.v4 stackHome, 10000), stackHello⟩ = .ok s ∧
    program n [.send stackDev s] = (n', none) ∧ n'.recv.2 = .ok ⟨n'.ts, stackDev, q⟩ ∧
    stackReceive q = .ok (some ⟨(.v4 stackHome, 5555), (.v4 stackHome, 10000), stackHello⟩) := by
  obtain ⟨es, he⟩ := exStack_events
  obtain ⟨s, n', q, h⟩ := stack_test_partial _ he (by simp [exStackNet, Dict.keys]) exStackIf [] [] 8 rfl (by simp)
    ⟨17, (.v4 0, 5555), (.v4 stackHome, 10000), stackHello⟩ rfl rfl (by decide) (by decide)
  exact ⟨s, _, n', q, h⟩

/-- The message of the test passes it, and one with another protocol does not. -/
example : ∃ n s s', stackPacket exStackIf ⟨17, (.v4 0, 5555), (.v4 stackHome, 10000), stackHello⟩ = .ok s ∧
    stackPacket exStackIf ⟨1, (.v4 0, 5555), (.v4 stackHome, 10000), stackHello⟩ = .ok s' ∧
    report n [.send stackDev s, .recv] = .allPassed ∧ report n [.send stackDev s', .recv] ≠ .allPassed := by
  obtain ⟨es, he⟩ := exStack_events
  have go := stack_test_reports _ he (by simp [exStackNet, Dict.keys]) exStackIf [] [] stackHome stackHome 8 rfl (by simp)
  obtain ⟨s, h1, h2⟩ := go ⟨17, (.v4 0, 5555), (.v4 stackHome, 10000), stackHello⟩ (by decide) rfl (by decide) (by decide) (by decide)
  obtain ⟨s', h1', h2'⟩ := go ⟨1, (.v4 0, 5555), (.v4 stackHome, 10000), stackHello⟩ (by decide) rfl (by decide) (by decide) (by decide)
  exact ⟨_, s, s', h1, h1', h2.mpr ⟨rfl, rfl, rfl, rfl⟩, fun h => by
    have := (h2'.mp h).2.2.1
    simp at this⟩

/-- The client, clientapp_udpstackex.py 8-12, which sends `b'Hello, stack'`, with a comma: other data than the test
expects.  The stack then takes the message. -/
def exClient : List SockOp :=
  [.new 0 [] [40000] none, .settimeout 0 (some 2),
   .sendto 0 [72, 101, 108, 108, 111, 44, 32, 115, 116, 97, 99, 107] (.addr (.v4 stackHome), .num 10000), .recvFromApp (some 1)]

/-- The message the stack takes. -/
def exClientMsg : DownMsg :=
  ⟨17, (.v4 0, 40000), (.v4 stackHome, 10000), [72, 101, 108, 108, 111, 44, 32, 115, 116, 97, 99, 107]⟩

theorem exClient_reach : Reach (runSock (.init, []) exClient).1 (runSock (.init, []) exClient).2 :=
  reach_runSock .init exClient (by exact ⟨trivial, trivial, trivial, trivial, trivial⟩)

example : ((runSock (.init, []) (exClient.take 3)).1.recvFromApp (some 1)).2 = .down exClientMsg := by decide +kernel

/-- The client's message passes the test, and the client's socket gets the reply. -/
example : ∃ n s n' q s'', stackPacket exStackIf exClientMsg = .ok s ∧ program n [.send stackDev s] = (n', none) ∧
    n'.recv.2 = .ok ⟨n'.ts, stackDev, q⟩ ∧
    UdpStack.step exLoNet exStackIf ⟨(runSock (.init, []) exClient).1, [], true, .waiting⟩ (.net (.packet n'.ts stackDev q)) = some s'' ∧
    s''.st.socks.map Sock.inbox = [[⟨(.v4 stackHome, 40000), (.v4 stackHome, 10000), stackHello⟩]] := by
  obtain ⟨es, he⟩ := exStack_events
  obtain ⟨s, n', q, s'', g1, g2, g3, g4, _, _, _, _, g5, _⟩ := stack_test_answer _ he (by simp [exStackNet, Dict.keys]) exStackIf [] [] 8 rfl
    (by simp) exClientMsg rfl rfl (by decide) (by decide) exLoNet ⟨(runSock (.init, []) exClient).1, [], true, .waiting⟩ _
    exClient_reach rfl rfl
  refine ⟨_, s, n', q, s'', g1, g2, g3, g4, ?_⟩
  have hs : (runSock (.init, []) exClient).1.socks = [(runSock (.init, []) exClient).1.socks.head (by decide +kernel)] := by
    decide +kernel
  rw [g5 ?_ 0 ((runSock (.init, []) exClient).1.socks.head (by decide +kernel)) ⟨by decide +kernel, by decide +kernel, by decide +kernel,
    by decide +kernel⟩]
  · decide +kernel
  · rintro j k ⟨_, hj, _, hk⟩
    simp only at hj
    rw [hs] at hj
    match j with
    | 0 =>
      cases hj
      exact absurd hk (by decide +kernel)
    | j + 1 => simp at hj

end SY.Props
