import Verif.Props.SimCli
import Verif.Props.Of13
import Verif.Props.UdpStack
import Verif.Props.Report

/-!
# Further properties of the classes above

Theorems found missing by editing the model: the commands `monitor` and `unmonitor` as a whole (C143), the states of a
port (C121), the reserved ports of OpenFlow 1.3 (C159), what ends the UDP stack (C176), unknown links and interfaces
(C115), what can be sent on the loopback interface (C95), numbers in texts (C163), the event after the one that is met
(C167).
-/

namespace SY.Props

open SY

variable {α : Type}

/-! ## C143: the commands -/

/-- What `removeMonitor` does to the interfaces of a node that is not stopped, as a user sees it. -/
theorem eachPlace_remove (ps : List (Name × Name)) (g : Glue α)
    (h : ∀ p ∈ ps, ∃ x, g.xnode.get? p.1 = some x ∧ x.phase ≠ .stopped) :
    (eachPlace (fun g n i => g.removeMonitor n i) g ps).2 = false ∧
    ∀ n x, g.xnode.get? n = some x → ∃ y, (eachPlace (fun g n i => g.removeMonitor n i) g ps).1.xnode.get? n = some y ∧
      y.phase = x.phase ∧ ∀ i, y.mons.get? i = if (n, i) ∈ ps then some .null else x.mons.get? i := by
  induction ps generalizing g with
  | nil => exact ⟨rfl, fun n x hx => ⟨x, hx, rfl, by simp⟩⟩
  | cons p ps ih =>
    obtain ⟨n, i⟩ := p
    obtain ⟨x, hx, hp⟩ := h (n, i) (by simp)
    have e : g.removeMonitor n i = (⟨g.xnode.set n { x with mons := x.mons.set i .null }, g.mons.erase (n, i),
        g.registered ++ [.made .null]⟩, none) := by
      simp only at hx
      simp [Glue.removeMonitor, hx, Glue.registerMon, Glue.onNode, NodeExec.attach, hp]
    have hg : ∀ q ∈ ps, ∃ x, (g.removeMonitor n i).1.xnode.get? q.1 = some x ∧ x.phase ≠ .stopped := by
      intro q hq
      obtain ⟨z, hz, hzp⟩ := h q (by simp [hq])
      rw [e]
      simp only [Dict.get?_set]
      by_cases hn : n = q.1
      · refine ⟨_, by rw [if_pos hn], ?_⟩
        exact hp
      · exact ⟨z, by rw [if_neg hn]; exact hz, hzp⟩
    obtain ⟨h1, h2⟩ := ih _ hg
    refine ⟨by simp only [eachPlace]; rw [h1, e]; rfl, ?_⟩
    intro m z hz
    simp only [eachPlace]
    by_cases hn : n = m
    · subst hn
      rw [hx] at hz
      cases hz
      obtain ⟨y, hy1, hy2, hy3⟩ := h2 n { x with mons := x.mons.set i .null } (by rw [e]; simp [Dict.get?_set])
      refine ⟨y, hy1, hy2, fun j => ?_⟩
      rw [hy3 j]
      simp only [Dict.get?_set, List.mem_cons, Prod.mk.injEq, true_and]
      by_cases hj : (n, j) ∈ ps
      · simp [hj]
      · by_cases hij : i = j
        · subst hij; simp [hj]
        · simp [hj, hij, Ne.symm hij]
    · obtain ⟨y, hy1, hy2, hy3⟩ := h2 m z (by rw [e]; simpa [Dict.get?_set, hn] using hz)
      refine ⟨y, hy1, hy2, fun j => ?_⟩
      rw [hy3 j]
      simp [Ne.symm hn]

/-- **C143**: `unmonitor` in a steady simulation ends the monitoring at exactly the places its words name, and complains,
changing nothing, if they name none. -/
theorem unmonitor_command (c : Cli α) (env : CliEnv α) (line w : Name) (ws : List Name) (hl : cliCall line = .run .unmonitor w)
    (hw : splitWords [] w = ws) :
    (monitorWhere c.topo ws = none → c.onecmd env line = (c, .done true)) ∧
    ∀ ps r, monitorWhere c.topo ws = some (ps, r) →
      (∀ p ∈ ps, ∃ x, c.glue.xnode.get? p.1 = some x ∧ x.phase ≠ .stopped) →
      (c.onecmd env line).2 = .done false ∧ (c.onecmd env line).1.topo = c.topo ∧
      ∀ n x, c.glue.xnode.get? n = some x → ∃ y, (c.onecmd env line).1.glue.xnode.get? n = some y ∧
        ∀ i, y.mons.get? i = if (n, i) ∈ ps then some .null else x.mons.get? i := by
  have e : c.onecmd env line = c.doUnmonitor ws := by simp only [Cli.onecmd, hl, Cli.command, hw]
  rw [e]
  refine ⟨fun h => by simp only [Cli.doUnmonitor, h], fun ps r h hx => ?_⟩
  obtain ⟨h1, h2⟩ := eachPlace_remove ps c.glue hx
  have e2 : c.doUnmonitor ws = ({ c with glue := (eachPlace (fun g n i => g.removeMonitor n i) c.glue ps).1 },
     .done (eachPlace (fun g n i => g.removeMonitor n i) c.glue ps).2) := by simp only [Cli.doUnmonitor, h]
  rw [e2]
  refine ⟨by rw [h1], rfl, fun n x hn => ?_⟩
  obtain ⟨y, hy1, _, hy3⟩ := h2 n x hn
  exact ⟨y, hy1, hy3⟩

/-- **C143**: `monitor` with words that name no place, or no way of monitoring, complains and changes nothing. -/
theorem monitor_refused (c : Cli α) (env : CliEnv α) (line w : Name) (ws : List Name) (hl : cliCall line = .run .monitor w)
    (hw : splitWords [] w = ws) (h : monitorWhere c.topo ws = none ∨ ∃ ps, monitorWhere c.topo ws = some (ps, [])) :
    c.onecmd env line = (c, .done true) := by
  have e : c.onecmd env line = c.doMonitor env ws := by simp only [Cli.onecmd, hl, Cli.command, hw]
  rw [e]
  rcases h with h | ⟨ps, h⟩
  · simp only [Cli.doMonitor, h]
  · simp only [Cli.doMonitor, h, monitorHow]

example : (simCli.onecmd noEnv "monitor h0 eth0".toList).2 = .done true ∧
    (simCli.onecmd noEnv "unmonitor h0 eth0".toList).2 = .done false := by decide +kernel

/-! ## C121: the states of a port -/

/-- **C121**: of the state word `w` of a received port description, the flag `LinkDown` is bit 0 and the spanning-tree
states are found in bits 8 and 9: learning in bit 8, forwarding in bit 9, blocking if both are set (and then the other two
as well); `NoState` always.  The bits of other states are dropped. -/
theorem port_states (w v : Nat) : v ∈ unpackBitmap w ofPortState ↔
    v = 0 ∨ (v = 1 ∧ w.testBit 0 = true) ∨ (v = 0x100 ∧ w.testBit 8 = true) ∨ (v = 0x200 ∧ w.testBit 9 = true) ∨
      (v = 0x300 ∧ w.testBit 8 = true ∧ w.testBit 9 = true) := by
  have e : ∀ x : Nat, (x &&& w == x) = true ↔ ∀ k, x.testBit k = true → w.testBit k = true := by
    intro x
    rw [beq_iff_eq, and_eq_self_iff]
  have b : ∀ j k : Nat, (2 ^ j).testBit k = true ↔ k = j := by
    intro j k
    rw [Nat.testBit_two_pow]
    simp [eq_comm]
  have b1 : ∀ k, (1 : Nat).testBit k = true ↔ k = 0 := b 0
  have b2 : ∀ k, (0x100 : Nat).testBit k = true ↔ k = 8 := b 8
  have b3 : ∀ k, (0x200 : Nat).testBit k = true ↔ k = 9 := b 9
  have b4 : ∀ k, (0x300 : Nat).testBit k = true ↔ k = 8 ∨ k = 9 := by
    intro k
    rw [show (0x300 : Nat) = 0x100 ||| 0x200 from rfl, Nat.testBit_or, Bool.or_eq_true, b2, b3]
  simp only [unpackBitmap, ofPortState, List.mem_filter, e, List.mem_cons, List.not_mem_nil, or_false]
  constructor
  · rintro ⟨rfl | rfl | rfl | rfl | rfl, h⟩
    · exact .inl rfl
    · exact .inr (.inl ⟨rfl, h 0 ((b1 _).mpr rfl)⟩)
    · exact .inr (.inr (.inl ⟨rfl, h 8 ((b2 _).mpr rfl)⟩))
    · exact .inr (.inr (.inr (.inl ⟨rfl, h 9 ((b3 _).mpr rfl)⟩)))
    · exact .inr (.inr (.inr (.inr ⟨rfl, h 8 ((b4 _).mpr (.inl rfl)), h 9 ((b4 _).mpr (.inr rfl))⟩)))
  · rintro (rfl | ⟨rfl, h⟩ | ⟨rfl, h⟩ | ⟨rfl, h⟩ | ⟨rfl, h, h'⟩)
    · exact ⟨.inl rfl, fun k hk => by simp at hk⟩
    · exact ⟨by simp, fun k hk => by rw [(b1 _).mp hk]; exact h⟩
    · exact ⟨by simp, fun k hk => by rw [(b2 _).mp hk]; exact h⟩
    · exact ⟨by simp, fun k hk => by rw [(b3 _).mp hk]; exact h⟩
    · refine ⟨by simp, fun k hk => ?_⟩
      rcases (b4 _).mp hk with rfl | rfl
      · exact h
      · exact h'

/-- The negation of **C121** for the state of a port: a port that is blocked by the spanning tree (0x300) is read as one
that is learning and forwarding as well. -/
theorem port_blocked_violated : unpackBitmap 0x300 ofPortState = [0, 0x100, 0x200, 0x300] := by decide

/-! ## C159: the reserved ports -/

/-- **C159**: the reserved ports are those that OpenFlow 1.3 assigns: `OFPP_MAX` and the last eight numbers. -/
theorem of13_reserved (p : Nat) : p ∈ of13Ports ↔ p = 2 ^ 32 - 256 ∨ 2 ^ 32 - 8 ≤ p ∧ p < 2 ^ 32 := by
  simp only [of13Ports, List.mem_cons, List.not_mem_nil, or_false]
  omega

/-! ## C176: what ends the stack -/

/-- **C176**: silence on the network does not end the stack or change anything, and it turns to the applications. -/
theorem stack_silence (n : NetBase) (i : Iface) (s : UdpStack) (h : s.ended = .waiting) (ha : s.atNet = true) :
    ∃ s', s.run n i [.net .noPackets] = some s' ∧ s'.ended = .waiting ∧ s'.st = s.st ∧ s'.sent = s.sent ∧
      (s'.step n i .poll).isSome = true := by
  refine ⟨{ s with atNet := false }, ?_, h, rfl, rfl, ?_⟩
  · simp [UdpStack.run, UdpStack.step, h, ha, UdpStack.net]
  · simp [UdpStack.step, h]

/-- **C176**: a shutdown of the network ends the stack without an exception, and nothing is received or sent after it. -/
theorem stack_shutdown (n : NetBase) (i : Iface) (s : UdpStack) (h : s.ended = .waiting) (ha : s.atNet = true) (es : List StackEv)
    (s' : UdpStack) (hr : s.run n i (.net .shutdown :: es) = some s') :
    s'.ended = .returned ∧ s'.sent = s.sent ∧ ∀ e ∈ es, ∃ op, e = .app op := by
  have h1 : s.run n i (.net .shutdown :: es) = ({ s with ended := .returned } : UdpStack).run n i es := by
    simp [UdpStack.run, UdpStack.step, h, ha, UdpStack.net]
  rw [h1] at hr
  obtain ⟨a, b⟩ := ended_stays n i _ (by simp) es s' hr
  refine ⟨a, b, ?_⟩
  have gen : ∀ (es : List StackEv) (s : UdpStack), s.ended ≠ .waiting → (s.run n i es).isSome = true → ∀ e ∈ es, ∃ op, e = .app op := by
    intro es
    induction es with
    | nil => intro s _ _ e he; cases he
    | cons x es ih =>
      intro s hs hrun e he
      cases x with
      | app op =>
        rcases List.mem_cons.mp he with rfl | he
        · exact ⟨op, rfl⟩
        · exact ih { s with st := (s.st.step op).1 } hs (by simpa [UdpStack.run, UdpStack.step] using hrun) e he
      | poll => simp [UdpStack.run, UdpStack.step, hs] at hrun
      | net r => simp [UdpStack.run, UdpStack.step, hs] at hrun
  exact gen es { s with ended := .returned } (by simp) (by rw [hr]; rfl)

/-! ## Unknown links and interfaces -/

/-- Asking for a link that is not there, in either direction, raises `KeyError`. -/
theorem unknown_link (t : Topo) (a b : Name) : t.getEdge a b = .error .keyError ↔ t.hasLink a b = false := by
  unfold Topo.getEdge Topo.hasLink
  cases h : t.edges.find? fun e => e.joins a b with
  | none =>
    simp only [true_iff, List.any_eq_false]
    intro x hx hj
    exact List.find?_eq_none.mp h x hx hj
  | some e =>
    have h1 := List.mem_of_find?_eq_some h
    have h2 := List.find?_some h
    simp only [reduceCtorEq, false_iff, Bool.not_eq_false, List.any_eq_true]
    exact ⟨e, h1, h2⟩

/-- Asking for the addresses of an interface raises `KeyError` exactly if the node or the interface is not there. -/
theorem unknown_interface (t : Topo) (n f : Name) :
    t.getAddrs n f = .error .keyError ↔ ¬ ∃ nd i, t.nodes.get? n = some nd ∧ nd.ifs.get? f = some i := by
  unfold Topo.getAddrs Topo.iface?
  cases h : t.nodes.get? n with
  | none => simp
  | some nd =>
    cases hi : nd.ifs.get? f with
    | none => simp [hi]
    | some i => simp [hi]

/-! ## What can be sent on the loopback interface -/

/-- A packet can be sent on the loopback interface exactly if, after a link header, if there is one, it starts with an IP
header and is written as bytes of IP version 4; these are sent. -/
theorem loopback_sends (p : Packet) (b : Bytes) : (rawSend p).2 = .ok b ↔
    ∃ q x t, (p = q ∨ ∃ l, (l.isA .null = true ∨ l.isA .eth = true) ∧ p = l :: q) ∧ q = x :: t ∧
      (x.isA .ip4 = true ∨ x.isA .ip6 = true) ∧ (Packet.toBytes q).2 = .ok b ∧ (b.headD 0).toNat / 16 = 4 := by
  have notBoth : ∀ x : Item, (x.isA .ip4 = true ∨ x.isA .ip6 = true) → (x.isA .null = true ∨ x.isA .eth = true) → False := by
    intro x h1 h2
    cases x with
    | hdr h => cases h <;> simp [Item.isA, Hdr.cls, Cls.isSub] at h1 h2
    | bytes _ => simp [Item.isA] at h1
    | other _ => simp [Item.isA] at h1
  have ver : ∀ (r : Res Bytes), (r >>= rawVersion) = .ok b ↔ r = .ok b ∧ (b.headD 0).toNat / 16 = 4 := by
    intro r
    cases r with
    | error e => simp
    | ok c =>
      simp only [bind_ok, rawVersion]
      split
      · constructor
        · intro h; cases h; exact ⟨rfl, by assumption⟩
        · rintro ⟨h, _⟩; exact h
      · rename_i hc
        constructor
        · intro h; cases h
        · rintro ⟨h, h2⟩; cases h; exact absurd h2 hc
  have two : ∀ (x : Item) (t : Packet) (c d : Cls), Packet.firstIs (x :: t) [c, d] = true ↔ (x.isA c = true ∨ x.isA d = true) := by
    intro x t c d; simp [Packet.firstIs]
  have core : ∀ q : Packet, (∃ s, (if q.firstIs [.ip4, .ip6] = true then ((q.toBytes.1, q.toBytes.2 >>= rawVersion) : Packet × Res Bytes)
      else (q, .error .generic)) = s ∧ s.2 = .ok b) ↔
      ∃ x t, q = x :: t ∧ (x.isA .ip4 = true ∨ x.isA .ip6 = true) ∧ (Packet.toBytes q).2 = .ok b ∧ (b.headD 0).toNat / 16 = 4 := by
    intro q
    cases q with
    | nil => simp [Packet.firstIs]
    | cons x t =>
      by_cases hf : Packet.firstIs (x :: t) [.ip4, .ip6] = true
      · rw [if_pos hf]
        have hx := (two x t _ _).mp hf
        simp only [exists_eq_left', ver]
        constructor
        · rintro ⟨h1, h2⟩; exact ⟨x, t, rfl, hx, h1, h2⟩
        · rintro ⟨_, _, _, _, h1, h2⟩; exact ⟨h1, h2⟩
      · rw [if_neg hf]
        simp only [exists_eq_left', reduceCtorEq, false_iff]
        rintro ⟨y, s, he, hx, _⟩
        cases he
        exact hf ((two x t _ _).mpr hx)
  unfold rawSend
  cases p with
  | nil =>
    simp only [if_true, reduceCtorEq, false_iff]
    rintro ⟨q, x, t, h | ⟨l, _, h⟩, rfl, _⟩ <;> cases h
  | cons l q =>
    rw [if_neg (by simp)]
    by_cases hl : Packet.firstIs (l :: q) [.null, .eth] = true
    · have hd : Packet.dropLink (l :: q) = q := by simp [Packet.dropLink, hl]
      rw [hd]
      have hl' := (two l q _ _).mp hl
      constructor
      · intro h
        obtain ⟨x, t, h1, h2⟩ := (core q).mp ⟨_, rfl, h⟩
        exact ⟨q, x, t, .inr ⟨l, hl', rfl⟩, h1, h2⟩
      · rintro ⟨q', x, t, h | ⟨l', _, h⟩, h1, h2⟩
        · subst h; cases h1
          exact (notBoth _ h2.1 hl').elim
        · cases h
          obtain ⟨s, hs, hb⟩ := (core q).mpr ⟨x, t, h1, h2⟩
          rw [hs]; exact hb
    · have hd : Packet.dropLink (l :: q) = l :: q := by simp [Packet.dropLink, hl]
      rw [hd]
      constructor
      · intro h
        obtain ⟨x, t, h1, h2⟩ := (core (l :: q)).mp ⟨_, rfl, h⟩
        exact ⟨l :: q, x, t, .inl rfl, h1, h2⟩
      · rintro ⟨q', x, t, h | ⟨l', h, h'⟩, h1, h2⟩
        · subst h
          obtain ⟨s, hs, hb⟩ := (core (l :: q)).mpr ⟨x, t, h1, h2⟩
          rw [hs]; exact hb
        · cases h'
          exact absurd ((two l q _ _).mpr h) hl

/-! ## Numbers in texts -/

/-- **C163**: numbers are shown in decimal, with a sign if they are negative: as Lean's own `toString` does. -/
theorem intText_toString (v : Int) : intText v = (toString v).toList := by
  unfold intText natText
  cases v with
  | ofNat n =>
    rw [if_pos (by exact Int.natCast_nonneg n)]
    show Nat.toDigits 10 n = (Int.repr (Int.ofNat n)).toList
    simp [Int.repr, Nat.repr]
  | negSucc n =>
    rw [if_neg (by simp)]
    simp [toString, Int.repr, Nat.repr]

/-- **C163**: the text of a null header tells the two address families the library knows from each other and from the rest. -/
theorem null_str_same (a b : Int) : Hdr.str (.null a) = Hdr.str (.null b) ↔ (a = 2 ↔ b = 2) ∧ (a = 10 ↔ b = 10) := by
  have t : ∀ x : Int, afName x = "AF_INET".toList ∧ x = 2 ∨ afName x = "AF_INET6".toList ∧ x = 10 ∨
      afName x = "?".toList ∧ x ≠ 2 ∧ x ≠ 10 := by
    intro x
    unfold afName
    split
    · exact .inl ⟨rfl, by assumption⟩
    · split
      · exact .inr (.inl ⟨rfl, by assumption⟩)
      · exact .inr (.inr ⟨rfl, by assumption, by assumption⟩)
  have d1 : "AF_INET".toList ≠ "AF_INET6".toList := by decide
  have d2 : "AF_INET".toList ≠ "?".toList := by decide
  have d3 : "AF_INET6".toList ≠ "?".toList := by decide
  simp only [Hdr.str, Except.ok.injEq, List.append_cancel_left_eq]
  rcases t a with ⟨ha, ha'⟩ | ⟨ha, ha'⟩ | ⟨ha, ha', ha''⟩ <;> rcases t b with ⟨hb, hb'⟩ | ⟨hb, hb'⟩ | ⟨hb, hb', hb''⟩ <;> rw [ha, hb]
  · simp [ha', hb']
  · simp only [d1, false_iff]; omega
  · simp only [d2, false_iff]; omega
  · simp only [Ne.symm d1, false_iff]; omega
  · simp [ha', hb']
  · simp only [d3, false_iff]; omega
  · simp only [Ne.symm d2, false_iff]; omega
  · simp only [Ne.symm d3, false_iff]; omega
  · simp [ha', hb', ha'', hb'']

/-! ## C167: the event after the one that is met -/

/-- The negation of **C167** for the event after it: when the code under test does what is expected but the event after
that cannot be printed, the call raises all the same. -/
theorem next_unshowable_violated (v : Bool) (notes : Notes) (n : TestNet) (x y : Entry) (r : List Entry) (e : PyErr) (t : Text)
    (hp : n.scen.pending = x :: y :: r) (hx : x.event.str v (notes x.ts) = .ok t) (hm : x.event.matchInput = .success)
    (hy : y.event.str v (notes y.ts) = .error e) : (n.recvR v notes).2 = .raised e := by
  simp [TestNet.recvR, hp, TestNet.recvHead, hm, Scenario.testpassR, hx, hy]

end SY.Props
