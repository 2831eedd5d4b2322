import Verif.Props.OfWire

/-! # OpenFlow statistics on the wire -/

namespace SY.Props

/-- Statistics of a flow, in range. -/
structure _root_.SY.OfFlowStats.WF (f : OfFlowStats) : Prop where
  tableId : 0 ≤ f.tableId ∧ f.tableId < 256
  mtch : f.mtch.Wire
  durSec : 0 ≤ f.durSec ∧ f.durSec < 2 ^ 32
  durNsec : 0 ≤ f.durNsec ∧ f.durNsec < 2 ^ 32
  priority : 0 ≤ f.priority ∧ f.priority < 65536
  idle : 0 ≤ f.idle ∧ f.idle < 65536
  hard : 0 ≤ f.hard ∧ f.hard < 65536
  cookie : 0 ≤ f.cookie ∧ f.cookie < 2 ^ 64
  packets : 0 ≤ f.packets ∧ f.packets < 2 ^ 64
  bytes : 0 ≤ f.bytes ∧ f.bytes < 2 ^ 64
  actions : ∀ a ∈ f.actions, a.WF

/-- Statistics of a table, in range: a name of 32 bytes, no wildcards for parts of addresses. -/
structure _root_.SY.OfTableStats.WF (t : OfTableStats) : Prop where
  tableId : 0 ≤ t.tableId ∧ t.tableId < 256
  name : t.name.length = 32 ∧ utf8Valid t.name = true
  wildcards : SimpleSet t.wildcards ∧ t.srcBits = some 0 ∧ t.dstBits = some 0
  maxEntries : 0 ≤ t.maxEntries ∧ t.maxEntries < 2 ^ 32
  active : 0 ≤ t.active ∧ t.active < 2 ^ 32
  lookups : 0 ≤ t.lookups ∧ t.lookups < 2 ^ 64
  matched : 0 ≤ t.matched ∧ t.matched < 2 ^ 64

/-- A counter of 64 bits. -/
def Count (v : Int) : Prop := 0 ≤ v ∧ v < 2 ^ 64

/-- Statistics of a port, in range, without overrun and CRC errors. -/
structure _root_.SY.OfPortStats.WF (p : OfPortStats) : Prop where
  port : 0 ≤ p.port ∧ p.port < 65536
  packets : Count p.rxPackets ∧ Count p.txPackets
  bytes : Count p.rxBytes ∧ Count p.txBytes
  dropped : Count p.rxDropped ∧ Count p.txDropped
  errors : Count p.rxErrors ∧ Count p.txErrors
  frame : Count p.rxFrame
  over : p.rxOver = 0
  crc : p.rxCrc = 0
  collisions : Count p.collisions

/-- Statistics in range, with the type of their class. -/
def _root_.SY.StatsBody.WF (reply : Bool) (t : Nat) : StatsBody → Prop
  | .empty => reply = false ∧ (t = 0 ∨ t = 3)
  | .flowReq m i p => reply = false ∧ (t = 1 ∨ t = 2) ∧ m.Wire ∧ (0 ≤ i ∧ i < 256) ∧ PortOk p
  | .portReq p => reply = false ∧ t = 4 ∧ PortOk p
  | .queueReq p q => reply = false ∧ t = 5 ∧ PortOk p ∧ 0 ≤ q ∧ q < 2 ^ 32
  | .vendorReq v _ => reply = false ∧ t = 0xffff ∧ 0 ≤ v ∧ v < 2 ^ 32
  | .desc a b c s d => reply = true ∧ t = 0 ∧ (a.length = 256 ∧ b.length = 256 ∧ c.length = 256 ∧ s.length = 32 ∧
      d.length = 256) ∧ utf8Valid a = true ∧ utf8Valid b = true ∧ utf8Valid c = true ∧ utf8Valid s = true ∧
      utf8Valid d = true
  | .flow f => reply = true ∧ t = 1 ∧ f.WF
  | .aggregate b p n => reply = true ∧ t = 2 ∧ Count b ∧ Count p ∧ 0 ≤ n ∧ n < 2 ^ 32
  | .table x => reply = true ∧ t = 3 ∧ x.WF
  | .port p => reply = true ∧ t = 4 ∧ p.WF
  | .queue p q b n e => reply = true ∧ t = 5 ∧ (0 ≤ p ∧ p < 65536) ∧ (0 ≤ q ∧ q < 2 ^ 32) ∧ Count b ∧ Count n ∧ Count e
  | .vendor v _ => reply = true ∧ t = 0xffff ∧ 0 ≤ v ∧ v < 2 ^ 32

/-- Statistics in range. -/
def _root_.SY.OfStats.WF (reply : Bool) (s : OfStats) : Prop := s.body.WF reply s.type

/-- The number of bytes, with the four of the header. -/
def statsLen : StatsBody → Nat
  | .empty => 4
  | .flowReq _ _ _ => 48
  | .portReq _ => 12
  | .queueReq _ _ => 12
  | .vendorReq _ d => 8 + d.length
  | .desc _ _ _ _ _ => 1060
  | .flow f => 92 + actionsLen f.actions
  | .aggregate _ _ _ => 24
  | .table _ => 68
  | .port _ => 108
  | .queue _ _ _ _ _ => 36
  | .vendor _ d => 8 + d.length

theorem WF_type {reply : Bool} {t : Nat} {b : StatsBody} (w : b.WF reply t) : t ∈ ofStatsTypes ∧ t ≠ 0xdead := by
  cases b <;> simp only [StatsBody.WF] at w <;> obtain ⟨_, w⟩ := w
  case empty => rcases w with rfl | rfl <;> decide
  case flowReq => rcases w with ⟨rfl | rfl, _⟩ <;> decide
  all_goals (obtain ⟨rfl, _⟩ := w; decide)

/-- What follows the header of a statistics object in range is read back. -/
theorem statsBody_roundtrip (reply : Bool) (t : Nat) (b : StatsBody) (w : b.WF reply t) (hl : statsLen b < 65536) :
    ∃ bs, b.toBytes = .ok bs ∧ bs.length + 4 = statsLen b ∧ statsMinLen reply t ≤ statsLen b ∧
      readStats reply t bs = .ok b := by
  cases b with
  | empty =>
    obtain ⟨rfl, w⟩ := w
    rcases w with rfl | rfl <;> exact ⟨[], rfl, rfl, by decide, rfl⟩
  | flowReq m i p =>
    obtain ⟨rfl, wt, w1, w2, w3⟩ := w
    obtain ⟨a, a1, a2, a3⟩ := match_wire w1
    have := w3.lt
    have hf : Fits [.u 1, .x 1, .u 2] [.i i, .i p] := by simp [Fits]; omega
    obtain ⟨h, h1, h2, h3, h4⟩ := packed hf
    have h2 : h.length = 4 := h2
    have e : readFlowReq (a ++ h) = .ok (.flowReq m i p) := by
      unfold readFlowReq
      rw [List.take_left' a2, List.drop_left' a2, a3, bind_ok, h3]
      simp only [bind_ok, getPort_of_ok w3]
    refine ⟨a ++ h, by simp only [StatsBody.toBytes]; rw [a1, h1]; rfl, by simp [statsLen, a2, h2], ?_, ?_⟩
    · rcases wt with rfl | rfl <;> simp [statsMinLen, statsLen]
    · rcases wt with rfl | rfl <;> exact e
  | portReq p =>
    obtain ⟨rfl, rfl, w1⟩ := w
    have := w1.lt
    have hf : Fits [.u 2, .x 6] [.i p] := by simp [Fits]; omega
    obtain ⟨h, h1, h2, h3, h4⟩ := packed hf
    have h2 : h.length = 8 := h2
    refine ⟨h, h1, by simp [statsLen, h2], by simp [statsMinLen, statsLen], ?_⟩
    show readPortReq h = _
    unfold readPortReq
    rw [h3]
    simp only [bind_ok, getPort_of_ok w1]
  | queueReq p q =>
    obtain ⟨rfl, rfl, w1, w2⟩ := w
    have := w1.lt
    have hf : Fits [.u 2, .x 2, .u 4] [.i p, .i q] := by simp [Fits]; omega
    obtain ⟨h, h1, h2, h3, h4⟩ := packed hf
    have h2 : h.length = 8 := h2
    refine ⟨h, h1, by simp [statsLen, h2], by simp [statsMinLen, statsLen], ?_⟩
    show readQueueReq h = _
    unfold readQueueReq
    rw [h3]
    simp only [bind_ok, getPort_of_ok w1]
  | vendorReq v d =>
    obtain ⟨rfl, rfl, w1⟩ := w
    have hf : Fits [.u 4] [.i v] := by simp [Fits]; omega
    obtain ⟨h, h1, h2, h3, h4⟩ := packed hf
    have h2 : h.length = 4 := h2
    refine ⟨h ++ d, by simp only [StatsBody.toBytes]; rw [h1]; rfl, by simp [statsLen, h2]; omega,
      by simp [statsMinLen, statsLen], ?_⟩
    show (readVendorStats (h ++ d) >>= fun v => Except.ok (StatsBody.vendorReq v.1 v.2)) = _
    unfold readVendorStats
    rw [List.take_left' h2, List.drop_left' h2, h3]; rfl
  | desc a b c s d =>
    obtain ⟨rfl, rfl, ⟨l1, l2, l3, l4, l5⟩, u1, u2, u3, u4, u5⟩ := w
    have hf : Fits [.s 256, .s 256, .s 256, .s 32, .s 256] [.b a, .b b, .b c, .b s, .b d] := ⟨l1, l2, l3, l4, l5, trivial⟩
    obtain ⟨h, h1, h2, h3, h4⟩ := packed hf
    have h2 : h.length = 1056 := h2
    refine ⟨h, h1, by simp [statsLen, h2], by simp [statsMinLen, statsLen], ?_⟩
    show readDesc h = _
    unfold readDesc
    rw [h3]
    simp [u1, u2, u3, u4, u5]
  | flow f =>
    obtain ⟨rfl, rfl, w⟩ := w
    obtain ⟨m, m1, m2, m3⟩ := match_wire w.mtch
    obtain ⟨a, a1, a2, a3⟩ := actions_wire f.actions w.actions
    have hf : Fits OfFlowStats.fmt f.vals := by
      obtain ⟨_, _, _, _, _, _, _, _, _, _, _⟩ := w
      simp [Fits, OfFlowStats.fmt, OfFlowStats.vals]; omega
    obtain ⟨h, h1, h2, h3, h4⟩ := packed hf
    have h2 : h.length = 44 := h2
    have hg : Fits [.u 2, .u 1, .x 1] [.i (92 + a.length : Nat), .i f.tableId] := by
      have := w.tableId
      simp only [statsLen] at hl
      simp [Fits]; omega
    obtain ⟨l, l1, l2, l3, l4⟩ := packed hg
    have l2 : l.length = 4 := l2
    refine ⟨l ++ (m ++ (h ++ a)), ?_, by simp [statsLen, m2, h2, a2, l2]; omega, by simp [statsMinLen, statsLen], ?_⟩
    · simp only [StatsBody.toBytes]
      rw [m1, h1, a1]
      simp only [bind_ok]
      rw [l1]; rfl
    · show readFlowStats (l ++ (m ++ (h ++ a))) = _
      unfold readFlowStats
      rw [List.take_left' l2, List.drop_left' l2, List.take_left' m2, List.drop_left' m2, List.take_left' h2,
        List.drop_left' h2, l3, bind_ok, m3, bind_ok, h3]
      simp only [bind_ok, OfFlowStats.ofFields, OfFlowStats.vals, a3]
  | aggregate b p n =>
    obtain ⟨rfl, rfl, w1, w2, w3⟩ := w
    have hf : Fits [.u 8, .u 8, .u 4] [.i b, .i p, .i n] := by unfold Count at w1 w2; simp [Fits]; omega
    obtain ⟨h, h1, h2, h3, h4⟩ := packed hf
    have h2 : h.length = 20 := h2
    refine ⟨h, h1, by simp [statsLen, h2], by simp [statsMinLen, statsLen], ?_⟩
    show readAggregate h = _
    unfold readAggregate
    rw [h3]; rfl
  | table x =>
    obtain ⟨rfl, rfl, w⟩ := w
    have rd := readWildcards_simple OfMatch.default w.wildcards.1
    have z1 : makeBitmap x.wildcards &&& 0x3f00 = 0 := makeBitmap_and _ _ fun v hv => by
      have : ∀ v ∈ simpleWildcards, v &&& 0x3f00 = 0 := by decide
      exact this v (w.wildcards.1.mem hv)
    have z2 : makeBitmap x.wildcards &&& 0xfc000 = 0 := makeBitmap_and _ _ fun v hv => by
      have : ∀ v ∈ simpleWildcards, v &&& 0xfc000 = 0 := by decide
      exact this v (w.wildcards.1.mem hv)
    have z3 : makeBitmap x.wildcards ≠ 0x3fffff := by
      intro e; rw [e] at z1; revert z1; decide
    have z4 : makeBitmap x.wildcards < 2 ^ 32 := makeBitmap_lt _ _ fun v hv => by
      have : ∀ v ∈ simpleWildcards, v < 2 ^ 32 := by decide
      exact this v (w.wildcards.1.mem hv)
    have z5 : (simpleWildcards.filter fun v => v &&& makeBitmap x.wildcards == v) = x.wildcards := by
      unfold OfMatch.readWildcards at rd
      rw [if_neg z3] at rd
      exact congrArg OfMatch.wildcards rd
    have hf : Fits OfTableStats.fmt x.vals := by
      obtain ⟨_, _, _, _, _, _, _⟩ := w
      simp [Fits, OfTableStats.fmt, OfTableStats.vals]; omega
    obtain ⟨h, h1, h2, h3, h4⟩ := packed hf
    have h2 : h.length = 64 := h2
    refine ⟨h, h1, by simp [statsLen, h2], by simp [statsMinLen, statsLen], ?_⟩
    show readTableStats h = _
    unfold readTableStats
    rw [h3]
    obtain ⟨t, name, ws, sb, db, mx, ac, lk, mt⟩ := x
    have e1 := w.wildcards.2.1; have e2 := w.wildcards.2.2
    simp only at z1 z2 z5 e1 e2
    subst e1; subst e2
    simp only [bind_ok, OfTableStats.vals, OfTableStats.ofFields, w.name.2, if_true, Int.toNat_natCast, z1, z2, z5]
    rfl
  | port p =>
    obtain ⟨rfl, rfl, w⟩ := w
    have hf : Fits OfPortStats.fmt p.vals := by
      obtain ⟨_, _, _, _, _, _, _, _, _⟩ := w
      unfold Count at *
      simp [Fits, OfPortStats.fmt, OfPortStats.vals]; omega
    obtain ⟨h, h1, h2, h3, h4⟩ := packed hf
    have h2 : h.length = 104 := h2
    refine ⟨h, h1, by simp [statsLen, h2], by simp [statsMinLen, statsLen], ?_⟩
    show readPortStats h = _
    unfold readPortStats
    rw [h3]
    obtain ⟨a1, a2, a3, a4, a5, a6, a7, a8, a9, a10, a11, a12, a13⟩ := p
    have e1 := w.over; have e2 := w.crc
    simp only at e1 e2
    subst e1; subst e2
    rfl
  | queue p q b n e =>
    obtain ⟨rfl, rfl, w1, w2, w3, w4, w5⟩ := w
    have hf : Fits [.u 2, .x 2, .u 4, .u 8, .u 8, .u 8] [.i p, .i q, .i b, .i n, .i e] := by
      unfold Count at *; simp [Fits]; omega
    obtain ⟨h, h1, h2, h3, h4⟩ := packed hf
    have h2 : h.length = 32 := h2
    refine ⟨h, h1, by simp [statsLen, h2], by simp [statsMinLen, statsLen], ?_⟩
    show readQueueStats h = _
    unfold readQueueStats
    rw [h3]; rfl
  | vendor v d =>
    obtain ⟨rfl, rfl, w1⟩ := w
    have hf : Fits [.u 4] [.i v] := by simp [Fits]; omega
    obtain ⟨h, h1, h2, h3, h4⟩ := packed hf
    have h2 : h.length = 4 := h2
    refine ⟨h ++ d, by simp only [StatsBody.toBytes]; rw [h1]; rfl, by simp [statsLen, h2]; omega,
      by simp [statsMinLen, statsLen], ?_⟩
    show (readVendorStats (h ++ d) >>= fun v => Except.ok (StatsBody.vendor v.1 v.2)) = _
    unfold readVendorStats
    rw [List.take_left' h2, List.drop_left' h2, h3]; rfl

/-- **C130**, partial: a statistics object in range is written and read back.  Missing: names shorter than their field
(`stats_name_violated`), overrun and CRC errors (`port_stats_crc_violated`), wildcards for parts of addresses
(`table_wildcards_violated`), several flows in one reply (`flow_reply_several_violated`). -/
theorem stats_roundtrip_partial (reply : Bool) (s : OfStats) (w : s.WF reply) (hl : statsLen s.body < 65536) :
    ∃ bs, s.toBytes = .ok bs ∧ bs.length = statsLen s.body ∧ OfStats.parse reply bs = .ok s := by
  obtain ⟨t, b⟩ := s
  obtain ⟨bs, h1, h2, h3, h4⟩ := statsBody_roundtrip reply t b w hl
  obtain ⟨m1, m2⟩ := WF_type w
  have ht : t < 65536 := by
    have : ∀ v ∈ ofStatsTypes, v < 65536 := by decide
    exact this t m1
  have e : pack [.u 2, .u 2] [.i t, .i 0] = .ok (beEnc 2 t ++ [0, 0]) := by
    rw [pack.eq_4, if_pos (by constructor <;> simp; omega)]
    rfl
  refine ⟨beEnc 2 t ++ [0, 0] ++ bs, ?_, ?_, ?_⟩
  · unfold OfStats.toBytes
    rw [e]
    simp only [bind_ok]
    rw [h1]; rfl
  · simp only [List.length_append, length_beEnc, List.length_cons, List.length_nil]; omega
  · unfold OfStats.parse
    have l4 : (beEnc 2 t ++ [0, 0] : Bytes).length = 4 := by simp [length_beEnc]
    rw [if_neg (by simp only [List.length_append, length_beEnc]; omega), List.append_assoc,
      List.take_left' (length_beEnc 2 t), beDec_beEnc (by omega), enumOf_nat m1, bind_ok, if_neg m2,
      if_neg (by simp only [List.length_append, length_beEnc, List.length_cons, List.length_nil]; omega),
      ← List.append_assoc, List.drop_left' l4, h4]
    rfl

end SY.Props
