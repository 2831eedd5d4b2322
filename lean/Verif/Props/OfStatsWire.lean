import Verif.Props.OfMsg

/-! # OpenFlow statistics: layout and what goes wrong; lengths of messages -/

namespace SY.Props

/-! ## Layout -/

/-- What follows the type and flags of a statistics message by the OpenFlow 1.0 specification (5.3.5), given the
bytes of the actions. -/
def statsWire (acts : Bytes) : StatsBody → Bytes
  | .empty => []
  | .flowReq m t p => matchWire m ++ w1 t ++ zeros 1 ++ w2 p
  | .portReq p => w2 p ++ zeros 6
  | .queueReq p q => w2 p ++ zeros 2 ++ w4 q
  | .vendorReq v d => w4 v ++ d
  | .desc a b c s d => a ++ b ++ c ++ s ++ d
  | .flow f => w2 (88 + acts.length : Nat) ++ w1 f.tableId ++ zeros 1 ++ matchWire f.mtch ++ w4 f.durSec ++ w4 f.durNsec ++
      w2 f.priority ++ w2 f.idle ++ w2 f.hard ++ zeros 6 ++ w8 f.cookie ++ w8 f.packets ++ w8 f.bytes ++ acts
  | .aggregate b p n => w8 p ++ w8 b ++ w4 n ++ zeros 4
  | .table t => w1 t.tableId ++ zeros 3 ++ t.name ++ w4 (word t.wildcards) ++ w4 t.maxEntries ++ w4 t.active ++
      w8 t.lookups ++ w8 t.matched
  | .port p => w2 p.port ++ zeros 6 ++ w8 p.rxPackets ++ w8 p.txPackets ++ w8 p.rxBytes ++ w8 p.txBytes ++
      w8 p.rxDropped ++ w8 p.txDropped ++ w8 p.rxErrors ++ w8 p.txErrors ++ w8 p.rxFrame ++ w8 p.rxOver ++ w8 p.rxCrc ++
      w8 p.collisions
  | .queue p q b n e => w2 p ++ zeros 2 ++ w4 q ++ w8 b ++ w8 n ++ w8 e
  | .vendor v d => w4 v ++ d

/-- Type, flags 0, body. -/
def statsMsg (acts : Bytes) (s : OfStats) : Bytes := w2 s.type ++ zeros 2 ++ statsWire acts s.body

/-- **C130**, partial: the bytes of all statistics except flow and aggregate replies are those of the
specification.  Missing: these two (`flow_reply_length_violated`, `aggregate_reply_violated`). -/
theorem stats_layout_partial (reply : Bool) (s : OfStats) (w : s.WF reply) (hf : ∀ f, s.body ≠ .flow f)
    (ha : ∀ b p n, s.body ≠ .aggregate b p n) (bs : Bytes) (h : s.toBytes = .ok bs) : bs = statsMsg [] s := by
  obtain ⟨t, b⟩ := s
  obtain ⟨x, hx, h⟩ := bind_eq_ok.mp h
  obtain ⟨y, hy, h⟩ := bind_eq_ok.mp h
  cases h
  have ex : x = w2 t ++ zeros 2 := by rw [pack_lay hx]; simp [lay, w2, beEnc, zeros, List.replicate]
  suffices y = statsWire [] b by rw [ex, this]; rfl
  replace w : b.WF reply t := w
  cases b with
  | empty => cases hy; rfl
  | flowReq m i p =>
    obtain ⟨_, _, wm, _, _⟩ := w
    obtain ⟨a, ha, hy⟩ := bind_eq_ok.mp hy
    obtain ⟨c, hc, hy⟩ := bind_eq_ok.mp hy
    cases hy
    rw [match_layout wm.wf ha, pack_lay hc]
    simp [lay, statsWire, w1, w2]
  | portReq p => rw [pack_lay hy]; simp [lay, statsWire, w2]
  | queueReq p q => rw [pack_lay hy]; simp [lay, statsWire, w2, w4]
  | vendorReq v d =>
    obtain ⟨a, ha, hy⟩ := bind_eq_ok.mp hy
    cases hy
    rw [pack_lay ha]; simp [lay, statsWire, w4]
  | desc a b c s d =>
    obtain ⟨_, _, ⟨l1, l2, l3, l4, l5⟩, _⟩ := w
    rw [pack_lay hy]
    simp only [lay, pad_exact l1, pad_exact l2, pad_exact l3, pad_exact l4, pad_exact l5, statsWire, List.append_assoc,
      List.append_nil]
  | flow f => exact absurd rfl (hf f)
  | aggregate b p n => exact absurd rfl (ha b p n)
  | table x =>
    obtain ⟨_, _, w⟩ := w
    rw [pack_lay hy]
    simp only [lay, OfTableStats.fmt, OfTableStats.vals, pad_exact w.name.1, statsWire, word_eq, w1, w4, w8,
      List.append_assoc, List.append_nil]
  | port p =>
    rw [pack_lay hy]
    simp only [lay, OfPortStats.fmt, OfPortStats.vals, statsWire, w2, w8, List.append_assoc, List.append_nil]
  | queue p q b n e => rw [pack_lay hy]; simp [lay, statsWire, w2, w4, w8]
  | vendor v d =>
    obtain ⟨a, ha, hy⟩ := bind_eq_ok.mp hy
    cases hy
    rw [pack_lay ha]; simp [lay, statsWire, w4]

/-- What a flow reply looks like: the specification's, with 4 more in the length. -/
theorem flow_reply_layout (f : OfFlowStats) (w : f.WF) (bs acts : Bytes) (ha : joinActions f.actions = .ok acts)
    (h : (OfStats.mk 1 (.flow f)).toBytes = .ok bs) :
    bs = [0, 1, 0, 0] ++ w2 (92 + acts.length : Nat) ++ (statsWire acts (.flow f)).drop 2 := by
  obtain ⟨x, hx, h⟩ := bind_eq_ok.mp h
  obtain ⟨y, hy, h⟩ := bind_eq_ok.mp h
  cases h
  obtain ⟨m, hm, hy⟩ := bind_eq_ok.mp hy
  obtain ⟨g, hg, hy⟩ := bind_eq_ok.mp hy
  obtain ⟨a, ha', hy⟩ := bind_eq_ok.mp hy
  obtain ⟨l, hl, hy⟩ := bind_eq_ok.mp hy
  cases hy
  rw [ha] at ha'
  cases ha'
  have e2 : (w2 (88 + acts.length : Nat)).length = 2 := length_beEnc 2 _
  simp only [statsWire, List.append_assoc]
  rw [List.drop_left' e2, match_layout w.mtch.wf hm, pack_lay hx, pack_lay hg, pack_lay hl]
  simp [lay, OfFlowStats.fmt, OfFlowStats.vals, w1, w2, w4, w8, beEnc]

/-- **C130** is false: the length of the entry in a flow reply, which the specification counts from that field on,
also counts the four bytes before it. -/
theorem flow_reply_length_violated (f : OfFlowStats) (w : f.WF) (bs acts : Bytes)
    (ha : joinActions f.actions = .ok acts) (hl : acts.length < 65000) (h : (OfStats.mk 1 (.flow f)).toBytes = .ok bs) :
    bs ≠ statsMsg acts ⟨1, .flow f⟩ := by
  rw [flow_reply_layout f w bs acts ha h]
  intro e
  have l2 : (w2 (88 + acts.length : Nat)).length = 2 := length_beEnc 2 _
  have e0 : statsMsg acts ⟨1, .flow f⟩ = [0, 1, 0, 0] ++ (w2 (88 + acts.length : Nat) ++
      (statsWire acts (.flow f)).drop 2) := by
    have : statsWire acts (.flow f) = w2 (88 + acts.length : Nat) ++ (statsWire acts (.flow f)).drop 2 := by
      simp only [statsWire, List.append_assoc]
      rw [List.drop_left' l2]
    rw [statsMsg, this, List.drop_left' l2, show w2 ((OfStats.mk 1 (.flow f)).type : Int) ++ zeros 2 = [0, 1, 0, 0] from
      (by decide : w2 ((1 : Nat) : Int) ++ zeros 2 = [0, 1, 0, 0])]
  rw [e0, List.append_assoc] at e
  have e1 := (List.append_inj (List.append_cancel_left e) (by simp [w2])).1
  have e2 := congrArg beDec e1
  simp only [w2, Int.toNat_natCast] at e2
  rw [beDec_beEnc (by omega), beDec_beEnc (by omega)] at e2
  omega

/-- **C130** is false: aggregate replies lack the padding (and have bytes before packets). -/
theorem aggregate_reply_violated (b p n : Int) (bs : Bytes) (h : (OfStats.mk 2 (.aggregate b p n)).toBytes = .ok bs) :
    bs = [0, 2, 0, 0] ++ w8 b ++ w8 p ++ w4 n ∧ bs ≠ statsMsg [] ⟨2, .aggregate b p n⟩ := by
  obtain ⟨x, hx, h⟩ := bind_eq_ok.mp h
  obtain ⟨y, hy, h⟩ := bind_eq_ok.mp h
  cases h
  have lx : x.length = 4 := length_pack hx
  have ly : y.length = 20 := length_pack hy
  refine ⟨?_, fun e => ?_⟩
  · rw [pack_lay hx, pack_lay hy]
    simp [lay, w4, w8, beEnc]
  · have := congrArg List.length e
    simp [lx, ly, statsMsg, statsWire, w2, w4, w8, zeros] at this

/-! ## Reading -/

theorem beDec_w2 {n : Nat} (h : n < 65536) (r : Bytes) : beDec ((w2 (n : Int) ++ r).take 2) = n := by
  rw [List.take_left' (show (w2 (n : Int)).length = 2 from length_beEnc 2 _), w2, Int.toNat_natCast, beDec_beEnc (by omega)]

/-- Parsing starts with the type. -/
theorem statsMsg_parse (reply : Bool) (t : Nat) (ht : t ∈ ofStatsTypes) (hd : t ≠ 0xdead) (body : Bytes)
    (hl : statsMinLen reply t ≤ 4 + body.length) :
    OfStats.parse reply (w2 t ++ zeros 2 ++ body) = (readStats reply t body >>= fun b => .ok ⟨t, b⟩) := by
  have lt : t < 65536 := by
    have : ∀ v ∈ ofStatsTypes, v < 65536 := by decide
    exact this t ht
  have l2 : (w2 (t : Int)).length = 2 := length_beEnc 2 _
  have l4 : (w2 (t : Int) ++ zeros 2).length = 4 := by simp [l2, zeros]
  unfold OfStats.parse
  rw [if_neg (by simp only [List.length_append, l2]; omega), List.append_assoc, beDec_w2 lt, enumOf_nat ht, bind_ok,
    if_neg hd, ← List.append_assoc, if_neg (by rw [List.length_append, l4]; omega), List.drop_left' l4]

/-- **C130**: a reply with one flow, laid out by the specification, is read right. -/
theorem flow_reply_read (f : OfFlowStats) (w : f.WF) :
    ∃ acts, joinActions f.actions = .ok acts ∧
      OfStats.parse true (statsMsg acts ⟨1, .flow f⟩) = .ok ⟨1, .flow f⟩ := by
  obtain ⟨acts, a1, a2, a3⟩ := actions_wire f.actions w.actions
  refine ⟨acts, a1, ?_⟩
  obtain ⟨m, m1, m2, m3⟩ := match_wire w.mtch
  have em := match_layout w.mtch.wf m1
  have hf : Fits OfFlowStats.fmt f.vals := by
    obtain ⟨_, _, _, _, _, _, _, _, _, _, _⟩ := w
    simp [Fits, OfFlowStats.fmt, OfFlowStats.vals]; omega
  obtain ⟨h, h1, h2, h3, h4⟩ := packed hf
  have h2 : h.length = 44 := h2
  have eh : h = w4 f.durSec ++ w4 f.durNsec ++ w2 f.priority ++ w2 f.idle ++ w2 f.hard ++ zeros 6 ++ w8 f.cookie ++
      w8 f.packets ++ w8 f.bytes := by
    rw [pack_lay h1]
    simp [lay, OfFlowStats.fmt, OfFlowStats.vals, w2, w4, w8]
  let n : Int := ((88 + acts.length) % 65536 : Nat)
  have hn : n.toNat = (88 + acts.length) % 65536 := Int.toNat_natCast _
  have hg : Fits [.u 2, .u 1, .x 1] [.i n, .i f.tableId] := by
    have := w.tableId
    simp [Fits, n]; omega
  obtain ⟨l, l1, l2, l3, l4⟩ := packed hg
  have l2 : l.length = 4 := l2
  have el : l = w2 (88 + acts.length : Nat) ++ w1 f.tableId ++ zeros 1 := by
    rw [pack_lay l1]
    have : beEnc 2 ((88 + acts.length) % 65536) = beEnc 2 (88 + acts.length) := by
      have := beEnc_add_mul 2 ((88 + acts.length) % 65536) ((88 + acts.length) / 65536)
      rw [← this, show (88 + acts.length) / 65536 * 256 ^ 2 + (88 + acts.length) % 65536 = 88 + acts.length by omega]
    simp only [lay, w1, w2, hn, this, Int.toNat_natCast, List.append_assoc, List.append_nil]
  have e : statsWire acts (.flow f) = l ++ (m ++ (h ++ acts)) := by
    rw [el, em, eh]; simp only [statsWire, List.append_assoc]
  rw [statsMsg]
  show OfStats.parse true (w2 (1 : Nat) ++ zeros 2 ++ statsWire acts (.flow f)) = _
  rw [statsMsg_parse true 1 (by decide) (by decide) _ (by rw [e]; simp [statsMinLen, l2, m2, h2]; omega), e]
  show (readFlowStats _ >>= _) = _
  unfold readFlowStats
  rw [List.take_left' l2, List.drop_left' l2, List.take_left' m2, List.drop_left' m2, List.take_left' h2,
    List.drop_left' h2, l3, bind_ok, m3, bind_ok, h3]
  simp only [bind_ok, OfFlowStats.ofFields, OfFlowStats.vals, a3]

/-- **C130** is false: a reply with two flows, the first without actions, cannot be read, whatever the second is: its
length is taken for the type of an action. -/
theorem flow_reply_several_violated (f g : OfFlowStats) (w : f.WF) (wg : g.WF) (hf : f.actions = [])
    (hl : 88 + actionsLen g.actions < 65535) :
    ∃ acts, joinActions g.actions = .ok acts ∧
      OfStats.parse true (statsMsg [] ⟨1, .flow f⟩ ++ statsWire acts (.flow g)) = .error .valueError := by
  obtain ⟨acts, a1, a2, a3⟩ := actions_wire g.actions wg.actions
  refine ⟨acts, a1, ?_⟩
  obtain ⟨m, m1, m2, m3⟩ := match_wire w.mtch
  have em := match_layout w.mtch.wf m1
  have hf : Fits OfFlowStats.fmt f.vals := by
    obtain ⟨_, _, _, _, _, _, _, _, _, _, _⟩ := w
    simp [Fits, OfFlowStats.fmt, OfFlowStats.vals]; omega
  obtain ⟨h, h1, h2, h3, h4⟩ := packed hf
  have h2 : h.length = 44 := h2
  have eh : h = w4 f.durSec ++ w4 f.durNsec ++ w2 f.priority ++ w2 f.idle ++ w2 f.hard ++ zeros 6 ++ w8 f.cookie ++
      w8 f.packets ++ w8 f.bytes := by
    rw [pack_lay h1]
    simp [lay, OfFlowStats.fmt, OfFlowStats.vals, w2, w4, w8]
  have hg : Fits [.u 2, .u 1, .x 1] [.i 88, .i f.tableId] := by
    have := w.tableId
    simp [Fits]; omega
  obtain ⟨l, l1, l2, l3, l4⟩ := packed hg
  have l2 : l.length = 4 := l2
  have el : l = w2 88 ++ w1 f.tableId ++ zeros 1 := by
    rw [pack_lay l1]
    simp [lay, w1, w2]
  have e : statsWire [] (.flow f) = l ++ (m ++ h) := by
    rw [el, em, eh]; simp only [statsWire, List.append_assoc, List.append_nil]; rfl
  rw [statsMsg]
  show OfStats.parse true (w2 (1 : Nat) ++ zeros 2 ++ statsWire [] (.flow f) ++ statsWire acts (.flow g)) = _
  rw [List.append_assoc, e]
  rw [statsMsg_parse true 1 (by decide) (by decide) _ (by simp [statsMinLen, l2, m2, h2]; omega)]
  show (readFlowStats _ >>= _) = _
  unfold readFlowStats
  simp only [List.append_assoc]
  rw [List.take_left' l2, List.drop_left' l2, List.take_left' m2, List.drop_left' m2, List.take_left' h2,
    List.drop_left' h2, l3, bind_ok, m3, bind_ok, h3]
  simp only [bind_ok, OfFlowStats.ofFields, OfFlowStats.vals]
  have bad : unpackActions (statsWire acts (.flow g)) = .error .valueError := by
    have hk : Fits [.u 2, .u 2] [.i (88 + acts.length : Nat), .i (256 * g.tableId)] := by
      have := wg.tableId
      simp [Fits]; omega
    obtain ⟨k, k1, k2, k3, k4⟩ := packed hk
    have k2 : k.length = 4 := k2
    have ek : ∃ r, statsWire acts (.flow g) = k ++ r := by
      have : k = w2 (88 + acts.length : Nat) ++ w1 g.tableId ++ zeros 1 := by
        rw [pack_lay k1]
        have : beEnc 2 (256 * g.tableId).toNat = beEnc 1 g.tableId.toNat ++ [0] := by
          have t := wg.tableId
          have : (256 * g.tableId).toNat = 256 * g.tableId.toNat := by omega
          rw [this]
          simp [beEnc]
        simp only [lay, w1, w2, this, List.append_assoc, List.append_nil]
        rfl
      rw [this]
      simp only [statsWire, List.append_assoc]
      exact ⟨_, rfl⟩
    obtain ⟨r, ek⟩ := ek
    rw [ek]
    unfold unpackActions unpackActionsLoop
    rw [if_neg (by intro h; have := congrArg List.length h; simp [k2] at this), List.take_left' k2, k3]
    have ht : enumOf ofActionTypes (88 + acts.length : Nat) = .error .valueError := by
      unfold enumOf
      rw [if_neg]
      intro h
      have : ∀ v ∈ ofActionTypes, v < 88 ∨ v = 0xffff := by decide
      have := this _ h.2
      omega
    simp only [ht, bind_error]
    rfl
  rw [bad]
  rfl

/-- **C130** is false: aggregate replies laid out by the specification cannot be read. -/
theorem aggregate_reply_read_violated (b p n : Int) :
    OfStats.parse true (statsMsg [] ⟨2, .aggregate b p n⟩) = .error .structError := by
  rw [statsMsg]
  show OfStats.parse true (w2 (2 : Nat) ++ zeros 2 ++ statsWire [] (.aggregate b p n)) = _
  have hl : (statsWire [] (.aggregate b p n)).length = 24 := by simp [statsWire, w4, w8, zeros]
  rw [statsMsg_parse true 2 (by decide) (by decide) _ (by rw [hl]; decide)]
  show (readAggregate _ >>= _) = _
  unfold readAggregate SY.unpack
  rw [if_neg (by rw [hl]; decide)]
  rfl

/-- **C130** is false: CRC errors are read as overrun errors, and those are lost. -/
theorem port_stats_crc_violated (p : OfPortStats) (h : Fits OfPortStats.fmt p.vals) :
    OfStats.parse true (statsMsg [] ⟨4, .port p⟩) = .ok ⟨4, .port { p with rxOver := p.rxCrc, rxCrc := 0 }⟩ := by
  obtain ⟨b, h1, h2, h3, h4⟩ := packed h
  have h2 : b.length = 104 := h2
  have e : statsWire [] (.port p) = b := by
    rw [pack_lay h1]
    simp only [lay, OfPortStats.fmt, OfPortStats.vals, statsWire, w2, w8, List.append_assoc, List.append_nil]
  rw [statsMsg]
  show OfStats.parse true (w2 (4 : Nat) ++ zeros 2 ++ statsWire [] (.port p)) = _
  rw [statsMsg_parse true 4 (by decide) (by decide) _ (by rw [e, h2]; decide), e]
  show (readPortStats b >>= _) = _
  unfold readPortStats
  rw [h3]
  rfl

example : Fits OfPortStats.fmt (OfPortStats.vals ⟨1, 10, 20, 30, 40, 0, 0, 0, 0, 0, 5, 7, 0⟩) := by
  simp [Fits, OfPortStats.fmt, OfPortStats.vals]

/-- The assignments to the attributes of a port reply: one changes the wrong attribute. -/
theorem port_crc_setter_violated (p : OfPortStats) (v : Int) :
    (p.setRxCrc v).rxCrc = p.rxCrc ∧ (p.setRxCrc v).rxOver = v := ⟨rfl, rfl⟩

/-- **C130** is false: a name shorter than its field is read back with zero characters. -/
theorem stats_name_violated :
    ∃ bs, (OfStats.mk 3 (.table ⟨0, [97], [], some 0, some 0, 0, 0, 0, 0⟩)).toBytes = .ok bs ∧
      OfStats.parse true bs = .ok ⟨3, .table ⟨0, 97 :: zeros 31, [], some 0, some 0, 0, 0, 0, 0⟩⟩ :=
  ⟨_, rfl, by decide +kernel⟩

/-- **C130** is false: the wildcards of a table that can wildcard everything lose the addresses when they are
read and written again. -/
theorem table_wildcards_violated :
    ∃ t, OfStats.parse true (statsMsg [] ⟨3, .table ⟨0, zeros 32, [0x3fffff], none, none, 1, 0, 0, 0⟩⟩) =
        .ok ⟨3, .table t⟩ ∧
      t.wildcardNames = .ok (63, 63, simpleWildcards) ∧
      (OfStats.mk 3 (.table t)).toBytes = .ok (statsMsg [] ⟨3, .table ⟨0, zeros 32, [0x3000ff], none, none, 1, 0, 0, 0⟩⟩) :=
  ⟨⟨0, zeros 32, simpleWildcards, some 63, some 63, 1, 0, 0, 0⟩, by decide +kernel, rfl, by decide +kernel⟩

/-- **C130** is false: the wildcards of a new table reply cannot be read. -/
theorem table_fresh_violated : ∃ t, OfStats.reply 3 = some ⟨3, .table t⟩ ∧ t.wildcardNames = .error .attributeError :=
  ⟨_, rfl, rfl⟩

/-- **C130** is false: a new request for aggregate statistics is one for individual flows. -/
theorem aggregate_request_violated :
    OfStats.request 2 = OfStats.request 1 ∧ ∃ s, OfStats.request 2 = some s ∧ s.type = 1 := ⟨rfl, _, rfl, rfl⟩

/-- Every other new object has the type of its class. -/
theorem fresh_stats_type (t : Nat) (s : OfStats) :
    (OfStats.request t = some s → t ≠ 2 → s.type = t) ∧ (OfStats.reply t = some s → s.type = t) := by
  constructor
  · intro h ht
    unfold OfStats.request at h
    split at h <;> first | exact absurd rfl ht | (cases h; rfl) | cases h
  · intro h
    unfold OfStats.reply at h
    split at h <;> first | (cases h; rfl) | cases h

/-- **C130** is false: arguments of the constructor of flow requests are lost (if they are acceptable). -/
theorem request_arguments_violated (t p : Option Int) (s : OfStats) (h : OfStats.flowRequest t p = .ok s) :
    OfStats.request 1 = some s := by
  obtain ⟨_, _, h⟩ := bind_eq_ok.mp h
  cases h
  rfl

example : OfStats.flowRequest (some 5) (some 3) = .ok ⟨1, .flowReq .default 0 0⟩ := by decide

/-- **C130**: without the two bytes of the type a request raises an `AttributeError`; no message has type
0xdead. -/
theorem stats_short (raw : Bytes) (h : raw.length < 2) : OfStats.parse false raw = .error .attributeError := by
  unfold OfStats.parse
  rw [if_pos h]; rfl

/-! ## Lengths -/

/-- The two classes whose `size` is wrong. -/
def _root_.SY.OfBody.BadSize : OfBody → Prop
  | .stats ⟨_, .queue _ _ _ _ _⟩ => True
  | .stats ⟨_, .vendorReq _ _⟩ => True
  | _ => False

theorem port_length {p : OfPhyPort} {b : Bytes} (h : p.toBytes = .ok b) : b.length = 48 := length_pack h
theorem match_length {m : OfMatch} {b : Bytes} (h : m.toBytes = .ok b) : b.length = 40 := length_pack h

/-- The bytes of a body have the length its object reports. -/
theorem body_size (b : OfBody) (hb : ¬ b.BadSize) (bs : Bytes) (h : b.toBytes = .ok bs) : b.size = .ok bs.length := by
  cases b with
  | error t c d =>
    cases t with
    | none => cases h
    | some t => cases c with
      | none => cases h
      | some c =>
        obtain ⟨x, hx, h⟩ := bind_eq_ok.mp h
        cases h
        have lx : x.length = 4 := length_pack hx
        simp [OfBody.size, lx]
  | echo d => cases h; rfl
  | vendor v d =>
    obtain ⟨x, hx, h⟩ := bind_eq_ok.mp h
    cases h
    have lx : x.length = 4 := length_pack hx
    simp [OfBody.size, lx]
  | features f =>
    show (f.toBytes >>= _) = _
    rw [show f.toBytes = .ok bs from h]; rfl
  | config f m =>
    have lx : bs.length = 4 := length_pack h
    simp [OfBody.size, lx]
  | packetIn b p r d =>
    obtain ⟨x, hx, h⟩ := bind_eq_ok.mp h
    cases h
    have lx : x.length = 10 := length_pack hx
    simp [OfBody.size, lx]
  | flowRemoved f =>
    obtain ⟨x, hx, h⟩ := bind_eq_ok.mp h
    obtain ⟨y, hy, h⟩ := bind_eq_ok.mp h
    cases h
    have ly : y.length = 40 := length_pack hy
    simp [OfBody.size, match_length hx, ly]
  | portStatus r p =>
    obtain ⟨x, hx, h⟩ := bind_eq_ok.mp h
    obtain ⟨y, hy, h⟩ := bind_eq_ok.mp h
    cases h
    have lx : x.length = 8 := length_pack hx
    simp [OfBody.size, port_length hy, lx]
  | packetOut b p as d =>
    cases d with
    | none =>
      obtain ⟨x, hx, h⟩ := bind_eq_ok.mp h
      cases h
    | some d =>
      obtain ⟨x, hx, h⟩ := bind_eq_ok.mp h
      obtain ⟨y, hy, h⟩ := bind_eq_ok.mp h
      cases h
      have ly : y.length = 8 := length_pack hy
      simp only [OfBody.size, hx, bind_ok, List.length_append, ly]
      exact congrArg Except.ok (by omega)
  | flowMod f =>
    show (f.toBytes >>= _) = _
    rw [show f.toBytes = .ok bs from h]; rfl
  | portMod p a c m ad =>
    have lx : bs.length = 24 := length_pack h
    simp [OfBody.size, lx]
  | queueReq p =>
    have lx : bs.length = 4 := length_pack h
    simp [OfBody.size, lx]
  | queueReply p qs =>
    obtain ⟨x, hx, h⟩ := bind_eq_ok.mp h
    obtain ⟨y, hy, h⟩ := bind_eq_ok.mp h
    cases h
    have lx : x.length = 8 := length_pack hx
    simp [OfBody.size, hy, lx]
  | stats s =>
    obtain ⟨t, b⟩ := s
    obtain ⟨x, hx, h⟩ := bind_eq_ok.mp h
    obtain ⟨y, hy, h⟩ := bind_eq_ok.mp h
    cases h
    have lx : x.length = 4 := length_pack hx
    rw [List.length_append, lx]
    cases b with
    | empty => cases hy; rfl
    | flowReq m i p =>
      obtain ⟨a, ha, hy⟩ := bind_eq_ok.mp hy
      obtain ⟨c, hc, hy⟩ := bind_eq_ok.mp hy
      cases hy
      have lc : c.length = 4 := length_pack hc
      rw [List.length_append, match_length ha, lc]; rfl
    | portReq p => rw [show y.length = 8 from length_pack hy]; rfl
    | queueReq p q => rw [show y.length = 8 from length_pack hy]; rfl
    | vendorReq v d => exact absurd trivial hb
    | desc a b c s d => rw [show y.length = 1056 from length_pack hy]; rfl
    | flow f =>
      obtain ⟨m, hm, hy⟩ := bind_eq_ok.mp hy
      obtain ⟨g, hg, hy⟩ := bind_eq_ok.mp hy
      obtain ⟨a, ha, hy⟩ := bind_eq_ok.mp hy
      obtain ⟨l, hl, hy⟩ := bind_eq_ok.mp hy
      cases hy
      have lg : g.length = 44 := length_pack hg
      have ll : l.length = 4 := length_pack hl
      simp only [OfBody.size, StatsBody.size, ha, bind_ok, List.length_append, match_length hm, lg, ll]
      exact congrArg Except.ok (by omega)
    | aggregate b p n => rw [show y.length = 20 from length_pack hy]; rfl
    | table x => rw [show y.length = 64 from length_pack hy]; rfl
    | port p => rw [show y.length = 104 from length_pack hy]; rfl
    | queue p q b n e => exact absurd trivial hb
    | vendor v d =>
      obtain ⟨a, ha, hy⟩ := bind_eq_ok.mp hy
      cases hy
      have la : a.length = 4 := length_pack ha
      simp only [OfBody.size, StatsBody.size, List.length_append, la]
      exact congrArg Except.ok (by omega)

/-- **C131**, partial: `len(message)` is the number of bytes `to_bytes` returns, before and after it sets the length in
the header.  Missing: queue statistics replies and vendor statistics requests (`message_size_violated`). -/
theorem message_size_partial (m m' : OfMsg) (bs : Bytes) (hb : ∀ b, m.body = some b → ¬ b.BadSize)
    (h : m.toBytes = .ok (m', bs)) : m.size = .ok bs.length ∧ m'.size = .ok bs.length := by
  obtain ⟨b, hbb, h⟩ := bind_eq_ok.mp h
  obtain ⟨x, hx, h⟩ := bind_eq_ok.mp h
  cases h
  have lx : x.length = 8 := length_pack hx
  obtain ⟨hdr, body, rest⟩ := m
  cases body with
  | none =>
    cases hbb
    simp [OfMsg.size, lx]
  | some bd =>
    have := body_size bd (hb bd rfl) b hbb
    simp [OfMsg.size, this, lx]

/-- **C131** is false: these two report a wrong length, whatever they hold. -/
theorem message_size_violated (hdr : OfHeader) (t : Nat) (r : Bytes) (m' : OfMsg) (bs : Bytes) :
    (∀ p q b n e, (OfMsg.mk hdr (some (.stats ⟨t, .queue p q b n e⟩)) r).toBytes = .ok (m', bs) →
      (OfMsg.mk hdr (some (.stats ⟨t, .queue p q b n e⟩)) r).size = .ok (bs.length + 72)) ∧
    (∀ v d, (OfMsg.mk hdr (some (.stats ⟨t, .vendorReq v d⟩)) r).toBytes = .ok (m', bs) →
      ∃ k, (OfMsg.mk hdr (some (.stats ⟨t, .vendorReq v d⟩)) r).size = .ok k ∧ k + 4 = bs.length) := by
  refine ⟨fun p q b n e h => ?_, fun v d h => ?_⟩
  · obtain ⟨y, hy, h⟩ := bind_eq_ok.mp h
    obtain ⟨x, hx, h⟩ := bind_eq_ok.mp h
    cases h
    have lx : x.length = 8 := length_pack hx
    obtain ⟨a, ha, hy⟩ := bind_eq_ok.mp hy
    obtain ⟨c, hc, hy⟩ := bind_eq_ok.mp hy
    cases hy
    have la : a.length = 4 := length_pack ha
    have lc : c.length = 32 := length_pack hc
    simp only [OfMsg.size, OfBody.size, StatsBody.size, bind_ok, List.length_append, lx, la, lc]
    exact congrArg Except.ok (by omega)
  · obtain ⟨y, hy, h⟩ := bind_eq_ok.mp h
    obtain ⟨x, hx, h⟩ := bind_eq_ok.mp h
    cases h
    have lx : x.length = 8 := length_pack hx
    obtain ⟨a, ha, hy⟩ := bind_eq_ok.mp hy
    obtain ⟨c, hc, hy⟩ := bind_eq_ok.mp hy
    cases hy
    have la : a.length = 4 := length_pack ha
    obtain ⟨z, hz, hc⟩ := bind_eq_ok.mp hc
    cases hc
    have lz : z.length = 4 := length_pack hz
    refine ⟨_, rfl, ?_⟩
    simp only [List.length_append, lx, la, lz]
    omega

/-! ## Cases -/

/-- A reply with one flow that has two actions. -/
def exFlowStats : OfFlowStats :=
  ⟨1, exMatch, 10, 500, 0x8000, 60, 0, 42, 1000, 64000, [⟨2, 8, .vlanPcp 3⟩, ⟨0, 8, .output 2 1500⟩]⟩

theorem exFlowStats_wf : exFlowStats.WF := by
  refine ⟨by decide, ⟨exMatch_wf, ?_⟩, by decide, by decide, by decide, by decide, by decide, by decide, by decide,
    by decide, ?_⟩
  · exact .inl ⟨by unfold SimpleSet; decide, rfl, rfl⟩
  · intro a ha
    simp [exFlowStats] at ha
    rcases ha with rfl | rfl
    · exact ⟨by decide, by decide, by unfold ActInRange; decide⟩
    · exact ⟨by decide, by decide, by unfold ActInRange; decide⟩

/-- It is a reply in range. -/
example : (OfStats.mk 1 (.flow exFlowStats)).WF true ∧ statsLen (.flow exFlowStats) = 108 :=
  ⟨⟨rfl, rfl, exFlowStats_wf⟩, by decide⟩

/-- Two flows in one reply, as in `flow_reply_several_violated`. -/
example : { exFlowStats with actions := [] }.WF ∧ exFlowStats.WF ∧ 88 + actionsLen exFlowStats.actions < 65535 := by
  refine ⟨?_, exFlowStats_wf, by decide⟩
  obtain ⟨h1, h2, h3, h4, h5, h6, h7, h8, h9, h10, _⟩ := exFlowStats_wf
  exact ⟨h1, h2, h3, h4, h5, h6, h7, h8, h9, h10, fun _ h => nomatch h⟩

/-- A port reply in range, and a request. -/
example : (OfStats.mk 4 (.port ⟨1, 10, 20, 30, 40, 0, 0, 0, 0, 0, 0, 0, 0⟩)).WF true ∧
    (OfStats.mk 5 (.queueReq 0xffff 7)).WF false := by
  refine ⟨⟨rfl, rfl, ?_⟩, rfl, rfl, .inr (by decide), by decide, by decide⟩
  exact ⟨by decide, by unfold Count; decide, by unfold Count; decide, by unfold Count; decide, by unfold Count; decide,
    by unfold Count; decide, rfl, rfl, by unfold Count; decide⟩

end SY.Props
