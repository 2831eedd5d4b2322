import Verif.Props.OfStats

/-! # OpenFlow messages on the wire -/

namespace SY.Props

/-- A flow modification in range. -/
structure _root_.SY.OfFlowMod.WF (f : OfFlowMod) : Prop where
  mtch : f.mtch.Wire
  cookie : 0 ≤ f.cookie ∧ f.cookie < 2 ^ 64
  command : f.command ∈ ofCommands
  idle : 0 ≤ f.idle ∧ f.idle < 65536
  hard : 0 ≤ f.hard ∧ f.hard < 65536
  priority : 0 ≤ f.priority ∧ f.priority < 65536
  bufferId : 0 ≤ f.bufferId ∧ f.bufferId < 2 ^ 32
  outPort : 0 ≤ f.outPort ∧ f.outPort < 65536
  flags : FlagSet ofFlowModFlags f.flags
  actions : ∀ a ∈ f.actions, a.WF

/-- A flow removal in range. -/
structure _root_.SY.OfFlowRemoved.WF (f : OfFlowRemoved) : Prop where
  mtch : f.mtch.Wire
  cookie : 0 ≤ f.cookie ∧ f.cookie < 2 ^ 64
  priority : 0 ≤ f.priority ∧ f.priority < 65536
  reason : f.reason ∈ ofRemovedReasons
  durSec : 0 ≤ f.durSec ∧ f.durSec < 2 ^ 32
  durNsec : 0 ≤ f.durNsec ∧ f.durNsec < 2 ^ 32
  idle : 0 ≤ f.idle ∧ f.idle < 65536
  packets : 0 ≤ f.packets ∧ f.packets < 2 ^ 64
  bytes : 0 ≤ f.bytes ∧ f.bytes < 2 ^ 64

/-- Switch features in range. -/
structure _root_.SY.OfFeatures.WF (f : OfFeatures) : Prop where
  dpid : f.dpid.length = 8
  nbuffers : f.nbuffers < 2 ^ 32
  ntables : 0 < f.ntables ∧ f.ntables < 256
  capabilities : FlagSet ofCapabilities f.capabilities
  actions : FlagSet ofActionTypes f.actions
  ports : ∀ p ∈ f.ports, p.WF

/-- A body that goes with a message type, in range. -/
def _root_.SY.OfBody.WF (t : Int) : OfBody → Prop
  | .error (some e) (some c) _ => t = 1 ∧ ∃ l, ofErrorCodes e = some l ∧ c ∈ l
  | .error _ _ _ => False
  | .echo _ => t = 2 ∨ t = 3
  | .vendor v _ => t = 4 ∧ 0 ≤ v ∧ v < 2 ^ 32
  | .features f => t = 6 ∧ f.WF
  | .config f m => (t = 8 ∨ t = 9) ∧ f ∈ ofConfigFlags ∧ 0 ≤ m ∧ m < 65536
  | .packetIn b p r _ => t = 10 ∧ (0 ≤ b ∧ b < 2 ^ 32) ∧ PortOk p ∧ r ∈ ofInReasons
  | .flowRemoved f => t = 11 ∧ f.WF
  | .portStatus r p => t = 12 ∧ r ∈ ofStatusReasons ∧ p.WF
  | .packetOut b p as d => t = 13 ∧ (0 ≤ b ∧ b < 2 ^ 32) ∧ PortOk p ∧ (∀ a ∈ as, a.WF) ∧ d.isSome = true
  | .flowMod f => t = 14 ∧ f.WF
  | .portMod p a c m ad => t = 15 ∧ (0 ≤ p ∧ p < 65536) ∧ a.raw.length = 6 ∧ FlagSet ofPortConfig c ∧
      FlagSet ofPortConfig m ∧ FlagSet ofPortFeatures ad
  | .queueReq p => t = 20 ∧ PortOk p
  | .queueReply p qs => t = 21 ∧ PortOk p ∧ ∀ q ∈ qs, q.WF
  | .stats s => (t = 16 ∧ s.WF false) ∨ (t = 17 ∧ s.WF true)

/-- The number of bytes of a body, from the OpenFlow 1.0 specification. -/
def wireLen : OfBody → Nat
  | .error _ _ d => 4 + d.length
  | .echo d => d.length
  | .vendor _ d => 4 + d.length
  | .features f => 24 + 48 * f.ports.length
  | .config _ _ => 4
  | .packetIn _ _ _ d => 10 + d.length
  | .flowRemoved _ => 80
  | .portStatus _ _ => 56
  | .packetOut _ _ as d => 8 + actionsLen as + (d.getD []).length
  | .flowMod f => 64 + actionsLen f.actions
  | .portMod _ _ _ _ _ => 24
  | .queueReq _ => 4
  | .queueReply _ qs => 8 + queuesLen qs
  | .stats s => statsLen s.body

theorem ports_roundtrip (ps : List OfPhyPort) (w : ∀ p ∈ ps, p.WF) :
    ∃ b, portsToBytes ps = .ok b ∧ b.length = 48 * ps.length ∧
      ∀ n acc rest, rest.length < 48 → ps.length < n → readPorts n (b ++ rest) acc = some (.ok (acc ++ ps, rest)) := by
  induction ps with
  | nil =>
    refine ⟨[], rfl, rfl, fun n acc rest hr hn => ?_⟩
    cases n with
    | zero => simp at hn
    | succ n => simp [readPorts, hr]
  | cons p ps ih =>
    obtain ⟨b, h1, h2, h3⟩ := ih fun x hx => w x (List.mem_cons_of_mem _ hx)
    obtain ⟨a, a1, a2, a3⟩ := phyPort_roundtrip p (w p List.mem_cons_self)
    refine ⟨a ++ b, by simp [portsToBytes, a1, h1], by simp [a2, h2]; omega, fun n acc rest hr hn => ?_⟩
    cases n with
    | zero => simp at hn
    | succ n =>
      unfold readPorts
      rw [if_neg (by simp [a2]), List.append_assoc, a3]
      simp only [h3 n (acc ++ [p]) rest hr (by simpa using hn), List.append_assoc, List.singleton_append]

theorem features_roundtrip (f : OfFeatures) (w : f.WF) :
    ∃ b, f.toBytes = .ok b ∧ b.length = 24 + 48 * f.ports.length ∧ OfFeatures.fromBytes b = .ok (f, []) := by
  obtain ⟨p, p1, p2, p3⟩ := ports_roundtrip f.ports w.ports
  have l1 := w.capabilities.lt 32 (by decide)
  have l2 := w.actions.lt 32 (by decide)
  have hf : Fits [.s 8, .u 4, .u 1, .x 3, .u 4, .u 4] [.b f.dpid, .i f.nbuffers, .i f.ntables,
      .i (makeBitmap f.capabilities), .i (makeBitmap f.actions)] := by
    have := w.nbuffers; have := w.ntables
    simp [Fits, w.dpid]; omega
  obtain ⟨h, h1, h2, h3, h4⟩ := packed hf
  have h2 : h.length = 24 := h2
  refine ⟨h ++ p, by unfold OfFeatures.toBytes; rw [h1, p1]; rfl, by simp [h2, p2], ?_⟩
  unfold OfFeatures.fromBytes
  rw [if_neg (by simp [h2]), List.take_left' h2, List.drop_left' h2, h3]
  have e := p3 (p.length + 1) [] [] (by simp) (by omega)
  rw [List.append_nil] at e
  have t : checkTables (f.ntables : Int) = .ok f.ntables := by
    have := w.ntables
    unfold checkTables; rw [if_pos (by omega)]; simp
  simp only [bind_ok, OfFeatures.ofFields, e, Option.getD_some, List.nil_append, Int.toNat_natCast,
    w.capabilities.read, w.actions.read, t]

theorem flowMod_roundtrip (f : OfFlowMod) (w : f.WF) :
    ∃ b, f.toBytes = .ok b ∧ b.length = 64 + actionsLen f.actions ∧ OfFlowMod.fromBytes b = .ok f := by
  obtain ⟨m, m1, m2, m3⟩ := match_wire w.mtch
  obtain ⟨a, a1, a2, a3⟩ := actions_wire f.actions w.actions
  have l1 := w.flags.lt 16 (by decide)
  have hf : Fits OfFlowMod.fmt f.vals := by
    have : ∀ v ∈ ofCommands, v < 65536 := by decide
    have := this _ w.command
    obtain ⟨_, _, _, _, _, _, _, _, _, _⟩ := w
    simp [Fits, OfFlowMod.fmt, OfFlowMod.vals]; omega
  obtain ⟨h, h1, h2, h3, h4⟩ := packed hf
  have h2 : h.length = 24 := h2
  refine ⟨m ++ h ++ a, by unfold OfFlowMod.toBytes; rw [m1, h1, a1]; rfl, by simp [m2, h2, a2]; omega, ?_⟩
  unfold OfFlowMod.fromBytes
  rw [if_neg (by simp [m2, h2]; omega), List.append_assoc, List.take_left' m2, List.drop_left' m2,
    List.take_left' h2, List.drop_left' h2, m3, bind_ok, h3]
  simp only [bind_ok, OfFlowMod.ofFields, OfFlowMod.vals, enumOf_nat w.command, a3, Int.toNat_natCast, w.flags.read]

theorem flowRemoved_roundtrip (f : OfFlowRemoved) (w : f.WF) :
    ∃ b, f.toBytes = .ok b ∧ b.length = 80 ∧ OfFlowRemoved.fromBytes b = .ok f := by
  obtain ⟨m, m1, m2, m3⟩ := match_wire w.mtch
  have hf : Fits OfFlowRemoved.fmt f.vals := by
    have : ∀ v ∈ ofRemovedReasons, v < 256 := by decide
    have := this _ w.reason
    obtain ⟨_, _, _, _, _, _, _, _, _⟩ := w
    simp [Fits, OfFlowRemoved.fmt, OfFlowRemoved.vals]; omega
  obtain ⟨h, h1, h2, h3, h4⟩ := packed hf
  have h2 : h.length = 40 := h2
  refine ⟨m ++ h, by unfold OfFlowRemoved.toBytes; rw [m1, h1]; rfl, by simp [m2, h2], ?_⟩
  unfold OfFlowRemoved.fromBytes
  rw [if_neg (by simp [m2, h2]), List.take_left' m2, List.drop_left' m2,
    List.take_of_length_le (by omega), m3, bind_ok, h3]
  simp only [bind_ok, OfFlowRemoved.ofFields, OfFlowRemoved.vals, enumOf_nat w.reason]

theorem errorType_mem {e : Nat} {l : List Nat} (h : ofErrorCodes e = some l) : e ∈ [0, 1, 2, 3, 4, 5] := by
  unfold ofErrorCodes at h
  split at h <;> simp at h ⊢

theorem errorCode_lt {e : Nat} {l : List Nat} (h : ofErrorCodes e = some l) {c : Nat} (hc : c ∈ l) : c < 9 := by
  unfold ofErrorCodes at h
  split at h <;> simp at h <;> subst h <;> simp at hc <;> omega

/-- Every body in range is written, in the number of bytes of the specification, and read back as
itself, with nothing left over. -/
theorem body_roundtrip (t : Int) (b : OfBody) (w : b.WF t) (hl : wireLen b < 65536) :
    ∃ bs, b.toBytes = .ok bs ∧ bs.length = wireLen b ∧ OfBody.parse t.toNat bs = .ok (some b, []) := by
  cases b with
  | error e c d =>
    cases e with
    | none => exact w.elim
    | some e => cases c with
      | none => exact w.elim
      | some c =>
        obtain ⟨rfl, l, w1, w2⟩ := w
        have h0 := errorType_mem w1
        have hc := errorCode_lt w1 w2
        have hf : Fits [.u 2, .u 2] [.i e, .i c] := by simp [Fits]; simp at h0; omega
        obtain ⟨h, h1, h2, h3, h4⟩ := packed hf
        have h2 : h.length = 4 := h2
        refine ⟨h ++ d, by simp only [OfBody.toBytes]; rw [h1]; rfl, by simp [wireLen, h2], ?_⟩
        show (unpack [.u 2, .u 2] ((h ++ d).take 4) >>= fun fs => readErrorBody ((h ++ d).drop 4) fs >>=
          fun b => Except.ok (some b, [])) = _
        rw [List.take_left' h2, List.drop_left' h2, h3]
        simp only [bind_ok, readErrorBody, enumOf_nat h0, w1, Option.getD_some, enumOf_nat w2]
  | echo d =>
    refine ⟨d, rfl, rfl, ?_⟩
    rcases w with rfl | rfl <;> rfl
  | vendor v d =>
    obtain ⟨rfl, w1⟩ := w
    have hf : Fits [.u 4] [.i v] := by simp [Fits]; omega
    obtain ⟨h, h1, h2, h3, h4⟩ := packed hf
    have h2 : h.length = 4 := h2
    refine ⟨h ++ d, by simp only [OfBody.toBytes]; rw [h1]; rfl, by simp [wireLen, h2], ?_⟩
    simp only [OfBody.parse, show (4 : Int).toNat = 4 from rfl]
    rw [List.take_left' h2, List.drop_left' h2, h3]
    rfl
  | features f =>
    obtain ⟨rfl, w1⟩ := w
    obtain ⟨b, h1, h2, h3⟩ := features_roundtrip f w1
    refine ⟨b, h1, h2, ?_⟩
    show (OfFeatures.fromBytes b >>= fun f => Except.ok (some (OfBody.features f.1), f.2)) = _
    rw [h3]; rfl
  | config f m =>
    obtain ⟨wt, w1, w2⟩ := w
    have hf : Fits [.u 2, .u 2] [.i f, .i m] := by
      have : ∀ v ∈ ofConfigFlags, v < 65536 := by decide
      have := this _ w1
      simp [Fits]; omega
    obtain ⟨h, h1, h2, h3, h4⟩ := packed hf
    have h2 : h.length = 4 := h2
    refine ⟨h, h1, h2, ?_⟩
    have : (if h.length < 4 then Except.error PyErr.generic
        else unpack [.u 2, .u 2] (h.take 4) >>= fun fs => readConfigBody fs >>= fun b => Except.ok (some b, h.drop 4)) =
        .ok (some (OfBody.config f m), []) := by
      rw [if_neg (by omega), List.take_of_length_le (by omega), List.drop_of_length_le (by omega), h3]
      simp only [bind_ok, readConfigBody, enumOf_nat w1]
    rcases wt with rfl | rfl <;> exact this
  | packetIn b p r d =>
    obtain ⟨rfl, w1, w2, w3⟩ := w
    have hf : Fits [.u 4, .u 2, .u 2, .u 1, .x 1] [.i b, .i (d.length + 10 : Nat), .i p, .i r] := by
      have : ∀ v ∈ ofInReasons, v < 256 := by decide
      have := this _ w3
      have := w2.lt
      simp only [wireLen] at hl
      simp [Fits]; omega
    obtain ⟨h, h1, h2, h3, h4⟩ := packed hf
    have h2 : h.length = 10 := h2
    refine ⟨h ++ d, by simp only [OfBody.toBytes]; rw [h1]; rfl, by simp [wireLen, h2], ?_⟩
    show (if (h ++ d).length < 10 then Except.error PyErr.generic
        else unpack [.u 4, .u 2, .u 2, .u 1, .x 1] ((h ++ d).take 10) >>= fun fs =>
          readInBody ((h ++ d).drop 10) fs >>= fun b => Except.ok (some b, [])) = _
    rw [if_neg (by simp [h2]), List.take_left' h2, List.drop_left' h2, h3]
    simp only [bind_ok, readInBody, enumOf_nat w3, getPort_of_ok w2]
  | flowRemoved f =>
    obtain ⟨rfl, w1⟩ := w
    obtain ⟨b, h1, h2, h3⟩ := flowRemoved_roundtrip f w1
    refine ⟨b, h1, h2, ?_⟩
    show (OfFlowRemoved.fromBytes b >>= fun f => Except.ok (some (OfBody.flowRemoved f), [])) = _
    rw [h3]; rfl
  | portStatus r p =>
    obtain ⟨rfl, w1, w2⟩ := w
    have hf : Fits [.u 1, .x 7] [.i r] := by
      have : ∀ v ∈ ofStatusReasons, v < 256 := by decide
      have := this _ w1
      simp [Fits]; omega
    obtain ⟨h, h1, h2, h3, h4⟩ := packed hf
    have h2 : h.length = 8 := h2
    obtain ⟨b, b1, b2, b3⟩ := phyPort_roundtrip p w2
    have b3 := b3 []
    rw [List.append_nil] at b3
    refine ⟨h ++ b, by simp only [OfBody.toBytes]; rw [h1, b1]; rfl, by simp [wireLen, h2, b2], ?_⟩
    show (if (h ++ b).length < 56 then Except.error PyErr.generic
        else unpack [.u 1, .x 7] ((h ++ b).take 8) >>= fun fs =>
          readStatusBody ((h ++ b).drop 8) fs >>= fun b => Except.ok (some b, [])) = _
    rw [if_neg (by simp [h2, b2]), List.take_left' h2, List.drop_left' h2, h3]
    simp only [bind_ok, readStatusBody, enumOf_nat w1, b3]
  | packetOut b p as d =>
    obtain ⟨rfl, w1, w2, w3, w4⟩ := w
    obtain ⟨d, rfl⟩ := Option.isSome_iff_exists.mp w4
    obtain ⟨a, a1, a2, a3⟩ := actions_wire as w3
    simp only [wireLen, Option.getD_some] at hl
    have hf : Fits [.u 4, .u 2, .u 2] [.i b, .i p, .i a.length] := by
      have := w2.lt
      simp [Fits]; omega
    obtain ⟨h, h1, h2, h3, h4⟩ := packed hf
    have h2 : h.length = 8 := h2
    refine ⟨h ++ a ++ d, by simp only [OfBody.toBytes]; rw [a1]; simp only [bind_ok]; rw [h1]; rfl,
      by simp [wireLen, h2, a2]; omega, ?_⟩
    show (if (h ++ a ++ d).length < 8 then Except.error PyErr.generic
        else unpack [.u 4, .u 2, .u 2] ((h ++ a ++ d).take 8) >>= fun fs =>
          readOutBody ((h ++ a ++ d).drop 8) fs >>= fun b => Except.ok (some b, [])) = _
    rw [if_neg (by simp [h2]), List.append_assoc, List.take_left' h2, List.drop_left' h2, h3]
    simp only [bind_ok, readOutBody, getPort_of_ok w2, Int.toNat_natCast, List.take_left' rfl, List.drop_left' rfl, a3]
  | flowMod f =>
    obtain ⟨rfl, w1⟩ := w
    obtain ⟨b, h1, h2, h3⟩ := flowMod_roundtrip f w1
    refine ⟨b, h1, h2, ?_⟩
    show (OfFlowMod.fromBytes b >>= fun f => Except.ok (some (OfBody.flowMod f), [])) = _
    rw [h3]; rfl
  | portMod p a c m ad =>
    obtain ⟨rfl, w1, w2, w3, w4, w5⟩ := w
    have hf : Fits portModFmt [.i p, .b a.raw, .i (makeBitmap c), .i (makeBitmap m), .i (makeBitmap ad)] := by
      have := w3.lt 32 ofPortConfig_lt
      have := w4.lt 32 ofPortConfig_lt
      have := w5.lt 32 ofPortFeatures_lt
      simp [Fits, portModFmt, w2]; omega
    obtain ⟨h, h1, h2, h3, h4⟩ := packed hf
    have h2 : h.length = 24 := h2
    refine ⟨h, h1, h2, ?_⟩
    show (if h.length < 24 then Except.error PyErr.generic
        else unpack portModFmt h >>= fun fs => readPortModBody fs >>= fun b => Except.ok (some b, [])) = _
    rw [if_neg (by omega), h3]
    simp only [bind_ok, readPortModBody, EthAddr.mk'_raw6 w2, Int.toNat_natCast, w3.read, w4.read, w5.read]
  | queueReq p =>
    obtain ⟨rfl, w1⟩ := w
    have hf : Fits [.u 2, .x 2] [.i p] := by
      have := w1.lt
      simp [Fits]; omega
    obtain ⟨h, h1, h2, h3, h4⟩ := packed hf
    have h2 : h.length = 4 := h2
    refine ⟨h, h1, h2, ?_⟩
    simp only [OfBody.parse, show (20 : Int).toNat = 20 from rfl]
    rw [if_neg (by omega), h3]
    simp only [bind_ok, getPort_of_ok w1]
  | queueReply p qs =>
    obtain ⟨rfl, w1, w2⟩ := w
    simp only [wireLen] at hl
    obtain ⟨q, q1, q2, q3⟩ := queues_roundtrip qs w2 (by omega)
    have hf : Fits [.u 2, .x 6] [.i p] := by
      have := w1.lt
      simp [Fits]; omega
    obtain ⟨h, h1, h2, h3, h4⟩ := packed hf
    have h2 : h.length = 8 := h2
    have hle : qs.length ≤ queuesLen qs := by
      clear q q1 q2 q3 w2 hl
      induction qs with
      | nil => simp
      | cons q qs ih => simp [queuesLen]; omega
    refine ⟨h ++ q, by simp only [OfBody.toBytes]; rw [h1, q1]; rfl, by simp [wireLen, h2, q2], ?_⟩
    show (if (h ++ q).length < 8 then Except.error PyErr.generic
        else unpack [.u 2, .x 6] ((h ++ q).take 8) >>= fun fs =>
          readQueueBody ((h ++ q).drop 8) fs >>= fun b => Except.ok (some b, [])) = _
    rw [if_neg (by simp [h2]), List.take_left' h2, List.drop_left' h2, h3]
    simp only [bind_ok, readQueueBody, getPort_of_ok w1, q3 (q.length + 1) [] (by omega), Option.getD_some,
      List.nil_append]
  | stats s =>
    rcases w with ⟨rfl, w⟩ | ⟨rfl, w⟩
    · obtain ⟨bs, h1, h2, h3⟩ := stats_roundtrip_partial false s w (by simp only [wireLen] at hl; omega)
      refine ⟨bs, h1, h2, ?_⟩
      show (OfStats.parse false bs >>= fun s => Except.ok (some (OfBody.stats s), [])) = _
      rw [h3]; rfl
    · obtain ⟨bs, h1, h2, h3⟩ := stats_roundtrip_partial true s w (by simp only [wireLen] at hl; omega)
      refine ⟨bs, h1, h2, ?_⟩
      show (OfStats.parse true bs >>= fun s => Except.ok (some (OfBody.stats s), [])) = _
      rw [h3]; rfl

/-! ## Messages -/

/-- The types whose messages have a body. -/
def bodyTypes : List Int := [1, 2, 3, 4, 6, 8, 9, 10, 11, 12, 13, 14, 15, 16, 17, 20, 21]

/-- A message in range, that fits the length field. -/
structure _root_.SY.OfMsg.WF (m : OfMsg) : Prop where
  version : 0 ≤ m.hdr.version ∧ m.hdr.version < 256
  type : 0 ≤ m.hdr.type ∧ m.hdr.type < 256
  xid : 0 ≤ m.hdr.xid ∧ m.hdr.xid < 2 ^ 32
  body : match m.body with
    | some b => b.WF m.hdr.type ∧ m.rest = [] ∧ wireLen b + 8 < 65536
    | none => m.hdr.type ∉ bodyTypes ∧ m.rest.length + 8 < 65536

theorem parse_none {t : Int} (h0 : 0 ≤ t) (h : t ∉ bodyTypes) (raw : Bytes) :
    OfBody.parse t.toNat raw = .ok (none, raw) := by
  obtain ⟨n, rfl⟩ := Int.eq_ofNat_of_zero_le h0
  simp only [bodyTypes, List.mem_cons, List.not_mem_nil, or_false, not_or] at h
  simp only [Int.toNat_natCast]
  unfold OfBody.parse
  split <;> first | rfl | (exfalso; omega)

/-- The number of bytes after the header. -/
def bodyLen : Option OfBody → Bytes → Nat
  | some b, _ => wireLen b
  | none, rest => rest.length

/-- **C121**, partial: every message in range is serialised; the length in its header, and in the
object, counts its bytes; and parsing gives the message back.  Missing: port names of fewer than 16
bytes (`port_name_violated`), sets of flags without the member that means "none"
(`flags_roundtrip_violated`), matches with part of an address wildcarded (`of_match_prefix_violated`),
error and packet-out bodies as they are constructed (`fresh_violated`); for statistics see C130. -/
theorem message_roundtrip_partial (m : OfMsg) (w : m.WF) :
    ∃ bs, m.toBytes = .ok ({ m with hdr := { m.hdr with length := bs.length } }, bs) ∧
      OfMsg.parse bs = .ok { m with hdr := { m.hdr with length := bs.length } } ∧
      bs.length = 8 + bodyLen m.body m.rest := by
  obtain ⟨hdr, body, rest⟩ := m
  have hb : ∃ b, bodyBytes body = .ok b ∧ (b ++ rest).length + 8 < 65536 ∧
      OfBody.parse hdr.type.toNat (b ++ rest) = .ok (body, rest) ∧
      (b ++ rest).length = bodyLen body rest := by
    cases body with
    | none =>
      obtain ⟨h1, h2⟩ := w.body
      exact ⟨[], rfl, by simpa using h2, parse_none w.type.1 h1 _, rfl⟩
    | some b =>
      obtain ⟨h1, h2, h3⟩ := w.body
      simp only at h2
      subst h2
      obtain ⟨x, x1, x2, x3⟩ := body_roundtrip hdr.type b h1 (by omega)
      exact ⟨x, x1, by simp; omega, by simpa using x3, by simpa [bodyLen] using x2⟩
  obtain ⟨b, h1, h2, h3, h4⟩ := hb
  have hf : Fits OfHeader.fmt [.i hdr.version, .i hdr.type, .i ((b ++ rest).length + 8 : Nat), .i hdr.xid] := by
    have := w.version; have := w.type; have := w.xid
    simp only at *
    simp only [Fits, OfHeader.fmt, and_true]
    refine ⟨?_, ?_, ?_, ?_⟩ <;> omega
  obtain ⟨h, p1, p2, p3, p4⟩ := packed hf
  have p2 : h.length = 8 := p2
  have hlen : (h ++ (b ++ rest)).length = (b ++ rest).length + 8 := by
    rw [List.length_append, p2]; omega
  refine ⟨h ++ (b ++ rest), ?_, ?_, ?_⟩
  · unfold OfMsg.toBytes
    rw [h1, hlen]
    simp only [bind_ok, OfHeader.toBytes]
    rw [p1]
    rfl
  · unfold OfMsg.parse
    rw [if_neg (by omega), List.take_left' p2, List.drop_left' p2, p3, hlen]
    simp only [bind_ok]
    rw [h3]
    rfl
  · rw [hlen, h4]; simp only; omega

/-! ## Layout -/

/-- What packing produces, when it does. -/
def lay : List Fld → List Val → Bytes
  | .x n :: fs, vs => zeros n ++ lay fs vs
  | .u w :: fs, .i v :: vs => beEnc w v.toNat ++ lay fs vs
  | .s n :: fs, .b v :: vs => (v ++ zeros (n - v.length)).take n ++ lay fs vs
  | _, _ => []

theorem pack_lay {f : List Fld} {v : List Val} {b : Bytes} (h : pack f v = .ok b) : b = lay f v := by
  fun_induction pack f v generalizing b with
  | case1 => cases h; rfl
  | case2 => cases h
  | case3 n fs vs ih => obtain ⟨x, hx, rfl⟩ := map_eq_ok.mp h; simp only [lay, ih hx]
  | case4 w fs v vs hv ih => obtain ⟨x, hx, rfl⟩ := map_eq_ok.mp h; simp only [lay, ih hx]
  | case5 => cases h
  | case6 n fs v vs ih => obtain ⟨x, hx, rfl⟩ := map_eq_ok.mp h; simp only [lay, ih hx]
  | case7 => cases h
  | case8 => cases h

theorem pad_exact {n : Nat} {v : Bytes} (h : v.length = n) : (v ++ zeros (n - v.length)).take n = v := by
  subst h; simp [zeros]

/-- Numbers of 1, 2, 4 and 8 bytes, most significant first. -/
def w1 (v : Int) : Bytes := beEnc 1 v.toNat
def w2 (v : Int) : Bytes := beEnc 2 v.toNat
def w4 (v : Int) : Bytes := beEnc 4 v.toNat
def w8 (v : Int) : Bytes := beEnc 8 v.toNat
/-- A set of flags as a word. -/
def word (s : List Nat) : Int := (s.foldr (· ||| ·) 0 : Nat)

theorem word_eq (s : List Nat) : (makeBitmap s : Int) = word s := by
  unfold word
  congr 1
  induction s with
  | nil => rfl
  | cons v s ih => simp [makeBitmap, ih]

/-- `ofp_match` (OpenFlow 1.0, 5.2.3). -/
def matchWire (m : OfMatch) : Bytes :=
  w4 (word m.wildcards) ++ w2 m.inPort ++ m.dlSrc.raw ++ m.dlDst.raw ++ w2 m.dlVlan ++ w1 m.dlVlanPcp ++ zeros 1 ++
    w2 m.dlType ++ w1 m.nwTos ++ w1 m.nwProto ++ zeros 2 ++ w4 m.nwSrc.toNat ++ m.nwDst.packed ++ w2 m.tpSrc ++ w2 m.tpDst

/-- `ofp_phy_port` (5.2.1). -/
def portWire (p : OfPhyPort) : Bytes :=
  w2 p.portnum ++ p.hwaddr.raw ++ p.name ++ w4 (word p.config) ++ w4 (word p.state) ++ w4 (word p.curr) ++
    w4 (word p.advertised) ++ w4 (word p.supported) ++ w4 (word p.peer)

/-- `ofp_packet_queue` (5.2.2) with `ofp_queue_prop_min_rate`. -/
def queueWire (q : OfQueue) : Bytes :=
  w4 q.id ++ w2 (8 + 16 * q.rates.length : Nat) ++ zeros 2 ++
    q.rates.flatMap fun r => [0, 1, 0, 16] ++ zeros 4 ++ w2 r ++ zeros 6

/-- The bodies (5.3 to 5.5), given the bytes of their actions. -/
def bodyWire (acts : Bytes) : OfBody → Bytes
  | .error t c d => w2 (t.getD 0) ++ w2 (c.getD 0) ++ d
  | .echo d => d
  | .vendor v d => w4 v ++ d
  | .features f => f.dpid ++ w4 f.nbuffers ++ w1 f.ntables ++ zeros 3 ++ w4 (word f.capabilities) ++
      w4 (word f.actions) ++ f.ports.flatMap portWire
  | .config f m => w2 f ++ w2 m
  | .packetIn b p r d => w4 b ++ w2 (10 + d.length : Nat) ++ w2 p ++ w1 r ++ zeros 1 ++ d
  | .flowRemoved f => matchWire f.mtch ++ w8 f.cookie ++ w2 f.priority ++ w1 f.reason ++ zeros 1 ++ w4 f.durSec ++
      w4 f.durNsec ++ w2 f.idle ++ zeros 2 ++ w8 f.packets ++ w8 f.bytes
  | .portStatus r p => w1 r ++ zeros 7 ++ portWire p
  | .packetOut b p _ d => w4 b ++ w2 p ++ w2 acts.length ++ acts ++ d.getD []
  | .flowMod f => matchWire f.mtch ++ w8 f.cookie ++ w2 f.command ++ w2 f.idle ++ w2 f.hard ++ w2 f.priority ++
      w4 f.bufferId ++ w2 f.outPort ++ w2 (word f.flags) ++ acts
  | .portMod p a c m ad => w2 p ++ a.raw ++ w4 (word c) ++ w4 (word m) ++ w4 (word ad) ++ zeros 4
  | .queueReq p => w2 p ++ zeros 2
  | .queueReply p qs => w2 p ++ zeros 6 ++ qs.flatMap queueWire
  | .stats _ => []

/-- The actions of a body. -/
def actionsOf : OfBody → List OfAction
  | .packetOut _ _ as _ => as
  | .flowMod f => f.actions
  | _ => []

theorem match_layout {m : OfMatch} (w : m.WF) {b : Bytes} (h : m.toBytes = .ok b) : b = matchWire m := by
  obtain ⟨x, hx⟩ := w.nwDst
  rw [pack_lay h]
  simp only [lay, OfMatch.fmt, OfMatch.vals, pad_exact w.dlSrc, pad_exact w.dlDst, pad_exact (length_beEnc 4 _), hx,
    pad_exact (show (IPAddr.v4 x).packed.length = 4 by simp [IPAddr.packed]), matchWire, w1, w2, w4, word_eq,
    Int.toNat_natCast, List.append_assoc, List.append_nil]

theorem port_layout {p : OfPhyPort} (w : p.WF) {b : Bytes} (h : p.toBytes = .ok b) : b = portWire p := by
  rw [pack_lay h]
  simp only [lay, OfPhyPort.fmt, OfPhyPort.vals, pad_exact w.addr, pad_exact w.nameLen, portWire, w2, w4, word_eq,
    List.append_assoc, List.append_nil]

theorem ports_layout {ps : List OfPhyPort} (w : ∀ p ∈ ps, p.WF) {b : Bytes} (h : portsToBytes ps = .ok b) :
    b = ps.flatMap portWire := by
  induction ps generalizing b with
  | nil => cases h; rfl
  | cons p ps ih =>
    obtain ⟨x, hx, h⟩ := bind_eq_ok.mp h
    obtain ⟨y, hy, h⟩ := bind_eq_ok.mp h
    cases h
    rw [port_layout (w p List.mem_cons_self) hx, ih (fun p hp => w p (List.mem_cons_of_mem _ hp)) hy]
    rfl

theorem rates_layout {rs : List Int} {b : Bytes} (h : ratesToBytes rs = .ok b) :
    b = rs.flatMap (fun r => [0, 1, 0, 16] ++ zeros 4 ++ w2 r ++ zeros 6) ∧ b.length = 16 * rs.length := by
  induction rs generalizing b with
  | nil => cases h; exact ⟨rfl, rfl⟩
  | cons r rs ih =>
    obtain ⟨x, hx, h⟩ := bind_eq_ok.mp h
    obtain ⟨y, hy, h⟩ := bind_eq_ok.mp h
    cases h
    obtain ⟨h1, h2⟩ := ih hy
    have hl : x.length = 16 := length_pack hx
    refine ⟨?_, by simp [hl, h2]; omega⟩
    rw [pack_lay hx, h1, List.flatMap_cons]
    simp [lay, w2, beEnc]

theorem queues_layout {qs : List OfQueue} {b : Bytes} (h : queuesToBytes qs = .ok b) : b = qs.flatMap queueWire := by
  induction qs generalizing b with
  | nil => cases h; rfl
  | cons q qs ih =>
    obtain ⟨x, hx, h⟩ := bind_eq_ok.mp h
    obtain ⟨y, hy, h⟩ := bind_eq_ok.mp h
    cases h
    obtain ⟨r, hr, hx⟩ := bind_eq_ok.mp hx
    obtain ⟨a, ha, hx⟩ := bind_eq_ok.mp hx
    cases hx
    obtain ⟨r1, r2⟩ := rates_layout hr
    rw [ih hy, List.flatMap_cons, pack_lay ha, queueWire, ← r1, r2]
    simp [lay, w2, w4, Nat.add_comm]

/-- **C121**: the bytes of every body are those of the OpenFlow 1.0 specification (statistics: see C130). -/
theorem body_layout (t : Int) (b : OfBody) (w : b.WF t) (hs : ∀ s, b ≠ .stats s) (bs acts : Bytes) (ha : joinActions (actionsOf b) = .ok acts)
    (h : b.toBytes = .ok bs) : bs = bodyWire acts b := by
  cases b with
  | error e c d =>
    cases e with
    | none => exact w.elim
    | some e => cases c with
      | none => exact w.elim
      | some c =>
        obtain ⟨x, hx, h⟩ := bind_eq_ok.mp h
        cases h
        rw [pack_lay hx]
        simp [lay, bodyWire, w2]
  | echo d => cases h; rfl
  | vendor v d =>
    obtain ⟨x, hx, h⟩ := bind_eq_ok.mp h
    cases h
    rw [pack_lay hx]
    simp [lay, bodyWire, w4]
  | features f =>
    obtain ⟨x, hx, h⟩ := bind_eq_ok.mp h
    obtain ⟨y, hy, h⟩ := bind_eq_ok.mp h
    cases h
    rw [pack_lay hx, ports_layout w.2.ports hy]
    simp only [lay, bodyWire, w1, w4, word_eq, pad_exact w.2.dpid, List.append_assoc, List.append_nil, List.nil_append]
  | config f m =>
    rw [pack_lay h]
    simp [lay, bodyWire, w2]
  | packetIn b p r d =>
    obtain ⟨x, hx, h⟩ := bind_eq_ok.mp h
    cases h
    rw [pack_lay hx]
    simp [lay, bodyWire, w1, w2, w4, Nat.add_comm]
  | flowRemoved f =>
    obtain ⟨x, hx, h⟩ := bind_eq_ok.mp h
    obtain ⟨y, hy, h⟩ := bind_eq_ok.mp h
    cases h
    rw [pack_lay hy, match_layout w.2.mtch.wf hx]
    simp [lay, OfFlowRemoved.fmt, OfFlowRemoved.vals, bodyWire, w1, w2, w4, w8]
  | portStatus r p =>
    obtain ⟨x, hx, h⟩ := bind_eq_ok.mp h
    obtain ⟨y, hy, h⟩ := bind_eq_ok.mp h
    cases h
    rw [pack_lay hx, port_layout w.2.2 hy]
    simp [lay, bodyWire, w1]
  | packetOut b p as d =>
    obtain ⟨d, rfl⟩ := Option.isSome_iff_exists.mp w.2.2.2.2
    obtain ⟨y, hy, h⟩ := bind_eq_ok.mp h
    obtain ⟨x, hx, h⟩ := bind_eq_ok.mp h
    cases h
    simp only [actionsOf] at ha
    rw [ha] at hy; cases hy
    rw [pack_lay hx]
    simp [lay, bodyWire, w2, w4]
  | flowMod f =>
    obtain ⟨x, hx, h⟩ := bind_eq_ok.mp h
    obtain ⟨y, hy, h⟩ := bind_eq_ok.mp h
    obtain ⟨z, hz, h⟩ := bind_eq_ok.mp h
    cases h
    simp only [actionsOf] at ha
    rw [ha] at hz; cases hz
    rw [pack_lay hy, match_layout w.2.mtch.wf hx]
    simp only [lay, OfFlowMod.fmt, OfFlowMod.vals, bodyWire, w2, w4, w8, word_eq, List.append_assoc, List.append_nil,
      List.nil_append]
  | portMod p a c m ad =>
    rw [pack_lay h]
    simp only [lay, portModFmt, bodyWire, w2, w4, word_eq, pad_exact w.2.2.1, List.append_assoc, List.append_nil]
  | queueReq p =>
    rw [pack_lay h]
    simp [lay, bodyWire, w2]
  | queueReply p qs =>
    obtain ⟨x, hx, h⟩ := bind_eq_ok.mp h
    obtain ⟨y, hy, h⟩ := bind_eq_ok.mp h
    cases h
    rw [pack_lay hx, queues_layout hy]
    simp [lay, bodyWire, w2]
  | stats s => exact absurd rfl (hs s)

/-- **C121**: a serialised message is version, type, length of everything, transaction, body. -/
theorem message_layout (m m' : OfMsg) (bs : Bytes) (h : m.toBytes = .ok (m', bs)) :
    ∃ body, bodyBytes m.body = .ok body ∧
      bs = w1 m.hdr.version ++ w1 m.hdr.type ++ w2 bs.length ++ w4 m.hdr.xid ++ body ++ m.rest ∧
      m' = { m with hdr := { m.hdr with length := bs.length } } := by
  obtain ⟨b, hb, h⟩ := bind_eq_ok.mp h
  obtain ⟨x, hx, h⟩ := bind_eq_ok.mp h
  cases h
  have hl : x.length = 8 := length_pack hx
  have e : (x ++ (b ++ m.rest)).length = (b ++ m.rest).length + 8 := by
    rw [List.length_append, hl]; omega
  refine ⟨b, hb, ?_, ?_⟩
  · rw [e, pack_lay hx]
    simp [lay, OfHeader.fmt, w1, w2, w4]
  · rw [e]

/-! ## Loops -/

theorem unpack_lengths {raw : Bytes} {fs : List Fld} {vs : List Val} (h : unpack fs (raw.take (calcsize fs)) = .ok vs) :
    calcsize fs ≤ raw.length := by
  unfold unpack at h
  split at h
  · rename_i h'
    simp at h'
    omega
  · cases h

/-- The computation ends, normally or with an exception. -/
def Ends {α : Type} (r : Res α) : Prop := r ≠ .error .diverges

theorem Ends.ok {α : Type} (a : α) : Ends (.ok a) := fun h => nomatch h
theorem Ends.err {α : Type} {e : PyErr} (h : e ≠ .diverges) : Ends (.error e : Res α) := by
  intro h'; cases h'; exact h rfl
theorem Ends.of_error {α β : Type} {r : Res α} {e : PyErr} (he : r = .error e) (h : Ends r) : Ends (.error e : Res β) := by
  refine Ends.err ?_
  rintro rfl
  exact h he
theorem Ends.bind {α β : Type} {r : Res α} {f : α → Res β} (h : Ends r) (hf : ∀ a, Ends (f a)) : Ends (r >>= f) := by
  cases r with
  | ok a => exact hf a
  | error e => intro h'; exact h (by simpa using h')
theorem Ends.unpack (fs : List Fld) (b : Bytes) : Ends (unpack fs b) := by
  unfold SY.unpack; split <;> first | exact Ends.ok _ | exact Ends.err (by decide)
theorem Ends.enum (tbl : List Nat) (v : Int) : Ends (enumOf tbl v) := by
  unfold enumOf; split <;> first | exact Ends.ok _ | exact Ends.err (by decide)
theorem Ends.port (v : Int) : Ends (getPort v) := by
  unfold getPort; split <;> (try split) <;> first | exact Ends.ok _ | exact Ends.err (by decide)
theorem Ends.eth (b : Bytes) : Ends (EthAddr.mk' (.raw b)) := by
  unfold EthAddr.mk' EthAddr.parseArg
  refine Ends.bind (Ends.ok _) fun _ => ?_
  split <;> first | exact Ends.ok _ | exact Ends.err (by decide)
theorem Ends.ip (b : Bytes) : Ends (ipAddress (.raw b)) := by
  simp only [ipAddress]; split <;> (try split) <;> first | exact Ends.ok _ | exact Ends.err (by decide)
theorem Ends.ip4 (b : Bytes) : Ends (ipv4Arg (.raw b)) := by
  simp only [ipv4Arg, ipv4OfBytes]; split <;> first | exact Ends.ok _ | exact Ends.err (by decide)

/-- Goes through the branches of a computation. -/
macro "ends" : tactic => `(tactic| repeat' first
  | exact Ends.ok _ | exact Ends.unpack _ _ | exact Ends.enum _ _ | exact Ends.port _ | exact Ends.eth _
  | exact Ends.ip _ | exact Ends.ip4 _ | exact Ends.err (by decide) | refine Ends.bind ?_ fun _ => ?_ | split)

theorem Ends.fields (m : OfMatch) (vs : List Val) : Ends (m.readFields vs) := by
  unfold OfMatch.readFields OfMatch.setInPort OfMatch.setDlSrc OfMatch.setDlDst OfMatch.setDlVlan OfMatch.setDlVlanPcp
    OfMatch.setDlType OfMatch.setNwTos OfMatch.setNwProto OfMatch.setNwSrc OfMatch.setNwDst OfMatch.setTpSrc
    OfMatch.setTpDst
  ends

theorem Ends.match (raw : Bytes) : Ends (OfMatch.fromBytes raw) := by
  unfold OfMatch.fromBytes
  split
  · exact Ends.err (by decide)
  · exact Ends.bind (Ends.unpack _ _) fun _ => Ends.bind (Ends.fields _ _) fun _ => Ends.ok _

theorem Ends.action (t : Nat) (raw : Bytes) : Ends (OfAction.fromBytes t raw) := by
  unfold OfAction.fromBytes ActBody.read
  ends

theorem unpackLoop_ends (n : Nat) (raw : Bytes) (acc : List OfAction) (r : Res (List OfAction))
    (h : unpackActionsLoop n raw acc = some r) : Ends r := by
  induction n generalizing raw acc with
  | zero => cases h
  | succ n ih =>
    unfold unpackActionsLoop at h
    split at h
    · cases h; exact Ends.ok _
    · split at h
      · split at h
        · exact ih _ _ h
        · rename_i e he
          cases h
          exact Ends.of_error he (Ends.bind (Ends.enum _ _) fun t => Ends.action t _)
      · cases h; exact Ends.err (by decide)
      · rename_i e he
        cases h
        exact Ends.of_error he (Ends.unpack _ _)

theorem Ends.actions (raw : Bytes) : Ends (unpackActions raw) := by
  unfold unpackActions
  obtain ⟨r, hr⟩ := Option.isSome_iff_exists.mp (actions_terminate raw (raw.length + 1) [] (by omega))
  rw [hr]
  exact unpackLoop_ends _ _ _ _ hr

theorem Ends.minRate (raw : Bytes) : Ends (minRateFromBytes raw) := by
  unfold minRateFromBytes
  ends

/-- Reading the properties of a queue ends: each step consumes bytes or raises. -/
theorem readRates_terminates (raw : Bytes) (n : Nat) (acc : List Int) (h : raw.length < n) :
    ∃ r, readRates n raw acc = some r ∧ Ends r := by
  induction n generalizing raw acc with
  | zero => omega
  | succ n ih =>
    unfold readRates
    split
    · exact ⟨_, rfl, Ends.ok _⟩
    · split
      · split
        · split
          · rename_i l _ r hr
            apply ih
            unfold minRateFromBytes at hr
            split at hr
            · cases hr
            · rename_i hl
              simp at hl ⊢
              omega
          · rename_i e he
            exact ⟨_, rfl, Ends.of_error he (Ends.minRate _)⟩
        · split <;> exact ⟨_, rfl, Ends.err (by decide)⟩
      · exact ⟨_, rfl, Ends.err (by decide)⟩
      · rename_i e he
        exact ⟨_, rfl, Ends.of_error he (Ends.unpack _ _)⟩

theorem Ends.queue (raw : Bytes) : Ends (OfQueue.fromBytes raw) := by
  unfold OfQueue.fromBytes
  split
  · exact Ends.err (by decide)
  · refine Ends.bind (Ends.unpack _ _) fun _ => ?_
    split
    · obtain ⟨r, h1, h2⟩ := readRates_terminates (raw.drop 8) (raw.length + 1) [] (by simp; omega)
      rw [h1]
      exact Ends.bind h2 fun _ => Ends.ok _
    · exact Ends.err (by decide)

/-- Reading the queues of a reply ends. -/
theorem readQueues_terminates (raw : Bytes) (n : Nat) (acc : List OfQueue) (h : raw.length < n) :
    ∃ r, readQueues n raw acc = some r ∧ Ends r := by
  induction n generalizing raw acc with
  | zero => omega
  | succ n ih =>
    unfold readQueues
    split
    · exact ⟨_, rfl, Ends.ok _⟩
    · split
      · split
        · rename_i l _ q hq
          apply ih
          unfold OfQueue.fromBytes at hq
          split at hq
          · cases hq
          · rename_i hl
            simp at hl ⊢
            omega
        · rename_i e he
          exact ⟨_, rfl, Ends.of_error he (Ends.queue _)⟩
      · exact ⟨_, rfl, Ends.err (by decide)⟩
      · rename_i e he
        exact ⟨_, rfl, Ends.of_error he (Ends.unpack _ _)⟩

theorem Ends.phyPort (raw : Bytes) : Ends (OfPhyPort.fromBytes raw) := by
  unfold OfPhyPort.fromBytes OfPhyPort.ofFields
  ends

/-- Reading the ports of a switch ends. -/
theorem readPorts_terminates (raw : Bytes) (n : Nat) (acc : List OfPhyPort) (h : raw.length < n) :
    ∃ r, readPorts n raw acc = some r ∧ Ends r := by
  induction n generalizing raw acc with
  | zero => omega
  | succ n ih =>
    unfold readPorts
    split
    · exact ⟨_, rfl, Ends.ok _⟩
    · rename_i hl
      split
      · rename_i p rest hp
        apply ih
        unfold OfPhyPort.fromBytes at hp
        rw [if_neg hl] at hp
        obtain ⟨_, _, hp⟩ := bind_eq_ok.mp hp
        obtain ⟨_, _, hp⟩ := bind_eq_ok.mp hp
        cases hp
        simp
        omega
      · rename_i e he
        exact ⟨_, rfl, Ends.of_error he (Ends.phyPort _)⟩

theorem Ends.features (raw : Bytes) : Ends (OfFeatures.fromBytes raw) := by
  unfold OfFeatures.fromBytes OfFeatures.ofFields
  split
  · exact Ends.err (by decide)
  · refine Ends.bind (Ends.unpack _ _) fun _ => ?_
    split
    · refine Ends.bind (by unfold checkTables; ends) fun _ => ?_
      obtain ⟨r, h1, h2⟩ := readPorts_terminates (raw.drop 24) ((raw.drop 24).length + 1) [] (by omega)
      rw [h1]
      exact Ends.bind h2 fun _ => Ends.ok _
    · exact Ends.err (by decide)

theorem Ends.flowMod (raw : Bytes) : Ends (OfFlowMod.fromBytes raw) := by
  unfold OfFlowMod.fromBytes OfFlowMod.ofFields
  split
  · exact Ends.err (by decide)
  · refine Ends.bind (Ends.match _) fun _ => Ends.bind (Ends.unpack _ _) fun _ => ?_
    split
    · exact Ends.bind (Ends.enum _ _) fun _ => Ends.bind (Ends.actions _) fun _ => Ends.ok _
    · exact Ends.err (by decide)

theorem Ends.flowRemoved (raw : Bytes) : Ends (OfFlowRemoved.fromBytes raw) := by
  unfold OfFlowRemoved.fromBytes OfFlowRemoved.ofFields
  split
  · exact Ends.err (by decide)
  · refine Ends.bind (Ends.match _) fun _ => ?_
    ends

theorem Ends.stats (reply : Bool) (raw : Bytes) : Ends (OfStats.parse reply raw) := by
  unfold OfStats.parse
  split
  · split <;> exact Ends.err (by decide)
  · refine Ends.bind (Ends.enum _ _) fun t => ?_
    split
    · exact Ends.err (by decide)
    split
    · exact Ends.err (by decide)
    refine Ends.bind ?_ fun _ => Ends.ok _
    unfold readStats
    split
    · exact Ends.ok _
    · exact Ends.ok _
    · unfold readFlowReq; exact Ends.bind (Ends.match _) fun _ => by ends
    · unfold readFlowReq; exact Ends.bind (Ends.match _) fun _ => by ends
    · unfold readPortReq; ends
    · unfold readQueueReq; ends
    · unfold readVendorStats; ends
    · unfold readDesc; ends
    · unfold readFlowStats OfFlowStats.ofFields
      refine Ends.bind (Ends.unpack _ _) fun _ => Ends.bind (Ends.match _) fun _ => Ends.bind (Ends.unpack _ _) fun _ =>
        Ends.bind ?_ fun _ => Ends.ok _
      split
      · exact Ends.bind (Ends.actions _) fun _ => Ends.ok _
      · exact Ends.err (by decide)
    · unfold readAggregate; ends
    · unfold readTableStats OfTableStats.ofFields; ends
    · unfold readPortStats OfPortStats.ofFields; ends
    · unfold readQueueStats; ends
    · unfold readVendorStats; ends
    · exact Ends.err (by decide)

theorem Ends.body (t : Nat) (raw : Bytes) : Ends (OfBody.parse t raw) := by
  unfold OfBody.parse
  split
  · unfold readErrorBody; ends
  · exact Ends.ok _
  · exact Ends.ok _
  · ends
  · exact Ends.bind (Ends.features _) fun _ => Ends.ok _
  · unfold readConfigBody; ends
  · unfold readConfigBody; ends
  · unfold readInBody; ends
  · exact Ends.bind (Ends.flowRemoved _) fun _ => Ends.ok _
  · unfold readStatusBody
    split
    · exact Ends.err (by decide)
    · refine Ends.bind (Ends.unpack _ _) fun _ => Ends.bind ?_ fun _ => Ends.ok _
      split
      · exact Ends.bind (Ends.enum _ _) fun _ => Ends.bind (Ends.phyPort _) fun _ => Ends.ok _
      · exact Ends.err (by decide)
  · unfold readOutBody
    split
    · exact Ends.err (by decide)
    · refine Ends.bind (Ends.unpack _ _) fun _ => Ends.bind ?_ fun _ => Ends.ok _
      split
      · exact Ends.bind (Ends.port _) fun _ => Ends.bind (Ends.actions _) fun _ => Ends.ok _
      · exact Ends.err (by decide)
  · exact Ends.bind (Ends.flowMod _) fun _ => Ends.ok _
  · unfold readPortModBody; ends
  · exact Ends.bind (Ends.stats _ _) fun _ => Ends.ok _
  · exact Ends.bind (Ends.stats _ _) fun _ => Ends.ok _
  · ends
  · unfold readQueueBody
    split
    · exact Ends.err (by decide)
    · refine Ends.bind (Ends.unpack _ _) fun _ => Ends.bind ?_ fun _ => Ends.ok _
      split
      · refine Ends.bind (Ends.port _) fun _ => ?_
        obtain ⟨r, h1, h2⟩ := readQueues_terminates (raw.drop 8) ((raw.drop 8).length + 1) [] (by omega)
        rw [h1]
        exact Ends.bind h2 fun _ => Ends.ok _
      · exact Ends.err (by decide)
  · exact Ends.ok _

/-- **C121**: parsing ends, with a message or an exception, for every input. -/
theorem message_parse_terminates (raw : Bytes) : OfMsg.parse raw ≠ .error .diverges := by
  show Ends _
  unfold OfMsg.parse
  split
  · exact Ends.err (by decide)
  · refine Ends.bind (Ends.unpack _ _) fun _ => ?_
    split
    · exact Ends.bind (Ends.body _ _) fun _ => Ends.ok _
    · exact Ends.err (by decide)

/-- Queue descriptions whose length fields are zero raise instead of looping. -/
example : OfMsg.parse [1, 21, 0, 24, 0, 0, 0, 1, 0, 3, 0, 0, 0, 0, 0, 0, 0, 0, 0, 9, 0, 0, 0, 0] = .error .generic := by
  decide +kernel

/-! ## What goes wrong -/

/-- An ordinary port description. -/
def exPort : OfPhyPort := ⟨1, ⟨[0, 1, 2, 3, 4, 5]⟩, [101, 116, 104, 48], [0], [0], [0], [0], [0], [0]⟩

/-- **C121**: the name `eth0` comes back as `eth0` and twelve zero characters. -/
theorem port_name_violated :
    ∃ b, exPort.toBytes = .ok b ∧
      OfPhyPort.fromBytes b = .ok ({ exPort with name := [101, 116, 104, 48] ++ zeros 12 }, []) :=
  ⟨[0, 1, 0, 1, 2, 3, 4, 5, 101, 116, 104, 48] ++ zeros 36, by decide +kernel, by decide +kernel⟩

/-- **C121**: a name of more than 16 bytes is cut, perhaps in the middle of a character, and then
the description cannot be read. -/
theorem port_name_cut_violated :
    ∃ b, { exPort with name := zeros 15 ++ [0xC3, 0xA9] }.toBytes = .ok b ∧ utf8Valid (zeros 15 ++ [0xC3, 0xA9]) = true ∧
      OfPhyPort.fromBytes b = .error .valueError :=
  ⟨[0, 1, 0, 1, 2, 3, 4, 5] ++ zeros 15 ++ [0xC3] ++ zeros 24, by decide +kernel, by decide +kernel, by decide +kernel⟩

/-- **C121**: the actions a switch supports are written as the union of their numbers, not as bits:
adding `SetVlanVid` and `SetVlanPcp` announces also `StripVlan`. -/
theorem features_actions_violated :
    ∃ f b f', (OfFeatures.mk (zeros 8) 0 1 [0] [0] []).addAction 1 = .ok f ∧ f.addAction 2 >>= OfFeatures.toBytes = .ok b ∧
      OfFeatures.fromBytes b = .ok (f', []) ∧ f'.actions = [0, 1, 2, 3] :=
  ⟨⟨zeros 8, 0, 1, [0], [0, 1], []⟩, zeros 11 ++ [0, 1, 0, 0, 0, 0, 0, 0, 0, 0, 0, 0, 3],
    ⟨zeros 8, 0, 1, [0], [0, 1, 2, 3], []⟩, by decide +kernel, by decide +kernel, by decide +kernel, rfl⟩

/-- **C121**: error and packet-out messages just built cannot be serialised, nor can an error whose
type or code was not set. -/
theorem fresh_violated (x v : Int) :
    (OfMsg.build 1 x v).toBytes = .error .attributeError ∧ (OfMsg.build 13 x v).toBytes = .error .attributeError :=
  ⟨rfl, rfl⟩

theorem fresh_body (n : Nat) (h1 : n ≠ 1) (h13 : n ≠ 13) :
    ∃ b, bodyBytes (OfBody.fresh n) = .ok b ∧ decide (b.length < 100) = true := by
  unfold OfBody.fresh
  split <;> first
    | exact absurd rfl h1
    | exact absurd rfl h13
    | exact Except.of_test (p := fun b : Bytes => decide (b.length < 100)) (by decide +kernel)

/-- **C121**: all other messages just built can. -/
theorem fresh_serialises (t x v : Int) (ht : 0 ≤ t ∧ t < 256) (h1 : t ≠ 1) (h13 : t ≠ 13)
    (hx : 0 ≤ x ∧ x < 2 ^ 32) (hv : 0 ≤ v ∧ v < 256) : ∃ m b, (OfMsg.build t x v).toBytes = .ok (m, b) := by
  obtain ⟨b, hb, hl⟩ := fresh_body t.toNat (by omega) (by omega)
  have hl := of_decide_eq_true hl
  have hf : Fits OfHeader.fmt [.i v, .i t, .i ((b ++ []).length + 8 : Nat), .i x] := by
    simp only [Fits, OfHeader.fmt, and_true, List.append_nil]
    refine ⟨?_, ?_, ?_, ?_⟩ <;> omega
  obtain ⟨h, hh⟩ := pack_ok hf
  refine ⟨⟨⟨v, t, ((b ++ []).length + 8 : Nat), x⟩, OfBody.fresh t.toNat, []⟩, h ++ (b ++ []), ?_⟩
  unfold OfMsg.toBytes OfMsg.build
  rw [hb]
  simp only [bind_ok, OfHeader.toBytes]
  rw [hh]
  rfl

example : (OfMsg.build 5 7 1).toBytes = .ok (⟨⟨1, 5, 8, 7⟩, none, []⟩, [1, 5, 0, 8, 0, 0, 0, 7]) := by decide +kernel

/-- **C121**: a message just built has a body exactly for the types that have one. -/
theorem fresh_iff (t x v : Int) (ht : 0 ≤ t) : (OfMsg.build t x v).body.isSome = true ↔ t ∈ bodyTypes := by
  obtain ⟨n, rfl⟩ : ∃ n : Nat, t = n := ⟨t.toNat, by omega⟩
  simp only [OfMsg.build, Int.toNat_natCast, OfBody.fresh]
  constructor
  · intro h
    split at h <;> first | decide | cases h
  · intro h
    simp only [bodyTypes, List.mem_cons, List.not_mem_nil, or_false] at h
    have h : n = 1 ∨ n = 2 ∨ n = 3 ∨ n = 4 ∨ n = 6 ∨ n = 8 ∨ n = 9 ∨ n = 10 ∨ n = 11 ∨ n = 12 ∨ n = 13 ∨ n = 14 ∨
        n = 15 ∨ n = 16 ∨ n = 17 ∨ n = 20 ∨ n = 21 := by omega
    rcases h with h | h | h | h | h | h | h | h | h | h | h | h | h | h | h | h | h <;> subst h <;> rfl

/-! ## Cases -/

/-- A flow modification with a match and two actions. -/
def exFlowMod : OfMsg :=
  ⟨⟨1, 14, 8, 42⟩, some (.flowMod ⟨exMatch, 9, 0, 10, 20, 100, 0xffffffff, 0xffff, [0, 1],
    [⟨2, 8, .vlanPcp 3⟩, ⟨0, 8, .output 2 1500⟩]⟩), []⟩

example : exFlowMod.WF := by
  refine ⟨by decide, by decide, by decide, ⟨rfl, ?_⟩, rfl, by decide⟩
  refine ⟨⟨exMatch_wf, ?_⟩, by decide, by decide, by decide, by decide, by decide, by decide, by decide, ⟨1, by decide⟩, ?_⟩
  · exact .inl ⟨by unfold SimpleSet; decide, rfl, rfl⟩
  · intro a ha
    simp at ha
    rcases ha with rfl | rfl
    · exact ⟨by decide, by decide, by unfold ActInRange; decide⟩
    · exact ⟨by decide, by decide, by unfold ActInRange; decide⟩

/-- A switch with one port. -/
def exFeatures : OfMsg :=
  ⟨⟨1, 6, 8, 3⟩, some (.features ⟨[0, 0, 0, 0, 0, 0, 0, 7], 100, 1, [0, 1, 4], [0, 1],
    [{ exPort with name := [101, 116, 104, 48] ++ zeros 12 }]⟩), []⟩

example : exFeatures.WF := by
  refine ⟨by decide, by decide, by decide, ⟨rfl, rfl, by decide, by decide, ⟨5, by decide⟩, ⟨1, by decide⟩, ?_⟩, rfl, by decide⟩
  intro p hp
  simp at hp
  subst hp
  exact ⟨by decide, rfl, by decide, by decide, ⟨0, by decide⟩, ⟨0, by decide⟩, ⟨0, by decide⟩, ⟨0, by decide⟩,
    ⟨0, by decide⟩, ⟨0, by decide⟩⟩

/-- A queue reply with two queues. -/
def exQueues : OfMsg := ⟨⟨1, 21, 8, 3⟩, some (.queueReply 0xffff [⟨1, [100, 200]⟩, ⟨2, []⟩]), []⟩

example : exQueues.WF := by
  refine ⟨by decide, by decide, by decide, ⟨rfl, .inr (by decide), ?_⟩, rfl, by decide⟩
  intro q hq
  simp at hq
  rcases hq with rfl | rfl
  · exact ⟨by decide, by decide⟩
  · exact ⟨by decide, by decide⟩

/-! ### Queues read from arbitrary bytes -/

theorem minRate_wire {raw : Bytes} {r : Int} (h : minRateFromBytes raw = .ok r) :
    16 ≤ raw.length ∧ beDec (raw.take 2) = 1 ∧ beDec ((raw.drop 2).take 2) = 16 ∧
      r = beDec ((raw.drop 8).take 2) := by
  unfold minRateFromBytes at h
  split at h
  · cases h
  rename_i hl
  obtain ⟨fs, h1, h⟩ := bind_eq_ok.mp h
  unfold unpack at h1
  split at h1 <;> cases h1
  simp only [unpackGo] at h
  split at h <;> cases h
  rename_i c
  have c1 := Int.natCast_inj.mp (show ((beDec _ : Nat) : Int) = ((1 : Nat) : Int) from c.1)
  have c2 := Int.natCast_inj.mp (show ((beDec _ : Nat) : Int) = ((16 : Nat) : Int) from c.2)
  simp only [List.take_take, List.drop_take, List.drop_drop, Nat.reduceSub, Nat.reduceAdd, Nat.min_eq_left (show 2 ≤ 16 by omega), Nat.min_eq_left (show 2 ≤ 14 by omega),
    Nat.min_eq_left (show 2 ≤ 8 by omega)] at c1 c2 ⊢
  exact ⟨by omega, c1, c2, trivial⟩

theorem readRates_wire (n : Nat) (raw : Bytes) (acc out : List Int) (h : readRates n raw acc = some (.ok out)) :
    ∃ rs, out = acc ++ rs ∧ raw.length = 16 * rs.length ∧
      ∀ (i : Nat) (r : Int), rs[i]? = some r → r = beDec ((raw.drop (16 * i + 8)).take 2) := by
  induction n generalizing raw acc with
  | zero => simp [readRates] at h
  | succ n ih =>
    unfold readRates at h
    split at h
    · rename_i hr; cases h; exact ⟨[], by simp, by simp [hr], by simp⟩
    split at h
    · rename_i t l hu
      split at h
      · split at h
        · rename_i r hr
          obtain ⟨k1, k2, k3, k4⟩ := minRate_wire hr
          have hl : l = 16 := by
            unfold unpack at hu
            split at hu <;> cases hu
            rw [List.length_take] at k1
            generalize hL : beDec (((raw.take 4).drop 2).take 2) = L at k1 k3 ⊢
            have e : (List.drop 2 (raw.take L)).take 2 = ((raw.take 4).drop 2).take 2 := by
              rw [List.drop_take, List.drop_take, List.take_take, List.take_take]
              congr 1; omega
            simp only [Int.toNat_natCast] at k1 k3
            rw [e] at k3
            rw [hL] at k3; rw [k3]; rfl
          subst hl
          obtain ⟨rs, e1, e2, e3⟩ := ih _ _ h
          rw [List.length_take] at k1
          simp only [Int.reduceToNat, List.length_drop] at e2 k1 e3
          refine ⟨r :: rs, by simp [e1], by simp; omega, ?_⟩
          intro i q hq
          cases i with
          | zero =>
            simp only [List.getElem?_cons_zero, Option.some.injEq] at hq
            rw [← hq, k4, List.drop_take, List.take_take]; rfl
          | succ i =>
            rw [List.getElem?_cons_succ] at hq
            rw [e3 i q hq, List.drop_drop]; congr 4; omega
        · cases h
      · split at h <;> cases h
    · cases h
    · cases h

/-- **C121**: a queue read from any bytes has an identifier of four bytes and then properties of sixteen
bytes each, the rate in the ninth and tenth of them; nothing is left over. -/
theorem queue_wire (raw : Bytes) (q : OfQueue) (h : OfQueue.fromBytes raw = .ok q) :
    q.id = beDec (raw.take 4) ∧ raw.length = 8 + 16 * q.rates.length ∧
      ∀ (i : Nat) (r : Int), q.rates[i]? = some r → r = beDec ((raw.drop (16 + 16 * i)).take 2) := by
  unfold OfQueue.fromBytes at h
  split at h
  · cases h
  rename_i hl
  obtain ⟨fs, h1, h⟩ := bind_eq_ok.mp h
  unfold unpack at h1
  split at h1 <;> cases h1
  simp only [unpackGo] at h
  obtain ⟨rs, h2, h⟩ := bind_eq_ok.mp h
  cases h
  cases hr : readRates (raw.length + 1) (raw.drop 8) [] with
  | none => rw [hr] at h2; cases h2
  | some x =>
    rw [hr] at h2
    simp only [Option.getD_some] at h2
    subst h2
    obtain ⟨ks, e1, e2, e3⟩ := readRates_wire _ _ _ _ hr
    rw [List.nil_append] at e1; subst e1
    refine ⟨by rw [List.take_take]; rfl, by rw [List.length_drop] at e2; simp only; omega, ?_⟩
    intro i r hi
    rw [e3 i r hi, List.drop_drop]; congr 4; omega

example : OfQueue.fromBytes ([0, 0, 0, 9, 0, 24, 0, 0] ++ [0, 1, 0, 16, 0, 0, 0, 0, 1, 44, 0, 0, 0, 0, 0, 0]) =
    .ok ⟨9, [300]⟩ := by decide +kernel

end SY.Props
