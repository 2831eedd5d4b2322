import Verif.Of13
import Verif.Props.OfMsg

/-! # OpenFlow 1.3 messages -/

namespace SY.Props

/-! ## Parsing -/

/-- **C156** is false of the code for every message: no byte string is ever parsed.  Fewer than 8 bytes raise
`Exception`, a type above 29 raises `ValueError`, everything else raises `AttributeError`. -/
theorem of13_parse_violated (raw : Bytes) :
    Of13Msg.parse raw = .error (if raw.length < 8 then .generic
      else if (raw.getD 1 0).toNat < 30 then .attributeError else .valueError) := by
  unfold Of13Msg.parse
  split
  · rfl
  · rename_i h
    match raw, h with
    | v :: t :: l1 :: l2 :: x1 :: x2 :: x3 :: x4 :: rest, _ =>
      have ht := t.toNat_lt
      simp only [List.take_succ_cons, List.take_zero, unpack, OfHeader.fmt, calcsize, Fld.size, List.length_cons,
        List.length_nil, unpackGo, List.drop_succ_cons, List.drop_zero, beDec, bind_ok, List.getD_cons_succ,
        List.getD_cons_zero, if_true, Nat.reduceAdd]
      simp only [Nat.pow_zero, Nat.mul_one, Nat.add_zero]
      by_cases h : t.toNat < 30
      · rw [if_pos h]
        have : t.toNat ∈ of13Types := by
          have : ∀ n, n < 30 → n ∈ of13Types := by decide
          exact this _ h
        rw [enumOf_nat this]; rfl
      · rw [if_neg h]
        have : t.toNat ∉ of13Types := by
          have : ∀ n ∈ of13Types, n < 30 := by decide
          exact fun hn => h (this _ hn)
        unfold enumOf
        rw [if_neg (by simpa using this)]
        rfl
    | [], h => simp at h
    | [_], h => simp at h
    | [_, _], h => simp at h
    | [_, _, _], h => simp at h
    | [_, _, _, _], h => simp at h
    | [_, _, _, _, _], h => simp at h
    | [_, _, _, _, _, _], h => simp at h
    | [_, _, _, _, _, _, _], h => simp at h

/-! ## Bodies on the wire -/

/-- The port features of the specification (7.2.1): none, or a bit below the seventeenth. -/
def ethFeatures : List Nat := 0 :: (List.range 16).map (2 ^ ·)

/-- A port description in range whose name fills its 16 bytes. -/
structure _root_.SY.Of13PhyPort.WF (p : Of13PhyPort) : Prop where
  num : 0 ≤ p.portnum ∧ p.portnum < 2 ^ 32
  addr : p.hwaddr.raw.length = 6
  nameLen : p.name.length = 16
  nameText : utf8Valid p.name = true
  config : FlagSet ofPortConfig p.config
  state : FlagSet [1, 2, 4] p.state
  curr : FlagSet ethFeatures p.curr
  advertised : FlagSet ethFeatures p.advertised
  supported : FlagSet ethFeatures p.supported
  peer : FlagSet ethFeatures p.peer
  currSpeed : 0 ≤ p.currSpeed ∧ p.currSpeed < 2 ^ 32
  maxSpeed : 0 ≤ p.maxSpeed ∧ p.maxSpeed < 2 ^ 32

theorem portState13_values : of13PortState = [1, 2, 4] := rfl
theorem portFeatures13_values : of13PortFeatures = ethFeatures := by decide
theorem capabilities13_values : of13Capabilities = [0, 1, 2, 4, 8, 32, 64, 256] := rfl
theorem of13PortState_lt : ∀ v ∈ [1, 2, 4], v < 2 ^ 32 := by decide
theorem of13PortFeatures_lt : ∀ v ∈ ethFeatures, v < 2 ^ 32 := by decide

theorem phyPort13_fits {p : Of13PhyPort} (w : p.WF) : Fits Of13PhyPort.fmt p.vals := by
  have h1 := w.config.lt 32 ofPortConfig_lt
  have h2 := w.state.lt 32 of13PortState_lt
  have h3 := w.curr.lt 32 of13PortFeatures_lt
  have h4 := w.advertised.lt 32 of13PortFeatures_lt
  have h5 := w.supported.lt 32 of13PortFeatures_lt
  have h6 := w.peer.lt 32 of13PortFeatures_lt
  have := w.num; have := w.currSpeed; have := w.maxSpeed
  simp [Fits, Of13PhyPort.fmt, Of13PhyPort.vals, w.addr, w.nameLen]
  omega

theorem phyPort13_roundtrip (p : Of13PhyPort) (w : p.WF) :
    ∃ b, p.toBytes true = .ok b ∧ b.length = 64 ∧ ∀ rest, Of13PhyPort.fromBytes true (b ++ rest) = .ok (p, rest) := by
  obtain ⟨b, h1, h2, _, h4⟩ := packed (phyPort13_fits w)
  have h2 : b.length = 64 := h2
  refine ⟨b, h1, h2, fun rest => ?_⟩
  obtain ⟨h5, h6⟩ := h4 rest
  unfold Of13PhyPort.fromBytes
  rw [if_neg (by simp [h2])]
  have h5 : unpack Of13PhyPort.fmt ((b ++ rest).take 64) = .ok p.vals := h5
  have h6 : (b ++ rest).drop 64 = rest := h6
  rw [h5, h6]
  simp only [bind_ok, Of13PhyPort.ofFields, Of13PhyPort.vals, EthAddr.mk'_raw6 w.addr, if_pos w.nameText, bound, if_true,
    Int.toNat_natCast, portState13_values, portFeatures13_values, w.config.read, w.state.read, w.curr.read, w.advertised.read, w.supported.read, w.peer.read]

theorem ports13_roundtrip (ps : List Of13PhyPort) (w : ∀ p ∈ ps, p.WF) :
    ∃ b, ports13ToBytes true ps = .ok b ∧ b.length = 64 * ps.length ∧
      ∀ n acc, ps.length < n → readPorts13 true n b acc = some (.ok (acc ++ ps, [])) := by
  induction ps with
  | nil =>
    refine ⟨[], rfl, rfl, fun n acc hn => ?_⟩
    cases n with
    | zero => simp at hn
    | succ n => simp [readPorts13]
  | cons p ps ih =>
    obtain ⟨b, h1, h2, h3⟩ := ih fun x hx => w x (List.mem_cons_of_mem _ hx)
    obtain ⟨a, a1, a2, a3⟩ := phyPort13_roundtrip p (w p List.mem_cons_self)
    refine ⟨a ++ b, by simp [ports13ToBytes, a1, h1], by simp [a2, h2]; omega, fun n acc hn => ?_⟩
    cases n with
    | zero => simp at hn
    | succ n =>
      unfold readPorts13
      rw [if_neg (by simp [a2]), a3]
      simp only [h3 n (acc ++ [p]) (by simpa using hn), List.append_assoc, List.singleton_append]

/-- Switch features in range. -/
structure _root_.SY.Of13Features.WF (f : Of13Features) : Prop where
  dpid : f.dpid.length = 8
  nbuffers : f.nbuffers < 2 ^ 32
  ntables : 0 < f.ntables ∧ f.ntables < 256
  auxid : 0 ≤ f.auxid ∧ f.auxid < 256
  capabilities : FlagSet [0, 1, 2, 4, 8, 32, 64, 256] f.capabilities
  actions : FlagSet ofActionTypes f.actions
  ports : ∀ p ∈ f.ports, p.WF

theorem features13_roundtrip (f : Of13Features) (w : f.WF) :
    ∃ b, f.toBytes true = .ok b ∧ b.length = 24 + 64 * f.ports.length ∧
      Of13Features.fromBytes true b = .ok (f, []) := by
  obtain ⟨p, p1, p2, p3⟩ := ports13_roundtrip f.ports w.ports
  have l1 := w.capabilities.lt 32 (by decide)
  have l2 := w.actions.lt 32 (by decide)
  have hf : Fits Of13Features.fmt [.b f.dpid, .i f.nbuffers, .i f.ntables, .i f.auxid,
      .i (makeBitmap f.capabilities), .i (makeBitmap f.actions)] := by
    have := w.nbuffers; have := w.ntables; have := w.auxid
    simp [Fits, Of13Features.fmt, w.dpid]; omega
  obtain ⟨h, h1, h2, h3, h4⟩ := packed hf
  have h2 : h.length = 24 := h2
  refine ⟨h ++ p, by unfold Of13Features.toBytes; simp only [bound, if_true]; rw [h1, p1]; rfl, by simp [h2, p2], ?_⟩
  unfold Of13Features.fromBytes
  rw [if_neg (by simp [h2]), List.take_left' h2, List.drop_left' h2, h3]
  have e := p3 (p.length + 1) [] (by omega)
  have t : checkTables (f.ntables : Int) = .ok f.ntables := by
    have := w.ntables
    unfold checkTables; rw [if_pos (by omega)]; simp
  simp only [bind_ok, Of13Features.ofFields, e, Option.getD_some, List.nil_append, Int.toNat_natCast, bound, if_true,
    capabilities13_values, w.capabilities.read, w.actions.read, t]

/-- A body that goes with a message type, in range. -/
def _root_.SY.Of13Body.WF (t : Nat) : Of13Body → Prop
  | .error (some e) (some c) _ => t = 1 ∧ ∃ l, ofErrorCodes e = some l ∧ c ∈ l
  | .error _ _ _ => False
  | .echo _ => t = 2 ∨ t = 3
  | .experimenter v _ => t = 4 ∧ 0 ≤ v ∧ v < 2 ^ 32
  | .features f => t = 6 ∧ f.WF
  | .config f m => (t = 8 ∨ t = 9) ∧ f ∈ ofConfigFlags ∧ 0 ≤ m ∧ m < 65536
  | .packetIn b p r _ => t = 10 ∧ (0 ≤ b ∧ b < 2 ^ 32) ∧ PortOk p ∧ r ∈ ofInReasons
  | .flowRemoved f => t = 11 ∧ f.WF
  | .portStatus r p => t = 12 ∧ r ∈ ofStatusReasons ∧ p.WF
  | .packetOut b p as d => t = 13 ∧ (0 ≤ b ∧ b < 2 ^ 32) ∧ PortOk p ∧ (∀ a ∈ as, a.WF) ∧ d.isSome = true
  | .flowMod f => t = 14 ∧ f.WF
  | .portMod p a c m ad => t = 16 ∧ (0 ≤ p ∧ p < 65536) ∧ a.raw.length = 6 ∧ FlagSet ofPortConfig c ∧
      FlagSet ofPortConfig m ∧ FlagSet ethFeatures ad
  | .queueReq p => t = 22 ∧ ∃ n : Nat, p = n ∧ PortOk n
  | .queueReply p qs => t = 23 ∧ (∃ n : Nat, p = n ∧ PortOk n) ∧ ∀ q ∈ qs, q.WF

/-- The number of bytes of a body. -/
def wireLen13 : Of13Body → Nat
  | .error _ _ d => 4 + d.length
  | .echo d => d.length
  | .experimenter _ d => 4 + d.length
  | .features f => 24 + 64 * f.ports.length
  | .config _ _ => 4
  | .packetIn _ _ _ d => 10 + d.length
  | .flowRemoved _ => 80
  | .portStatus _ _ => 72
  | .packetOut _ _ as d => 8 + actionsLen as + (d.getD []).length
  | .flowMod f => 64 + actionsLen f.actions
  | .portMod _ _ _ _ _ => 24
  | .queueReq _ => 4
  | .queueReply _ qs => 8 + queuesLen qs

/-- The bodies that neither flags nor port numbers of a switch are part of. -/
def Simple13 : Of13Body → Prop
  | .error _ _ _ | .echo _ | .experimenter _ _ | .config _ _ => True
  | _ => False

/-- **C156**, partial: every error, echo, experimenter and configuration body in range is written in the number of
bytes of the specification, and its own `from_bytes` reads it back as itself.  For the other bodies this holds if the
three missing names are bound (`names = true`), which they are not (`of13_unserialisable_violated`).  Messages are never
parsed (`of13_parse_violated`). -/
theorem of13_body_roundtrip_partial (names : Bool) (t : Nat) (b : Of13Body) (w : b.WF t) (hl : wireLen13 b < 65536)
    (hn : names = true ∨ Simple13 b) :
    ∃ bs, b.toBytes names = .ok bs ∧ bs.length = wireLen13 b ∧ Of13Body.fromBytes names t bs = some (.ok b) := by
  cases b with
  | error e c d =>
    cases e with
    | none => exact w.elim
    | some e => cases c with
      | none => exact w.elim
      | some c =>
        obtain ⟨rfl, l, w1, w2⟩ := w
        have h0 := errorType_mem w1
        have hc := errorCode_lt w1 w2
        have hf : Fits [.u 2, .u 2] [.i e, .i c] := by simp [Fits]; simp at h0; omega
        obtain ⟨h, h1, h2, h3, h4⟩ := packed hf
        have h2 : h.length = 4 := h2
        refine ⟨h ++ d, by simp only [Of13Body.toBytes, OfBody.toBytes]; rw [h1]; rfl, by simp [wireLen13, h2], ?_⟩
        simp only [Of13Body.fromBytes]
        rw [List.take_left' h2, List.drop_left' h2, h3]
        simp only [bind_ok, enumOf_nat h0, w1, Option.getD_some, enumOf_nat w2]
  | echo d =>
    refine ⟨d, rfl, rfl, ?_⟩
    rcases w with rfl | rfl <;> rfl
  | experimenter v d =>
    obtain ⟨rfl, w1⟩ := w
    have hf : Fits [.u 4] [.i v] := by simp [Fits]; omega
    obtain ⟨h, h1, h2, h3, h4⟩ := packed hf
    have h2 : h.length = 4 := h2
    refine ⟨h ++ d, by simp only [Of13Body.toBytes, OfBody.toBytes]; rw [h1]; rfl, by simp [wireLen13, h2], ?_⟩
    simp only [Of13Body.fromBytes]
    rw [List.take_left' h2, List.drop_left' h2, h3]
    rfl
  | features f =>
    obtain rfl := hn.resolve_right id
    obtain ⟨rfl, w1⟩ := w
    obtain ⟨b, h1, h2, h3⟩ := features13_roundtrip f w1
    refine ⟨b, h1, h2, ?_⟩
    simp only [Of13Body.fromBytes, h3, bind_ok]
  | config f m =>
    obtain ⟨wt, w1, w2⟩ := w
    have hf : Fits [.u 2, .u 2] [.i f, .i m] := by
      have : ∀ v ∈ ofConfigFlags, v < 65536 := by decide
      have := this _ w1
      simp [Fits]; omega
    obtain ⟨h, h1, h2, h3, h4⟩ := packed hf
    have h2 : h.length = 4 := h2
    refine ⟨h, h1, h2, ?_⟩
    rcases wt with rfl | rfl <;> simp only [Of13Body.fromBytes] <;>
      rw [if_neg (by omega), List.take_of_length_le (by omega), h3] <;> simp only [bind_ok, enumOf_nat w1]
  | packetIn b p r d =>
    obtain rfl := hn.resolve_right id
    obtain ⟨rfl, w1, w2, w3⟩ := w
    have hf : Fits [.u 4, .u 2, .u 2, .u 1, .x 1] [.i b, .i (d.length + 10 : Nat), .i p, .i r] := by
      have : ∀ v ∈ ofInReasons, v < 256 := by decide
      have := this _ w3
      have := w2.lt
      simp only [wireLen13] at hl
      simp [Fits]; omega
    obtain ⟨h, h1, h2, h3, h4⟩ := packed hf
    have h2 : h.length = 10 := h2
    refine ⟨h ++ d, by simp only [Of13Body.toBytes, OfBody.toBytes]; rw [h1]; rfl, by simp [wireLen13, h2], ?_⟩
    simp only [Of13Body.fromBytes, packetIn13FromBytes]
    rw [if_neg (by simp [h2]), List.take_left' h2, List.drop_left' h2, h3]
    simp only [bind_ok, enumOf_nat w3, getPort_of_ok w2, bound, if_true]
  | flowRemoved f =>
    obtain rfl := hn.resolve_right id
    obtain ⟨rfl, w1⟩ := w
    obtain ⟨b, h1, h2, h3⟩ := flowRemoved_roundtrip f w1
    refine ⟨b, h1, h2, ?_⟩
    simp only [Of13Body.fromBytes, h3, bind_ok]
  | portStatus r p =>
    obtain rfl := hn.resolve_right id
    obtain ⟨rfl, w1, w2⟩ := w
    have hf : Fits [.u 1, .x 7] [.i r] := by
      have : ∀ v ∈ ofStatusReasons, v < 256 := by decide
      have := this _ w1
      simp [Fits]; omega
    obtain ⟨h, h1, h2, h3, h4⟩ := packed hf
    have h2 : h.length = 8 := h2
    obtain ⟨b, b1, b2, b3⟩ := phyPort13_roundtrip p w2
    have b3 := b3 []
    rw [List.append_nil] at b3
    refine ⟨h ++ b, by simp only [Of13Body.toBytes]; rw [h1, b1]; rfl, by simp [wireLen13, h2, b2], ?_⟩
    simp only [Of13Body.fromBytes, portStatus13FromBytes]
    rw [if_neg (by simp [h2, b2]), List.take_left' h2, List.drop_left' h2, h3]
    simp only [bind_ok, enumOf_nat w1, b3]
  | packetOut b p as d =>
    obtain rfl := hn.resolve_right id
    obtain ⟨rfl, w1, w2, w3, w4⟩ := w
    obtain ⟨d, rfl⟩ := Option.isSome_iff_exists.mp w4
    obtain ⟨a, a1, a2, a3⟩ := actions_wire as w3
    simp only [wireLen13, Option.getD_some] at hl
    have hf : Fits [.u 4, .u 2, .u 2] [.i b, .i p, .i a.length] := by
      have := w2.lt
      simp [Fits]; omega
    obtain ⟨h, h1, h2, h3, h4⟩ := packed hf
    have h2 : h.length = 8 := h2
    refine ⟨h ++ a ++ d, by simp only [Of13Body.toBytes]; rw [a1]; simp only [bind_ok]; rw [h1]; rfl,
      by simp [wireLen13, h2, a2]; omega, ?_⟩
    simp only [Of13Body.fromBytes, packetOut13FromBytes]
    rw [if_neg (by simp [h2]), List.append_assoc, List.take_left' h2, List.drop_left' h2, h3]
    simp only [bind_ok, getPort_of_ok w2, Int.toNat_natCast, List.take_left' rfl, List.drop_left' rfl, a3, bound, if_true]
  | flowMod f =>
    obtain rfl := hn.resolve_right id
    obtain ⟨rfl, w1⟩ := w
    obtain ⟨m, m1, m2, m3⟩ := match_wire w1.mtch
    obtain ⟨a, a1, a2, a3⟩ := actions_wire f.actions w1.actions
    have l1 := w1.flags.lt 16 (by decide)
    have hf : Fits OfFlowMod.fmt f.vals := by
      have : ∀ v ∈ ofCommands, v < 65536 := by decide
      have := this _ w1.command
      obtain ⟨_, _, _, _, _, _, _, _, _, _⟩ := w1
      simp [Fits, OfFlowMod.fmt, OfFlowMod.vals]; omega
    obtain ⟨h, h1, h2, h3, h4⟩ := packed hf
    have h2 : h.length = 24 := h2
    refine ⟨m ++ h ++ a, by simp only [Of13Body.toBytes, bound, if_true]; unfold OfFlowMod.toBytes; rw [m1, h1, a1]; rfl,
      by simp [m2, h2, a2, wireLen13]; omega, ?_⟩
    simp only [Of13Body.fromBytes, flowMod13FromBytes]
    rw [if_neg (by simp [m2, h2]; omega), List.append_assoc, List.take_left' m2, List.drop_left' m2,
      List.take_left' h2, List.drop_left' h2, m3, bind_ok, h3]
    simp only [bind_ok, OfFlowMod.ofFields, OfFlowMod.vals, enumOf_nat w1.command, a3, Int.toNat_natCast, w1.flags.read,
      bound, if_true]
  | portMod p a c m ad =>
    obtain rfl := hn.resolve_right id
    obtain ⟨rfl, w1, w2, w3, w4, w5⟩ := w
    have hf : Fits portModFmt [.i p, .b a.raw, .i (makeBitmap c), .i (makeBitmap m), .i (makeBitmap ad)] := by
      have := w3.lt 32 ofPortConfig_lt
      have := w4.lt 32 ofPortConfig_lt
      have := w5.lt 32 of13PortFeatures_lt
      simp [Fits, portModFmt, w2]; omega
    obtain ⟨h, h1, h2, h3, h4⟩ := packed hf
    have h2 : h.length = 24 := h2
    refine ⟨h, h1, h2, ?_⟩
    simp only [Of13Body.fromBytes, portMod13FromBytes]
    rw [if_neg (by omega), h3]
    simp only [bind_ok, EthAddr.mk'_raw6 w2, Int.toNat_natCast, portFeatures13_values, w3.read, w4.read, w5.read, bound, if_true]
  | queueReq p =>
    obtain rfl := hn.resolve_right id
    obtain ⟨rfl, n, rfl, w1⟩ := w
    have hf : Fits [.u 2, .x 2] [.i n] := by
      have := w1.lt
      simp [Fits]; omega
    obtain ⟨h, h1, h2, h3, h4⟩ := packed hf
    have h2 : h.length = 4 := h2
    refine ⟨h, h1, h2, ?_⟩
    simp only [Of13Body.fromBytes, queueReq13FromBytes]
    rw [if_neg (by omega), h3]
    simp only [bind_ok, getPort_of_ok w1, bound, if_true]
  | queueReply p qs =>
    obtain rfl := hn.resolve_right id
    obtain ⟨rfl, ⟨n, rfl, w1⟩, w2⟩ := w
    simp only [wireLen13] at hl
    obtain ⟨q, q1, q2, q3⟩ := queues_roundtrip qs w2 (by omega)
    have hf : Fits [.u 2, .x 6] [.i n] := by
      have := w1.lt
      simp [Fits]; omega
    obtain ⟨h, h1, h2, h3, h4⟩ := packed hf
    have h2 : h.length = 8 := h2
    have hle : qs.length ≤ queuesLen qs := by
      clear q q1 q2 q3 w2 hl hn
      induction qs with
      | nil => simp
      | cons q qs ih => simp [queuesLen]; omega
    refine ⟨h ++ q, by simp only [Of13Body.toBytes]; rw [h1, q1]; rfl, by simp [wireLen13, h2, q2], ?_⟩
    simp only [Of13Body.fromBytes, queueReply13FromBytes]
    rw [if_neg (by simp [h2]), List.take_left' h2, List.drop_left' h2, h3]
    simp only [bind_ok, getPort_of_ok w1, bound, if_true,
      q3 ((h ++ q).length - 8 + 1) [] (by simp [h2, q2]; omega), Option.getD_some, List.nil_append]

example : (Of13Body.error (some 3) (some 1) [1, 2]).WF 1 := ⟨rfl, [0, 1, 2, 3, 4, 5], by decide, by decide⟩
example : (Of13Body.config 3 128).WF 9 ∧ Simple13 (.config 3 128) := ⟨⟨.inr rfl, by decide, by decide, by decide⟩, trivial⟩

/-! ## What can be serialised -/

/-- The bodies that have no way onto the wire. -/
def Stuck : Of13Body → Prop
  | .features _ | .flowRemoved _ | .portStatus _ _ | .flowMod _ | .portMod _ _ _ _ _ => True
  | .packetIn _ p _ _ | .packetOut _ p _ _ => p = of13Any
  | _ => False

theorem Stuck.apply {b b' : Of13Body} (h : Stuck b) {o : Of13Op} (e : b.apply false o = .ok b') : Stuck b' := by
  cases b <;> cases o <;> simp only [Of13Body.apply, bound, Bool.false_eq_true, if_false, bind_eq_ok, Except.ok.injEq,
    reduceCtorEq, false_and, exists_false, and_false] at e
  all_goals first
    | exact h.elim
    | (subst e; first | exact h | trivial)
    | (obtain ⟨_, _, rfl⟩ := e; first | exact h | trivial)

theorem Stuck.applyAll {b : Of13Body} (h : Stuck b) (os : List Of13Op) : Stuck (b.applyAll false os) := by
  induction os generalizing b with
  | nil => exact h
  | cons o os ih =>
    unfold Of13Body.applyAll
    split
    · rename_i e
      exact ih (h.apply e)
    · exact ih h

theorem Stuck.toBytes {b : Of13Body} (h : Stuck b) : ∃ e, b.toBytes false = .error e := by
  have key : ∀ r : Res Bytes, (∀ x, r ≠ .ok x) → ∃ e, r = .error e := fun r h => by
    cases r with
    | ok x => exact absurd rfl (h x)
    | error e => exact ⟨e, rfl⟩
  apply key
  intro x hx
  cases b with
  | error | echo | experimenter | config | queueReq | queueReply => exact h.elim
  | features f => cases hx
  | flowRemoved f => cases hx
  | flowMod f => cases hx
  | portMod p a c m ad => cases hx
  | portStatus r p =>
    obtain ⟨_, _, hx⟩ := bind_eq_ok.mp hx
    cases hx
  | packetIn b p r d =>
    cases (show p = of13Any from h)
    obtain ⟨y, hy, _⟩ := bind_eq_ok.mp hx
    unfold pack at hy
    split at hy
    · obtain ⟨z, hz, _⟩ := map_eq_ok.mp hy
      unfold pack at hz
      split at hz
      · obtain ⟨z, hz, _⟩ := map_eq_ok.mp hz
        cases hz
      · cases hz
    · cases hy
  | packetOut b p as d =>
    cases (show p = of13Any from h)
    obtain ⟨y, hy, hx⟩ := bind_eq_ok.mp hx
    obtain ⟨y, hy, _⟩ := bind_eq_ok.mp hx
    unfold pack at hy
    split at hy
    · obtain ⟨z, hz, _⟩ := map_eq_ok.mp hy
      cases hz
    · cases hy

/-- A program's statements on the body of a message, and bytes it adds to the packet. -/
def _root_.SY.Of13Msg.edit (m : Of13Msg) (ops : List Of13Op) (rest : Bytes) : Of13Msg :=
  { m with body := m.body.map (·.applyAll false ops), rest := rest }

/-- **C157** is false of the code: whatever a program does with a features reply, packet-in, flow-removed, port-status,
packet-out, flow-modification or port-modification message (types 6, 10, 11, 12, 13, 14, 16) after it was built, the
message cannot be serialised. -/
theorem of13_unserialisable_violated (type : TypeArg) (ht : type.num ∈ [6, 10, 11, 12, 13, 14, 16])
    (port xid version : Int) (ops : List Of13Op) (rest : Bytes) :
    ∃ e, ((Of13Msg.build type port xid version).edit ops rest).toBytes false = .error e := by
  have : ∃ b, (Of13Msg.build type port xid version).body = some b ∧ Stuck b := by
    simp only [List.mem_cons, List.not_mem_nil, or_false] at ht
    rcases ht with h | h | h | h | h | h | h <;>
      (simp only [Of13Msg.build, h]; exact ⟨_, rfl, by first | trivial | rfl⟩)
  obtain ⟨b, hb, hs⟩ := this
  obtain ⟨e, he⟩ := (hs.applyAll ops).toBytes
  refine ⟨e, ?_⟩
  unfold Of13Msg.toBytes Of13Msg.edit
  simp only [hb, Option.map_some, body13Bytes, he]
  rfl

/-- The values that can be written: both codes of an error set, everything else in range, ports within 16 bits. -/
def Writable13 : Of13Body → Prop
  | .error t c _ => t.isSome ∧ c.isSome
  | .echo _ => True
  | .experimenter v _ => 0 ≤ v ∧ v < 2 ^ 32
  | .config _ m => 0 ≤ m ∧ m < 2 ^ 16
  | .queueReq p => 0 ≤ p ∧ p < 2 ^ 16
  | .queueReply p qs => (0 ≤ p ∧ p < 2 ^ 16) ∧ ∀ q ∈ qs, (0 ≤ q.id ∧ q.id < 2 ^ 32) ∧
      8 + 16 * q.rates.length < 2 ^ 16 ∧ ∀ r ∈ q.rates, 0 ≤ r ∧ r < 2 ^ 16
  | _ => False

/-- What the constructors and setters of the other bodies keep. -/
def Ranged13 : Of13Body → Prop
  | .error t c _ => (∀ v, t = some v → v ∈ [0, 1, 2, 3, 4, 5]) ∧ ∀ v, c = some v → v < 9
  | .config f _ => f ∈ ofConfigFlags
  | .echo _ | .experimenter _ _ | .queueReq _ | .queueReply _ _ => True
  | b => Stuck b

theorem enumOf_mem {tbl : List Nat} {v : Int} {t : Nat} (h : enumOf tbl v = .ok t) : t ∈ tbl := by
  unfold enumOf at h
  split at h
  · rename_i e; cases h; exact e.2
  · cases h

theorem Ranged13.apply {b b' : Of13Body} (h : Ranged13 b) {o : Of13Op} (e : b.apply false o = .ok b') : Ranged13 b' := by
  cases b with
  | error t c d =>
    cases o <;> simp only [Of13Body.apply, bind_eq_ok, Except.ok.injEq, reduceCtorEq] at e
    case errorType v =>
      obtain ⟨x, hx, rfl⟩ := e
      exact ⟨fun v hv => by cases hv; exact enumOf_mem hx, h.2⟩
    case errorCode v =>
      obtain ⟨x, hx, rfl⟩ := e
      refine ⟨h.1, fun v hv => ?_⟩
      cases hv
      have hm := enumOf_mem hx
      cases hl : ofErrorCodes (t.getD 0) with
      | none => rw [hl] at hm; simp at hm
      | some l => rw [hl] at hm; exact errorCode_lt hl hm
    all_goals (subst e; exact h)
  | config f m =>
    cases o <;> simp only [Of13Body.apply, bind_eq_ok, Except.ok.injEq, reduceCtorEq] at e
    case flags v =>
      obtain ⟨x, hx, rfl⟩ := e
      exact enumOf_mem hx
    all_goals (subst e; exact h)
  | echo d =>
    cases o <;> simp only [Of13Body.apply, bind_eq_ok, Except.ok.injEq, reduceCtorEq] at e
    all_goals (subst e; trivial)
  | experimenter v d =>
    cases o <;> simp only [Of13Body.apply, bind_eq_ok, Except.ok.injEq, reduceCtorEq] at e
    all_goals (subst e; trivial)
  | queueReq p =>
    cases o <;> simp only [Of13Body.apply, bind_eq_ok, Except.ok.injEq, reduceCtorEq] at e
    case port v => obtain ⟨x, hx, rfl⟩ := e; trivial
    all_goals (subst e; trivial)
  | queueReply p qs =>
    cases o <;> simp only [Of13Body.apply, bind_eq_ok, Except.ok.injEq, reduceCtorEq] at e
    case port v => obtain ⟨x, hx, rfl⟩ := e; trivial
    all_goals (subst e; trivial)
  | features | flowRemoved | portStatus | flowMod | portMod | packetIn | packetOut =>
    rw [Ranged13.eq_def] at h
    have := Stuck.apply h e
    cases b' <;> first | exact this | exact this.elim

theorem Ranged13.applyAll {b : Of13Body} (h : Ranged13 b) (os : List Of13Op) : Ranged13 (b.applyAll false os) := by
  induction os generalizing b with
  | nil => exact h
  | cons o os ih =>
    unfold Of13Body.applyAll
    split
    · rename_i e
      exact ih (h.apply e)
    · exact ih h

theorem Ranged13.fresh {port : Int} {t : Nat} {b : Of13Body} (h : Of13Body.fresh port t = some b) : Ranged13 b := by
  unfold Of13Body.fresh at h
  split at h <;> cases h <;> first | trivial | rfl | exact ⟨fun _ h => nomatch h, fun _ h => nomatch h⟩ | exact List.mem_cons_self

/-- Something is returned. -/
def Gives {α : Type} (r : Res α) : Prop := ∃ a, r = .ok a

theorem returns_bind {α β : Type} {r : Res α} {f : α → Res β} : Gives (r >>= f) ↔ ∃ a, r = .ok a ∧ Gives (f a) := by
  cases r with
  | ok a => exact ⟨fun ⟨b, h⟩ => ⟨a, rfl, b, h⟩, fun ⟨a', h, b, hb⟩ => by cases h; exact ⟨b, hb⟩⟩
  | error e => exact ⟨fun ⟨_, h⟩ => (nomatch h), fun ⟨_, h, _⟩ => (nomatch h)⟩

theorem returns_ok {α : Type} (a : α) : Gives (.ok a) := ⟨a, rfl⟩

theorem returns_then {α β : Type} {r : Res α} {f : α → Res β} (h : ∀ a, Gives (f a)) : Gives (r >>= f) ↔ Gives r := by
  rw [returns_bind]
  exact ⟨fun ⟨a, e, _⟩ => ⟨a, e⟩, fun ⟨a, e⟩ => ⟨a, e, h a⟩⟩

theorem pack_nil : Gives (pack [] []) := ⟨[], rfl⟩

theorem pack_x (n : Nat) (fs : List Fld) (vs : List Val) : Gives (pack (.x n :: fs) vs) ↔ Gives (pack fs vs) := by
  have : pack (.x n :: fs) vs = ((zeros n ++ ·) <$> pack fs vs) := by cases vs <;> rfl
  rw [this]
  cases pack fs vs with
  | ok a => exact ⟨fun _ => ⟨_, rfl⟩, fun _ => ⟨_, rfl⟩⟩
  | error e => exact ⟨fun ⟨_, h⟩ => (nomatch h), fun ⟨_, h⟩ => (nomatch h)⟩

theorem pack_u (w : Nat) (fs : List Fld) (v : Int) (vs : List Val) :
    Gives (pack (.u w :: fs) (.i v :: vs)) ↔ (0 ≤ v ∧ v < (256 ^ w : Nat)) ∧ Gives (pack fs vs) := by
  rw [pack]
  split
  · rename_i h
    cases pack fs vs with
    | ok a => exact ⟨fun _ => ⟨h, _, rfl⟩, fun _ => ⟨_, rfl⟩⟩
    | error e => exact ⟨fun ⟨_, h⟩ => (nomatch h), fun ⟨_, _, h⟩ => (nomatch h)⟩
  · rename_i h
    exact ⟨fun ⟨_, e⟩ => (nomatch e), fun e => absurd e.1 h⟩

theorem rates_returns (rs : List Int) : Gives (ratesToBytes rs) ↔ ∀ r ∈ rs, 0 ≤ r ∧ r < 2 ^ 16 := by
  induction rs with
  | nil => exact ⟨fun _ _ h => (nomatch h), fun _ => ⟨[], rfl⟩⟩
  | cons r rs ih =>
    have e : Gives (ratesToBytes (r :: rs)) ↔ Gives (minRateToBytes r) ∧ Gives (ratesToBytes rs) := by
      rw [ratesToBytes, returns_bind]
      simp only [returns_then (fun a => returns_ok _)]
      exact ⟨fun ⟨a, h, h'⟩ => ⟨⟨a, h⟩, h'⟩, fun ⟨⟨a, h⟩, h'⟩ => ⟨a, h, h'⟩⟩
    rw [e, ih]
    unfold minRateToBytes
    simp only [pack_u, pack_x, pack_nil, List.forall_mem_cons]
    grind

theorem queues_returns (qs : List OfQueue) :
    Gives (queuesToBytes qs) ↔ ∀ q ∈ qs, (0 ≤ q.id ∧ q.id < 2 ^ 32) ∧
      8 + 16 * q.rates.length < 2 ^ 16 ∧ ∀ r ∈ q.rates, 0 ≤ r ∧ r < 2 ^ 16 := by
  induction qs with
  | nil => exact ⟨fun _ _ h => (nomatch h), fun _ => ⟨[], rfl⟩⟩
  | cons q qs ih =>
    have e : Gives (queuesToBytes (q :: qs)) ↔ Gives q.toBytes ∧ Gives (queuesToBytes qs) := by
      rw [queuesToBytes, returns_bind]
      simp only [returns_then (fun a => returns_ok _)]
      exact ⟨fun ⟨a, h, h'⟩ => ⟨⟨a, h⟩, h'⟩, fun ⟨⟨a, h⟩, h'⟩ => ⟨a, h, h'⟩⟩
    have e' : Gives q.toBytes ↔ (0 ≤ q.id ∧ q.id < 2 ^ 32) ∧ 8 + 16 * q.rates.length < 2 ^ 16 ∧
        ∀ r ∈ q.rates, 0 ≤ r ∧ r < 2 ^ 16 := by
      rw [← rates_returns]
      unfold OfQueue.toBytes
      rw [returns_bind]
      simp only [returns_then (fun a => returns_ok _), pack_u, pack_x, pack_nil]
      constructor
      · rintro ⟨a, ha, h1, h2, _⟩
        have := (rates_layout ha).2
        exact ⟨by omega, by omega, a, ha⟩
      · rintro ⟨h1, h2, a, ha⟩
        have := (rates_layout ha).2
        exact ⟨a, ha, by omega, by omega, trivial⟩
    rw [e, e', ih, List.forall_mem_cons]

/-- **C157**, partial: exactly which bodies a program makes from a built one can be serialised: error bodies with type and
code assigned, echo bodies, experimenter and configuration bodies in range, queue messages for ports within 16 bits.  None
of the others can (`of13_unserialisable_violated`). -/
theorem of13_serialisable_partial (port : Int) (t : Nat) (b : Of13Body) (hb : Of13Body.fresh port t = some b)
    (ops : List Of13Op) :
    (∃ bs, (b.applyAll false ops).toBytes false = .ok bs) ↔ Writable13 (b.applyAll false ops) := by
  have hr := (Ranged13.fresh hb).applyAll ops
  generalize b.applyAll false ops = b at hr
  change Gives _ ↔ _
  cases b with
  | error t c d =>
    cases t with
    | none => exact ⟨fun ⟨_, h⟩ => (nomatch h), fun ⟨h, _⟩ => (nomatch h)⟩
    | some t => cases c with
      | none => exact ⟨fun ⟨_, h⟩ => (nomatch h), fun ⟨_, h⟩ => (nomatch h)⟩
      | some c =>
        refine ⟨fun _ => ⟨rfl, rfl⟩, fun _ => ?_⟩
        have h1 := hr.1 t rfl
        have h2 := hr.2 c rfl
        simp only [Of13Body.toBytes, OfBody.toBytes]
        rw [returns_then (fun a => returns_ok _), pack_u, pack_u]
        simp at h1
        exact ⟨by omega, by omega, pack_nil⟩
  | echo d => exact ⟨fun _ => trivial, fun _ => ⟨d, rfl⟩⟩
  | experimenter v d =>
    simp only [Of13Body.toBytes, OfBody.toBytes, Writable13]
    rw [returns_then (fun a => returns_ok _), pack_u]
    simp only [pack_nil, and_true]
    rfl
  | config f m =>
    have hf : f < 65536 := by
      have : ∀ v ∈ ofConfigFlags, v < 65536 := by decide
      exact this _ hr
    simp only [Of13Body.toBytes, OfBody.toBytes, Writable13]
    rw [pack_u, pack_u]
    simp only [pack_nil, and_true]
    exact ⟨fun h => h.2, fun h => ⟨by omega, h⟩⟩
  | queueReq p =>
    simp only [Of13Body.toBytes, Writable13]
    rw [pack_u, pack_x]
    simp only [pack_nil, and_true]
    rfl
  | queueReply p qs =>
    simp only [Of13Body.toBytes, Writable13]
    rw [← queues_returns, returns_bind]
    simp only [returns_then (fun a => returns_ok _)]
    have := pack_u 2 [.x 6] p []
    rw [pack_x] at this
    simp only [pack_nil, and_true] at this
    exact ⟨fun ⟨a, h, h'⟩ => ⟨this.mp ⟨a, h⟩, h'⟩, fun ⟨h, h'⟩ => (this.mpr h).imp fun a h => ⟨h, h'⟩⟩
  | features | flowRemoved | portStatus | flowMod | portMod | packetIn | packetOut =>
    rw [Ranged13.eq_def] at hr
    obtain ⟨e, he⟩ := Stuck.toBytes hr
    exact ⟨fun ⟨_, h⟩ => (by rw [he] at h; cases h), fun h => (show False from h).elim⟩

example : Writable13 ((Of13Body.error none none []).applyAll false [.errorType 3, .errorCode 1, .data [7]]) := ⟨rfl, rfl⟩
example : ¬ Writable13 ((Of13Body.error none none []).applyAll false [.errorCode 1]) := fun h => nomatch h.1
example : (Of13Body.queueReply 5 []).applyAll false [.port 7, .queue ⟨1, [100]⟩] = .queueReply 5 [⟨1, [100]⟩] := rfl

/-! ## Layout -/

/-- The bodies of the specification whose fields are those of the code (7.3.1, 7.3.2, 7.4.4, 7.5). -/
def bodyWire13 : Of13Body → Bytes
  | .error t c d => w2 (t.getD 0) ++ w2 (c.getD 0) ++ d
  | .echo d => d
  | .experimenter v d => w4 v ++ d
  | .config f m => w2 f ++ w2 m
  | _ => []

/-- **C158**, partial: a message that is serialised is version, type, length of everything, transaction, body, and
whatever was added to the packet.  (Its type is then a member of the enumeration.) -/
theorem of13_message_layout_partial (m m' : Of13Msg) (bs : Bytes) (h : m.toBytes false = .ok (m', bs)) :
    ∃ t body, m.type = .member t ∧ body13Bytes false m.body = .ok body ∧
      bs = w1 m.version ++ w1 t ++ w2 bs.length ++ w4 m.xid ++ body ++ m.rest ∧ m' = { m with length := bs.length } := by
  obtain ⟨b, hb, h⟩ := bind_eq_ok.mp h
  obtain ⟨t, ht, h⟩ := bind_eq_ok.mp h
  obtain ⟨x, hx, h⟩ := bind_eq_ok.mp h
  cases h
  have hl : x.length = 8 := length_pack hx
  have e : (x ++ (b ++ m.rest)).length = (b ++ m.rest).length + 8 := by
    rw [List.length_append, hl]; omega
  cases hm : m.type with
  | plain n => rw [hm] at ht; cases ht
  | member n =>
    rw [hm] at ht; cases ht
    refine ⟨n, b, rfl, hb, ?_, ?_⟩
    · rw [e, pack_lay hx]
      simp [lay, OfHeader.fmt, w1, w2, w4]
    · rw [e]

/-- **C158**, partial: error, echo, experimenter and configuration bodies have the bytes of the specification. -/
theorem of13_body_layout_partial (b : Of13Body) (hs : Simple13 b) (bs : Bytes) (h : b.toBytes false = .ok bs) :
    bs = bodyWire13 b := by
  cases b with
  | error t c d =>
    cases t with
    | none => cases h
    | some t => cases c with
      | none => cases h
      | some c =>
        obtain ⟨x, hx, h⟩ := bind_eq_ok.mp h
        cases h
        rw [pack_lay hx]
        simp [lay, bodyWire13, w2]
  | echo d => cases h; rfl
  | experimenter v d =>
    obtain ⟨x, hx, h⟩ := bind_eq_ok.mp h
    cases h
    rw [pack_lay hx]
    simp [lay, bodyWire13, w4]
  | config f m =>
    rw [pack_lay h]
    simp [lay, bodyWire13, w2]
  | _ => exact hs.elim

/-- **C158** is false of the code: a message whose type is a plain number, which its constructor accepts, is never
serialised. -/
theorem of13_plain_type_violated (n : Int) (m : Of13Msg) (h : m.type = .plain n) : ∃ e, m.toBytes false = .error e := by
  unfold Of13Msg.toBytes
  rw [h]
  cases body13Bytes false m.body with
  | ok b => exact ⟨_, rfl⟩
  | error e => exact ⟨e, rfl⟩

/-- **C158** is false of the code: no queue configuration request is a port of 32 bits and four zeros, and no reply for a
port but 0 begins with them, as the specification (7.3.6) says: the port is written with 16 bits. -/
theorem of13_queue_layout_violated (p : Int) (qs : List OfQueue) (bs : Bytes) :
    ((Of13Body.queueReq p).toBytes false = .ok bs → bs ≠ w4 p ++ zeros 4) ∧
    ((Of13Body.queueReply p qs).toBytes false = .ok bs → p ≠ 0 → ∀ tail, bs ≠ w4 p ++ zeros 4 ++ tail) := by
  constructor
  · intro h e
    have := length_pack h
    rw [e] at this
    simp [w4, zeros, length_beEnc, calcsize, Fld.size] at this
  · intro h hp tail e
    obtain ⟨x, hx, h⟩ := bind_eq_ok.mp h
    obtain ⟨y, hy, h⟩ := bind_eq_ok.mp h
    cases h
    have hr := ((pack_u 2 [.x 6] p []).mp ⟨x, hx⟩).1
    rw [pack_lay hx] at e
    have e := congrArg (List.take 4) e
    obtain ⟨n, rfl⟩ := Int.eq_ofNat_of_zero_le hr.1
    have hn : n < 65536 := by have := hr.2; simp at this; omega
    simp [lay, w4, zeros, beEnc] at e
    obtain ⟨_, _, e1, e2⟩ := e
    have e1 := congrArg UInt8.toNat e1
    have e2 := congrArg UInt8.toNat e2
    simp at e1 e2 hp
    omega

/-! ## Actions -/

/-- **C159**, partial: they are serialised exactly for ports within 16 bits (and queues within 32). -/
theorem of13_action_port_partial (p q : Int) :
    ((∃ b, (actOutput p).toBytes = .ok b) ↔ 0 ≤ p ∧ p < 2 ^ 16) ∧
    ((∃ b, (actEnqueue p q).toBytes = .ok b) ↔ (0 ≤ p ∧ p < 2 ^ 16) ∧ 0 ≤ q ∧ q < 2 ^ 32) := by
  have h1 : ∃ h, pack [.u 2, .u 2] [.i ((0 : Nat) : Int), .i 8] = .ok h := ⟨_, rfl⟩
  have h2 : ∃ h, pack [.u 2, .u 2] [.i ((11 : Nat) : Int), .i 16] = .ok h := ⟨_, rfl⟩
  obtain ⟨a, ha⟩ := h1
  obtain ⟨b, hb⟩ := h2
  constructor
  · change Gives _ ↔ _
    unfold OfAction.toBytes actOutput
    simp only
    rw [ha, bind_ok, returns_then (fun a => returns_ok _)]
    simp only [ActBody.fmt, ActBody.vals, pack_u, pack_nil, and_true]
    exact ⟨fun h => h.1, fun h => ⟨h, by decide, by decide⟩⟩
  · change Gives _ ↔ _
    unfold OfAction.toBytes actEnqueue
    simp only
    rw [hb, bind_ok, returns_then (fun a => returns_ok _)]
    simp only [ActBody.fmt, ActBody.vals, pack_u, pack_x, pack_nil, and_true]
    rfl

theorem pack_error {fs : List Fld} {vs : List Val} {e : PyErr} (h : pack fs vs = .error e) : e = .structError := by
  fun_induction pack fs vs with
  | case1 => cases h
  | case3 n fs vs ih => 
    cases hp : pack fs vs with
    | ok b => rw [hp] at h; cases h
    | error e' => rw [hp] at h; cases h; exact ih hp
  | case4 w fs v vs hr ih =>
    cases hp : pack fs vs with
    | ok b => rw [hp] at h; cases h
    | error e' => rw [hp] at h; cases h; exact ih hp
  | case6 n fs v vs ih =>
    cases hp : pack fs vs with
    | ok b => rw [hp] at h; cases h
    | error e' => rw [hp] at h; cases h; exact ih hp
  | _ => cases h; rfl

theorem action_error {a : OfAction} {e : PyErr} (h : a.toBytes = .error e) : e = .structError := by
  unfold OfAction.toBytes at h
  cases h1 : pack [.u 2, .u 2] [.i a.type, .i a.len] with
  | error e' => rw [h1] at h; cases h; exact pack_error h1
  | ok x =>
    rw [h1, bind_ok] at h
    cases h2 : pack a.body.fmt a.body.vals with
    | error e' => rw [h2] at h; cases h; exact pack_error h2
    | ok y => rw [h2] at h; cases h

/-- **C159** is false of the code: output and enqueue actions to any reserved port of OpenFlow 1.3, the constructors'
default (`Any`) among them, raise `struct.error` when serialised, and so does a list of actions with one of them. -/
theorem of13_reserved_port_violated (p : Nat) (hp : p ∈ of13Ports) (q : Int) :
    (actOutput p).toBytes = .error .structError ∧ (actEnqueue p q).toBytes = .error .structError ∧
    ∀ as, (actOutput p ∈ as ∨ actEnqueue p q ∈ as) → ∃ e, joinActions as = .error e := by
  have : ∀ p ∈ of13Ports, 65536 ≤ p := by decide
  have hp := this p hp
  have key : ∀ a : OfAction, (a = actOutput p ∨ a = actEnqueue p q) → a.toBytes = .error .structError := by
    intro a h
    cases hb : a.toBytes with
    | error e => rw [action_error hb]
    | ok b =>
      have h1 := (of13_action_port_partial p q).1
      have h2 := (of13_action_port_partial p q).2
      rcases h with rfl | rfl
      · have := h1.mp ⟨b, hb⟩; omega
      · have := h2.mp ⟨b, hb⟩; omega
  refine ⟨key _ (.inl rfl), key _ (.inr rfl), fun as h => ?_⟩
  induction as with
  | nil => simp at h
  | cons a as ih =>
    unfold joinActions
    cases hb : a.toBytes with
    | error e => exact ⟨e, rfl⟩
    | ok b =>
      have : ∃ e, joinActions as = .error e := by
        apply ih
        rcases h with h | h
        · rcases List.mem_cons.mp h with h | h
          · rw [key a (.inl h.symm)] at hb; cases hb
          · exact .inl h
        · rcases List.mem_cons.mp h with h | h
          · rw [key a (.inr h.symm)] at hb; cases hb
          · exact .inr h
      obtain ⟨e, he⟩ := this
      exact ⟨e, by rw [bind_ok, he]; rfl⟩

example : of13Any ∈ of13Ports := by decide
example : ∃ b, (actOutput 3).toBytes = .ok b := (of13_action_port_partial 3 0).1.mpr (by decide)

end SY.Props
