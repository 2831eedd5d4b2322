import Verif.OfMsg
import Verif.Props.OpenFlow

/-! # Parts of OpenFlow messages on the wire -/

namespace SY.Props

/-- Values in range are written and read back, with or without bytes behind them. -/
theorem packed {f : List Fld} {v : List Val} (h : Fits f v) :
    ∃ b, pack f v = .ok b ∧ b.length = calcsize f ∧ unpack f b = .ok v ∧
      ∀ r, unpack f ((b ++ r).take (calcsize f)) = .ok v ∧ (b ++ r).drop (calcsize f) = r := by
  obtain ⟨b, hb⟩ := pack_ok h
  exact ⟨b, hb, length_pack hb, unpack_pack h hb, fun r => unpack_take_append h hb r⟩

/-- What is packed with a longer format starts with what is packed with its first part. -/
theorem pack_split {f : List Fld} {v : List Val} (h : Fits f v) {g : List Fld} {w : List Val} {b : Bytes}
    (hb : pack (f ++ g) (v ++ w) = .ok b) : ∃ c d, pack f v = .ok c ∧ pack g w = .ok d ∧ b = c ++ d := by
  fun_induction Fits f v generalizing b with
  | case1 => exact ⟨[], b, rfl, hb, rfl⟩
  | case2 n fs vs ih =>
    rw [List.cons_append, pack_cons_x] at hb
    obtain ⟨x, hx, rfl⟩ := map_eq_ok.mp hb
    obtain ⟨c, d, h1, h2, rfl⟩ := ih h hx
    exact ⟨zeros n ++ c, d, by rw [pack_cons_x, h1]; rfl, h2, by simp⟩
  | case3 k fs x vs ih =>
    rw [List.cons_append, List.cons_append, pack.eq_4, if_pos h.1] at hb
    obtain ⟨y, hy, rfl⟩ := map_eq_ok.mp hb
    obtain ⟨c, d, h1, h2, rfl⟩ := ih h.2 hy
    exact ⟨beEnc k x.toNat ++ c, d, by rw [pack.eq_4, if_pos h.1, h1]; rfl, h2, by simp⟩
  | case4 n fs x vs ih =>
    rw [List.cons_append, List.cons_append, pack_cons_s h.1] at hb
    obtain ⟨y, hy, rfl⟩ := map_eq_ok.mp hb
    obtain ⟨c, d, h1, h2, rfl⟩ := ih h.2 hy
    exact ⟨x ++ c, d, by rw [pack_cons_s h.1, h1]; rfl, h2, by simp⟩
  | case5 => exact h.elim

/-! ## Flags -/

/-- A set of flags that a word of the wire can express: exactly the members all of whose bits are
set in some word. -/
def FlagSet (enum s : List Nat) : Prop := ∃ w : Nat, s = enum.filter fun v => v &&& w == v

theorem FlagSet.mem {enum s : List Nat} (h : FlagSet enum s) {v : Nat} (hv : v ∈ s) : v ∈ enum := by
  obtain ⟨w, rfl⟩ := h
  exact (List.mem_filter.mp hv).1

theorem FlagSet.read {enum s : List Nat} (h : FlagSet enum s) : unpackBitmap (makeBitmap s) enum = s := by
  obtain ⟨w, hw⟩ := h
  unfold unpackBitmap
  rw [hw]
  apply List.filter_congr
  intro v hv
  rw [Bool.eq_iff_iff, beq_iff_eq, beq_iff_eq, and_eq_self_iff, and_eq_self_iff]
  constructor
  · intro h k hk
    have hb := h k hk
    rw [testBit_makeBitmap, List.any_eq_true] at hb
    obtain ⟨u, hu, hk⟩ := hb
    have := (List.mem_filter.mp hu).2
    rw [beq_iff_eq, and_eq_self_iff] at this
    exact this k hk
  · intro h k hk
    rw [testBit_makeBitmap, List.any_eq_true]
    refine ⟨v, List.mem_filter.mpr ⟨hv, ?_⟩, hk⟩
    rw [beq_iff_eq, and_eq_self_iff]
    exact h

theorem FlagSet.lt {enum s : List Nat} (h : FlagSet enum s) (n : Nat) (he : ∀ v ∈ enum, v < 2 ^ n) :
    makeBitmap s < 2 ^ n := makeBitmap_lt _ _ fun v hv => he v (h.mem hv)

example : FlagSet ofPortConfig [0, 1, 4] := ⟨5, by decide⟩

/-! ## Ports -/

/-- A port description that the wire can express: the name fills its 16 bytes. -/
structure _root_.SY.OfPhyPort.WF (p : OfPhyPort) : Prop where
  num : 0 ≤ p.portnum ∧ p.portnum < 65536
  addr : p.hwaddr.raw.length = 6
  nameLen : p.name.length = 16
  nameText : utf8Valid p.name = true
  config : FlagSet ofPortConfig p.config
  state : FlagSet ofPortState p.state
  curr : FlagSet ofPortFeatures p.curr
  advertised : FlagSet ofPortFeatures p.advertised
  supported : FlagSet ofPortFeatures p.supported
  peer : FlagSet ofPortFeatures p.peer

theorem ofPortConfig_lt : ∀ v ∈ ofPortConfig, v < 2 ^ 32 := by decide
theorem ofPortState_lt : ∀ v ∈ ofPortState, v < 2 ^ 32 := by decide
theorem ofPortFeatures_lt : ∀ v ∈ ofPortFeatures, v < 2 ^ 32 := by decide

theorem phyPort_fits {p : OfPhyPort} (w : p.WF) : Fits OfPhyPort.fmt p.vals := by
  have h1 := w.config.lt 32 ofPortConfig_lt
  have h2 := w.state.lt 32 ofPortState_lt
  have h3 := w.curr.lt 32 ofPortFeatures_lt
  have h4 := w.advertised.lt 32 ofPortFeatures_lt
  have h5 := w.supported.lt 32 ofPortFeatures_lt
  have h6 := w.peer.lt 32 ofPortFeatures_lt
  have := w.num
  simp [Fits, OfPhyPort.fmt, OfPhyPort.vals, w.addr, w.nameLen]
  omega

/-- **C121**: a port description is written in 48 bytes and read back as itself, whatever follows. -/
theorem phyPort_roundtrip (p : OfPhyPort) (w : p.WF) :
    ∃ b, p.toBytes = .ok b ∧ b.length = 48 ∧ ∀ rest, OfPhyPort.fromBytes (b ++ rest) = .ok (p, rest) := by
  obtain ⟨b, h1, h2, _, h4⟩ := packed (phyPort_fits w)
  have h2 : b.length = 48 := h2
  refine ⟨b, h1, h2, fun rest => ?_⟩
  obtain ⟨h5, h6⟩ := h4 rest
  unfold OfPhyPort.fromBytes
  rw [if_neg (by simp [h2])]
  have h5 : unpack OfPhyPort.fmt ((b ++ rest).take 48) = .ok p.vals := h5
  have h6 : (b ++ rest).drop 48 = rest := h6
  rw [h5, h6]
  simp only [bind_ok, OfPhyPort.ofFields, OfPhyPort.vals, EthAddr.mk'_raw6 w.addr, if_pos w.nameText,
    Int.toNat_natCast, w.config.read, w.state.read, w.curr.read, w.advertised.read, w.supported.read, w.peer.read]

theorem pack_congr_u {w : Nat} {v : Int} {fs : List Fld} {vs vs' : List Val} (h : pack fs vs = pack fs vs') :
    pack (.u w :: fs) (.i v :: vs) = pack (.u w :: fs) (.i v :: vs') := by rw [pack.eq_4, pack.eq_4, h]

theorem pack_congr_s {n : Nat} {v : Bytes} {fs : List Fld} {vs vs' : List Val} (h : pack fs vs = pack fs vs') :
    pack (.s n :: fs) (.b v :: vs) = pack (.s n :: fs) (.b v :: vs') := by rw [pack.eq_5, pack.eq_5, h]

/-- **C121**: a shorter name is padded with zero bytes on the way, and they stay in it. -/
theorem phyPort_name_padded (p : OfPhyPort) :
    p.toBytes = { p with name := (p.name ++ zeros 16).take 16 }.toBytes := by
  have key : ∀ (G : List Fld) (W : List Val),
      pack (.s 16 :: G) (.b p.name :: W) = pack (.s 16 :: G) (.b ((p.name ++ zeros 16).take 16) :: W) := by
    intro G W
    rw [pack.eq_5, pack.eq_5]
    have : (p.name ++ zeros (16 - p.name.length)).take 16 = ((p.name ++ zeros 16).take 16 ++
        zeros (16 - ((p.name ++ zeros 16).take 16).length)).take 16 := by
      have e : ((p.name ++ zeros 16).take 16).length = 16 := by simp [zeros]
      rw [e]
      simp only [zeros, List.take_append, Nat.sub_self, List.replicate_zero, List.append_nil, List.take_replicate,
        List.length_take, List.take_take, List.length_append, List.length_replicate]
      simp
      omega
    rw [this]
  exact pack_congr_u (pack_congr_s (key _ _))

/-! ## Queues -/

/-- A queue description in range. -/
structure _root_.SY.OfQueue.WF (q : OfQueue) : Prop where
  id : 0 ≤ q.id ∧ q.id < 2 ^ 32
  rates : ∀ r ∈ q.rates, 0 ≤ r ∧ r < 65536

theorem minRate_roundtrip {r : Int} (h : 0 ≤ r ∧ r < 65536) :
    ∃ b, minRateToBytes r = .ok b ∧ b.length = 16 ∧ minRateFromBytes b = .ok r ∧
      ∀ rest, unpack [.u 2, .u 2] ((b ++ rest).take 4) = .ok [.i 1, .i 16] := by
  have hf : Fits [.u 2, .u 2, .x 4, .u 2, .x 6] [.i 1, .i 16, .i r] := by simp [Fits]; omega
  obtain ⟨b, h1, h2, h3, h4⟩ := packed hf
  have h2 : b.length = 16 := h2
  refine ⟨b, h1, h2, ?_, fun rest => ?_⟩
  · unfold minRateFromBytes
    rw [if_neg (by omega), List.take_of_length_le (by omega), h3]
    simp
  · have hg : Fits [.u 2, .u 2] [.i 1, .i 16] := by simp [Fits]
    obtain ⟨c, c1, c2, c3, c4⟩ := packed hg
    have : ∃ d, b = c ++ d := by
      obtain ⟨c', d, e1, _, e3⟩ := pack_split hg (g := [.x 4, .u 2, .x 6]) (w := [.i r]) h1
      rw [c1] at e1; cases e1
      exact ⟨d, e3⟩
    obtain ⟨d, rfl⟩ := this
    have := (c4 (d ++ rest)).1
    rw [List.append_assoc]
    exact this

theorem rates_roundtrip (rs : List Int) (h : ∀ r ∈ rs, 0 ≤ r ∧ r < 65536) :
    ∃ b, ratesToBytes rs = .ok b ∧ b.length = 16 * rs.length ∧
      ∀ n acc, rs.length < n → readRates n b acc = some (.ok (acc ++ rs)) := by
  induction rs with
  | nil =>
    refine ⟨[], rfl, rfl, fun n acc hn => ?_⟩
    cases n with
    | zero => simp at hn
    | succ n => simp [readRates]
  | cons r rs ih =>
    obtain ⟨b, h1, h2, h3⟩ := ih fun x hx => h x (List.mem_cons_of_mem _ hx)
    obtain ⟨a, a1, a2, a3, a4⟩ := minRate_roundtrip (h r List.mem_cons_self)
    refine ⟨a ++ b, by simp [ratesToBytes, a1, h1], by simp [a2, h2]; omega, fun n acc hn => ?_⟩
    cases n with
    | zero => simp at hn
    | succ n =>
      unfold readRates
      rw [if_neg (by intro e; have := congrArg List.length e; simp [a2] at this), a4 b]
      simp only [if_true, show (16 : Int).toNat = 16 from rfl]
      rw [List.take_left' a2, List.drop_left' a2, a3]
      simp only [h3 n (acc ++ [r]) (by simpa using hn), List.append_assoc, List.singleton_append]

/-- A queue description is written and read back as itself; the length field counts its bytes. -/
theorem queue_roundtrip (q : OfQueue) (w : q.WF) (hl : 8 + 16 * q.rates.length < 65536) :
    ∃ b, q.toBytes = .ok b ∧ b.length = 8 + 16 * q.rates.length ∧ OfQueue.fromBytes b = .ok q ∧
      ∀ rest, unpack [.u 4, .u 2] ((b ++ rest).take 6) = .ok [.i q.id, .i b.length] := by
  obtain ⟨r, r1, r2, r3⟩ := rates_roundtrip q.rates w.rates
  have hid := w.id
  have hf : Fits [.u 4, .u 2, .x 2] [.i q.id, .i (r.length + 8 : Nat)] := by simp [Fits]; omega
  have hg : Fits [.u 4, .u 2] [.i q.id, .i (r.length + 8 : Nat)] := by simp [Fits]; omega
  obtain ⟨h, h1, h2, h3, h4⟩ := packed hf
  obtain ⟨c, d, c1, _, e⟩ := pack_split hg (g := [.x 2]) (w := []) h1
  have h2 : h.length = 8 := h2
  refine ⟨h ++ r, by unfold OfQueue.toBytes; rw [r1]; simp only [bind_ok]; rw [h1]; rfl, by simp [h2, r2], ?_, fun rest => ?_⟩
  · unfold OfQueue.fromBytes
    rw [if_neg (by simp [h2]), List.take_left' h2, List.drop_left' h2, h3]
    simp only [bind_ok]
    rw [r3 _ _ (by simp; omega)]
    simp
  · have := (unpack_take_append hg c1 (d ++ r ++ rest)).1
    rw [e]
    simp only [List.append_assoc] at this ⊢
    rw [show (c ++ (d ++ r)).length = r.length + 8 by simp [← h2, e]; omega]
    exact this

/-- The bytes of a list of queue descriptions. -/
def queuesLen : List OfQueue → Nat
  | [] => 0
  | q :: qs => 8 + 16 * q.rates.length + queuesLen qs

theorem queues_roundtrip (qs : List OfQueue) (w : ∀ q ∈ qs, q.WF) (hl : queuesLen qs < 65536) :
    ∃ b, queuesToBytes qs = .ok b ∧ b.length = queuesLen qs ∧
      ∀ n acc, qs.length < n → readQueues n b acc = some (.ok (acc ++ qs)) := by
  induction qs with
  | nil =>
    refine ⟨[], rfl, rfl, fun n acc hn => ?_⟩
    cases n with
    | zero => simp at hn
    | succ n => simp [readQueues]
  | cons q qs ih =>
    simp only [queuesLen] at hl
    obtain ⟨b, h1, h2, h3⟩ := ih (fun x hx => w x (List.mem_cons_of_mem _ hx)) (by omega)
    obtain ⟨a, a1, a2, a3, a4⟩ := queue_roundtrip q (w q List.mem_cons_self) (by omega)
    refine ⟨a ++ b, by simp [queuesToBytes, a1, h1], by simp [a2, h2, queuesLen], fun n acc hn => ?_⟩
    cases n with
    | zero => simp at hn
    | succ n =>
      unfold readQueues
      rw [if_neg (by intro e; have := congrArg List.length e; simp [a2] at this), a4 b]
      simp only [Int.toNat_natCast]
      rw [List.take_left' rfl, List.drop_left' rfl, a3]
      simp only [h3 n (acc ++ [q]) (by simpa using hn), List.append_assoc, List.singleton_append]

/-! ## Bodies -/

/-- A port number, or one of the reserved ones. -/
def PortOk (p : Nat) : Prop := p < 0xff00 ∨ p ∈ ofPorts

theorem PortOk.lt {p : Nat} (h : PortOk p) : p < 65536 := by
  have : ∀ v ∈ ofPorts, v < 65536 := by decide
  rcases h with h | h
  · omega
  · exact this p h

theorem getPort_of_ok {p : Nat} (h : PortOk p) : getPort (p : Int) = .ok p := by
  unfold getPort
  by_cases hp : p ∈ ofPorts
  · rw [if_pos ⟨by omega, by simpa using hp⟩]; simp
  · rw [if_neg (by simpa using hp), if_pos (by rcases h with h | h; omega; exact absurd h hp)]; simp

/-- A match that survives the wire: no address is wildcarded, or everything is. -/
structure _root_.SY.OfMatch.Wire (m : OfMatch) : Prop where
  wf : m.WF
  wild : (SimpleSet m.wildcards ∧ m.nwSrcWild = 0 ∧ m.nwDstWild = 0) ∨
    (m.wildcards = [0x3fffff] ∧ m.nwSrcWild = 32 ∧ m.nwDstWild = 32)

theorem match_wire {m : OfMatch} (w : m.Wire) :
    ∃ b, m.toBytes = .ok b ∧ b.length = 40 ∧ OfMatch.fromBytes b = .ok (m, []) := by
  rcases w.wild with ⟨h1, h2, h3⟩ | ⟨h1, h2, h3⟩
  · simpa using of_match_roundtrip_partial m w.wf h1 h2 h3 []
  · simpa using of_match_all_roundtrip_partial m w.wf h1 h2 h3 []

/-- The bytes of a list of actions. -/
def actionsLen : List OfAction → Nat
  | [] => 0
  | a :: as => actWireLen a.body + actionsLen as

theorem actions_wire (as : List OfAction) (w : ∀ a ∈ as, a.WF) :
    ∃ b, joinActions as = .ok b ∧ b.length = actionsLen as ∧ unpackActions b = .ok as := by
  obtain ⟨b, h1, h2⟩ := actions_roundtrip_partial as w
  refine ⟨b, h1, ?_, h2⟩
  clear h2
  induction as generalizing b with
  | nil => cases h1; rfl
  | cons a as ih =>
    obtain ⟨x, hx, h1⟩ := bind_eq_ok.mp h1
    obtain ⟨y, hy, h1⟩ := bind_eq_ok.mp h1
    cases h1
    obtain ⟨x', e1, e2, _⟩ := action_roundtrip a (w a List.mem_cons_self)
    rw [hx] at e1; cases e1
    have := ih (fun a ha => w a (List.mem_cons_of_mem _ ha)) y hy
    rw [(w a List.mem_cons_self).len] at e2
    simp only [List.length_append, actionsLen, this]
    omega

end SY.Props
