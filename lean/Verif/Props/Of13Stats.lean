import Verif.Of13Stats
import Verif.Props.Of13
import Verif.Props.OfStats

/-! # C213: statistics of OpenFlow 1.3 -/

namespace SY.Props

/-- What an object that cannot be serialised keeps, whatever a program assigns. -/
def Dead : StatsBody → Prop
  | .flowReq _ _ _ | .flow _ | .table _ => True
  | .portReq p => p = of13Any
  | .queueReq p _ => p = of13Any
  | _ => False

/-- Classes that need none of the missing names to serialise. -/
def Alive : StatsBody → Prop
  | .empty | .vendorReq _ _ | .desc _ _ _ _ _ | .aggregate _ _ _ | .port _ | .queue _ _ _ _ _ | .vendor _ _ => True
  | _ => False

theorem type_apply13 {names : Bool} {s s' : OfStats} {o : Stats13Op} (h : s.type ∈ ofStatsTypes)
    (e : s.apply13 names o = .ok s') : s'.type ∈ ofStatsTypes := by
  cases o <;> simp only [OfStats.apply13, bind_eq_ok, Except.ok.injEq] at e
  case type v =>
    obtain ⟨t, ht, rfl⟩ := e
    exact enumOf_mem ht
  all_goals first
    | (subst e; exact h)
    | (obtain ⟨_, _, rfl⟩ := e; exact h)

theorem type_applyAll13 {names : Bool} {s : OfStats} (h : s.type ∈ ofStatsTypes) (os : List Stats13Op) :
    (s.applyAll13 names os).type ∈ ofStatsTypes := by
  induction os generalizing s with
  | nil => exact h
  | cons o os ih =>
    unfold OfStats.applyAll13
    split
    · rename_i e
      exact ih (type_apply13 h e)
    · exact ih h

/-- Something that a statement does not change remains after all. -/
theorem keeps_applyAll13 {P : StatsBody → Prop} (hP : ∀ s s' o, P s.body → OfStats.apply13 false s o = .ok s' → P s'.body)
    {s : OfStats} (h : P s.body) (os : List Stats13Op) : P (s.applyAll13 false os).body := by
  induction os generalizing s with
  | nil => exact h
  | cons o os ih =>
    unfold OfStats.applyAll13
    split
    · rename_i e
      exact ih (hP _ _ _ h e)
    · exact ih h

/-- The exception that serialising an object raises, by its class. -/
def deadErr : StatsBody → PyErr
  | .portReq _ | .queueReq _ _ => .structError
  | _ => .nameError

theorem dead_apply (x : PyErr) (s s' : OfStats) (o : Stats13Op) (h : Dead s.body ∧ deadErr s.body = x)
    (e : OfStats.apply13 false s o = .ok s') : Dead s'.body ∧ deadErr s'.body = x := by
  obtain ⟨t, b⟩ := s
  cases o <;> simp only [OfStats.apply13, bind_eq_ok, Except.ok.injEq] at e
  case num a v =>
    subst e
    cases b <;> cases a <;> exact h
  case port v =>
    cases b <;> simp only [StatsBody.setPort, bound, Bool.false_eq_true, if_false, bind_eq_ok, Except.ok.injEq, reduceCtorEq,
      false_and, exists_false, exists_eq_left'] at e <;> first | exact h.1.elim | (subst e; exact h)
  case outPort v =>
    cases b <;> simp only [StatsBody.setOutPort, bound, Bool.false_eq_true, if_false, bind_eq_ok, Except.ok.injEq, reduceCtorEq,
      false_and, exists_false, exists_eq_left'] at e <;> first | exact h.1.elim | (subst e; exact h)
  case text a v =>
    subst e
    cases b <;> cases a <;> exact h
  case action a =>
    cases b <;> simp only [StatsBody.addAction, Except.ok.injEq, reduceCtorEq,
      false_and, exists_false, exists_eq_left'] at e <;> first | exact h.1.elim | (subst e; exact h)
  case wildcard a =>
    obtain ⟨b', hb, rfl⟩ := e
    cases b <;> simp only [StatsBody.addWildcard, bind_eq_ok, Except.ok.injEq, reduceCtorEq] at hb
    obtain ⟨w, _, rfl⟩ := hb
    exact h
  case noWildcard a =>
    cases b <;> simp only [StatsBody.mapWildcards, Except.ok.injEq, reduceCtorEq,
      false_and, exists_false, exists_eq_left'] at e <;> first | exact h.1.elim | (subst e; exact h)
  case resetWildcards =>
    cases b <;> simp only [StatsBody.mapWildcards, Except.ok.injEq, reduceCtorEq,
      false_and, exists_false, exists_eq_left'] at e <;> first | exact h.1.elim | (subst e; exact h)
  case allWildcards =>
    cases b <;> simp only [StatsBody.mapWildcards, Except.ok.injEq, reduceCtorEq,
      false_and, exists_false, exists_eq_left'] at e <;> first | exact h.1.elim | (subst e; exact h)
  case type v =>
    obtain ⟨_, _, rfl⟩ := e
    exact h
  case data v =>
    subst e
    cases b <;> exact h
  case mtch m =>
    subst e
    cases b <;> exact h

theorem stats_header {t : Nat} (h : t ∈ ofStatsTypes) : pack [.u 2, .u 2] [.i t, .i 0] = .ok (beEnc 2 t ++ [0, 0]) := by
  have : ∀ v ∈ ofStatsTypes, v < 65536 := by decide
  have := this t h
  rw [pack.eq_4, if_pos (by constructor <;> simp; omega)]
  rfl

theorem pack_not {fs : List Fld} {vs : List Val} (h : ¬ Gives (pack fs vs)) : pack fs vs = .error .structError := by
  cases e : pack fs vs with
  | ok b => exact absurd ⟨b, e⟩ h
  | error x => rw [pack_error e]

theorem dead_toBytes {s : OfStats} (ht : s.type ∈ ofStatsTypes) (h : Dead s.body) :
    s.toBytes13 false = .error (deadErr s.body) := by
  obtain ⟨t, b⟩ := s
  unfold OfStats.toBytes13
  rw [stats_header ht, bind_ok]
  cases b <;> first | exact h.elim | skip
  case flowReq => rfl
  case flow => rfl
  case table => rfl
  case portReq p =>
    have hp : p = of13Any := h
    show (pack [.u 2, .x 6] [.i (p : Nat)] >>= _) = _
    rw [pack_not (by rw [pack_u, hp]; exact fun h => absurd h.1 (by decide))]
    rfl
  case queueReq p q =>
    have hp : p = of13Any := h
    show (pack [.u 2, .x 2, .u 4] [.i (p : Nat), .i q] >>= _) = _
    rw [pack_not (by rw [pack_u, hp]; exact fun h => absurd h.1 (by decide))]
    rfl

/-- **C213** is false of the code: whatever a program does with a request for flows, aggregate flows, a port or a queue, or with a
reply about a flow or a table, after it was made, it cannot be serialised. -/
theorem stats13_unserialisable_violated (c : StatsCls) (s : OfStats) (hs : c.new = some s)
    (hc : c ∈ [⟨false, 1⟩, ⟨false, 2⟩, ⟨false, 4⟩, ⟨false, 5⟩, ⟨true, 1⟩, ⟨true, 3⟩]) (ops : List Stats13Op) :
    (s.applyAll13 false ops).toBytes13 false = .error (if c.type = 4 ∨ c.type = 5 then .structError else .nameError) := by
  have h : s.type ∈ ofStatsTypes ∧ Dead s.body ∧ deadErr s.body = if c.type = 4 ∨ c.type = 5 then .structError else .nameError := by
    simp only [List.mem_cons, List.not_mem_nil, or_false] at hc
    rcases hc with rfl | rfl | rfl | rfl | rfl | rfl <;> cases hs <;>
      exact ⟨by decide, by first | trivial | rfl, rfl⟩
  have k := keeps_applyAll13 (P := fun b => Dead b ∧ deadErr b = if c.type = 4 ∨ c.type = 5 then .structError else .nameError)
    (fun s s' o h e => dead_apply _ s s' o h e) h.2 ops
  rw [dead_toBytes (type_applyAll13 h.1 ops) k.1, k.2]

/-- A new port request, a port assigned to it. -/
example : ((⟨4, .portReq of13Any⟩ : OfStats).applyAll13 false [.port 3, .type 5]) = ⟨5, .portReq of13Any⟩ := by decide

/-! ## The other classes -/

/-- The values fit into their fields. -/
def StatsFit : StatsBody → Prop
  | .vendorReq v _ | .vendor v _ => 0 ≤ v ∧ v < 2 ^ 32
  | .aggregate b p n => Count b ∧ Count p ∧ 0 ≤ n ∧ n < 2 ^ 32
  | .port p => (0 ≤ p.port ∧ p.port < 2 ^ 16) ∧ ∀ v ∈ [p.rxPackets, p.txPackets, p.rxBytes, p.txBytes, p.rxDropped, p.txDropped,
      p.rxErrors, p.txErrors, p.rxFrame, p.rxOver, p.rxCrc, p.collisions], Count v
  | .queue p q b n e => (0 ≤ p ∧ p < 2 ^ 16) ∧ (0 ≤ q ∧ q < 2 ^ 32) ∧ Count b ∧ Count n ∧ Count e
  | _ => True

theorem pack_s (n : Nat) (fs : List Fld) (v : Bytes) (vs : List Val) :
    Gives (pack (.s n :: fs) (.b v :: vs)) ↔ Gives (pack fs vs) := by
  rw [pack]
  cases pack fs vs with
  | ok b => exact ⟨fun _ => ⟨_, rfl⟩, fun _ => ⟨_, rfl⟩⟩
  | error e => exact ⟨fun ⟨_, h⟩ => (nomatch h), fun ⟨_, h⟩ => (nomatch h)⟩

theorem alive_apply (s s' : OfStats) (o : Stats13Op) (h : Alive s.body) (e : OfStats.apply13 false s o = .ok s') :
    Alive s'.body := by
  obtain ⟨t, b⟩ := s
  cases o <;> simp only [OfStats.apply13, bind_eq_ok, Except.ok.injEq] at e
  case num a v =>
    subst e
    cases b <;> cases a <;> exact h
  case port v =>
    cases b <;> simp only [StatsBody.setPort, bound, Bool.false_eq_true, if_false, bind_eq_ok, Except.ok.injEq, reduceCtorEq,
      false_and, exists_false, exists_eq_left'] at e <;> first | exact h.elim | (subst e; exact h)
  case outPort v =>
    cases b <;> simp only [StatsBody.setOutPort, bound, Bool.false_eq_true, if_false, bind_eq_ok, Except.ok.injEq, reduceCtorEq,
      false_and, exists_false, exists_eq_left'] at e <;> first | exact h.elim | (subst e; exact h)
  case text a v =>
    subst e
    cases b <;> cases a <;> exact h
  case action a =>
    obtain ⟨b', hb, rfl⟩ := e
    cases b <;> first | exact h.elim | (simp only [StatsBody.addAction, reduceCtorEq] at hb)
  case wildcard a =>
    obtain ⟨b', hb, rfl⟩ := e
    cases b <;> first | exact h.elim | (simp only [StatsBody.addWildcard, reduceCtorEq] at hb)
  case noWildcard a =>
    obtain ⟨b', hb, rfl⟩ := e
    cases b <;> first | exact h.elim | (simp only [StatsBody.mapWildcards, reduceCtorEq] at hb)
  case resetWildcards =>
    obtain ⟨b', hb, rfl⟩ := e
    cases b <;> first | exact h.elim | (simp only [StatsBody.mapWildcards, reduceCtorEq] at hb)
  case allWildcards =>
    obtain ⟨b', hb, rfl⟩ := e
    cases b <;> first | exact h.elim | (simp only [StatsBody.mapWildcards, reduceCtorEq] at hb)
  case type v =>
    obtain ⟨_, _, rfl⟩ := e
    exact h
  case data v =>
    subst e
    cases b <;> exact h
  case mtch m =>
    subst e
    cases b <;> exact h

theorem alive_gives {s : OfStats} (ht : s.type ∈ ofStatsTypes) (h : Alive s.body) :
    Gives (s.toBytes13 false) ↔ StatsFit s.body := by
  obtain ⟨t, b⟩ := s
  unfold OfStats.toBytes13
  rw [stats_header ht, bind_ok, returns_then (fun a => returns_ok _)]
  cases b <;> first | exact h.elim | skip
  case empty => exact ⟨fun _ => trivial, fun _ => ⟨_, rfl⟩⟩
  case vendorReq v d =>
    show Gives (pack [.u 4] [.i v] >>= fun h => .ok (h ++ d)) ↔ _
    rw [returns_then (fun a => returns_ok _)]
    simp only [pack_u, pack_nil, and_true, StatsFit]
    rfl
  case vendor v d =>
    show Gives (pack [.u 4] [.i v] >>= fun h => .ok (h ++ d)) ↔ _
    rw [returns_then (fun a => returns_ok _)]
    simp only [pack_u, pack_nil, and_true, StatsFit]
    rfl
  case desc a b c x d =>
    show Gives (pack [.s 256, .s 256, .s 256, .s 32, .s 256] [.b a, .b b, .b c, .b x, .b d]) ↔ _
    simp only [pack_s, pack_nil, StatsFit]
  case aggregate b p n =>
    show Gives (pack [.u 8, .u 8, .u 4] [.i b, .i p, .i n]) ↔ _
    simp only [pack_u, pack_nil, and_true, StatsFit, Count]
    rfl
  case port p =>
    show Gives (pack OfPortStats.fmt p.vals) ↔ _
    simp only [OfPortStats.fmt, OfPortStats.vals, pack_u, pack_x, pack_nil, and_true, StatsFit, Count, List.mem_cons, List.not_mem_nil,
      or_false, forall_eq_or_imp, forall_eq]
    rfl
  case queue p q b n e =>
    show Gives (pack [.u 2, .x 2, .u 4, .u 8, .u 8, .u 8] [.i p, .i q, .i b, .i n, .i e]) ↔ _
    simp only [pack_u, pack_x, pack_nil, and_true, StatsFit, Count]
    rfl

/-- **C213**, partial: an object of the other classes (requests for the description, tables or of a vendor; replies with the
description, an aggregate, a port, a queue or of a vendor) is serialised, after anything that a program does with it, exactly if its
values fit into their fields; otherwise `struct.error` is raised. -/
theorem stats13_serialised_partial (c : StatsCls) (s : OfStats) (hs : c.new = some s)
    (hc : c ∈ [⟨false, 0⟩, ⟨false, 3⟩, ⟨false, 0xffff⟩, ⟨true, 0⟩, ⟨true, 2⟩, ⟨true, 4⟩, ⟨true, 5⟩, ⟨true, 0xffff⟩])
    (ops : List Stats13Op) :
    ((∃ bs, (s.applyAll13 false ops).toBytes13 false = .ok bs) ↔ StatsFit (s.applyAll13 false ops).body) ∧
    (¬ StatsFit (s.applyAll13 false ops).body → (s.applyAll13 false ops).toBytes13 false = .error .structError) := by
  have h : s.type ∈ ofStatsTypes ∧ Alive s.body := by
    simp only [List.mem_cons, List.not_mem_nil, or_false] at hc
    rcases hc with rfl | rfl | rfl | rfl | rfl | rfl | rfl | rfl <;> cases hs <;> exact ⟨by decide, trivial⟩
  have k := keeps_applyAll13 alive_apply h.2 ops
  have g := alive_gives (type_applyAll13 h.1 ops) k
  refine ⟨g, fun n => ?_⟩
  have ht := type_applyAll13 (names := false) h.1 ops
  generalize s.applyAll13 false ops = s' at *
  obtain ⟨t, b⟩ := s'
  have key : ∀ r : Res Bytes, (∀ e, r = .error e → e = .structError) → ¬ Gives r → r = .error .structError := fun r h n => by
    cases r with
    | ok x => exact absurd ⟨x, rfl⟩ n
    | error e => rw [h e rfl]
  refine key _ (fun e he => ?_) (fun x => n (g.mp x))
  unfold OfStats.toBytes13 at he
  rw [stats_header ht, bind_ok] at he
  cases hb : StatsBody.toBytes13 false b with
  | ok x => simp only [hb] at he; cases he
  | error e' =>
    simp only [hb] at he
    cases he
    cases b <;> first | exact k.elim | exact pack_error hb | skip
    case empty => cases hb
    case vendorReq v d =>
      change (pack [.u 4] [.i v] >>= fun h => .ok (h ++ d)) = _ at hb
      cases hv : pack [.u 4] [.i v] with
      | ok x => rw [hv] at hb; cases hb
      | error x => rw [hv] at hb; cases hb; exact pack_error hv
    case vendor v d =>
      change (pack [.u 4] [.i v] >>= fun h => .ok (h ++ d)) = _ at hb
      cases hv : pack [.u 4] [.i v] with
      | ok x => rw [hv] at hb; cases hb
      | error x => rw [hv] at hb; cases hb; exact pack_error hv

/-- Counters of a queue that fit. -/
example : StatsFit ((⟨5, .queue 0 0 0 0 0⟩ : OfStats).applyAll13 false [.port 7, .num .txBytes (2 ^ 64 - 1), .num .queueId 9]).body := by
  show StatsFit (.queue 7 9 _ 0 0)
  simp [StatsFit, Count]

theorem toBytes13_alive {names : Bool} {b : StatsBody} (h : names = true ∨ Alive b) : b.toBytes13 names = b.toBytes := by
  rcases h with rfl | h
  · cases b <;> rfl
  · cases b <;> first | exact h.elim | rfl

theorem read13_alive {names : Bool} {c : StatsCls} {raw : Bytes} (h : names = true ∨ c ∉ [⟨false, 1⟩, ⟨false, 2⟩, ⟨false, 4⟩, ⟨false, 5⟩]) :
    c.read names raw = readStats c.reply c.type raw := by
  obtain ⟨r, t⟩ := c
  unfold StatsCls.read
  split
  case h_5 => rfl
  all_goals
    rename_i h1 h2
    cases h1
    cases h2
    rcases h with rfl | h
    · rfl
    · simp at h

/-- **C213**, partial: an object in range of a class that needs none of the missing names (or of any class, if the names were
bound) is serialised to the bytes of OpenFlow 1.0 and read back by its class. -/
theorem stats13_roundtrip_partial (names reply : Bool) (s : OfStats) (w : s.WF reply) (hl : statsLen s.body < 65536)
    (h : names = true ∨ Alive s.body) :
    ∃ bs, s.toBytes13 names = .ok bs ∧ s.toBytes = .ok bs ∧ bs.length = statsLen s.body ∧
      (StatsCls.mk reply s.type).fromBytes names bs = .ok s := by
  obtain ⟨t, b⟩ := s
  obtain ⟨bs, h1, h2, h3, h4⟩ := statsBody_roundtrip reply t b w hl
  obtain ⟨m1, m2⟩ := WF_type w
  have ht : t < 65536 := by
    have : ∀ v ∈ ofStatsTypes, v < 65536 := by decide
    exact this t m1
  have hr : names = true ∨ (StatsCls.mk reply t) ∉ [⟨false, 1⟩, ⟨false, 2⟩, ⟨false, 4⟩, ⟨false, 5⟩] := by
    refine h.imp id fun h => ?_
    cases b <;> first | exact h.elim | skip
    case empty => obtain ⟨rfl, rfl | rfl⟩ := w <;> decide
    all_goals (obtain ⟨rfl, rfl, _⟩ := w; decide)
  refine ⟨beEnc 2 t ++ [0, 0] ++ bs, ?_, ?_, ?_, ?_⟩
  · unfold OfStats.toBytes13
    rw [stats_header m1, bind_ok, toBytes13_alive h, h1]; rfl
  · unfold OfStats.toBytes
    rw [stats_header m1, bind_ok, h1]; rfl
  · simp only [List.length_append, length_beEnc, List.length_cons, List.length_nil]; omega
  · unfold StatsCls.fromBytes
    have l4 : (beEnc 2 t ++ [0, 0] : Bytes).length = 4 := by simp [length_beEnc]
    rw [if_neg (by simp only [List.length_append, length_beEnc, List.length_cons, List.length_nil]; omega), List.drop_left' l4,
      List.append_assoc, List.take_left' (length_beEnc 2 t), beDec_beEnc (by omega), enumOf_nat m1, bind_ok, read13_alive hr]
    simp only [h4]
    rfl

/-- A reply about an aggregate. -/
example : (OfStats.mk 2 (.aggregate 1000 10 2)).WF true ∧ Alive (.aggregate 1000 10 2) := by
  refine ⟨⟨rfl, rfl, ?_⟩, trivial⟩
  simp [Count]

/-! ## Reading requests -/

/-- **C213** is false of the code: requests for flows, aggregate flows, a port or a queue are not read from any bytes.  `NameError` is
raised for all that have the size of a port or queue request and a known type. -/
theorem stats13_requests_unread_violated (t : Nat) (ht : t ∈ [1, 2, 4, 5]) (raw : Bytes) :
    (∃ e, (StatsCls.mk false t).fromBytes false raw = .error e) ∧
    (t ∈ [4, 5] → raw.length = 12 → beDec (raw.take 2) ∈ ofStatsTypes →
      (StatsCls.mk false t).fromBytes false raw = .error .nameError) := by
  have key : ∀ r : Res OfStats, (∀ x, r ≠ .ok x) → ∃ e, r = .error e := fun r h => by
    cases r with
    | ok x => exact absurd rfl (h x)
    | error e => exact ⟨e, rfl⟩
  have f1 : ∀ raw b, readFlowReq13 false raw ≠ .ok b := fun raw b h => by
    obtain ⟨m, _, h⟩ := bind_eq_ok.mp h
    obtain ⟨fs, _, h⟩ := bind_eq_ok.mp h
    split at h <;> cases h
  have f2 : ∀ raw b, readPortReq13 false raw ≠ .ok b := fun raw b h => by
    obtain ⟨fs, _, h⟩ := bind_eq_ok.mp h
    split at h <;> cases h
  have f3 : ∀ raw b, readQueueReq13 false raw ≠ .ok b := fun raw b h => by
    obtain ⟨fs, _, h⟩ := bind_eq_ok.mp h
    split at h <;> cases h
  simp only [List.mem_cons, List.not_mem_nil, or_false] at ht
  refine ⟨key _ fun x h => ?_, fun h4 hl hk => ?_⟩
  · unfold StatsCls.fromBytes at h
    split at h
    · cases h
    · obtain ⟨n, _, h⟩ := bind_eq_ok.mp h
      obtain ⟨b, h, _⟩ := bind_eq_ok.mp h
      rcases ht with rfl | rfl | rfl | rfl
      · exact f1 _ _ h
      · exact f1 _ _ h
      · exact f2 _ _ h
      · exact f3 _ _ h
  · unfold StatsCls.fromBytes
    have ld : (raw.drop 4).length = 8 := by simp [hl]
    simp only [List.mem_cons, List.not_mem_nil, or_false] at h4
    rcases h4 with rfl | rfl
    · rw [if_neg (by simp [statsMinLen, hl]), enumOf_nat hk, bind_ok]
      show (readPortReq13 false (raw.drop 4) >>= _) = _
      unfold readPortReq13 unpack
      rw [if_pos (by rw [ld]; rfl)]
      rfl
    · rw [if_neg (by simp [statsMinLen, hl]), enumOf_nat hk, bind_ok]
      show (readQueueReq13 false (raw.drop 4) >>= _) = _
      unfold readQueueReq13 unpack
      rw [if_pos (by rw [ld]; rfl)]
      rfl

/-- The bytes that OpenFlow 1.0 writes for a request about port 3. -/
example : (OfStats.mk 4 (.portReq 3)).toBytes = .ok [0, 4, 0, 0, 0, 3, 0, 0, 0, 0, 0, 0] ∧
    (StatsCls.mk false 4).fromBytes false [0, 4, 0, 0, 0, 3, 0, 0, 0, 0, 0, 0] = .error .nameError := by decide +kernel

end SY.Props
