import Verif.Props.Of13

/-! # Attributes of OpenFlow 1.3 messages, what is written for them, what is refused

What a program reads from a body is described by `attr13`; what its statements are for, by `effect13`. -/

namespace SY.Props

/-! ## Reading and assigning attributes -/

/-- The attributes of bodies that programs assign; `other` is everything else. -/
inductive Attr13
  | errorType | errorCode | data | experimenter | flags | missLen | bufferId | port | reason | packet | actions
  | queues | ports | mtch | auxid | other
  deriving DecidableEq, Repr

/-- What is read from an attribute; `unset` is what a constructor left there. -/
inductive Val13
  | unset
  | num (v : Int)
  | bytes (b : Bytes)
  | actions (as : List OfAction)
  | queues (qs : List OfQueue)
  | ports (ps : List Of13PhyPort)
  | physical (p : Of13PhyPort)
  | mtch (m : OfMatch)
  | body (b : Of13Body)
  deriving DecidableEq, Repr

/-- A number, or the plain zero of the constructor. -/
def numOr : Option Nat → Val13
  | none => .unset
  | some n => .num n

/-- Bytes, if there are any. -/
def bytesOr : Option Bytes → Val13
  | none => .unset
  | some b => .bytes b

/-- What a program reads: `none` if the body has no such attribute. -/
def attr13 : Of13Body → Attr13 → Option Val13
  | .error t _ _, .errorType => some (numOr t)
  | .error _ c _, .errorCode => some (numOr c)
  | .error _ _ d, .data => some (.bytes d)
  | .echo d, .data => some (.bytes d)
  | .experimenter _ d, .data => some (.bytes d)
  | .experimenter v _, .experimenter => some (.num v)
  | .features f, .ports => some (.ports f.ports)
  | .features f, .auxid => some (.num f.auxid)
  | .features f, .other => some (.body (.features { f with ports := [], auxid := 0 }))
  | .config f _, .flags => some (.num f)
  | .config _ m, .missLen => some (.num m)
  | .packetIn b _ _ _, .bufferId => some (.num b)
  | .packetIn _ p _ _, .port => some (.num p)
  | .packetIn _ _ r _, .reason => some (.num r)
  | .packetIn _ _ _ d, .packet => some (.bytes d)
  | .flowRemoved f, .reason => some (.num f.reason)
  | .flowRemoved f, .mtch => some (.mtch f.mtch)
  | .flowRemoved f, .other => some (.body (.flowRemoved { f with reason := 0, mtch := .default }))
  | .portStatus r _, .reason => some (.num r)
  | .portStatus _ p, .ports => some (.physical p)
  | .packetOut b _ _ _, .bufferId => some (.num b)
  | .packetOut _ p _ _, .port => some (.num p)
  | .packetOut _ _ as _, .actions => some (.actions as)
  | .packetOut _ _ _ d, .packet => some (bytesOr d)
  | .flowMod f, .bufferId => some (.num f.bufferId)
  | .flowMod f, .actions => some (.actions f.actions)
  | .flowMod f, .mtch => some (.mtch f.mtch)
  | .flowMod f, .other => some (.body (.flowMod { f with bufferId := 0, actions := [], mtch := .default }))
  | .portMod p _ _ _ _, .port => some (.num p)
  | .portMod _ a c m ad, .other => some (.body (.portMod 0 a c m ad))
  | .queueReq p, .port => some (.num p)
  | .queueReply p _, .port => some (.num p)
  | .queueReply _ qs, .queues => some (.queues qs)
  | _, _ => none

/-- Which attribute a statement is about, and what the attribute is afterwards, given what it was. -/
def effect13 : Of13Op → Attr13 × (Val13 → Val13)
  | .errorType v => (.errorType, fun _ => .num v)
  | .errorCode v => (.errorCode, fun _ => .num v)
  | .data b => (.data, fun _ => .bytes b)
  | .experimenter v => (.experimenter, fun _ => .num v)
  | .flags v => (.flags, fun _ => .num v)
  | .missLen v => (.missLen, fun _ => .num v)
  | .bufferId v => (.bufferId, fun _ => .num v)
  | .port v => (.port, fun _ => .num v)
  | .reason v => (.reason, fun _ => .num v)
  | .packet b => (.packet, fun _ => .bytes b)
  | .action a => (.actions, fun | .actions as => .actions (as ++ [a]) | x => x)
  | .queue q => (.queues, fun | .queues qs => .queues (qs ++ [q]) | x => x)
  | .physical p => (.ports, fun | .ports ps => .ports (ps ++ [p]) | _ => .physical p)
  | .mtch m => (.mtch, fun _ => .mtch m)
  | .auxid v => (.auxid, fun _ => .num v)

/-- The attributes after a statement that was carried out. -/
def After13 (o : Of13Op) (b b' : Of13Body) : Prop :=
  ∀ a, attr13 b' a = if a = (effect13 o).1 then (attr13 b a).map (effect13 o).2 else attr13 b a

theorem enumOf_eq {tbl : List Nat} {v : Int} {t : Nat} (h : enumOf tbl v = .ok t) : (t : Int) = v := by
  unfold enumOf at h
  split at h
  · rename_i e; cases h; have := e.1; omega
  · cases h

theorem getPort_eq {v : Int} {p : Nat} (h : getPort v = .ok p) : (p : Int) = v := by
  unfold getPort at h
  split at h
  · rename_i e; cases h; have := e.1; omega
  · split at h
    · rename_i e; cases h; have := e.1; omega
    · cases h

theorem bound_ok {α : Type} {names : Bool} {r : Res α} {a : α} (h : bound names r = .ok a) : names = true ∧ r = .ok a := by
  unfold bound at h
  split at h
  · rename_i e; exact ⟨e, h⟩
  · cases h

/-- **C164**: a statement that is carried out changes the attribute it is about, to the value assigned (or to the list
with the new element at its end), and no other; a body that has no such attribute is unchanged. -/
theorem of13_assigned (names : Bool) (b b' : Of13Body) (o : Of13Op) (h : b.apply names o = .ok b') : After13 o b b' := by
  intro a
  cases b <;> cases o <;> simp only [Of13Body.apply, bind_eq_ok, Except.ok.injEq, reduceCtorEq] at h <;>
    first
    | (subst h; cases a <;> rfl)
    | (obtain ⟨x, hx, rfl⟩ := h
       cases enumOf_eq hx
       cases a <;> rfl)
    | (obtain ⟨x, hx, rfl⟩ := h
       cases getPort_eq (bound_ok hx).2
       cases a <;> rfl)
    | (cases (bound_ok h).2)

/-- What is written in the OpenFlow 1.0 specification about the codes of each type of error (5.4.4): how many there are. -/
def codeCount : Nat → Nat
  | 0 => 2
  | 1 => 9
  | 2 => 9
  | 3 => 6
  | 4 => 2
  | 5 => 3
  | _ => 0

/-- The statements that raise an exception. -/
def Refused13 : Of13Body → Of13Op → Prop
  | .error _ _ _, .errorType v => ¬ (0 ≤ v ∧ v ≤ 5)
  | .error t _ _, .errorCode v => ¬ (0 ≤ v ∧ v < codeCount (t.getD 0))
  | .config _ _, .flags v => ¬ (0 ≤ v ∧ v ≤ 3)
  | .flowMod _, .flags _ => True
  | .packetIn _ _ _ _, .port _ => True
  | .packetOut _ _ _ _, .port _ => True
  | .queueReq _, .port _ => True
  | .queueReply _ _, .port _ => True
  | .portStatus _ _, .port _ => True
  | .packetIn _ _ _ _, .reason v => v ≠ 0 ∧ v ≠ 1 ∧ v ≠ 255
  | .portStatus _ _, .reason v => v ≠ 0 ∧ v ≠ 1 ∧ v ≠ 2
  | .flowRemoved _, .reason v => v ≠ 0 ∧ v ≠ 1 ∧ v ≠ 2 ∧ v ≠ 255
  | .packetOut _ _ _ _, .action _ => False
  | .flowMod _, .action _ => False
  | _, .action _ => True
  | .queueReply _ _, .queue _ => False
  | _, .queue _ => True
  | .features _, .physical _ => False
  | .portStatus _ _, .physical _ => False
  | _, .physical _ => True
  | _, _ => False

theorem enumOf_refused {β : Type} {tbl : List Nat} {v : Int} {f : Nat → Res β} (hf : ∀ n, Gives (f n)) :
    (∃ e, (enumOf tbl v >>= f) = .error e) ↔ ¬ (0 ≤ v ∧ v.toNat ∈ tbl) := by
  unfold enumOf
  by_cases h : 0 ≤ v ∧ v.toNat ∈ tbl
  · rw [if_pos h]
    obtain ⟨x, hx⟩ := hf v.toNat
    exact ⟨fun ⟨e, he⟩ => (by rw [bind_ok, hx] at he; cases he), fun e => absurd h e⟩
  · rw [if_neg h]
    exact ⟨fun _ => h, fun _ => ⟨_, rfl⟩⟩

theorem errorCodes_count (t : Nat) : ((ofErrorCodes t).getD []) = List.range (codeCount t) := by
  match t with
  | 0 | 1 | 2 | 3 | 4 | 5 => rfl
  | n + 6 => rfl

/-- **C164**: the statements that raise are exactly these: values outside an enumeration, and attributes without a setter.
(The ports of packet messages and of queue messages are among them: their setters use a name that does not exist.) -/
theorem of13_refused_partial (b : Of13Body) (o : Of13Op) : (∃ e, b.apply false o = .error e) ↔ Refused13 b o := by
  have no {α : Type} (x : α) (P : Prop) (h : ¬ P) : (∃ e, (.ok x : Res α) = .error e) ↔ P :=
    ⟨fun ⟨_, e⟩ => (nomatch e), fun p => absurd p h⟩
  have yes {α : Type} (e : PyErr) (P : Prop) (h : P) : (∃ e', (.error e : Res α) = .error e') ↔ P :=
    ⟨fun _ => h, fun _ => ⟨e, rfl⟩⟩
  have toNat {v : Int} {n : Nat} : 0 ≤ v ∧ v.toNat = n ↔ v = n := by omega
  cases b <;> cases o <;>
    first
    | exact no _ _ id
    | exact yes _ _ trivial
    | (simp only [Of13Body.apply, Refused13]
       rw [enumOf_refused (fun n => returns_ok _)]
       simp only [errorCodes_count, ofConfigFlags, ofInReasons, ofStatusReasons, ofRemovedReasons, List.mem_range,
         List.mem_cons, List.not_mem_nil, or_false]
       omega)

theorem applyAll_append (names : Bool) (b : Of13Body) (os : List Of13Op) (o : Of13Op) :
    b.applyAll names (os ++ [o]) = match (b.applyAll names os).apply names o with
      | .ok b' => b'
      | .error _ => b.applyAll names os := by
  induction os generalizing b with
  | nil =>
    simp only [List.nil_append, Of13Body.applyAll]
    cases b.apply names o <;> rfl
  | cons p os ih =>
    simp only [List.cons_append, Of13Body.applyAll]
    cases b.apply names p <;> exact ih _

/-- **C164**: so after any program, with one more statement the attributes are those of before, but the one the statement
is about; a statement that raises changes nothing. -/
theorem of13_last_assigned_partial (b : Of13Body) (os : List Of13Op) (o : Of13Op) :
    (Refused13 (b.applyAll false os) o → b.applyAll false (os ++ [o]) = b.applyAll false os) ∧
    (¬ Refused13 (b.applyAll false os) o → After13 o (b.applyAll false os) (b.applyAll false (os ++ [o]))) := by
  rw [applyAll_append]
  constructor
  · intro h
    obtain ⟨e, he⟩ := (of13_refused_partial _ _).mpr h
    rw [he]
  · intro h
    cases hb : (b.applyAll false os).apply false o with
    | error e => exact absurd ((of13_refused_partial _ _).mp ⟨e, hb⟩) h
    | ok b' => exact of13_assigned _ _ _ _ hb

example : attr13 ((Of13Body.packetIn 7 3 1 []).applyAll false [.packet [1, 2], .reason 9, .port 4, .bufferId 8]) .reason =
    some (.num 1) := rfl
example : attr13 ((Of13Body.packetIn 7 3 1 []).applyAll false [.packet [1, 2], .reason 0, .port 4, .bufferId 8]) .packet =
    some (.bytes [1, 2]) := rfl
example : ¬ Refused13 (.error (some 3) none []) (.errorCode 5) := fun h => h ⟨by decide, by decide⟩
example : Refused13 (.error (some 4) none []) (.errorCode 5) := by rintro ⟨_, h⟩; exact absurd h (by decide)

/-- **C164** is false of the code: the port of a packet-in, a packet-out or a queue message is never what is assigned to
it: the assignment raises, for every port. -/
theorem of13_port_assign_violated (b : Of13Body) (v : Int)
    (hb : (∃ i p r d, b = .packetIn i p r d) ∨ (∃ i p as d, b = .packetOut i p as d) ∨ (∃ p, b = .queueReq p) ∨
      ∃ p qs, b = .queueReply p qs) :
    b.apply false (.port v) = .error .nameError ∧ b.applyAll false [.port v] = b := by
  rcases hb with ⟨_, _, _, _, rfl⟩ | ⟨_, _, _, _, rfl⟩ | ⟨_, rfl⟩ | ⟨_, _, rfl⟩ <;> exact ⟨rfl, rfl⟩

/-! ## Messages as built -/

/-- The bytes of the bodies that are there, and can be written, when a message has been built: a queue message has its
port, a configuration has length 1500, the others are empty or zero. -/
def builtWire (port : Int) (t : Nat) : Option Bytes :=
  if t ∈ [1, 6, 10, 11, 12, 13, 14, 16] then none
  else if t = 4 then some [0, 0, 0, 0]
  else if t = 8 ∨ t = 9 then some [0, 0, 5, 220]
  else if t = 22 then some (w2 port ++ [0, 0])
  else if t = 23 then some (w2 port ++ [0, 0, 0, 0, 0, 0])
  else some []

theorem pack_eq_lay {f : List Fld} {v : List Val} (h : Gives (pack f v)) : pack f v = .ok (lay f v) := by
  obtain ⟨b, hb⟩ := h
  rw [hb, pack_lay hb]

/-- **C157**, partial: exactly these messages can be serialised as they are built, and their bytes are these. -/
theorem of13_built_partial (t : Nat) (ht : t < 30) (port xid version : Int) (hp : 0 ≤ port ∧ port < 65536)
    (hx : 0 ≤ xid ∧ xid < 2 ^ 32) (hv : 0 ≤ version ∧ version < 256) :
    match builtWire port t with
    | some w => ∃ m, (Of13Msg.build (.member t) port xid version).toBytes false =
        .ok (m, w1 version ++ w1 t ++ w2 (8 + w.length : Nat) ++ w4 xid ++ w)
    | none => ∃ e, (Of13Msg.build (.member t) port xid version).toBytes false = .error e := by
  have fin (b : Option Of13Body) (w : Bytes) (hb : Of13Body.fresh port t = b) (hw : body13Bytes false b = .ok w)
      (hl : w.length ≤ 8) :
      ∃ m, (Of13Msg.build (.member t) port xid version).toBytes false =
        .ok (m, w1 version ++ w1 t ++ w2 (8 + w.length : Nat) ++ w4 xid ++ w) := by
    have hpk : Gives (pack OfHeader.fmt [.i version, .i t, .i ((w ++ []).length + 8 : Nat), .i xid]) := by
      simp only [OfHeader.fmt, pack_u, pack_nil, List.append_nil, and_true]
      omega
    refine ⟨⟨version, .member t, ((w ++ []).length + 8 : Nat), xid, b, []⟩, ?_⟩
    unfold Of13Msg.toBytes Of13Msg.build
    simp only [TypeArg.num, TypeArg.value, Int.natCast_nonneg, if_true, Int.toNat_natCast, hb, hw, bind_ok]
    rw [pack_eq_lay hpk]
    simp [lay, OfHeader.fmt, w1, w2, w4, Nat.add_comm]
  have bad (b : Of13Body) (e : PyErr) (hb : Of13Body.fresh port t = some b) (hw : b.toBytes false = .error e) :
      ∃ e, (Of13Msg.build (.member t) port xid version).toBytes false = .error e := by
    refine ⟨e, ?_⟩
    unfold Of13Msg.toBytes Of13Msg.build
    simp only [TypeArg.num, Int.natCast_nonneg, if_true, Int.toNat_natCast, hb, body13Bytes, hw]
    rfl
  have p22 : (Of13Body.queueReq port).toBytes false = .ok (w2 port ++ [0, 0]) := by
    simp only [Of13Body.toBytes]
    rw [pack_eq_lay (by simp only [pack_u, pack_x, pack_nil, and_true]; omega)]
    rfl
  have p23 : (Of13Body.queueReply port []).toBytes false = .ok (w2 port ++ [0, 0, 0, 0, 0, 0]) := by
    simp only [Of13Body.toBytes]
    rw [pack_eq_lay (by simp only [pack_u, pack_x, pack_nil, and_true]; omega)]
    simp [lay, zeros, queuesToBytes, w2]
  match t, ht with
  | 1, _ | 6, _ | 10, _ | 11, _ | 12, _ | 13, _ | 14, _ | 16, _ => exact bad _ _ rfl rfl
  | 22, _ => exact fin _ _ rfl p22 (by simp [w2, length_beEnc])
  | 23, _ => exact fin _ _ rfl p23 (by simp [w2, length_beEnc])
  | 0, _ | 2, _ | 3, _ | 4, _ | 5, _ | 7, _ | 8, _ | 9, _ | 15, _ | 17, _ | 18, _ | 19, _ | 20, _ | 21, _ | 24, _ | 25, _
  | 26, _ | 27, _ | 28, _ | 29, _ => exact fin _ _ rfl rfl (by decide)
  | n + 30, h => exact absurd h (by omega)

example : builtWire 0 0 = some [] ∧ builtWire 5 22 = some [0, 5, 0, 0] ∧ builtWire 0 10 = none := by decide

/-- **C157** is false of the code for error messages as they are built, whatever data is given to them: a type and a code
must be assigned, although both read as 0. -/
theorem of13_error_unset_violated (ops : List Of13Op) (h : ∀ v, Of13Op.errorType v ∉ ops) (port : Int) :
    ((Of13Body.fresh port 1).map (·.applyAll false ops)).map (·.toBytes false) = some (.error .attributeError) := by
  have key : ∀ (ops : List Of13Op) (_ : ∀ v, Of13Op.errorType v ∉ ops) (c : Option Nat) (d : Bytes),
      ∃ c' d', (Of13Body.error none c d).applyAll false ops = .error none c' d' := by
    intro ops
    induction ops with
    | nil => exact fun _ c d => ⟨c, d, rfl⟩
    | cons o os ih =>
      intro h c d
      have ih := ih fun v hv => h v (List.mem_cons_of_mem _ hv)
      unfold Of13Body.applyAll
      cases o <;> simp only [Of13Body.apply] <;> first | exact ih _ _ | skip
      case errorType v => exact absurd List.mem_cons_self (h v)
      case errorCode v =>
        cases enumOf ((ofErrorCodes ((none : Option Nat).getD 0)).getD []) v with
        | ok n => exact ih _ _
        | error e => exact ih _ _
  obtain ⟨c, d, e⟩ := key ops h none []
  simp only [Of13Body.fresh, Option.map_some, e]
  rfl

/-- Even if the missing names were bound, no packet-out message could be serialised before its packet is assigned. -/
theorem of13_packetout_empty_violated (names : Bool) (ops : List Of13Op) (h : ∀ p, Of13Op.packet p ∉ ops) (port : Int) :
    ∀ b, Of13Body.fresh port 13 = some b → ∃ e, (b.applyAll names ops).toBytes names = .error e := by
  have key : ∀ (ops : List Of13Op) (_ : ∀ p, Of13Op.packet p ∉ ops) (i : Int) (p : Nat) (as : List OfAction),
      ∃ i' p' as', (Of13Body.packetOut i p as none).applyAll names ops = .packetOut i' p' as' none := by
    intro ops
    induction ops with
    | nil => exact fun _ i p as => ⟨i, p, as, rfl⟩
    | cons o os ih =>
      intro h i p as
      have ih := ih fun v hv => h v (List.mem_cons_of_mem _ hv)
      unfold Of13Body.applyAll
      cases o <;> simp only [Of13Body.apply] <;> first | exact ih _ _ _ | skip
      case packet p => exact absurd List.mem_cons_self (h p)
      case port v =>
        cases bound names (getPort v) with
        | ok n => exact ih _ _ _
        | error e => exact ih _ _ _
  intro b hb
  cases hb
  obtain ⟨i, p, as, e⟩ := key ops h 0xffffffff of13Any []
  rw [e]
  cases hr : (Of13Body.packetOut i p as none).toBytes names with
  | error e => exact ⟨e, rfl⟩
  | ok bs =>
    obtain ⟨a, _, hr⟩ := bind_eq_ok.mp hr
    obtain ⟨x, _, hr⟩ := bind_eq_ok.mp hr
    cases hr

/-- **C164**: the type of a message is what was assigned last, if it is one of the thirty types; nothing else changes. -/
theorem of13_type_assigned (m : Of13Msg) (v : Int) :
    m.setType v = if 0 ≤ v ∧ v < 30 then .ok ⟨m.version, .member v.toNat, m.length, m.xid, m.body, m.rest⟩
      else .error .valueError := by
  have e : v.toNat ∈ of13Types ↔ v.toNat < 30 := by
    rw [show of13Types = List.range 30 from rfl]; exact List.mem_range
  unfold Of13Msg.setType enumOf
  by_cases h : 0 ≤ v ∧ v < 30
  · rw [if_pos h, if_pos ⟨h.1, e.mpr (by omega)⟩]; rfl
  · rw [if_neg h, if_neg (fun h' => h ⟨h'.1, by have := e.mp h'.2; omega⟩)]; rfl

/-- **C164**: the reason and the flags that a new message starts with could also have been assigned. -/
theorem of13_defaults_allowed (port : Int) (t : Nat) (b : Of13Body) (h : Of13Body.fresh port t = some b) (v : Int) :
    (attr13 b .reason = some (.num v) → ¬ Refused13 b (.reason v)) ∧
    (attr13 b .flags = some (.num v) → ¬ Refused13 b (.flags v)) := by
  unfold Of13Body.fresh at h
  split at h <;> first | (cases h; done) | (obtain rfl := Option.some.inj h; constructor <;> intro h <;> simp_all [attr13, Refused13]) | skip
  all_goals (try (obtain ⟨⟩ := h)) <;> (try omega)

/-! ## Layout, and what is refused, if the missing names were bound -/

/-- A port description of the specification (7.2.1). -/
def portWire13 (p : Of13PhyPort) : Bytes :=
  w4 p.portnum ++ zeros 4 ++ p.hwaddr.raw ++ zeros 2 ++ p.name ++ w4 (word p.config) ++ w4 (word p.state) ++
    w4 (word p.curr) ++ w4 (word p.advertised) ++ w4 (word p.supported) ++ w4 (word p.peer) ++ w4 p.currSpeed ++
    w4 p.maxSpeed

/-- Bodies, given the bytes of their actions.  Features (7.3.1, with the ports of OpenFlow 1.0 after them), port status
(7.4.3); the rest has the layout of OpenFlow 1.0. -/
def boundWire13 (acts : Bytes) : Of13Body → Bytes
  | .features f => f.dpid ++ w4 f.nbuffers ++ w1 f.ntables ++ w1 f.auxid ++ zeros 2 ++ w4 (word f.capabilities) ++
      w4 (word f.actions) ++ f.ports.flatMap portWire13
  | .packetIn b p r d => w4 b ++ w2 (10 + d.length : Nat) ++ w2 p ++ w1 r ++ zeros 1 ++ d
  | .flowRemoved f => matchWire f.mtch ++ w8 f.cookie ++ w2 f.priority ++ w1 f.reason ++ zeros 1 ++ w4 f.durSec ++
      w4 f.durNsec ++ w2 f.idle ++ zeros 2 ++ w8 f.packets ++ w8 f.bytes
  | .portStatus r p => w1 r ++ zeros 7 ++ portWire13 p
  | .packetOut b p _ d => w4 b ++ w2 p ++ w2 acts.length ++ acts ++ d.getD []
  | .flowMod f => matchWire f.mtch ++ w8 f.cookie ++ w2 f.command ++ w2 f.idle ++ w2 f.hard ++ w2 f.priority ++
      w4 f.bufferId ++ w2 f.outPort ++ w2 (word f.flags) ++ acts
  | .portMod p a c m ad => w2 p ++ a.raw ++ w4 (word c) ++ w4 (word m) ++ w4 (word ad) ++ zeros 4
  | .queueReq p => w2 p ++ zeros 2
  | .queueReply p qs => w2 p ++ zeros 6 ++ qs.flatMap queueWire
  | b => bodyWire13 b

/-- The actions of a body. -/
def actionsOf13 : Of13Body → List OfAction
  | .packetOut _ _ as _ => as
  | .flowMod f => f.actions
  | _ => []

theorem port13_layout {p : Of13PhyPort} (w : p.WF) {b : Bytes} (h : p.toBytes true = .ok b) : b = portWire13 p := by
  rw [pack_lay (show pack Of13PhyPort.fmt p.vals = .ok b from h)]
  simp only [lay, Of13PhyPort.fmt, Of13PhyPort.vals, pad_exact w.addr, pad_exact w.nameLen, portWire13, w4, word_eq,
    List.append_assoc, List.append_nil]

theorem ports13_layout {ps : List Of13PhyPort} (w : ∀ p ∈ ps, p.WF) {b : Bytes} (h : ports13ToBytes true ps = .ok b) :
    b = ps.flatMap portWire13 := by
  induction ps generalizing b with
  | nil => cases h; rfl
  | cons p ps ih =>
    obtain ⟨x, hx, h⟩ := bind_eq_ok.mp h
    obtain ⟨y, hy, h⟩ := bind_eq_ok.mp h
    cases h
    rw [port13_layout (w p List.mem_cons_self) hx, ih (fun p hp => w p (List.mem_cons_of_mem _ hp)) hy]
    rfl

/-- **C158**, partial: if the missing names were bound, these would be the bytes of the bodies in range. -/
theorem of13_bound_layout_partial (t : Nat) (b : Of13Body) (w : b.WF t) (bs acts : Bytes)
    (ha : joinActions (actionsOf13 b) = .ok acts) (h : b.toBytes true = .ok bs) : bs = boundWire13 acts b := by
  cases b with
  | error e c d =>
    cases e with
    | none => exact w.elim
    | some e => cases c with
      | none => exact w.elim
      | some c => exact of13_body_layout_partial (.error (some e) (some c) d) trivial bs h
  | echo d => exact of13_body_layout_partial (.echo d) trivial bs h
  | experimenter v d => exact of13_body_layout_partial (.experimenter v d) trivial bs h
  | config f m => exact of13_body_layout_partial (.config f m) trivial bs h
  | features f =>
    obtain ⟨x, hx, h⟩ := bind_eq_ok.mp h
    obtain ⟨y, hy, h⟩ := bind_eq_ok.mp h
    cases h
    rw [pack_lay (bound_ok hx).2, ports13_layout w.2.ports hy]
    simp only [lay, Of13Features.fmt, boundWire13, w1, w4, word_eq, pad_exact w.2.dpid, List.append_assoc,
      List.append_nil, List.nil_append]
  | packetIn b p r d =>
    obtain ⟨x, hx, h⟩ := bind_eq_ok.mp h
    cases h
    rw [pack_lay hx]
    simp [lay, boundWire13, w1, w2, w4, Nat.add_comm]
  | flowRemoved f =>
    obtain ⟨x, hx, h⟩ := bind_eq_ok.mp (bound_ok h).2
    obtain ⟨y, hy, h⟩ := bind_eq_ok.mp h
    cases h
    rw [pack_lay hy, match_layout w.2.mtch.wf hx]
    simp [lay, OfFlowRemoved.fmt, OfFlowRemoved.vals, boundWire13, w1, w2, w4, w8]
  | portStatus r p =>
    obtain ⟨x, hx, h⟩ := bind_eq_ok.mp h
    obtain ⟨y, hy, h⟩ := bind_eq_ok.mp h
    cases h
    rw [pack_lay hx, port13_layout w.2.2 hy]
    simp [lay, boundWire13, w1]
  | packetOut b p as d =>
    obtain ⟨d, rfl⟩ := Option.isSome_iff_exists.mp w.2.2.2.2
    obtain ⟨y, hy, h⟩ := bind_eq_ok.mp h
    obtain ⟨x, hx, h⟩ := bind_eq_ok.mp h
    cases h
    simp only [actionsOf13] at ha
    rw [ha] at hy; cases hy
    rw [pack_lay hx]
    simp [lay, boundWire13, w2, w4]
  | flowMod f =>
    obtain ⟨x, hx, h⟩ := bind_eq_ok.mp (bound_ok h).2
    obtain ⟨y, hy, h⟩ := bind_eq_ok.mp h
    obtain ⟨z, hz, h⟩ := bind_eq_ok.mp h
    cases h
    simp only [actionsOf13] at ha
    rw [ha] at hz; cases hz
    rw [pack_lay hy, match_layout w.2.mtch.wf hx]
    simp only [lay, OfFlowMod.fmt, OfFlowMod.vals, boundWire13, w2, w4, w8, word_eq, List.append_assoc, List.append_nil,
      List.nil_append]
  | portMod p a c m ad =>
    rw [pack_lay (bound_ok h).2]
    simp only [lay, portModFmt, boundWire13, w2, w4, word_eq, pad_exact w.2.2.1, List.append_assoc, List.append_nil]
  | queueReq p =>
    rw [pack_lay h]
    simp [lay, boundWire13, w2]
  | queueReply p qs =>
    obtain ⟨x, hx, h⟩ := bind_eq_ok.mp h
    obtain ⟨y, hy, h⟩ := bind_eq_ok.mp h
    cases h
    rw [pack_lay hx, queues_layout hy]
    simp [lay, boundWire13, w2]

/-- A port description of at least 64 bytes whose name (bytes 16 to 31) is not text is refused, names bound or not. -/
theorem of13_port_name_refused (names : Bool) (raw : Bytes) (hl : 64 ≤ raw.length)
    (hn : utf8Valid ((raw.drop 16).take 16) = false) : Of13PhyPort.fromBytes names raw = .error .valueError := by
  have h6 : ((raw.drop 8).take 6).length = 6 := by simp; omega
  have hu : ∃ n c s cu ad su pe cs ms, unpack Of13PhyPort.fmt (raw.take 64) =
      .ok [.i n, .b ((raw.drop 8).take 6), .b ((raw.drop 16).take 16), .i c, .i s, .i cu, .i ad, .i su, .i pe, .i cs,
        .i ms] := by
    unfold unpack
    rw [if_pos (by simp [Of13PhyPort.fmt, calcsize, Fld.size]; omega)]
    simp only [Of13PhyPort.fmt, unpackGo, List.drop_drop, List.take_take, List.drop_take]
    exact ⟨_, _, _, _, _, _, _, _, _, rfl⟩
  obtain ⟨n, c, s, cu, ad, su, pe, cs, ms, hu⟩ := hu
  unfold Of13PhyPort.fromBytes
  rw [if_neg (by omega), hu]
  simp only [bind_ok, Of13PhyPort.ofFields, EthAddr.mk'_raw6 h6, hn]
  rfl

example : utf8Valid (((zeros 16 ++ [0xff] ++ zeros 47).drop 16).take 16) = false := by decide

/-- **C156** is false of the code: a flow modification is never read.  If its match can be read, an unknown command (byte
49) is reported, any other flow modification raises `NameError`. -/
theorem of13_flowmod_read_violated (raw : Bytes) (hl : 64 ≤ raw.length) (m : OfMatch × Bytes)
    (hm : OfMatch.fromBytes (raw.take 40) = .ok m) :
    Of13Body.fromBytes false 14 raw =
      some (.error (if beDec ((raw.drop 48).take 2) ≤ 4 then .nameError else .valueError)) := by
  have hu : ∃ c i hd pr bi op fl, unpack OfFlowMod.fmt ((raw.drop 40).take 24) =
      .ok [.i c, .i (beDec ((raw.drop 48).take 2) : Nat), .i i, .i hd, .i pr, .i bi, .i op, .i fl] := by
    unfold unpack
    rw [if_pos (by simp [OfFlowMod.fmt, calcsize, Fld.size]; omega)]
    simp only [OfFlowMod.fmt, unpackGo, List.drop_drop, List.take_take, List.drop_take]
    exact ⟨_, _, _, _, _, _, _, rfl⟩
  obtain ⟨c, i, hd, pr, bi, op, fl, hu⟩ := hu
  simp only [Of13Body.fromBytes, flowMod13FromBytes]
  rw [if_neg (by omega), hm, bind_ok, hu]
  simp only [bind_ok]
  by_cases h : beDec ((raw.drop 48).take 2) ≤ 4
  · rw [if_pos h, enumOf_nat (show beDec ((raw.drop 48).take 2) ∈ ofCommands by
      have : ∀ n, n ≤ 4 → n ∈ ofCommands := by decide
      exact this _ h)]
    rfl
  · rw [if_neg h]
    have : ¬ (0 ≤ ((beDec ((raw.drop 48).take 2) : Nat) : Int) ∧
        ((beDec ((raw.drop 48).take 2) : Nat) : Int).toNat ∈ ofCommands) := by
      have : ∀ n ∈ ofCommands, n ≤ 4 := by decide
      intro ⟨_, hm⟩
      exact h (this _ (by simpa using hm))
    unfold enumOf
    rw [if_neg this]
    rfl

end SY.Props
