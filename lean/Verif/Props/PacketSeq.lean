import Verif.Props.Packet

/-! # Properties C43–C45, C90, C91: a packet as a sequence of headers -/

namespace SY.Props

/-! ## C43: modifications -/

/-- The modifying operations of a packet. -/
inductive SeqOp
  | add (x : Item)
  | prepend (x : Item)
  | insert (i : Int) (x : Item)
  | setItem (i : Int) (x : Item)
  | delItem (i : Int)
  | delClass (c : Cls)

/-- Run one operation; an exception leaves the packet as it is. -/
def SeqOp.run (p : Packet) : SeqOp → Packet × Option PyErr
  | .add x => match p.add x with | .ok q => (q, none) | .error e => (p, some e)
  | .prepend x => (p.prepend x, none)
  | .insert i x => (p.insert i x, none)
  | .setItem i x => match p.setItem i x with | .ok q => (q, none) | .error e => (p, some e)
  | .delItem i => match p.delItem i with | .ok q => (q, none) | .error e => (p, some e)
  | .delClass c => match p.delClass c with | .ok q => (q, none) | .error e => (p, some e)

/-- `i` designates the element between `l` and `r`: `len(l)`, or counted from the end. -/
def Designates (i : Int) (l r : Packet) : Prop := i = l.length ∨ i = -(r.length + 1 : Int)

/-- `i` is outside the range of indices of `p`. -/
def OutOfRange (i : Int) (p : Packet) : Prop := i < -(p.length : Int) ∨ (p.length : Int) ≤ i

/-- The abstract sequence: what each operation may do. -/
inductive SeqStep : Packet → SeqOp → Packet → Option PyErr → Prop
  | addHdr (p h) : SeqStep p (.add (.hdr h)) (p ++ [.hdr h]) none
  | addBytes (p b) : SeqStep p (.add (.bytes b)) (p ++ [.hdr (.raw b)]) none
  | addOther (p n) : SeqStep p (.add (.other n)) p (some .generic)
  | prepend (p x) : SeqStep p (.prepend x) (x :: p) none
  | insertAt (l r x i) (h : i = l.length ∨ (r ≠ [] ∧ i = -(r.length : Int))) :
      SeqStep (l ++ r) (.insert i x) (l ++ x :: r) none
  | insertLow (p x i) (h : i < -(p.length : Int)) : SeqStep p (.insert i x) (x :: p) none
  | insertHigh (p x i) (h : (p.length : Int) < i) : SeqStep p (.insert i x) (p ++ [x]) none
  | set (l r x y i) (h : Designates i l r) (hy : ∀ n, y ≠ .other n) :
      SeqStep (l ++ x :: r) (.setItem i y) (l ++ y :: r) none
  | setOther (l r x n i) (h : Designates i l r) :
      SeqStep (l ++ x :: r) (.setItem i (.other n)) (l ++ x :: r) (some .typeError)
  | setRange (p y i) (h : OutOfRange i p) : SeqStep p (.setItem i y) p (some .indexError)
  | del (l r x i) (h : Designates i l r) : SeqStep (l ++ x :: r) (.delItem i) (l ++ r) none
  | delRange (p i) (h : OutOfRange i p) : SeqStep p (.delItem i) p (some .indexError)
  | delClass (l r x c) (hx : x.isA c = true) (hl : ∀ y ∈ l, y.isA c = false) :
      SeqStep (l ++ x :: r) (.delClass c) (l ++ r) none
  | delMissing (p c) (h : ∀ y ∈ p, y.isA c = false) : SeqStep p (.delClass c) p (some .keyError)

theorem checkIdx_designates {l r : Packet} {x : Item} {i : Int} (h : Designates i l r) :
    Packet.checkIdx (l ++ x :: r) i = .ok l.length := by
  unfold Packet.checkIdx
  rcases h with rfl | rfl
  · have : ¬ ((l.length : Int) < 0) := by omega
    simp [this]; omega
  · have : (-(r.length + 1 : Int)) < 0 := by omega
    simp only [if_pos this, List.length_append, List.length_cons]
    rw [if_pos (by omega)]
    congr 1; omega

theorem checkIdx_out {p : Packet} {i : Int} (h : OutOfRange i p) : p.checkIdx i = .error .indexError := by
  unfold Packet.checkIdx
  rcases h with h | h
  · have : i < 0 := by omega
    simp only [if_pos this]
    rw [if_neg (by omega)]
  · have : ¬ i < 0 := by omega
    simp only [if_neg this]
    rw [if_neg (by omega)]

theorem index_cases (i : Int) (p : Packet) :
    OutOfRange i p ∨ ∃ l x r, p = l ++ x :: r ∧ Designates i l r := by
  by_cases h : OutOfRange i p
  · exact .inl h
  right
  simp only [OutOfRange, not_or, Int.not_lt, Int.not_le] at h
  obtain ⟨k, hk, hd⟩ : ∃ k : Nat, k < p.length ∧ (i = k ∨ i = (k : Int) - p.length) := by
    by_cases h0 : i < 0
    · exact ⟨(p.length + i).toNat, by omega, .inr (by omega)⟩
    · exact ⟨i.toNat, by omega, .inl (by omega)⟩
  refine ⟨p.take k, p[k], p.drop (k + 1), ?_, ?_⟩
  · rw [List.getElem_cons_drop, List.take_append_drop]
  · unfold Designates
    simp only [List.length_take, List.length_drop]
    omega

theorem indexLoop_found (c : Cls) (x : Item) (r : Packet) (hx : x.isA c = true) (l : Packet)
    (hl : ∀ y ∈ l, y.isA c = false) (pre : Packet) (n : Nat) (hn : l.length < n) :
    Packet.indexLoop (pre ++ (l ++ x :: r)) c n (pre.length : Int) = .ok ((pre.length + l.length : Nat) : Int) := by
  induction l generalizing pre n with
  | nil =>
    cases n with
    | zero => simp at hn
    | succ n =>
      simp only [Packet.indexLoop, List.nil_append, listIndex_mid, bind_ok, hx, if_true]
      simp
  | cons y l ih =>
    cases n with
    | zero => simp at hn
    | succ n =>
      have hy : y.isA c = false := hl y (by simp)
      simp only [Packet.indexLoop, List.cons_append, listIndex_mid, bind_ok, hy, Bool.false_eq_true, if_false]
      have := ih (fun z hz => hl z (by simp [hz])) (pre ++ [y]) n (by simpa using hn)
      simp only [List.append_assoc, List.singleton_append, List.length_append, List.length_cons, List.length_nil] at this
      rw [show ((pre.length : Int) + 1) = ((pre.length + (0 + 1) : Nat) : Int) by omega, this]
      simp; omega

theorem indexLoop_missing (c : Cls) (l : Packet) (hl : ∀ y ∈ l, y.isA c = false) (pre : Packet) :
    Packet.indexLoop (pre ++ l) c l.length (pre.length : Int) = .ok (-1) := by
  induction l generalizing pre with
  | nil => rfl
  | cons y l ih =>
    have hy : y.isA c = false := hl y (by simp)
    simp only [List.length_cons, Packet.indexLoop, listIndex_mid, bind_ok, hy, Bool.false_eq_true, if_false]
    have := ih (fun z hz => hl z (by simp [hz])) (pre ++ [y])
    simp only [List.append_assoc, List.singleton_append, List.length_append, List.length_cons, List.length_nil] at this
    rw [show ((pre.length : Int) + 1) = ((pre.length + (0 + 1) : Nat) : Int) by omega, this]

/-- A sequence either has no element of the class or a first one. -/
theorem first_cases (c : Cls) (p : Packet) :
    (∀ y ∈ p, y.isA c = false) ∨
      ∃ l x r, p = l ++ x :: r ∧ x.isA c = true ∧ ∀ y ∈ l, y.isA c = false := by
  induction p with
  | nil => left; simp
  | cons y p ih =>
    by_cases hy : y.isA c = true
    · right; exact ⟨[], y, p, rfl, hy, by simp⟩
    have hy : y.isA c = false := by simpa using hy
    rcases ih with h | ⟨l, x, r, rfl, hx, hl⟩
    · left
      intro z hz
      rcases List.mem_cons.mp hz with rfl | hz
      · exact hy
      · exact h z hz
    · right
      refine ⟨y :: l, x, r, rfl, hx, fun z hz => ?_⟩
      rcases List.mem_cons.mp hz with rfl | hz
      · exact hy
      · exact hl z hz

theorem headerIndex_found {c : Cls} {x : Item} {l r : Packet} (hx : x.isA c = true)
    (hl : ∀ y ∈ l, y.isA c = false) (pre : Packet) :
    Packet.headerIndex (pre ++ (l ++ x :: r)) c (pre.length : Int) = .ok ((pre.length + l.length : Nat) : Int) := by
  unfold Packet.headerIndex
  refine indexLoop_found c x r hx l hl pre _ ?_
  simp only [List.length_append, List.length_cons]; omega

theorem headerIndex_missing {c : Cls} {l : Packet} (hl : ∀ y ∈ l, y.isA c = false) (pre : Packet) :
    Packet.headerIndex (pre ++ l) c (pre.length : Int) = .ok (-1) := by
  unfold Packet.headerIndex
  rw [show (((pre ++ l).length : Int) - pre.length).toNat = l.length by simp only [List.length_append]; omega]
  exact indexLoop_missing c l hl pre

theorem eraseIdx_mid {α : Type} (l r : List α) (x : α) : (l ++ x :: r).eraseIdx l.length = l ++ r := by
  induction l with
  | nil => rfl
  | cons y l ih => simp only [List.cons_append, List.length_cons, List.eraseIdx_cons_succ, ih]

theorem run_of_step {p p' : Packet} {op : SeqOp} {e : Option PyErr} (h : SeqStep p op p' e) : op.run p = (p', e) := by
  cases h with
  | addHdr h => rfl
  | addBytes b => rfl
  | addOther n => rfl
  | prepend x => rfl
  | insertAt l r x i h =>
    simp only [SeqOp.run, Packet.insert, pyInsert]
    rcases h with rfl | ⟨hr, rfl⟩
    · have : ¬ ((l.length : Int) < 0) := by omega
      simp [this]
    · have hr : 0 < r.length := List.length_pos_iff.mpr hr
      have : (-(r.length : Int)) < 0 := by omega
      simp only [if_pos this]
      have e : (((l ++ r).length : Int) + -(r.length : Int)).toNat = l.length := by
        simp only [List.length_append]; omega
      rw [e]; simp
  | insertLow _ x i h =>
    simp only [SeqOp.run, Packet.insert, pyInsert]
    have : i < 0 := by omega
    simp only [if_pos this]
    have e : ((p.length : Int) + i).toNat = 0 := by omega
    rw [e]; simp
  | insertHigh _ x i h =>
    simp only [SeqOp.run, Packet.insert, pyInsert]
    have : ¬ i < 0 := by omega
    simp only [if_neg this]
    rw [List.take_of_length_le (by omega), List.drop_eq_nil_of_le (by omega)]
  | set l r x y i h hy =>
    simp only [SeqOp.run, Packet.setItem, checkIdx_designates h, bind_ok]
    cases y with
    | other n => exact absurd rfl (hy n)
    | _ => simp
  | setOther l r x n i h => simp only [SeqOp.run, Packet.setItem, checkIdx_designates h, bind_ok]
  | setRange _ y i h => simp only [SeqOp.run, Packet.setItem, checkIdx_out h, bind_error]
  | del l r x i h =>
    simp only [SeqOp.run, Packet.delItem, checkIdx_designates h, bind_ok, eraseIdx_mid]
  | delRange _ i h => simp only [SeqOp.run, Packet.delItem, checkIdx_out h, bind_error]
  | delClass l r x c hx hl =>
    have := headerIndex_found (r := r) hx hl []
    simp only [List.nil_append, List.length_nil, Nat.zero_add] at this
    simp only [SeqOp.run, Packet.delClass]
    rw [show ((0 : Nat) : Int) = 0 from rfl] at this
    rw [this]
    simp only [bind_ok, Int.toNat_natCast]
    rw [if_neg (by omega), eraseIdx_mid]
  | delMissing _ c h =>
    have := headerIndex_missing h []
    simp only [List.nil_append, List.length_nil] at this
    simp only [SeqOp.run, Packet.delClass]
    rw [show ((0 : Nat) : Int) = 0 from rfl] at this
    rw [this]
    simp

theorem step_exists (p : Packet) (op : SeqOp) : ∃ p' e, SeqStep p op p' e := by
  cases op with
  | add x =>
    cases x with
    | hdr h => exact ⟨_, _, .addHdr p h⟩
    | bytes b => exact ⟨_, _, .addBytes p b⟩
    | other n => exact ⟨_, _, .addOther p n⟩
  | prepend x => exact ⟨_, _, .prepend p x⟩
  | insert i x =>
    by_cases h1 : i < -(p.length : Int)
    · exact ⟨_, _, .insertLow p x i h1⟩
    by_cases h2 : (p.length : Int) < i
    · exact ⟨_, _, .insertHigh p x i h2⟩
    obtain ⟨k, hk, hi⟩ : ∃ k : Nat, k ≤ p.length ∧ (i = k ∨ (k < p.length ∧ i = (k : Int) - p.length)) := by
      by_cases h0 : i < 0
      · exact ⟨(p.length + i).toNat, by omega, .inr (by omega)⟩
      · exact ⟨i.toNat, by omega, .inl (by omega)⟩
    have := SeqStep.insertAt (p.take k) (p.drop k) x i (by
      rcases hi with hi | ⟨h3, hi⟩
      · left; simp only [List.length_take]; omega
      · right
        refine ⟨by intro he; have := congrArg List.length he; simp at this; omega, ?_⟩
        simp only [List.length_drop]; omega)
    rw [List.take_append_drop] at this
    exact ⟨_, _, this⟩
  | setItem i y =>
    rcases index_cases i p with h | ⟨l, x, r, rfl, h⟩
    · exact ⟨_, _, .setRange p y i h⟩
    · by_cases hy : ∃ n, y = .other n
      · obtain ⟨n, rfl⟩ := hy
        exact ⟨_, _, .setOther l r x n i h⟩
      · exact ⟨_, _, .set l r x y i h (fun n hn => hy ⟨n, hn⟩)⟩
  | delItem i =>
    rcases index_cases i p with h | ⟨l, x, r, rfl, h⟩
    · exact ⟨_, _, .delRange p i h⟩
    · exact ⟨_, _, .del l r x i h⟩
  | delClass c =>
    rcases first_cases c p with h | ⟨l, x, r, rfl, hx, hl⟩
    · exact ⟨_, _, .delMissing p c h⟩
    · exact ⟨_, _, .delClass l r x c hx hl⟩

/-- **C43**, one operation: exactly what the abstract sequence does. -/
theorem packet_step_iff (p p' : Packet) (op : SeqOp) (e : Option PyErr) :
    op.run p = (p', e) ↔ SeqStep p op p' e := by
  constructor
  · intro h
    obtain ⟨q, e', hs⟩ := step_exists p op
    have := run_of_step hs
    rw [h] at this
    cases this
    exact hs
  · exact run_of_step

/-- A history of the abstract sequence: the exceptions raised, in order. -/
inductive SeqSteps : Packet → List SeqOp → Packet → List (Option PyErr) → Prop
  | nil (p) : SeqSteps p [] p []
  | cons {p q r op ops e es} : SeqStep p op q e → SeqSteps q ops r es → SeqSteps p (op :: ops) r (e :: es)

/-- Run a history of operations. -/
def runOps (p : Packet) : List SeqOp → Packet × List (Option PyErr)
  | [] => (p, [])
  | op :: ops => ((runOps (op.run p).1 ops).1, (op.run p).2 :: (runOps (op.run p).1 ops).2)

/-- **C43**: any history of operations has exactly the effect and raises exactly the exceptions of the
same operations on an abstract sequence of headers. -/
theorem packet_history_iff (p p' : Packet) (ops : List SeqOp) (es : List (Option PyErr)) :
    runOps p ops = (p', es) ↔ SeqSteps p ops p' es := by
  induction ops generalizing p es with
  | nil =>
    constructor
    · intro h; cases h; exact .nil _
    · intro h; cases h; rfl
  | cons op ops ih =>
    constructor
    · intro h
      simp only [runOps] at h
      cases h
      exact .cons ((packet_step_iff p _ op _).mp rfl) ((ih _ _).mp rfl)
    · intro h
      cases h with
      | cons h1 h2 =>
        have h1 := (packet_step_iff _ _ _ _).mpr h1
        have h2 := (ih _ _).mpr h2
        simp only [runOps, h1, h2]

/-- **C43**: an operation that raises leaves the packet unchanged. -/
theorem packet_error_unchanged (p p' : Packet) (op : SeqOp) (e : PyErr) (h : op.run p = (p', some e)) : p' = p := by
  have := (packet_step_iff _ _ _ _).mp h
  cases this <;> rfl

example : SeqOp.run exPacket (.delItem (-5)) = (exPacket, some .indexError) := by decide +kernel
example : (SeqOp.run exPacket (.delItem (-1))).1.length = 3 := by decide +kernel

/-- **C43**: reading an item. -/
theorem packet_getItem (p : Packet) (i : Int) :
    (OutOfRange i p ∧ p.getItem i = .error .indexError) ∨
      ∃ l x r, p = l ++ x :: r ∧ Designates i l r ∧ p.getItem i = .ok x := by
  rcases index_cases i p with h | ⟨l, x, r, rfl, h⟩
  · exact .inl ⟨h, by simp only [Packet.getItem, checkIdx_out h, bind_error]⟩
  · exact .inr ⟨l, x, r, rfl, h, by simp only [Packet.getItem, checkIdx_designates h, bind_ok, listIndex_mid]⟩

/-- **C43**: adding two packets is concatenation (of packets that hold headers only). -/
theorem packet_add_append (p q : Packet) (hq : ∀ x ∈ q, ∃ h, x = .hdr h) : p.addPacket q = .ok (p ++ q) := by
  induction q generalizing p with
  | nil => simp [Packet.addPacket]
  | cons x q ih =>
    obtain ⟨h, rfl⟩ := hq x (by simp)
    simp only [Packet.addPacket, Packet.add, bind_ok]
    rw [ih _ (fun y hy => hq y (by simp [hy]))]
    simp

example : ∀ x ∈ exPacket, ∃ h, x = .hdr h := by simp [exPacket]

/-! ## C91: what was put in can be serialised -/

/-- **C91**, partial: payload bytes given to `add_header`, `add_payload`, `+=` or `+` become a raw
header, which serialises to those bytes. -/
theorem add_bytes_partial (p : Packet) (b : Bytes) (ctx : Packet) (t : Bytes) :
    ∃ x, p.add (.bytes b) = .ok (p ++ [x]) ∧ x.pre t ctx = .ok x ∧ x.toBytes = .ok b :=
  ⟨.hdr (.raw b), rfl, rfl, rfl⟩

/-- The negation of **C91**: payload bytes put in by assignment, insertion or prepending make every
serialisation of the packet fail with `AttributeError`, if the headers after them serialise. -/
theorem put_bytes_violated (l r : Packet) (b : Bytes) (r' : Packet) (bs : List Bytes)
    (hr : finish (l ++ .bytes b :: r) [] r = .ok (r', bs)) :
    (Packet.toBytes (l ++ .bytes b :: r)).2 = .error .attributeError ∧
      (∀ x, (SeqOp.run (l ++ x :: r) (.setItem l.length (.bytes b))) = (l ++ .bytes b :: r, none)) ∧
      (SeqOp.run (l ++ r) (.insert l.length (.bytes b))) = (l ++ .bytes b :: r, none) ∧
      (SeqOp.run r (.prepend (.bytes b))) = (.bytes b :: r, none) := by
  refine ⟨?_, fun x => run_of_step (.set l r x _ _ (.inl rfl) (by simp)),
    run_of_step (.insertAt l r _ _ (.inl rfl)), rfl⟩
  rw [(toBytes_eq_finish _).1]
  have key : ∀ l0 : Packet, finish (l ++ .bytes b :: r) [] (l0 ++ .bytes b :: r) = .error .attributeError := by
    intro l0
    induction l0 with
    | nil => simp only [List.nil_append, finish, hr, bind_ok, Item.pre, bind_error]
    | cons x l0 ih => simp only [List.cons_append, finish, ih, bind_error]
  rw [key]; rfl

example : finish [.hdr .nullHdr, .bytes [1], .hdr (.raw [2])] [] [.hdr (.raw [2])] =
    .ok ([.hdr (.raw [2])], [[2]]) := rfl

/-! ## C44: lookup -/

/-- **C44**: the four ways of looking a class up agree: none finds anything when there is no such
header, and otherwise all denote the first one. -/
theorem lookup_first (p : Packet) (c : Cls) :
    ((∀ y ∈ p, y.isA c = false) ∧ p.getHeader c = none ∧ p.hasHeader c = false ∧
      p.headerIndex c 0 = .ok (-1) ∧ p.getClass c = .error .keyError) ∨
    ∃ l x r, p = l ++ x :: r ∧ x.isA c = true ∧ (∀ y ∈ l, y.isA c = false) ∧
      p.getHeader c = some x ∧ p.hasHeader c = true ∧ p.headerIndex c 0 = .ok (l.length : Int) ∧
      p.getClass c = .ok x := by
  rcases first_cases c p with h | ⟨l, x, r, rfl, hx, hl⟩
  · left
    have hg : p.getHeader c = none := by
      unfold Packet.getHeader; rw [List.find?_eq_none]; intro y hy; simp [h y hy]
    have := headerIndex_missing h []
    simp only [List.nil_append, List.length_nil] at this
    rw [show ((0 : Nat) : Int) = 0 from rfl] at this
    exact ⟨h, hg, by simp [Packet.hasHeader, hg], this, by simp [Packet.getClass, this]⟩
  · right
    have hg : Packet.getHeader (l ++ x :: r) c = some x := by
      unfold Packet.getHeader
      rw [List.find?_append]
      have : l.find? (fun y => y.isA c) = none := by
        rw [List.find?_eq_none]; intro y hy; simp [hl y hy]
      rw [this]; simp [hx]
    have := headerIndex_found (r := r) hx hl []
    simp only [List.nil_append, List.length_nil, Nat.zero_add] at this
    rw [show ((0 : Nat) : Int) = 0 from rfl] at this
    refine ⟨l, x, r, rfl, hx, hl, hg, by simp [Packet.hasHeader, hg], this, ?_⟩
    simp only [Packet.getClass, this, bind_ok]
    rw [if_neg (by omega)]
    exact listIndex_mid l r x

/-- **C44**, partial: from any start index that is not negative, the first header of the class at or
after it, or −1.  Missing: negative start indices. -/
theorem index_from_partial (p : Packet) (c : Cls) (start : Nat) :
    ((∀ y ∈ p.drop start, y.isA c = false) ∧ p.headerIndex c start = .ok (-1)) ∨
    ∃ l x r, p.drop start = l ++ x :: r ∧ x.isA c = true ∧ (∀ y ∈ l, y.isA c = false) ∧
      p.headerIndex c start = .ok ((start + l.length : Nat) : Int) := by
  by_cases hs : p.length < start
  · left
    rw [List.drop_eq_nil_of_le (by omega)]
    refine ⟨by simp, ?_⟩
    unfold Packet.headerIndex
    rw [show ((p.length : Int) - start).toNat = 0 by omega]
    rfl
  have hlen : (p.take start).length = start := by simp; omega
  rcases first_cases c (p.drop start) with h | ⟨l, x, r, he, hx, hl⟩
  · left
    have := headerIndex_missing h (p.take start)
    rw [List.take_append_drop, hlen] at this
    exact ⟨h, this⟩
  · right
    have := headerIndex_found (r := r) hx hl (p.take start)
    rw [← he, List.take_append_drop, hlen] at this
    exact ⟨l, x, r, he, hx, hl, this⟩

/-- The negation of **C44** for negative start indices: −1, "no such header", is returned when the
last header is of the class and the search starts there; and a start before the beginning raises. -/
theorem index_negative_violated (p : Packet) (x : Item) (c : Cls) (hx : x.isA c = true) :
    (p ++ [x]).headerIndex c (-1) = .ok (-1) ∧
      ∀ k : Nat, p.length + 1 < k → (p ++ [x]).headerIndex c (-(k : Int)) = .error .indexError := by
  constructor
  · unfold Packet.headerIndex
    have e : (((p ++ [x]).length : Int) - (-1)).toNat = (p.length + 1) + 1 := by simp; omega
    rw [e]
    simp only [Packet.indexLoop]
    have hi : listIndex (p ++ [x]) (-1) = .ok x := by
      unfold listIndex
      rw [if_pos (by omega)]
      have e : (((p ++ [x]).length : Int) + -1).toNat = p.length := by
        simp only [List.length_append, List.length_cons, List.length_nil]; omega
      rw [e]
      simp only [List.getElem?_concat_length]
      rw [if_pos (by simp only [List.length_append, List.length_cons, List.length_nil]; omega)]
    rw [hi]
    simp [hx]
  · intro k hk
    unfold Packet.headerIndex
    have e : (((p ++ [x]).length : Int) - (-(k : Int))).toNat = (p.length + k) + 1 := by simp; omega
    rw [e]
    simp only [Packet.indexLoop]
    have hi : listIndex (p ++ [x]) (-(k : Int)) = .error .indexError := by
      unfold listIndex
      have h0 : (-(k : Int)) < 0 := by omega
      simp only [if_pos h0, List.length_append, List.length_cons, List.length_nil]
      split
      · rw [if_neg (by omega)]
      · rfl
    rw [hi]; rfl

example : (Item.hdr (.raw [1])).isA .raw = true := rfl

/-- **C44** for names: the first header of exactly that class. -/
theorem lookup_name (p : Packet) (c : Cls) (x : Item) :
    p.byName c = some x ↔ ∃ l h r, p = l ++ .hdr h :: r ∧ x = .hdr h ∧ h.cls = c ∧ ∀ g, .hdr g ∈ l → g.cls ≠ c := by
  induction p with
  | nil => simp [Packet.byName]
  | cons y p ih =>
    unfold Packet.byName at ih ⊢
    cases y with
    | hdr h =>
      simp only [List.find?_cons]
      by_cases hc : h.cls = c
      · have hb : (h.cls == c) = true := by simpa using hc
        simp only [hb]
        constructor
        · intro e; cases e
          exact ⟨[], h, p, rfl, rfl, hc, by simp⟩
        · rintro ⟨l, h', r, e, rfl, hc', hl⟩
          cases l with
          | nil => cases e; rfl
          | cons z l =>
            simp only [List.cons_append, List.cons.injEq] at e
            exact absurd hc (hl h (by rw [e.1]; simp))
      · have hb : (h.cls == c) = false := by simpa using hc
        simp only [hb]
        rw [ih]
        constructor
        · rintro ⟨l, h', r, rfl, rfl, hc', hl⟩
          refine ⟨.hdr h :: l, h', r, rfl, rfl, hc', fun g hg => ?_⟩
          rcases List.mem_cons.mp hg with hg | hg
          · cases hg; exact hc
          · exact hl g hg
        · rintro ⟨l, h', r, e, rfl, hc', hl⟩
          cases l with
          | nil => cases e; exact absurd hc' hc
          | cons z l =>
            simp only [List.cons_append, List.cons.injEq] at e
            exact ⟨l, h', r, e.2, rfl, hc', fun g hg => hl g (by simp [hg])⟩
    | bytes b =>
      simp only [List.find?_cons]
      rw [ih]
      constructor
      · rintro ⟨l, h', r, rfl, rfl, hc', hl⟩
        exact ⟨.bytes b :: l, h', r, rfl, rfl, hc', fun g hg => hl g (by simpa using hg)⟩
      · rintro ⟨l, h', r, e, rfl, hc', hl⟩
        cases l with
        | nil => simp at e
        | cons z l =>
          simp only [List.cons_append, List.cons.injEq] at e
          exact ⟨l, h', r, e.2, rfl, hc', fun g hg => hl g (by simp [hg])⟩
    | other b =>
      simp only [List.find?_cons]
      rw [ih]
      constructor
      · rintro ⟨l, h', r, rfl, rfl, hc', hl⟩
        exact ⟨.other b :: l, h', r, rfl, rfl, hc', fun g hg => hl g (by simpa using hg)⟩
      · rintro ⟨l, h', r, e, rfl, hc', hl⟩
        cases l with
        | nil => simp at e
        | cons z l =>
          simp only [List.cons_append, List.cons.injEq] at e
          exact ⟨l, h', r, e.2, rfl, hc', fun g hg => hl g (by simp [hg])⟩

/-- The negation of **C44** between names and classes: an ICMPv6 header is found as class `ICMP` but
not under the name `'ICMP'`, and a destination-option header is found as a hop-by-hop one. -/
theorem lookup_name_class_violated (m : ICMPMsg ICMPv6Data) (d : HopOpt) :
    Packet.hasHeader [.hdr (.icmp6 m)] .icmp = true ∧ Packet.hasName [.hdr (.icmp6 m)] .icmp = false ∧
    Packet.hasHeader [.hdr (.dst d)] .hop = true ∧ Packet.hasName [.hdr (.dst d)] .hop = false :=
  ⟨rfl, rfl, rfl, rfl⟩

/-! ## C45: equality -/

/-- What `==` compares of an ICMP data object. -/
def data4Key : ICMPData → ICMPData
  | .echo _ i s p => .echo false i s p
  | d => .other d.payload

/-- What `==` compares of an ICMPv6 data object. -/
def data6Key : ICMPv6Data → ICMPv6Data
  | .echo _ i s p => .echo false i s p
  | d => .other d.payload

/-- What `==` compares of a header: the header with every attribute that is not compared reset; for
the classes that compare serialised bytes, those bytes. -/
def hdrKey : Hdr → Hdr
  | .vlan h => .vlan { h with pcp := 0 }
  | .arp h => .arp { h with hwaddrlen := 0, protoaddrlen := 0 }
  | .ip4 h => .ip4 { h with totallen := 0, options := [] }
  | .ip6 h => .ip6 { h with plen := 0 }
  | .udp h => .udp { h with len := 0, csum := 0 }
  | .tcp h => .tcp { h with csum := 0 }
  | .icmp m => .icmp ⟨m.type, m.code, data4Key m.data, 0⟩
  | .icmp6 m => .icmp6 ⟨m.type, m.code, data6Key m.data, 0⟩
  | .eth h => .eth h
  | .null a => .null a
  | .nullHdr => .nullHdr
  | h => match h.toBytes with | .ok b => .raw b | .error _ => h

/-- Headers that can be compared without an exception: ICMP messages with a data object that fits
their type, and headers compared by their bytes that can be serialised. -/
def Comparable : Hdr → Prop
  | .icmp m => dataMatches m.type m.data
  | .icmp6 m => data6Type m.data = some m.type
  | .route h => ∃ b, h.toBytes = .ok b
  | .frag h => ∃ b, h.toBytes = .ok b
  | .hop h => ∃ b, h.toBytes = .ok b
  | .dst h => ∃ b, h.toBytes = .ok b
  | .rip h => ∃ b, h.toBytes = .ok b
  | _ => True

theorem data4_eq_key {t : Nat} {a b : ICMPData} (ha : dataMatches t a) (hb : dataMatches t b) :
    a.eq b = .ok (decide (data4Key a = data4Key b)) := by
  have hne : ∀ r i s p, a = .echo r i s p → ∃ r' i' s' p', b = .echo r' i' s' p' := by
    rintro r i s p rfl
    cases b <;> simp only [dataMatches] at ha hb
    case plain c p => cases c <;> simp only [PlainICMP.type] at hb <;> omega
    case echo => exact ⟨_, _, _, _, rfl⟩
    all_goals omega
  have hne' : ∀ r i s p, b = .echo r i s p → ∃ r' i' s' p', a = .echo r' i' s' p' := by
    rintro r i s p rfl
    cases a <;> simp only [dataMatches] at ha hb
    case plain c p => cases c <;> simp only [PlainICMP.type] at ha <;> omega
    case echo => exact ⟨_, _, _, _, rfl⟩
    all_goals omega
  by_cases he : ∃ r i s p, a = .echo r i s p
  · obtain ⟨r, i, s, p, rfl⟩ := he
    obtain ⟨r', i', s', p', rfl⟩ := hne _ _ _ _ rfl
    simp [ICMPData.eq, data4Key, Bool.decide_and, Bool.and_assoc]
  · have hb' : ¬ ∃ r i s p, b = .echo r i s p := fun ⟨r, i, s, p, h⟩ =>
      he (by obtain ⟨r', i', s', p', h'⟩ := hne' _ _ _ _ h; exact ⟨_, _, _, _, h'⟩)
    have k1 : a.eq b = .ok (decide (a.payload = b.payload)) := by
      cases a <;> first | rfl | exact absurd ⟨_, _, _, _, rfl⟩ he
    have k2 : data4Key a = .other a.payload := by
      cases a <;> first | rfl | exact absurd ⟨_, _, _, _, rfl⟩ he
    have k3 : data4Key b = .other b.payload := by
      cases b <;> first | rfl | exact absurd ⟨_, _, _, _, rfl⟩ hb'
    rw [k1, k2, k3]; simp

theorem data6_eq_key {t : Nat} {a b : ICMPv6Data} (ha : data6Type a = some t) (hb : data6Type b = some t) :
    a.eq b = .ok (decide (data6Key a = data6Key b)) := by
  rw [data6Type_eq] at ha hb
  have key : ∀ x y : ICMPv6Data, x.typeOf = some t → y.typeOf = some t → ∀ r i s p, x = .echo r i s p →
      ∃ r' i' s' p', y = .echo r' i' s' p' := by
    rintro x y hx hy r i s p rfl
    have hx : t = 128 ∨ t = 129 := by cases r <;> simp [ICMPv6Data.typeOf] at hx <;> omega
    cases y
    case plain c o p => cases c <;> simp [ICMPv6Data.typeOf, PlainICMPv6.type] at hy <;> omega
    case echo => exact ⟨_, _, _, _, rfl⟩
    all_goals (simp [ICMPv6Data.typeOf] at hy; try omega)
  by_cases he : ∃ r i s p, a = .echo r i s p
  · obtain ⟨r, i, s, p, rfl⟩ := he
    obtain ⟨r', i', s', p', rfl⟩ := key _ _ ha hb _ _ _ _ rfl
    simp [ICMPv6Data.eq, data6Key, Bool.decide_and, Bool.and_assoc]
  · have hb' : ¬ ∃ r i s p, b = .echo r i s p := fun ⟨r, i, s, p, h⟩ =>
      he (by obtain ⟨r', i', s', p', h'⟩ := key _ _ hb ha _ _ _ _ h; exact ⟨_, _, _, _, h'⟩)
    have k1 : a.eq b = .ok (decide (a.payload = b.payload)) := by
      cases a <;> first | rfl | exact absurd ⟨_, _, _, _, rfl⟩ he
    have k2 : data6Key a = .other a.payload := by
      cases a <;> first | rfl | exact absurd ⟨_, _, _, _, rfl⟩ he
    have k3 : data6Key b = .other b.payload := by
      cases b <;> first | rfl | exact absurd ⟨_, _, _, _, rfl⟩ hb'
    rw [k1, k2, k3]; simp

theorem bytes_eq_key {x y : Hdr} {a b : Bytes} (ha : x.toBytes = .ok a) (hb : y.toBytes = .ok b) :
    (x.toBytes >>= fun a => y.toBytes >>= fun b => Except.ok (ε := PyErr) (decide (a = b))) =
      .ok (decide ((match x.toBytes with | .ok b => Hdr.raw b | .error _ => x) =
        (match y.toBytes with | .ok b => Hdr.raw b | .error _ => y))) := by
  rw [ha, hb]; simp

theorem decide_and_congr {p q : Prop} [Decidable p] [Decidable q] {b : Bool} (h : p ↔ q) (hb : b = decide p) :
    b = decide q := by rw [hb]; exact decide_eq_decide.mpr h

/-- **C45** for headers: two headers of the same class compare equal exactly when the attributes that
`==` looks at are equal. -/
theorem header_eq_partial (x y : Hdr) (hc : x.cls = y.cls) (hx : Comparable x) (hy : Comparable y) :
    x.eq y = .ok (decide (hdrKey x = hdrKey y)) := by
  cases x <;> cases y <;> simp only [Hdr.cls, reduceCtorEq] at hc
  case eth.eth a b =>
    obtain ⟨⟨a1⟩, ⟨a2⟩, a3⟩ := a; obtain ⟨⟨b1⟩, ⟨b2⟩, b3⟩ := b
    simp only [Hdr.eq, Ethernet.eq, hdrKey, Except.ok.injEq, ← Bool.decide_and]
    exact decide_eq_decide.mpr (by simp; grind)
  case vlan.vlan a b =>
    obtain ⟨a1, a2, a3⟩ := a; obtain ⟨b1, b2, b3⟩ := b
    simp only [Hdr.eq, Vlan.eq, hdrKey, Except.ok.injEq, ← Bool.decide_and]
    exact decide_eq_decide.mpr (by simp)
  case arp.arp a b =>
    obtain ⟨a1, a2, a3, a4, a5, ⟨a6⟩, a7, ⟨a8⟩, a9⟩ := a
    obtain ⟨b1, b2, b3, b4, b5, ⟨b6⟩, b7, ⟨b8⟩, b9⟩ := b
    simp only [Hdr.eq, Arp.eq, hdrKey, Except.ok.injEq, ← Bool.decide_and]
    exact decide_eq_decide.mpr (by simp; grind)
  case ip4.ip4 a b =>
    obtain ⟨a1, a2, a3, a4, a5, a6, a7, a8, a9, a10⟩ := a
    obtain ⟨b1, b2, b3, b4, b5, b6, b7, b8, b9, b10⟩ := b
    simp only [Hdr.eq, IPv4.eq, hdrKey, Except.ok.injEq, ← Bool.decide_and]
    exact decide_eq_decide.mpr (by simp; grind)
  case ip6.ip6 a b =>
    obtain ⟨a1, a2, a3, a4, a5, a6, a7⟩ := a
    obtain ⟨b1, b2, b3, b4, b5, b6, b7⟩ := b
    simp only [Hdr.eq, IPv6.eq, hdrKey, Except.ok.injEq, ← Bool.decide_and]
    exact decide_eq_decide.mpr (by simp; grind)
  case udp.udp a b =>
    obtain ⟨a1, a2, a3, a4⟩ := a; obtain ⟨b1, b2, b3, b4⟩ := b
    simp only [Hdr.eq, UDP.eq, hdrKey, Except.ok.injEq, ← Bool.decide_and]
    exact decide_eq_decide.mpr (by simp)
  case tcp.tcp a b =>
    obtain ⟨a1, a2, a3, a4, a5, a6, a7, a8⟩ := a
    obtain ⟨b1, b2, b3, b4, b5, b6, b7, b8⟩ := b
    simp only [Hdr.eq, TCP.eq, TCP.offset, hdrKey, Except.ok.injEq, ← Bool.decide_and]
    exact decide_eq_decide.mpr (by simp; grind)
  case icmp.icmp a b =>
    simp only [Hdr.eq, ICMPMsg.eq4, hdrKey]
    split
    · rename_i h
      have hy' : dataMatches a.type b.data := by rw [h.1]; exact hy
      rw [data4_eq_key hx hy']
      simp [h.1, h.2]
    · rename_i h
      simp; intro h1 h2; exact absurd ⟨h1, h2⟩ h
  case icmp6.icmp6 a b =>
    simp only [Hdr.eq, ICMPMsg.eq6, hdrKey]
    split
    · rename_i h
      have hy' : data6Type b.data = some a.type := by rw [h.1]; exact hy
      rw [data6_eq_key hx hy']
      simp [h.1, h.2]
    · rename_i h
      simp; intro h1 h2; exact absurd ⟨h1, h2⟩ h
  case null.null a b => simp [Hdr.eq, hdrKey]
  case nullHdr.nullHdr => rfl
  case raw.raw a b => simp [Hdr.eq, hdrKey, Hdr.toBytes]
  case route.route a b =>
    obtain ⟨x, hx⟩ := hx; obtain ⟨y, hy⟩ := hy
    exact bytes_eq_key (x := .route a) (y := .route b) hx hy
  case frag.frag a b =>
    obtain ⟨x, hx⟩ := hx; obtain ⟨y, hy⟩ := hy
    exact bytes_eq_key (x := .frag a) (y := .frag b) hx hy
  case hop.hop a b =>
    obtain ⟨x, hx⟩ := hx; obtain ⟨y, hy⟩ := hy
    exact bytes_eq_key (x := .hop a) (y := .hop b) hx hy
  case dst.dst a b =>
    obtain ⟨x, hx⟩ := hx; obtain ⟨y, hy⟩ := hy
    exact bytes_eq_key (x := .dst a) (y := .dst b) hx hy
  case rip.rip a b =>
    obtain ⟨x, hx⟩ := hx; obtain ⟨y, hy⟩ := hy
    have hx' : Hdr.toBytes (.rip a) = .ok x := hx
    have hy' : Hdr.toBytes (.rip b) = .ok y := hy
    simp only [Hdr.eq, hdrKey, hx', hy', bind_ok, Hdr.raw.injEq]

/-- The class of a list element, for comparing the shapes of packets. -/
def itemCls : Item → Option Cls
  | .hdr h => some h.cls
  | .bytes _ => some .base
  | .other _ => none

/-- What `==` compares of a list element. -/
def itemKey : Item → Item
  | .hdr h => .hdr (hdrKey h)
  | x => x

/-- Every header of the packet can be compared. -/
def AllComparable (p : Packet) : Prop := ∀ h, .hdr h ∈ p → Comparable h

theorem hdr_cls_ne_base (h : Hdr) : h.cls ≠ .base := by cases h <;> simp [Hdr.cls]

theorem matches_key (x y : Item) (hc : itemCls x = itemCls y) (hx : ∀ h, x = .hdr h → Comparable h)
    (hy : ∀ h, y = .hdr h → Comparable h) : x.matches y = .ok (decide (itemKey x = itemKey y)) := by
  cases x <;> cases y <;> simp only [itemCls, reduceCtorEq, Option.some.injEq] at hc
  case hdr.hdr a b =>
    simp only [Item.matches]
    have : b.cls.isSub a.cls = true := by rw [hc]; simp [Cls.isSub]
    rw [if_pos this, header_eq_partial a b hc (hx a rfl) (hy b rfl)]
    simp [itemKey]
  case bytes.bytes a b => simp [Item.matches, itemKey]
  case other.other a b => simp [Item.matches, itemKey]
  case hdr.bytes a b => exact absurd hc (hdr_cls_ne_base a)
  case bytes.hdr a b => exact absurd hc.symm (hdr_cls_ne_base b)

/-- **C45**, partial: over packets with the same header classes, `==` is equality of what is compared
of each header — hence reflexive, symmetric and transitive.  Missing: headers that cannot be
compared, see `packet_eq_raises_violated`. -/
theorem packet_eq_partial (p q : Packet) (hs : p.map itemCls = q.map itemCls) (hp : AllComparable p) (hq : AllComparable q) :
    p.eq q = .ok (decide (p.map itemKey = q.map itemKey)) := by
  have hl : p.length = q.length := by simpa using congrArg List.length hs
  unfold Packet.eq
  rw [if_neg (by simpa using hl)]
  clear hl
  induction p generalizing q with
  | nil => cases q with
    | nil => rfl
    | cons y q => simp at hs
  | cons x p ih =>
    cases q with
    | nil => simp at hs
    | cons y q =>
      simp only [List.map_cons, List.cons.injEq] at hs
      simp only [Packet.eqLoop]
      rw [matches_key x y hs.1 (fun h e => hp h (by simp [e])) (fun h e => hq h (by simp [e]))]
      simp only [bind_ok]
      have := ih q hs.2 (fun h e => hp h (by simp [e])) (fun h e => hq h (by simp [e]))
      by_cases hk : itemKey x = itemKey y
      · rw [if_pos (by simpa using hk), this]
        simp [hk]
      · rw [if_neg (by simpa using hk)]
        simp [hk]

/-- **C45**, partial: reflexive, symmetric, transitive. -/
theorem packet_eq_equivalence_partial (p q r : Packet) (hpq : p.map itemCls = q.map itemCls)
    (hqr : q.map itemCls = r.map itemCls) (hp : AllComparable p) (hq : AllComparable q) (hr : AllComparable r) :
    p.eq p = .ok true ∧ p.eq q = q.eq p ∧ (p.eq q = .ok true → q.eq r = .ok true → p.eq r = .ok true) := by
  rw [packet_eq_partial p p rfl hp hp, packet_eq_partial p q hpq hp hq, packet_eq_partial q p hpq.symm hq hp,
    packet_eq_partial q r hqr hq hr, packet_eq_partial p r (hpq.trans hqr) hp hr]
  refine ⟨by simp, ?_, fun h1 h2 => ?_⟩
  · simp only [Except.ok.injEq]
    exact decide_eq_decide.mpr eq_comm
  · simp only [Except.ok.injEq, decide_eq_true_eq] at h1 h2 ⊢
    exact h1.trans h2

example : AllComparable exPacket := by
  intro h hh
  simp [exPacket] at hh
  rcases hh with rfl | rfl | rfl | rfl <;> trivial

/-- **C45**: packets of different length are never equal. -/
theorem packet_eq_length (p q : Packet) (h : p.length ≠ q.length) : p.eq q = .ok false := by
  unfold Packet.eq; rw [if_pos h]

/-- **C45**, partial: packets that compare equal have, at every position, headers of the same class,
or of a subclass on the right.  Missing: the same class, see `packet_eq_subclass_violated`. -/
theorem packet_eq_classes_partial (p q : Packet) (h : p.eq q = .ok true) (i : Nat) (a b : Hdr)
    (ha : p[i]? = some (.hdr a)) (hb : q[i]? = some (.hdr b)) : b.cls.isSub a.cls = true := by
  unfold Packet.eq at h
  split at h
  · cases h
  rename_i hl
  clear hl
  induction p generalizing q i with
  | nil => simp at ha
  | cons x p ih =>
    cases q with
    | nil => simp at hb
    | cons y q =>
      simp only [Packet.eqLoop] at h
      obtain ⟨m, hm, h⟩ := bind_eq_ok.mp h
      cases m with
      | false => cases h
      | true =>
        rw [if_pos rfl] at h
        cases i with
        | zero =>
          simp only [List.getElem?_cons_zero, Option.some.injEq] at ha hb
          subst ha hb
          simp only [Item.matches] at hm
          split at hm
          · assumption
          · cases hm
        | succ i => exact ih q i (by simpa using ha) (by simpa using hb) h

/-- The negation of **C45**, symmetry and header types: a hop-by-hop header equals a destination-option
header with the same contents, but not the other way round. -/
theorem packet_eq_subclass_violated (h : HopOpt) (b : Bytes) (hb : h.toBytes = .ok b) :
    Packet.eq [.hdr (.hop h)] [.hdr (.dst h)] = .ok true ∧ Packet.eq [.hdr (.dst h)] [.hdr (.hop h)] = .ok false := by
  constructor
  · simp only [Packet.eq, Packet.eqLoop, Item.matches, Hdr.cls, Cls.isSub, Hdr.eq, Hdr.toBytes, hb]
    simp
  · rfl

/-- The negation of **C45**, reflexivity: comparing a packet with itself raises when it holds an
extension header that was never given a next header. -/
theorem packet_eq_raises_violated (o : Nat) (i f : Int) (m : Bool) :
    Packet.eq [.hdr (.frag ⟨none, o, i, f, m⟩)] [.hdr (.frag ⟨none, o, i, f, m⟩)] = .error .attributeError := rfl

/-! ## C90: equal headers serialise equally -/

/-- Finalising and serialising one header in the packet `ctx` in front of `tail`. -/
def wireOf (h : Hdr) (tail : Bytes) (ctx : Packet) : Res Bytes := h.pre tail ctx >>= Hdr.toBytes

/-- The classes, and ICMP data classes, for which equality determines the bytes. -/
def FaithfulEq : Hdr → Prop
  | .vlan _ | .arp _ | .ip4 _ => False
  | .icmp m => match m.data with | .echo .. | .plain .. | .quench .. => True | _ => False
  | .icmp6 m => match m.data with | .echo .. | .plain .. => True | _ => False
  | _ => True

/-- **C90**, partial: Ethernet, IPv6, UDP, TCP, RIPv2, extension and raw headers and ICMP echo, source
quench and field-less messages that compare equal serialise equally in every packet.  Missing: the
other classes, see the `_violated` theorems. -/
theorem equal_serialise_partial (x y : Hdr) (hc : x.cls = y.cls) (hx : Comparable x) (hy : Comparable y)
    (fx : FaithfulEq x) (fy : FaithfulEq y) (h : x.eq y = .ok true) (tail : Bytes) (ctx : Packet) :
    wireOf x tail ctx = wireOf y tail ctx := by
  rw [header_eq_partial x y hc hx hy] at h
  replace h : hdrKey x = hdrKey y := by simpa using h
  cases x <;> cases y <;> simp only [Hdr.cls, reduceCtorEq] at hc
  case eth.eth a b => simp only [hdrKey] at h; rw [h]
  case vlan.vlan a b => cases fx
  case arp.arp a b => cases fx
  case ip4.ip4 a b => cases fx
  case ip6.ip6 a b =>
    obtain ⟨a1, a2, a3, a4, a5, a6, a7⟩ := a
    obtain ⟨b1, b2, b3, b4, b5, b6, b7⟩ := b
    simp only [hdrKey, Hdr.ip6.injEq, IPv6.mk.injEq] at h
    obtain ⟨rfl, rfl, rfl, rfl, _, rfl, rfl⟩ := h
    rfl
  case udp.udp a b =>
    obtain ⟨a1, a2, a3, a4⟩ := a; obtain ⟨b1, b2, b3, b4⟩ := b
    simp only [hdrKey, Hdr.udp.injEq, UDP.mk.injEq] at h
    obtain ⟨rfl, rfl, _, _⟩ := h
    unfold wireOf
    simp only [Hdr.pre]
    congr 2
  case tcp.tcp a b =>
    obtain ⟨a1, a2, a3, a4, a5, a6, a7, a8⟩ := a
    obtain ⟨b1, b2, b3, b4, b5, b6, b7, b8⟩ := b
    simp only [hdrKey, Hdr.tcp.injEq, TCP.mk.injEq] at h
    obtain ⟨rfl, rfl, rfl, rfl, rfl, rfl, rfl, _⟩ := h
    rfl
  case icmp.icmp a b =>
    obtain ⟨t, c, d, s⟩ := a; obtain ⟨t', c', d', s'⟩ := b
    simp only [hdrKey, Hdr.icmp.injEq, ICMPMsg.mk.injEq, and_true] at h
    obtain ⟨rfl, rfl, hd⟩ := h
    simp only [Comparable] at hx hy
    have he : d.enc = d'.enc := by
      cases d <;> simp only [FaithfulEq] at fx <;> cases d' <;> simp only [FaithfulEq] at fy <;>
        simp only [data4Key, reduceCtorEq, ICMPData.other.injEq, ICMPData.echo.injEq, ICMPData.payload] at hd
      case plain.plain c p c' p' => rw [hd]; rfl
      case plain.quench c p p' => simp only [dataMatches] at hx hy; subst hy; cases c <;> cases hx
      case quench.plain p c p' => simp only [dataMatches] at hx hy; subst hx; cases c <;> cases hy
      case quench.quench p p' => rw [hd]
      case echo.echo r i s p r' i' s' p' => obtain ⟨_, rfl, rfl, rfl⟩ := hd; rfl
    have hw : ∀ c0, icmp4.wire ⟨t, c, d, s⟩ c0 = icmp4.wire ⟨t, c, d', s'⟩ c0 := by
      intro c0
      simp only [ICMPKind.wire, icmp4, he]
    simp only [wireOf, Hdr.pre, bind_ok, Hdr.toBytes, ICMPKind.toBytes, ICMPKind.computeChecksum, hw]
  case icmp6.icmp6 a b =>
    obtain ⟨t, c, d, s⟩ := a; obtain ⟨t', c', d', s'⟩ := b
    simp only [hdrKey, Hdr.icmp6.injEq, ICMPMsg.mk.injEq, and_true] at h
    obtain ⟨rfl, rfl, hd⟩ := h
    have he : d.enc = d'.enc := by
      cases d <;> simp only [FaithfulEq] at fx <;> cases d' <;> simp only [FaithfulEq] at fy <;>
        simp only [data6Key, reduceCtorEq, ICMPv6Data.other.injEq, ICMPv6Data.echo.injEq, ICMPv6Data.payload] at hd
      case plain.plain c o p c' o' p' => rw [hd]; rfl
      case echo.echo r i s p r' i' s' p' => obtain ⟨_, rfl, rfl, rfl⟩ := hd; rfl
    simp only [wireOf, Hdr.pre]
    cases ctx.ip6? with
    | none => rfl
    | some ip =>
      simp only [icmp6PreSerialize, icmp6Checksum, he]
      cases d'.enc with
      | error e => rfl
      | ok x =>
        simp only [bind_ok]
        cases pack [.u 4, .x 3, .u 1, .u 1, .u 1] [.i (4 + x.length : Nat), .i 58, .i t, .i c] with
        | error e => rfl
        | ok y =>
          simp only [bind_ok, map_ok, Hdr.toBytes, icmp6ToBytes, ICMPKind.wire, icmp6, he]
  case null.null a b => simp only [hdrKey] at h; rw [h]
  case nullHdr.nullHdr => rfl
  case raw.raw a b =>
    have : a = b := by simpa [hdrKey, Hdr.toBytes] using h
    rw [this]
  case route.route a b =>
    obtain ⟨x, hx⟩ := hx; obtain ⟨y, hy⟩ := hy
    have e : x = y := by simpa [hdrKey, Hdr.toBytes, hx, hy] using h
    simp only [wireOf, Hdr.pre, bind_ok, Hdr.toBytes, hx, hy, e]
  case frag.frag a b =>
    obtain ⟨x, hx⟩ := hx; obtain ⟨y, hy⟩ := hy
    have e : x = y := by simpa [hdrKey, Hdr.toBytes, hx, hy] using h
    simp only [wireOf, Hdr.pre, bind_ok, Hdr.toBytes, hx, hy, e]
  case hop.hop a b =>
    obtain ⟨x, hx⟩ := hx; obtain ⟨y, hy⟩ := hy
    have e : x = y := by simpa [hdrKey, Hdr.toBytes, hx, hy] using h
    simp only [wireOf, Hdr.pre, bind_ok, Hdr.toBytes, hx, hy, e]
  case dst.dst a b =>
    obtain ⟨x, hx⟩ := hx; obtain ⟨y, hy⟩ := hy
    have e : x = y := by simpa [hdrKey, Hdr.toBytes, hx, hy] using h
    simp only [wireOf, Hdr.pre, bind_ok, Hdr.toBytes, hx, hy, e]
  case rip.rip a b =>
    obtain ⟨x, hx⟩ := hx; obtain ⟨y, hy⟩ := hy
    have e : x = y := by simpa [hdrKey, Hdr.toBytes, hx, hy] using h
    simp only [wireOf, Hdr.pre, bind_ok, Hdr.toBytes, hx, hy, e]

example : FaithfulEq (.icmp ⟨8, 0, .echo false 7 1 [1, 2], 0⟩) ∧ Comparable (.icmp ⟨8, 0, .echo false 7 1 [1, 2], 0⟩) :=
  ⟨trivial, .inl rfl⟩

/-- The negation of **C90** for VLAN tags (the priority), ARP (the address lengths), IPv4 (the
options), ICMP redirects (the gateway) and ICMPv6 neighbor solicitations (the target): equal headers
whose bytes differ. -/
theorem equal_serialise_violated :
    (∃ a b : Vlan, a.eq b = true ∧ a.toBytes ≠ b.toBytes) ∧
    (∃ a b : Arp, a.eq b = true ∧ a.toBytes ≠ b.toBytes) ∧
    (∃ a b : IPv4, a.eq b = true ∧ a.toBytes ≠ b.toBytes) ∧
    (∃ a b : ICMPMsg ICMPData, a.eq4 b = .ok true ∧ icmp4.toBytes a ≠ icmp4.toBytes b) ∧
    (∃ a b : ICMPMsg ICMPv6Data, a.eq6 b = .ok true ∧ icmp6ToBytes a ≠ icmp6ToBytes b) :=
  ⟨⟨⟨1, 0, 0x0800⟩, ⟨1, 3, 0x0800⟩, by decide +kernel, by decide +kernel⟩,
    ⟨⟨1, 0x0800, 6, 4, 1, ⟨[0, 0, 0, 0, 0, 1]⟩, .v4 1, ⟨[0, 0, 0, 0, 0, 2]⟩, .v4 2⟩,
      ⟨1, 0x0800, 6, 16, 1, ⟨[0, 0, 0, 0, 0, 1]⟩, .v4 1, ⟨[0, 0, 0, 0, 0, 2]⟩, .v4 2⟩,
      by decide +kernel, by decide +kernel⟩,
    ⟨⟨0, 20, 0, 0, 0, 64, 17, .v4 1, .v4 2, []⟩, ⟨0, 20, 0, 0, 0, 64, 17, .v4 1, .v4 2, [.single 1]⟩,
      by decide +kernel, by decide +kernel⟩,
    ⟨⟨5, 0, .redirect 1 [], 0⟩, ⟨5, 0, .redirect 2 [], 0⟩, by decide +kernel, by decide +kernel⟩,
    ⟨⟨135, 0, .ns 1 [] [], 0⟩, ⟨135, 0, .ns 2 [] [], 0⟩, by decide +kernel, by decide +kernel⟩⟩

end SY.Props
