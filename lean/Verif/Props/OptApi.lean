import Verif.OptApi
import Verif.Props.IPv4
import Verif.Props.Of13

/-! # Properties C178–C182: working with options of IPv4, ICMPv6 and IPv6 headers -/

namespace SY.Props

/-! ## Indices -/

/-- An index is accepted exactly if it is a position counted from the front, or from the back as a negative number. -/
theorem optIndex_ok_iff (len k : Nat) (i : Int) :
    optIndex len i = .ok k ↔ k < len ∧ (i = k ∨ i = (k : Int) - len) := by
  unfold optIndex pyIndex
  dsimp only
  by_cases h : i < 0
  · simp only [h, if_true]
    split
    · rename_i g
      simp only [Option.elim, Except.ok.injEq]
      omega
    · simp only [Option.elim, reduceCtorEq, false_iff]
      omega
  · simp only [h, if_false]
    split
    · simp only [Option.elim, Except.ok.injEq]
      omega
    · simp only [Option.elim, reduceCtorEq, false_iff]
      omega

/-- Any other index is refused. -/
theorem optIndex_error_iff (len : Nat) (i : Int) (e : PyErr) :
    optIndex len i = .error e ↔ e = .indexError ∧ (i < -(len : Int) ∨ (len : Int) ≤ i) := by
  unfold optIndex pyIndex
  dsimp only
  by_cases h : i < 0
  · simp only [h, if_true]
    split
    · simp only [Option.elim, reduceCtorEq, false_iff]
      omega
    · simp only [Option.elim, Except.error.injEq, eq_comm (a := PyErr.indexError)]
      constructor
      · intro g; exact ⟨g, by omega⟩
      · exact fun g => g.1
  · simp only [h, if_false]
    split
    · simp only [Option.elim, reduceCtorEq, false_iff]
      omega
    · simp only [Option.elim, Except.error.injEq, eq_comm (a := PyErr.indexError)]
      constructor
      · intro g; exact ⟨g, by omega⟩
      · exact fun g => g.1

theorem listIndex_nat {α : Type} (l : List α) (k : Nat) (x : α) : listIndex l (k : Int) = .ok x ↔ l[k]? = some x := by
  unfold listIndex
  have h : ¬ ((k : Int) < 0) := by omega
  simp only [h, if_false, Int.toNat_natCast]
  cases hk : l[k]? with
  | none => simp
  | some y =>
    have h0 : (0 : Int) ≤ k := by omega
    simp [h0]

theorem split_at {α : Type} {l : List α} {k : Nat} (h : k < l.length) :
    l = l.take k ++ l[k] :: l.drop (k + 1) := by simp

/-! ## C181: lists of options -/

/-- **C181**: reading an element: it is the one at the position counted from the front or, for negative numbers, from the
back; any other number raises `IndexError`. -/
theorem optlist_get {α : Type} (l : List α) (i : Int) (x : α) :
    optGet l i = .ok x ↔ ∃ a b, l = a ++ x :: b ∧ (i = a.length ∨ i = -(b.length : Int) - 1) := by
  unfold optGet
  rw [bind_eq_ok]
  constructor
  · rintro ⟨k, h, g⟩
    obtain ⟨h1, h2⟩ := (optIndex_ok_iff _ _ _).mp h
    rw [listIndex_nat, List.getElem?_eq_getElem h1, Option.some.injEq] at g
    refine ⟨l.take k, l.drop (k + 1), by rw [← g]; exact split_at h1, ?_⟩
    simp only [List.length_take, List.length_drop]
    omega
  · rintro ⟨a, b, rfl, h⟩
    refine ⟨a.length, (optIndex_ok_iff _ _ _).mpr ⟨by simp, ?_⟩, ?_⟩
    · simp only [List.length_append, List.length_cons]; omega
    · rw [listIndex_nat]; simp

/-- **C181**: assigning an element replaces just that one. -/
theorem optlist_set {α : Type} (l l' : List α) (i : Int) (v : Option α) :
    optSet l i v = .ok l' ↔
      ∃ a x b y, v = some y ∧ l = a ++ x :: b ∧ (i = a.length ∨ i = -(b.length : Int) - 1) ∧ l' = a ++ y :: b := by
  cases v with
  | none => simp [optSet]
  | some y =>
    simp only [optSet]
    rw [bind_eq_ok]
    constructor
    · rintro ⟨k, h, g⟩
      obtain ⟨h1, h2⟩ := (optIndex_ok_iff _ _ _).mp h
      obtain rfl := Except.ok.inj g
      refine ⟨l.take k, l[k], l.drop (k + 1), y, rfl, split_at h1, ?_, ?_⟩
      · simp only [List.length_take, List.length_drop]
        omega
      · rw [List.set_eq_take_append_cons_drop, if_pos h1]
    · rintro ⟨a, x, b, z, hz, rfl, h, rfl⟩
      obtain rfl := Option.some.inj hz
      refine ⟨a.length, (optIndex_ok_iff _ _ _).mpr ⟨by simp, ?_⟩, ?_⟩
      · simp only [List.length_append, List.length_cons]; omega
      · simp

/-- **C181**: deleting an element removes just that one. -/
theorem optlist_del {α : Type} (l l' : List α) (i : Int) :
    optDel l i = .ok l' ↔
      ∃ a x b, l = a ++ x :: b ∧ (i = a.length ∨ i = -(b.length : Int) - 1) ∧ l' = a ++ b := by
  unfold optDel
  rw [bind_eq_ok]
  constructor
  · rintro ⟨k, h, g⟩
    obtain ⟨h1, h2⟩ := (optIndex_ok_iff _ _ _).mp h
    obtain rfl := Except.ok.inj g
    refine ⟨l.take k, l[k], l.drop (k + 1), split_at h1, ?_, List.eraseIdx_eq_take_drop_succ ..⟩
    simp only [List.length_take, List.length_drop]
    omega
  · rintro ⟨a, x, b, rfl, h, rfl⟩
    refine ⟨a.length, (optIndex_ok_iff _ _ _).mpr ⟨by simp, ?_⟩, ?_⟩
    · simp only [List.length_append, List.length_cons]; omega
    · simp [List.eraseIdx_append_of_length_le]

/-- **C181**: when these raise, and what. -/
theorem optlist_errors {α : Type} (l : List α) (i : Int) (v : Option α) (e : PyErr) :
    (optGet l i = .error e ↔ e = .indexError ∧ (i < -(l.length : Int) ∨ (l.length : Int) ≤ i)) ∧
    (optDel l i = .error e ↔ e = .indexError ∧ (i < -(l.length : Int) ∨ (l.length : Int) ≤ i)) ∧
    (optSet l i v = .error e ↔ (v = none ∧ e = .valueError) ∨
      (v ≠ none ∧ e = .indexError ∧ (i < -(l.length : Int) ∨ (l.length : Int) ≤ i))) := by
  refine ⟨?_, ?_, ?_⟩
  · unfold optGet
    cases h : optIndex l.length i with
    | error e' =>
      have g := (optIndex_error_iff _ _ _).mp h
      simp only [bind_error, Except.error.injEq]
      constructor
      · rintro rfl; exact g
      · intro q; rw [q.1, g.1]
    | ok k =>
      obtain ⟨h1, h2⟩ := (optIndex_ok_iff _ _ _).mp h
      simp only [bind_ok]
      rw [(listIndex_nat l k l[k]).mpr (by simp [h1])]
      simp only [reduceCtorEq, false_iff]
      omega
  · unfold optDel
    cases h : optIndex l.length i with
    | error e' =>
      have g := (optIndex_error_iff _ _ _).mp h
      simp only [bind_error, Except.error.injEq]
      constructor
      · rintro rfl; exact g
      · intro q; rw [q.1, g.1]
    | ok k =>
      obtain ⟨h1, h2⟩ := (optIndex_ok_iff _ _ _).mp h
      simp only [bind_ok, reduceCtorEq, false_iff]
      omega
  · cases v with
    | none => simp [optSet, eq_comm]
    | some x =>
      simp only [optSet]
      cases h : optIndex l.length i with
      | error e' =>
        have g := (optIndex_error_iff _ _ _).mp h
        simp only [bind_error, Except.error.injEq, reduceCtorEq, false_and, ne_eq, not_false_eq_true, true_and, false_or]
        constructor
        · rintro rfl; exact g
        · intro q; rw [q.1, g.1]
      | ok k =>
        obtain ⟨h1, h2⟩ := (optIndex_ok_iff _ _ _).mp h
        simp only [bind_ok, reduceCtorEq, false_iff, false_and, false_or, ne_eq, not_false_eq_true, true_and]
        omega

/-- **C181**: appending puts an option at the end; objects of other classes are refused. -/
theorem optlist_append {α : Type} (err : PyErr) (l : List α) (v : Option α) :
    optAppend err l v = v.elim (.error err) (fun x => .ok (l ++ [x])) := by
  cases v <;> rfl

/-- Whatever is done to a list, it holds only options that were in it or were given. -/
theorem optRun_mem {α : Type} (err : PyErr) (ops : List (ListOp α)) (l : List α) (P : α → Prop) (hl : ∀ x ∈ l, P x)
    (ho : ∀ op ∈ ops, ∀ x, op = .append (some x) ∨ (∃ i, op = .set i (some x)) → P x) :
    ∀ x ∈ optRun err l ops, P x := by
  induction ops generalizing l with
  | nil => exact hl
  | cons op ops ih =>
    have hops : ∀ op' ∈ ops, ∀ x, op' = .append (some x) ∨ (∃ i, op' = .set i (some x)) → P x :=
      fun op' h => ho op' (List.mem_cons_of_mem _ h)
    have hop := ho op (List.mem_cons_self ..)
    unfold optRun
    split
    · rename_i l' hl'
      refine ih l' ?_ hops
      cases op with
      | append v =>
        cases v with
        | none => simp [ListOp.apply, optAppend] at hl'
        | some y =>
          simp only [ListOp.apply, optAppend, Except.ok.injEq] at hl'
          subst hl'
          intro x hx
          rcases List.mem_append.mp hx with hx | hx
          · exact hl x hx
          · rw [List.mem_singleton] at hx
            subst hx
            exact hop x (Or.inl rfl)
      | set i v =>
        obtain ⟨a, z, b, y, rfl, rfl, _, rfl⟩ := (optlist_set l l' i v).mp hl'
        intro x hx
        simp only [List.mem_append, List.mem_cons] at hx
        rcases hx with hx | rfl | hx
        · exact hl x (by simp [hx])
        · exact hop x (Or.inr ⟨i, rfl⟩)
        · exact hl x (by simp [hx])
      | del i =>
        obtain ⟨a, z, b, rfl, _, rfl⟩ := (optlist_del l l' i).mp hl'
        intro x hx
        simp only [List.mem_append] at hx
        rcases hx with hx | hx <;> exact hl x (by simp [hx])
    · exact ih l hl hops

/-- **C181**: a list of IPv4 options made by any sequence of operations out of serialisable options is written, with
`raw_length()` bytes, and read back, followed by end-of-list options only. -/
theorem optlist_run_roundtrip (ops : List (ListOp IPOpt))
    (ho : ∀ op ∈ ops, ∀ x, op = .append (some x) ∨ (∃ i, op = .set i (some x)) → x.WF) :
    ∃ b n, optsToBytes (optRun .generic [] ops) = .ok b ∧ optsRawLength (optRun .generic [] ops) = .ok b.length ∧
      b.length % 4 = 0 ∧ parseOpts b = .ok (optRun .generic [] ops ++ List.replicate n (.single 0)) := by
  have hw := optRun_mem .generic ops [] IPOpt.WF (by simp) ho
  obtain ⟨b, h1, _, h3, h4⟩ := optsToBytes_ok hw
  exact ⟨b, padCount (optRun .generic [] ops), h1, by simp [optsRawLength, h1], h3, h4⟩

/-- **C181**: the number of bytes: the lengths of the options, rounded up to the *next* multiple of four. -/
theorem optlist_raw_length (os : List IPOpt) (h : ∀ o ∈ os, o.WF) (hne : os ≠ []) :
    optsRawLength os = .ok (4 * ((os.map IPOpt.length).sum / 4 + 1)) := by
  obtain ⟨b, h1, h2, h3, _⟩ := optsToBytes_ok h
  have : b.length = 4 * ((os.map IPOpt.length).sum / 4 + 1) := by
    rw [h2, padCount, if_neg (by simp [hne])]; omega
  simp [optsRawLength, h1, this]

example : optRun .generic [] [.append (some newRouterAlert), .append none, .append (some newNoOperation), .set (-1) (some newMTUProbe),
    .append (some newTimestamp), .del 0, .del 7] = [newMTUProbe, newTimestamp] ∧
    optsRawLength [newMTUProbe, newTimestamp] = .ok 44 := by decide +kernel

/-- **C181**: looking an ICMPv6 option up by its class finds the first one of exactly that class. -/
theorem nd_by_class (l : List NDOpt) (c : NDClass) (o : NDOpt) :
    ndGetClass l c = .ok o ↔ ∃ a b, l = a ++ o :: b ∧ o.klass = c ∧ ∀ x ∈ a, x.klass ≠ c := by
  unfold ndGetClass
  constructor
  · intro h
    split at h
    · rename_i o' hf
      obtain rfl := Except.ok.inj h
      rw [List.find?_eq_some_iff_append] at hf
      obtain ⟨h1, a, b, rfl, h2⟩ := hf
      exact ⟨a, b, rfl, by simpa using h1, by simpa using h2⟩
    · simp at h
  · rintro ⟨a, b, rfl, h1, h2⟩
    have : (a ++ o :: b).find? (fun o => decide (o.klass = c)) = some o := by
      rw [List.find?_eq_some_iff_append]
      exact ⟨by simpa using h1, a, b, rfl, by simpa using h2⟩
    rw [this]

/-- **C181 is false** for classes: options are instances of their base classes, but are not found under them. -/
theorem nd_by_class_violated (l : List NDOpt) :
    ndGetClass l .linkLayer = .error .indexError ∧ ndGetClass l .option = .error .indexError := by
  have hk : ∀ o : NDOpt, o.klass ≠ .linkLayer ∧ o.klass ≠ .option := by
    intro o
    rcases o with ⟨⟨⟩, _⟩ | _ | _ | _ <;> simp [NDOpt.klass]
  have h1 : l.find? (fun o => decide (o.klass = .linkLayer)) = none := by
    rw [List.find?_eq_none]; intro o _; simp [(hk o).1]
  have h2 : l.find? (fun o => decide (o.klass = .option)) = none := by
    rw [List.find?_eq_none]; intro o _; simp [(hk o).2]
  simp [ndGetClass, h1, h2]

example : ndGetClass [.mtu 1500, .lladdr true EthAddr.any, .mtu 9000] .mtu = .ok (.mtu 1500) := by decide

/-- **C181**: options of the IPv6 extension headers are read by position from the front ... -/
theorem hop_get (h : HopOpt) (k : Nat) (x : TLV) : h.get k = .ok x ↔ h.opts[k]? = some x := by
  unfold HopOpt.get
  split
  · exact listIndex_nat ..
  · rename_i g
    have : h.opts.length ≤ k := by omega
    simp [this]

/-- ... but, **C181 is false** for them, never from the back, unlike every other list of options. -/
theorem hop_get_violated (h : HopOpt) (i : Int) (hi : i < 0) : h.get i = .error .indexError := by
  unfold HopOpt.get
  rw [if_neg (by omega)]

/-! ## C178: routing options as programs make them -/

/-- What the operations keep: the number, at most nine addresses, and a pointer that once was in range. -/
def RouteInv (c : RouteClass) (o : RouteOption) : Prop :=
  o.optnum = c.optnum ∧ o.addrs.length ≤ 9 ∧ 4 ≤ o.ptr ∧ o.ptr < 40

theorem route_apply_inv {c : RouteClass} {o o' : RouteOption} {op : RouteOp} (h : RouteInv c o) (hs : o.apply op = .ok o') :
    RouteInv c o' := by
  obtain ⟨h1, h2, h3, h4⟩ := h
  cases op with
  | pointer v =>
    simp only [RouteOption.apply, RouteOption.setPointer] at hs
    split at hs
    · obtain rfl := Except.ok.inj hs
      exact ⟨h1, h2, by simp only; omega, by simp only; omega⟩
    · simp at hs
  | set i a =>
    simp only [RouteOption.apply, RouteOption.set] at hs
    split at hs
    · simp at hs
    · obtain ⟨k, _, hs⟩ := bind_eq_ok.mp hs
      obtain ⟨x, _, hs⟩ := bind_eq_ok.mp hs
      obtain rfl := Except.ok.inj hs
      exact ⟨h1, by simpa using h2, h3, h4⟩
  | del i =>
    simp only [RouteOption.apply, RouteOption.del] at hs
    obtain ⟨k, _, hs⟩ := bind_eq_ok.mp hs
    obtain rfl := Except.ok.inj hs
    refine ⟨h1, ?_, h3, h4⟩
    have := List.length_eraseIdx_le o.addrs k
    simp only
    omega

theorem route_run_inv {c : RouteClass} (ops : List RouteOp) {o : RouteOption} (h : RouteInv c o) : RouteInv c (o.run ops) := by
  induction ops generalizing o with
  | nil => exact h
  | cons op ops ih =>
    unfold RouteOption.run
    split
    · rename_i o' ho'
      exact ih (route_apply_inv h ho')
    · exact ih h

theorem route_new_inv {c : RouteClass} {k : Int} {o : RouteOption} (h : RouteOption.new c k = .ok o) : RouteInv c o := by
  unfold RouteOption.new at h
  split at h
  · simp at h
  · obtain rfl := Except.ok.inj h
    refine ⟨rfl, ?_, by simp, by simp⟩
    simp only [List.length_replicate]
    omega

/-- The bytes of a routing option in a state that programs can reach. -/
theorem route_bytes {c : RouteClass} {o : RouteOption} (h : RouteInv c o) :
    o.toOpt.toBytes = .ok (UInt8.ofNat c.optnum :: UInt8.ofNat (3 + o.addrs.length * 4) :: UInt8.ofNat o.ptr :: addrsBytes o.addrs) := by
  obtain ⟨h1, h2, h3, h4⟩ := h
  have e1 : ∀ x : Nat, beEnc 1 x = [UInt8.ofNat x] := by intro x; simp [beEnc]
  rw [IPOpt.toBytes.eq_def]
  simp only [RouteOption.toOpt, IPOpt.length, h1]
  rw [pack_cons_u (by cases c <;> decide), pack_cons_u (by omega), pack_cons_u (by omega)]
  simp [e1, pack_nil]

theorem route_step (c : RouteClass) (p : Nat) (as : List (BitVec 32)) (hl : as.length ≤ 63) (hp : p < 256) (rest : Bytes) (t : UInt8)
    (ht : t.toNat % 32 = c.optnum) :
    optStep (t :: UInt8.ofNat (3 + as.length * 4) :: UInt8.ofNat p :: (addrsBytes as ++ rest)) =
      if 1 ≤ p / 4 ∧ p / 4 ≤ as.length then .ok (.routing c.optnum p as, 3 + as.length * 4) else .error .valueError := by
  have hand : t.toNat &&& 0x1f = c.optnum := by rw [Nat.and_two_pow_sub_one_eq_mod _ 5]; exact ht
  have hen : enumOf ipOptionNumbers ((t.toNat &&& 0x1f : Nat) : Int) = .ok c.optnum := by rw [hand]; cases c <;> decide
  have hb2 : (UInt8.ofNat (3 + as.length * 4)).toNat = 3 + as.length * 4 := by simp; omega
  have hb3 : (UInt8.ofNat p).toNat = p := by simp; omega
  simp only [optStep, hen, bind_ok, byteAt, List.getElem?_cons_zero, List.getElem?_cons_succ, List.drop_succ_cons, List.drop_zero,
    hb2, hb3]
  rw [if_neg (by cases c <;> decide), if_pos (by cases c <;> decide)]
  have h4 : (3 + as.length * 4 - 3) / 4 = as.length := by omega
  rw [h4, readAddrs_addrsBytes]
  simp only [bind_ok]
  by_cases g : 1 ≤ p / 4 ∧ p / 4 ≤ as.length
  · rw [if_pos g, if_pos (by omega)]
  · rw [if_neg g, if_neg (by omega)]

/-- **C178**: what a routing option is written as and read back as, after any operations whatever: it always can be
written, in `length()` bytes; it is read back just as it was if the pointer is not beyond the addresses that are left, and is
refused with `ValueError` otherwise. -/
theorem route_option_back (c : RouteClass) (k : Int) (o : RouteOption) (hn : RouteOption.new c k = .ok o) (ops : List RouteOp) :
    ∃ b, (o.run ops).toOpt.toBytes = .ok b ∧ b.length = (o.run ops).toOpt.length ∧
      ∀ rest, optStep (b ++ rest) =
        if (o.run ops).ptr / 4 ≤ (o.run ops).addrs.length then .ok ((o.run ops).toOpt, b.length) else .error .valueError := by
  have h := route_run_inv ops (route_new_inv hn)
  refine ⟨_, route_bytes h, ?_, ?_⟩
  · simp [RouteOption.toOpt, IPOpt.length, length_addrsBytes]; omega
  · intro rest
    obtain ⟨h1, h2, h3, h4⟩ := h
    have := route_step c (o.run ops).ptr (o.run ops).addrs (by omega) (by omega) rest (UInt8.ofNat c.optnum) (by cases c <;> decide)
    simp only [List.cons_append, List.length_cons, length_addrsBytes]
    rw [this]
    have hc : (1 ≤ (o.run ops).ptr / 4 ∧ (o.run ops).ptr / 4 ≤ (o.run ops).addrs.length) ↔
        (o.run ops).ptr / 4 ≤ (o.run ops).addrs.length := by omega
    simp only [hc, RouteOption.toOpt, h1]
    congr 3
    omega

/-- **C178 is false**: after deleting an address the pointer may be left beyond the end; no error is raised, the option is
written, and the header it is in is refused by every receiver running this code. -/
theorem route_option_back_violated :
    ∃ o o₁ o₂ b, RouteOption.new .record 2 = .ok o ∧ o.setPointer 8 = .ok o₁ ∧ o₁.del 1 = .ok o₂ ∧ optsToBytes [o₂.toOpt] = .ok b ∧
      parseOpts b = .error .valueError ∧
      IPv4.fromBytes ([0x47, 0, 0, 28, 0, 0, 0, 0, 64, 1, 0, 0, 10, 0, 0, 1, 10, 0, 0, 2] ++ b) = .error .valueError :=
  ⟨⟨7, 4, [0, 0]⟩, ⟨7, 8, [0, 0]⟩, ⟨7, 8, [0]⟩, [7, 7, 8, 0, 0, 0, 0, 0], by decide, by decide, by decide, by decide +kernel,
    by decide +kernel, by decide +kernel⟩

/-- Deletions can also leave no address at all, an option that no pointer fits. -/
theorem route_option_empty_violated (c : RouteClass) :
    ∃ o o', RouteOption.new c 1 = .ok o ∧ o.del 0 = .ok o' ∧ o'.addrs = [] ∧ ∀ v, o'.setPointer v = .error .valueError := by
  refine ⟨⟨c.optnum, 4, [0]⟩, ⟨c.optnum, 4, []⟩, by cases c <;> decide, by cases c <;> decide, rfl, ?_⟩
  intro v
  unfold RouteOption.setPointer
  rw [if_neg]
  simp only [List.length_nil]
  omega

/-- An operation that is not a deletion. -/
def NoDel : RouteOp → Prop
  | .del _ => False
  | _ => True

/-- **C178, partial**: unless addresses are deleted, every routing option is written and read back as it was. -/
theorem route_option_back_partial (c : RouteClass) (k : Int) (o : RouteOption) (hn : RouteOption.new c k = .ok o) (ops : List RouteOp)
    (hd : ∀ op ∈ ops, NoDel op) :
    ∃ b, (o.run ops).toOpt.toBytes = .ok b ∧ ∀ rest, optStep (b ++ rest) = .ok ((o.run ops).toOpt, b.length) := by
  obtain ⟨b, h1, h2, h3⟩ := route_option_back c k o hn ops
  refine ⟨b, h1, fun rest => ?_⟩
  rw [h3 rest, if_pos]
  have h0 : o.ptr / 4 ≤ o.addrs.length := by
    unfold RouteOption.new at hn
    split at hn
    · simp at hn
    · obtain rfl := Except.ok.inj hn
      simp only [List.length_replicate]
      omega
  clear hn h1 h2 h3
  induction ops generalizing o with
  | nil => exact h0
  | cons op ops ih =>
    unfold RouteOption.run
    split
    · rename_i o' ho'
      refine ih o' (fun q hq => hd q (List.mem_cons_of_mem _ hq)) ?_
      cases op with
      | pointer v =>
        simp only [RouteOption.apply, RouteOption.setPointer] at ho'
        split at ho'
        · obtain rfl := Except.ok.inj ho'
          simp only
          omega
        · simp at ho'
      | set i a =>
        simp only [RouteOption.apply, RouteOption.set] at ho'
        split at ho'
        · simp at ho'
        · obtain ⟨j, _, ho'⟩ := bind_eq_ok.mp ho'
          obtain ⟨x, _, ho'⟩ := bind_eq_ok.mp ho'
          obtain rfl := Except.ok.inj ho'
          simpa using h0
      | del i => exact absurd (hd _ (List.mem_cons_self ..)) (by simp [NoDel])
    · exact ih o (fun q hq => hd q (List.mem_cons_of_mem _ hq)) h0

example : ∃ o, RouteOption.new .loose 3 = .ok o ∧ (o.run [.pointer 12, .set (-1) (.text "10.0.0.9".toList), .set 0 .other,
    .set 1 (.addr 0x01020304)]) = ⟨3, 12, [0, 0x01020304, 0x0a000009]⟩ := ⟨_, rfl, by decide +kernel⟩

/-- How many addresses there can be. -/
theorem route_new (c : RouteClass) (k : Int) :
    (∃ o, RouteOption.new c k = .ok o) ↔ 1 ≤ k ∧ k ≤ 9 := by
  unfold RouteOption.new
  split
  · simp; omega
  · simp; omega

/-- Pointers that are accepted: those from 4 to just before the end of the addresses, whether or not they point to the start
of an address. -/
theorem route_pointer (o : RouteOption) (v : Int) :
    (∃ o', o.setPointer v = .ok o' ∧ o' = { o with ptr := v.toNat }) ↔ 4 ≤ v ∧ v < 4 * (o.addrs.length + 1) := by
  unfold RouteOption.setPointer
  split
  · simp; omega
  · simp; omega

/-- Elements of a routing option are read, assigned and deleted as in a list of options. -/
theorem route_elements (o : RouteOption) (i : Int) :
    o.get i = optGet o.addrs i ∧ (∀ o', o.del i = .ok o' ↔ ∃ l, optDel o.addrs i = .ok l ∧ o' = { o with addrs := l }) ∧
      ∀ (a : BitVec 32) (o' : RouteOption), o.set i (.addr a) = .ok o' ↔
        ∃ l, optSet o.addrs i (some a) = .ok l ∧ o' = { o with addrs := l } := by
  refine ⟨rfl, fun o' => ?_, fun a o' => ?_⟩
  · unfold RouteOption.del optDel
    cases optIndex o.addrs.length i <;> simp [eq_comm]
  · unfold RouteOption.set optSet
    rw [if_neg (by simp)]
    cases optIndex o.addrs.length i <;> simp [RouteArg.value, eq_comm]

/-! ## C179: routing options of other hosts -/

/-- A routing option as RFC 791 (3.1) has it: a type octet with one of the three numbers, the length, and a pointer to the
next address to be used, which is beyond the option (one more than its length) when the route is complete. -/
def Rfc791Route (t : UInt8) (c : RouteClass) (len ptr : Nat) (as : List (BitVec 32)) : Prop :=
  t.toNat % 32 = c.optnum ∧ 1 ≤ as.length ∧ as.length ≤ 9 ∧ len = 3 + 4 * as.length ∧ 4 ≤ ptr ∧ ptr % 4 = 0 ∧ ptr ≤ len + 1

/-- The bytes of such an option. -/
def rfc791Bytes (t : UInt8) (len ptr : Nat) (as : List (BitVec 32)) : Bytes := t :: UInt8.ofNat len :: UInt8.ofNat ptr :: addrsBytes as

/-- **C179 is false**: no completed route is understood: the option is refused for every number of addresses and whatever
they are, so the packet it came in cannot be parsed. -/
theorem route_complete_violated (t : UInt8) (c : RouteClass) (len ptr : Nat) (as : List (BitVec 32)) (h : Rfc791Route t c len ptr as)
    (hfull : ptr = len + 1) (rest : Bytes) :
    optStep (rfc791Bytes t len ptr as ++ rest) = .error .valueError ∧
      parseOpts (rfc791Bytes t len ptr as ++ rest) = .error .valueError := by
  obtain ⟨h1, h2, h3, h4, h5, h6, h7⟩ := h
  have hl : len = 3 + as.length * 4 := by omega
  have hs : optStep (rfc791Bytes t len ptr as ++ rest) = .error .valueError := by
    simp only [rfc791Bytes, List.cons_append, hl]
    rw [route_step c ptr as (by omega) (by omega) rest t h1, if_neg (by omega)]
  refine ⟨hs, ?_⟩
  unfold parseOpts
  rw [scan.eq_def]
  have hne : rfc791Bytes t len ptr as ++ rest ≠ [] := by simp [rfc791Bytes]
  simp [hne, hs]

/-- A record route whose single slot is filled: the whole header is refused. -/
example : Rfc791Route 7 .record 7 8 [0x0a000001] ∧
    IPv4.fromBytes ([0x47, 0, 0, 28, 0, 0, 0, 0, 64, 1, 0, 0, 10, 0, 0, 1, 10, 0, 0, 2] ++ [7, 7, 8, 10, 0, 0, 1, 0]) =
      .error .valueError := by
  refine ⟨by unfold Rfc791Route; decide, by decide +kernel⟩

/-- **C179, partial**: routes that are not complete are understood: pointer and addresses are those sent. -/
theorem route_complete_partial (t : UInt8) (c : RouteClass) (len ptr : Nat) (as : List (BitVec 32)) (h : Rfc791Route t c len ptr as)
    (hfull : ptr < len) (rest : Bytes) :
    optStep (rfc791Bytes t len ptr as ++ rest) = .ok (.routing c.optnum ptr as, len) := by
  obtain ⟨h1, h2, h3, h4, h5, h6, h7⟩ := h
  have hl : len = 3 + as.length * 4 := by omega
  simp only [rfc791Bytes, List.cons_append, hl]
  rw [route_step c ptr as (by omega) (by omega) rest t h1, if_pos (by omega)]

example : Rfc791Route 131 .loose 11 8 [0x0a000001, 0x0a000002] ∧ 8 < 11 := by unfold Rfc791Route; decide

/-! ## C180: type octets -/

/-- The type octets assigned by RFC 791 (end of list, no operation, loose and strict source route, record route, timestamp),
RFC 1063 (MTU probe and reply) and RFC 2113 (router alert), by the low five bits. -/
def rfcTypeOctet : Nat → Nat
  | 3 => 131
  | 9 => 137
  | 4 => 68
  | 20 => 148
  | n => n

/-- **C180 is false**: source routes are always written with another type octet, without the flag that has them copied into
fragments. -/
theorem option_type_violated (c : RouteClass) (hc : c ≠ .record) (k : Int) (o : RouteOption) (hn : RouteOption.new c k = .ok o)
    (ops : List RouteOp) :
    ∃ b, (o.run ops).toOpt.toBytes = .ok b ∧ b.head? = some (UInt8.ofNat c.optnum) ∧ c.optnum + 128 = rfcTypeOctet c.optnum := by
  refine ⟨_, route_bytes (route_run_inv ops (route_new_inv hn)), rfl, ?_⟩
  cases c with
  | record => exact absurd rfl hc
  | loose => rfl
  | strict => rfl

/-- A source route that comes in with the right octet leaves with the wrong one. -/
theorem option_type_changed_violated (c : RouteClass) (hc : c ≠ .record) (len ptr : Nat) (as : List (BitVec 32))
    (h : Rfc791Route (UInt8.ofNat (rfcTypeOctet c.optnum)) c len ptr as) (hfull : ptr < len) (rest : Bytes) :
    ∃ o, optStep (rfc791Bytes (UInt8.ofNat (rfcTypeOctet c.optnum)) len ptr as ++ rest) = .ok (o, len) ∧
      o.toBytes = .ok (rfc791Bytes (UInt8.ofNat c.optnum) len ptr as) ∧ UInt8.ofNat c.optnum ≠ UInt8.ofNat (rfcTypeOctet c.optnum) := by
  refine ⟨_, route_complete_partial _ c len ptr as h hfull rest, ?_, ?_⟩
  · obtain ⟨h1, h2, h3, h4, h5, h6, h7⟩ := h
    have := route_bytes (c := c) (o := ⟨c.optnum, ptr, as⟩) ⟨rfl, h3, h5, show ptr < 40 by omega⟩
    simp only [RouteOption.toOpt] at this
    rw [this, rfc791Bytes, h4, Nat.mul_comm 4]
  · cases c with
    | record => exact absurd rfl hc
    | loose => decide
    | strict => decide

/-- **C180, partial**: all other options are written with the octet assigned. -/
theorem option_type_partial (o : IPOpt) (w : o.WF) (hn : o.optnum ≠ 3 ∧ o.optnum ≠ 9) :
    ∃ b, o.toBytes = .ok b ∧ b.head? = some (UInt8.ofNat (rfcTypeOctet o.optnum)) := by
  have e1 : ∀ x : Nat, beEnc 1 x = [UInt8.ofNat x] := by intro x; simp [beEnc]
  cases o with
  | single n =>
    have hn : n < 256 ^ 1 := by rcases w with rfl | rfl <;> decide
    refine ⟨beEnc 1 n, SY.pack_u hn, ?_⟩
    rcases w with rfl | rfl <;> rfl
  | routing n ptr addrs =>
    obtain ⟨w1, w2, w3, w4, w5⟩ := w
    obtain rfl : n = 7 := by simp only [IPOpt.optnum] at hn; omega
    rw [IPOpt.toBytes.eq_def]
    simp only [IPOpt.length]
    rw [pack_cons_u (by decide), pack_cons_u (by omega), pack_cons_u (by omega)]
    exact ⟨_, rfl, by simp [e1, IPOpt.optnum, rfcTypeOctet]⟩
  | timestamp ptr flag entries =>
    obtain ⟨w1, w2, w3, w4, w5⟩ := w
    obtain ⟨eb, h1, h2, h3⟩ := tsEntries_ok w2 w5
    obtain ⟨f, rfl⟩ := Int.eq_ofNat_of_zero_le w2
    rw [IPOpt.toBytes.eq_def]
    simp only [IPOpt.length, h1]
    rw [pack_cons_u (by decide), pack_cons_u (by omega), pack_cons_u (by omega), pack_cons_u (by omega)]
    exact ⟨_, rfl, by simp [e1, IPOpt.optnum, rfcTypeOctet]⟩
  | fourB n v c =>
    obtain ⟨w1, w2, rfl⟩ := w
    rw [IPOpt.toBytes.eq_def]
    simp only [IPOpt.length]
    rcases w1 with rfl | rfl | rfl
    all_goals
      rw [pack_cons_u (by decide), pack_cons_u (by decide), pack_cons_u (by omega)]
      exact ⟨_, rfl, by simp [e1, IPOpt.optnum, rfcTypeOctet]⟩

example : newRouterAlert.WF ∧ newTimestamp.WF ∧ newMTUReply.WF ∧ newRouterAlert.optnum = 20 := by
  refine ⟨by simp [newRouterAlert, IPOpt.WF], ?_, by simp [newMTUReply, IPOpt.WF], rfl⟩
  refine ⟨by decide, by decide, by decide, by decide, ?_⟩
  intro e he
  obtain ⟨_, rfl⟩ := List.mem_replicate.mp he
  simp

/-! ## C182: timestamp options -/

/-- How a timestamp option is read. -/
theorem ts_step (ptr fl : Nat) (body rest : Bytes) (hp : ptr < 256) (hf : fl < 256) (hl : 4 + body.length < 256) :
    optStep (68 :: UInt8.ofNat (4 + body.length) :: UInt8.ofNat ptr :: UInt8.ofNat fl :: (body ++ rest)) =
      tsOf ptr (fl % 16) (4 + body.length) body (if fl % 16 ≠ 0 then 8 else 4) := by
  have hb2 : (UInt8.ofNat (4 + body.length)).toNat = 4 + body.length := by simp; omega
  have hb3 : (UInt8.ofNat ptr).toNat = ptr := by simp; omega
  have hb4 : (UInt8.ofNat fl).toNat = fl := by simp; omega
  have hen : enumOf ipOptionNumbers (((68 : UInt8).toNat &&& 0x1f : Nat) : Int) = .ok 4 := by decide
  have hand : fl &&& 15 = fl % 16 := Nat.and_two_pow_sub_one_eq_mod fl 4
  simp only [optStep, hen, bind_ok]
  rw [if_neg (by decide), if_neg (by decide), if_pos (by decide)]
  simp only [List.take_succ_cons, List.take_zero, unpack, List.length_cons, List.length_nil, calcsize, Fld.size, unpackGo, if_pos,
    bind_ok, List.drop_succ_cons, List.drop_zero, beDec, Int.toNat_natCast, hb2, hb3, hb4, Nat.pow_zero, Nat.mul_one, Nat.add_zero,
    Nat.zero_add, hand]
  rw [if_neg (by simp; omega)]
  have htake : List.drop 4 (List.take (4 + body.length)
      (68 :: UInt8.ofNat (4 + body.length) :: UInt8.ofNat ptr :: UInt8.ofNat fl :: (body ++ rest))) = body := by
    rw [List.drop_take]
    simp
  rw [htake]

/-- The bytes of the option a program makes, with any flag that is an octet. -/
theorem ts_new_bytes (f : Nat) (hf : f < 256) :
    (newTimestamp.setFlag f).toBytes =
      .ok (68 :: UInt8.ofNat (4 + (zeros (if f = 0 then 16 else 32)).length) :: 5 :: UInt8.ofNat f :: zeros (if f = 0 then 16 else 32)) := by
  have e1 : ∀ x : Nat, beEnc 1 x = [UInt8.ofNat x] := by intro x; simp [beEnc]
  rw [IPOpt.toBytes.eq_def]
  simp only [newTimestamp, IPOpt.setFlag, IPOpt.length, List.length_replicate]
  by_cases h0 : f = 0
  · subst h0
    decide
  · have hi : ¬ ((f : Int) = 0) := by omega
    have hz : tsEntriesBytes (f : Int) (List.replicate 4 (some (0 : BitVec 32), 0)) = .ok (zeros 32) := by
      have hp : (f : Int) > 0 := by omega
      simp only [List.replicate, tsEntriesBytes, tsEntryBytes, hp, if_true]
      decide
    simp only [hi, if_false, hz, h0]
    rw [pack_cons_u (by decide), pack_cons_u (by decide), pack_cons_u (w := 1) (n := 5) (by decide),
      pack_cons_u (by omega)]
    simp [e1, pack_nil]

theorem pack_last_error (a b c f : Int) (h : f < 0 ∨ 255 < f) :
    pack [.u 1, .u 1, .u 1, .u 1] [.i a, .i b, .i c, .i f] = .error .structError := by
  cases hp : pack [.u 1, .u 1, .u 1, .u 1] [.i a, .i b, .i c, .i f] with
  | error e => rw [pack_error hp]
  | ok x =>
    exfalso
    simp only [pack] at hp
    have : ¬ (0 ≤ f ∧ f < ((256 ^ 1 : Nat) : Int)) := by omega
    rw [if_neg this] at hp
    repeat' split at hp
    all_goals simp at hp

/-- **C182**: what becomes of the timestamp option a program makes, with the flag set to anything.  Flags that are no octet
cannot be written; those from 1 to 15 are read back; with any other flag the option read is another one: without addresses if
the flag was 0, and with another flag if it was above 15. -/
theorem timestamp_flag (f : Int) :
    (f < 0 ∨ 255 < f → (newTimestamp.setFlag f).toBytes = .error .structError) ∧
    (0 < f ∧ f < 16 → ∃ b, (newTimestamp.setFlag f).toBytes = .ok b ∧
      ∀ rest, optStep (b ++ rest) = .ok (newTimestamp.setFlag f, b.length)) ∧
    (f = 0 ∨ (16 ≤ f ∧ f < 256) → ∃ b es, (newTimestamp.setFlag f).toBytes = .ok b ∧
      (∀ rest, optStep (b ++ rest) = .ok (.timestamp 5 (f % 16) es, b.length)) ∧
      (IPOpt.timestamp 5 (f % 16) es).eq (newTimestamp.setFlag f) = .ok false) := by
  refine ⟨?_, ?_, ?_⟩
  · intro h
    rw [IPOpt.toBytes.eq_def]
    simp only [newTimestamp, IPOpt.setFlag]
    rw [pack_last_error _ _ _ f h]
    rfl
  · rintro ⟨h1, h2⟩
    have hw : (newTimestamp.setFlag f).WF := by
      refine ⟨by decide, by omega, h2, ?_, ?_⟩
      · rw [if_neg (by omega)]; decide
      · intro e he
        obtain ⟨_, rfl⟩ := List.mem_replicate.mp he
        simp; omega
    obtain ⟨b, g1, _, _, g4⟩ := IPOpt.toBytes_ok hw
    exact ⟨b, g1, g4⟩
  · intro h
    obtain ⟨n, rfl⟩ : ∃ n : Nat, f = n := ⟨f.toNat, by omega⟩
    have hn : n < 256 := by omega
    refine ⟨_, readEntries (decide (n % 16 ≠ 0)) ((zeros (if n = 0 then 16 else 32)).length / (if n % 16 ≠ 0 then 8 else 4))
      (zeros (if n = 0 then 16 else 32)), ts_new_bytes n hn, ?_, ?_⟩
    · intro rest
      have := ts_step 5 n (zeros (if n = 0 then 16 else 32)) rest (by decide) hn (by rw [length_zeros]; split <;> omega)
      simp only [List.cons_append]
      rw [show (5 : UInt8) = UInt8.ofNat 5 from rfl, this, tsOf, if_neg]
      · simp only [List.length_cons, Except.ok.injEq, Prod.mk.injEq, IPOpt.timestamp.injEq, true_and, and_true]
        refine ⟨by omega, by omega⟩
      · rw [length_zeros]
        split <;> split <;> decide
    · simp only [newTimestamp, IPOpt.setFlag, IPOpt.eq, Except.ok.injEq, Bool.and_eq_false_iff, decide_eq_false_iff_not]
      by_cases h0 : n = 0
      · left
        subst h0
        decide
      · right
        omega

/-- **C182 is false**: for instance, the option with only timestamps. -/
theorem timestamp_flag_violated :
    ∃ b o, (newTimestamp.setFlag 0).toBytes = .ok b ∧ optStep b = .ok (o, b.length) ∧ o.eq (newTimestamp.setFlag 0) = .ok false := by
  obtain ⟨b, es, h1, h2, h3⟩ := (timestamp_flag 0).2.2 (Or.inl rfl)
  exact ⟨b, _, h1, by simpa using h2 [], h3⟩

/-- **C182 is false** for options of other hosts: the count of hosts that could not register a timestamp (the upper half of
the flag octet, RFC 791) is dropped.  Whatever the option, a flag octet with a count is read as without. -/
theorem timestamp_overflow_violated (ptr fl : Nat) (body rest : Bytes) (hp : ptr < 256) (hf : fl < 256) (hl : 4 + body.length < 256) :
    optStep (68 :: UInt8.ofNat (4 + body.length) :: UInt8.ofNat ptr :: UInt8.ofNat fl :: (body ++ rest)) =
      optStep (68 :: UInt8.ofNat (4 + body.length) :: UInt8.ofNat ptr :: UInt8.ofNat (fl % 16) :: (body ++ rest)) := by
  rw [ts_step ptr fl body rest hp hf hl, ts_step ptr (fl % 16) body rest hp (by omega) hl]
  simp

/-- **C182 is false**: an option received without addresses cannot be given a flag that asks for them: writing raises
`AttributeError`. -/
theorem timestamp_no_address_violated (ptr : Nat) (f : Int) (t : Nat) (es : List (Option (BitVec 32) × Nat)) (hf : 0 < f ∧ f < 256)
    (hp : ptr < 256) (hl : 4 + (es.length + 1) * 8 < 256) :
    ((IPOpt.timestamp ptr 0 ((none, t) :: es)).setFlag f).toBytes = .error .attributeError := by
  rw [IPOpt.toBytes.eq_def]
  obtain ⟨n, rfl⟩ : ∃ n : Nat, f = n := ⟨f.toNat, by omega⟩
  simp only [IPOpt.setFlag, IPOpt.length, List.length_cons]
  rw [if_neg (by omega), pack_cons_u (by decide), pack_cons_u (by omega), pack_cons_u (by omega), pack_cons_u (by omega)]
  have hp : (n : Int) > 0 := by omega
  simp only [tsEntriesBytes, tsEntryBytes, hp, if_true, bind_error]
  rfl

/-- **C182, partial**: a timestamp option with any flag from 0 to 15 and entries that go with it is written and read back. -/
theorem timestamp_partial (ptr : Nat) (flag : Int) (es : List (Option (BitVec 32) × Nat)) (hp : ptr < 256) (hf : 0 ≤ flag ∧ flag < 16)
    (hl : 4 + es.length * (if flag = 0 then 4 else 8) ≤ 255) (he : ∀ e ∈ es, (e.1.isSome ↔ flag ≠ 0) ∧ e.2 < 2 ^ 32) (rest : Bytes) :
    ∃ b, (IPOpt.timestamp ptr flag es).toBytes = .ok b ∧ optStep (b ++ rest) = .ok (.timestamp ptr flag es, b.length) := by
  obtain ⟨b, g1, _, _, g4⟩ := IPOpt.toBytes_ok (o := .timestamp ptr flag es) ⟨hp, hf.1, hf.2, hl, he⟩
  exact ⟨b, g1, g4 rest⟩

example : ∀ e ∈ [((some 0x0a000001 : Option (BitVec 32)), 77), (some 0x0a000002, 2 ^ 31)], (e.1.isSome ↔ (3 : Int) ≠ 0) ∧ e.2 < 2 ^ 32 := by
  decide

end SY.Props
