import Verif.IcmpShare
import Verif.Icmpv6
import Verif.Props.Icmp

/-! # Property C214: data objects of ICMP messages

The specification knows no objects: it has the messages as values, and says which of them have their data in common. -/

namespace SY.Props

variable {D : Type}

/-- The messages, and which have their data in common. -/
structure DataTies (D : Type) where
  vals : List (ICMPMsg D)
  same : Nat → Nat → Bool

/-- `i` has its data in common with no other. -/
def aloneAt (i : Nat) (same : Nat → Nat → Bool) : Nat → Nat → Bool :=
  fun x y => if x = i ∨ y = i then x == y else same x y

/-- `i` has its data in common with those with which `j` has. -/
def joinAt (i j : Nat) (same : Nat → Nat → Bool) : Nat → Nat → Bool :=
  fun x y => same (if x = i then j else x) (if y = i then j else y)

/-- Assigning this type gives the message new data: it is a type with a class, and the present data is not of it. -/
def newData (K : ICMPKind D) (m : ICMPMsg D) (v : Int) : Bool :=
  match enumOf K.types v with
  | .error _ => false
  | .ok t => (K.new t).isSome && !K.isA m.data t

/-- One action: it changes one message, except that a change of data is seen in all messages that have it in common. -/
def DataTies.step (K : ICMPKind D) (a : DataTies D) : ShareOp D → DataTies D
  | .make m => ⟨a.vals ++ [m], aloneAt a.vals.length a.same⟩
  | .copy i =>
    match a.vals[i]? with
    | none => a
    | some m => ⟨a.vals ++ [m], aloneAt a.vals.length a.same⟩
  | .type i v =>
    match a.vals[i]? with
    | none => a
    | some m => ⟨a.vals.set i (K.setType m v).1, if newData K m v = true then aloneAt i a.same else a.same⟩
  | .code i c =>
    match a.vals[i]? with
    | none => a
    | some m => ⟨a.vals.set i (K.setCode m c).1, a.same⟩
  | .give i d =>
    match a.vals[i]? with
    | none => a
    | some m => ⟨a.vals.set i (K.setData m (.obj d)).1, aloneAt i a.same⟩
  | .share i j =>
    match a.vals[i]?, a.vals[j]? with
    | some m, some p => ⟨a.vals.set i (K.setData m (.obj p.data)).1, joinAt i j a.same⟩
    | _, _ => a
  | .edit i f =>
    match a.vals[i]? with
    | none => a
    | some _ => ⟨a.vals.mapIdx fun j m => if a.same i j = true then { m with data := f m.data } else m, a.same⟩

/-- A program, from the start. -/
def DataTies.run (K : ICMPKind D) (ops : List (ShareOp D)) : DataTies D := ops.foldl (DataTies.step K) ⟨[], fun x y => x == y⟩

/-- A program, from the start, over any store (nothing is read from it before it is written). -/
def MsgMem.run (K : ICMPKind D) (h : Nat → D) (ops : List (ShareOp D)) : MsgMem D :=
  ops.foldl (MsgMem.step K) ⟨⟨h, 0⟩, []⟩

/-! ## The setters -/

theorem finishRef_ok {K : ICMPKind D} (L : K.Lawful) {o : MsgObj} {t : Nat} {d : D} (h : K.new t = some d) :
    K.finishRef o t = ({ o with type := t, code := 0 }, none) := by
  obtain ⟨e, he, h0⟩ := L.code_zero t d h
  simp only [ICMPKind.finishRef, he, if_pos h0]

theorem alloc_heap_fresh (s : DataMem D) (d : D) : (s.alloc d).heap s.fresh = d := by simp [DataMem.alloc]

theorem alloc_heap_old (s : DataMem D) (d : D) {r : Nat} (h : r < s.fresh) : (s.alloc d).heap r = s.heap r := by
  simp only [DataMem.alloc]; rw [if_neg (by omega)]

theorem setTypeRef_new {K : ICMPKind D} (L : K.Lawful) (s : DataMem D) (o : MsgObj) {v : Int} {t : Nat} {d : D}
    (hv : enumOf K.types v = .ok t) (hn : K.new t = some d) (hi : K.isA (s.heap o.ref) t = false) :
    K.setTypeRef s o v = (s.alloc d, ⟨t, 0, s.fresh, o.csum⟩, none) := by
  have ht := (L.type_mem d t (L.new_type t d hn)).1
  unfold ICMPKind.setTypeRef ICMPKind.setTypeRefN
  simp only [hv, hn, hi, L.new_type t d hn, ICMPKind.setTypeRefN, enumOf_nat ht, alloc_heap_fresh, L.new_isA t d hn,
    finishRef_ok L hn, if_true, Bool.false_eq_true, if_false]

theorem setTypeRef_keep {K : ICMPKind D} (L : K.Lawful) (s : DataMem D) (o : MsgObj) {v : Int} {t : Nat} {d : D}
    (hv : enumOf K.types v = .ok t) (hn : K.new t = some d) (hi : K.isA (s.heap o.ref) t = true) :
    K.setTypeRef s o v = (s, ⟨t, 0, o.ref, o.csum⟩, none) := by
  unfold ICMPKind.setTypeRef ICMPKind.setTypeRefN
  simp only [hv, hn, hi, finishRef_ok L hn, if_true]

theorem setDataRef_eq {K : ICMPKind D} (L : K.Lawful) (s : DataMem D) (o : MsgObj) (r : Nat) :
    ∃ t c e, K.setDataRef s o r = (s, ⟨t, c, r, o.csum⟩, e) ∧
      (K.setData (o.view s) (.obj (s.heap r))).1 = ⟨t, c, s.heap r, o.csum⟩ := by
  unfold ICMPKind.setDataRef
  cases ht : K.typeOf (s.heap r) with
  | none => exact ⟨o.type, o.code, _, rfl, by simp only [ICMPKind.setData, ht]; rfl⟩
  | some t =>
    obtain ⟨h1, h2, h3⟩ := L.type_mem _ t ht
    obtain ⟨d0, h0⟩ := Option.isSome_iff_exists.mp h3
    refine ⟨t, 0, none, ?_, ?_⟩
    · simp only; rw [setTypeRef_keep L _ _ (enumOf_nat h1) h0 h2]
    · rw [ICMPKind.setData_registered L _ _ t ht]; rfl

/-! ## Refinement -/

/-- The state over objects shows the messages, and two have their data in common iff they refer to one object. -/
structure Shows (s : MsgMem D) (a : DataTies D) : Prop where
  vals : s.views = a.vals
  bound : ∀ o ∈ s.msgs, o.ref < s.store.fresh
  tied : ∀ (i j : Nat) (o p : MsgObj), s.msgs[i]? = some o → s.msgs[j]? = some p → (o.ref = p.ref ↔ a.same i j = true)

theorem Shows.get {s : MsgMem D} {a : DataTies D} (h : Shows s a) (i : Nat) :
    a.vals[i]? = s.msgs[i]?.map (MsgObj.view s.store) := by
  rw [← h.vals, MsgMem.views, List.getElem?_map]

theorem Shows.length {s : MsgMem D} {a : DataTies D} (h : Shows s a) : a.vals.length = s.msgs.length := by
  rw [← h.vals, MsgMem.views, List.length_map]

theorem view_alloc {s : DataMem D} {d : D} {o : MsgObj} (h : o.ref < s.fresh) : o.view (s.alloc d) = o.view s := by
  simp only [MsgObj.view, alloc_heap_old _ _ h]

theorem Shows.add {s : MsgMem D} {a : DataTies D} (h : Shows s a) (m : ICMPMsg D) :
    Shows (s.add m) ⟨a.vals ++ [m], aloneAt a.vals.length a.same⟩ := by
  refine ⟨?_, ?_, ?_⟩
  · simp only [MsgMem.views, MsgMem.add, List.map_append, List.map_cons, List.map_nil, MsgObj.view, alloc_heap_fresh]
    rw [← h.vals, MsgMem.views]
    congr 1
    exact List.map_congr_left fun o ho => view_alloc (h.bound o ho)
  · intro o ho
    simp only [MsgMem.add, List.mem_append, List.mem_singleton] at ho
    simp only [MsgMem.add, DataMem.alloc]
    rcases ho with ho | rfl
    · have := h.bound o ho; omega
    · exact Nat.lt_succ_self _
  · intro i j o p ho hp
    simp only [MsgMem.add] at ho hp
    simp only [aloneAt, h.length]
    have key : ∀ (k : Nat) (q : MsgObj), (s.msgs ++ [⟨m.type, m.code, s.store.fresh, m.csum⟩])[k]? = some q →
        (k = s.msgs.length ∧ q.ref = s.store.fresh) ∨ (k < s.msgs.length ∧ s.msgs[k]? = some q ∧ q.ref < s.store.fresh) := by
      intro k q hq
      by_cases hk : k < s.msgs.length
      · rw [List.getElem?_append_left hk] at hq
        exact .inr ⟨hk, hq, h.bound q (List.mem_of_getElem? hq)⟩
      · rw [List.getElem?_append_right (by omega)] at hq
        by_cases hz : k - s.msgs.length = 0
        · rw [hz] at hq
          simp only [List.getElem?_cons_zero, Option.some.injEq] at hq
          exact .inl ⟨by omega, by rw [← hq]⟩
        · rw [List.getElem?_eq_none (by simp; omega)] at hq; cases hq
    rcases key i o ho with ⟨hi, hr⟩ | ⟨hi, ho', hr⟩ <;> rcases key j p hp with ⟨hj, hq⟩ | ⟨hj, hp', hq⟩
    · rw [if_pos (.inl hi)]; simp [hi, hj, hr, hq]
    · rw [if_pos (.inl hi)]; simp only [beq_iff_eq]; omega
    · rw [if_pos (.inr hj)]; simp only [beq_iff_eq]; omega
    · rw [if_neg (by omega)]; exact h.tied i j o p ho' hp'

/-- Replacing message `i` by one that refers to an object which is new or known. -/
theorem Shows.put {s : MsgMem D} {a : DataTies D} (h : Shows s a) {i : Nat} {o o' : MsgObj} {st : DataMem D} {e : Option PyErr}
    {same : Nat → Nat → Bool} (hi : s.msgs[i]? = some o)
    (hheap : ∀ r < s.store.fresh, st.heap r = s.store.heap r) (hfresh : s.store.fresh ≤ st.fresh) (hr : o'.ref < st.fresh)
    (hself : same i i = true)
    (hother : ∀ j p, s.msgs[j]? = some p → j ≠ i → ((o'.ref = p.ref ↔ same i j = true) ∧ (p.ref = o'.ref ↔ same j i = true)))
    (hrest : ∀ j k, j ≠ i → k ≠ i → same j k = a.same j k) :
    Shows (s.put i (st, o', e)) ⟨a.vals.set i (o'.view st), same⟩ := by
  have hlen : i < s.msgs.length := by
    rcases Nat.lt_or_ge i s.msgs.length with h | h
    · exact h
    · rw [List.getElem?_eq_none h] at hi; cases hi
  refine ⟨?_, ?_, ?_⟩
  · simp only [MsgMem.views, MsgMem.put, List.map_set]
    congr 1
    rw [← h.vals, MsgMem.views]
    refine List.map_congr_left fun p hp => ?_
    simp only [MsgObj.view, hheap _ (h.bound p hp)]
  · intro p hp
    simp only [MsgMem.put] at hp ⊢
    rcases List.mem_or_eq_of_mem_set hp with hp | rfl
    · exact Nat.lt_of_lt_of_le (h.bound p hp) hfresh
    · exact hr
  · intro j k p q hp hq
    simp only [MsgMem.put, List.getElem?_set] at hp hq
    by_cases hj : i = j
    · rw [if_pos hj, if_pos hlen] at hp
      cases hp
      by_cases hk : i = k
      · rw [if_pos hk, if_pos hlen] at hq
        cases hq
        subst hj; subst hk
        simp [hself]
      · rw [if_neg hk] at hq
        subst hj
        exact (hother k q hq (Ne.symm hk)).1
    · rw [if_neg hj] at hp
      by_cases hk : i = k
      · rw [if_pos hk, if_pos hlen] at hq
        cases hq
        subst hk
        exact (hother j p hp (Ne.symm hj)).2
      · rw [if_neg hk] at hq
        simp only [hrest j k (Ne.symm hj) (Ne.symm hk)]
        exact h.tied j k p q hp hq

/-- Message `i` gets an object of its own. -/
theorem Shows.putNew {s : MsgMem D} {a : DataTies D} (h : Shows s a) {i : Nat} {o : MsgObj} {e : Option PyErr} (hi : s.msgs[i]? = some o)
    (d : D) (t c csum : Nat) :
    Shows (s.put i (s.store.alloc d, ⟨t, c, s.store.fresh, csum⟩, e)) ⟨a.vals.set i ⟨t, c, d, csum⟩, aloneAt i a.same⟩ := by
  have := h.put (st := s.store.alloc d) (o' := ⟨t, c, s.store.fresh, csum⟩) (e := e) (same := aloneAt i a.same) hi
    (fun r hr => alloc_heap_old _ _ hr) (by simp [DataMem.alloc]) (by simp [DataMem.alloc]) (by simp [aloneAt])
    (fun j p hp hj => by
      have := h.bound p (List.mem_of_getElem? hp)
      constructor
      · simp only [aloneAt, true_or, if_true, beq_iff_eq]; omega
      · simp only [aloneAt, or_true, if_true, beq_iff_eq]; omega)
    (fun j k hj hk => by simp only [aloneAt]; rw [if_neg (by omega)])
  simpa only [MsgObj.view, alloc_heap_fresh] using this

/-- Message `i` keeps its object. -/
theorem Shows.putKeep {s : MsgMem D} {a : DataTies D} (h : Shows s a) {i : Nat} {o : MsgObj} {e : Option PyErr} (hi : s.msgs[i]? = some o)
    (t c csum : Nat) :
    Shows (s.put i (s.store, ⟨t, c, o.ref, csum⟩, e)) ⟨a.vals.set i ⟨t, c, s.store.heap o.ref, csum⟩, a.same⟩ :=
  h.put (o' := ⟨t, c, o.ref, csum⟩) hi (fun _ _ => rfl) (Nat.le_refl _) (h.bound o (List.mem_of_getElem? hi))
    ((h.tied i i o o hi hi).mp rfl) (fun j p hp _ => ⟨h.tied i j o p hi hp, h.tied j i p o hp hi⟩) (fun _ _ _ _ => rfl)

/-- Message `i` gets the object of message `j`. -/
theorem Shows.putJoin {s : MsgMem D} {a : DataTies D} (h : Shows s a) {i j : Nat} {o p : MsgObj} {e : Option PyErr}
    (hi : s.msgs[i]? = some o) (hj : s.msgs[j]? = some p) (t c csum : Nat) :
    Shows (s.put i (s.store, ⟨t, c, p.ref, csum⟩, e)) ⟨a.vals.set i ⟨t, c, s.store.heap p.ref, csum⟩, joinAt i j a.same⟩ :=
  h.put (o' := ⟨t, c, p.ref, csum⟩) hi (fun _ _ => rfl) (Nat.le_refl _) (h.bound p (List.mem_of_getElem? hj))
    (by simp only [joinAt, if_true]; exact (h.tied j j p p hj hj).mp rfl)
    (fun k q hq hk => by
      simp only [joinAt, if_true, if_neg hk]
      exact ⟨h.tied j k p q hj hq, h.tied k j q p hq hj⟩)
    (fun k l hk hl => by simp only [joinAt, if_neg hk, if_neg hl])

theorem Shows.step {K : ICMPKind D} (L : K.Lawful) {s : MsgMem D} {a : DataTies D} (h : Shows s a) (op : ShareOp D) :
    Shows (s.step K op) (a.step K op) := by
  cases op with
  | make m => exact h.add m
  | copy i =>
    simp only [MsgMem.step, DataTies.step, h.get i]
    cases hi : s.msgs[i]? with
    | none => exact h
    | some o => exact h.add _
  | type i v =>
    simp only [MsgMem.step, DataTies.step, h.get i]
    cases hi : s.msgs[i]? with
    | none => exact h
    | some o =>
      simp only [Option.map_some]
      have hset : ∀ m, a.vals[i]? = some m → a.vals.set i m = a.vals := by
        intro m hm
        refine List.ext_getElem? fun k => ?_
        rw [List.getElem?_set]
        by_cases hk : i = k
        · subst hk
          rw [if_pos rfl, hm]
          rcases Nat.lt_or_ge i a.vals.length with hl | hl
          · rw [if_pos hl]
          · rw [List.getElem?_eq_none hl] at hm; cases hm
        · rw [if_neg hk]
      have same : ∀ e, K.setTypeRef s.store o v = (s.store, o, e) → (K.setType (o.view s.store) v).1 = o.view s.store →
          newData K (o.view s.store) v = false →
          Shows (s.put i (K.setTypeRef s.store o v))
            ⟨a.vals.set i (K.setType (o.view s.store) v).1, if newData K (o.view s.store) v = true then aloneAt i a.same else a.same⟩ := by
        intro e h1 h2 h3
        rw [h1, h2, if_neg (by rw [h3]; decide)]
        exact h.putKeep (e := e) hi o.type o.code o.csum
      cases hv : enumOf K.types v with
      | error e =>
        refine same (some e) ?_ ?_ ?_
        · simp only [ICMPKind.setTypeRef, ICMPKind.setTypeRefN, hv]
        · rw [ICMPKind.setType_eq L]; simp only [hv]
        · simp only [newData, hv]
      | ok t =>
        cases hn : K.new t with
        | none =>
          refine same (some .typeError) ?_ ?_ ?_
          · simp only [ICMPKind.setTypeRef, ICMPKind.setTypeRefN, hv, hn]
          · rw [ICMPKind.setType_eq L]; simp only [hv, hn]
          · simp only [newData, hv, hn, Option.isSome_none, Bool.false_and]
        | some d =>
          cases hA : K.isA (s.store.heap o.ref) t with
          | true =>
            have hnot : ¬newData K (o.view s.store) v = true := by
              simp [newData, hv, hn, MsgObj.view, hA]
            rw [setTypeRef_keep L _ _ hv hn hA, ICMPKind.setType_eq L, if_neg hnot]
            simp only [hv, hn, MsgObj.view, hA, if_true]
            exact h.putKeep hi t 0 o.csum
          | false =>
            have hnew : newData K (o.view s.store) v = true := by
              simp [newData, hv, hn, MsgObj.view, hA]
            rw [setTypeRef_new L _ _ hv hn hA, ICMPKind.setType_eq L, if_pos hnew]
            simp only [hv, hn, MsgObj.view, hA, Bool.false_eq_true, if_false]
            exact h.putNew hi d t 0 o.csum
  | code i c =>
    simp only [MsgMem.step, DataTies.step, h.get i]
    cases hi : s.msgs[i]? with
    | none => exact h
    | some o =>
      have hd : (K.setCode (o.view s.store) c).1 =
          ⟨o.type, (K.setCode (o.view s.store) c).1.code, s.store.heap o.ref, o.csum⟩ := by
        unfold ICMPKind.setCode
        split
        · rfl
        · rfl
        · split <;> rfl
        · split <;> rfl
      simp only [Option.map_some]
      rw [hd]
      exact h.putKeep (e := (K.setCode (o.view s.store) c).2) hi o.type (K.setCode (o.view s.store) c).1.code o.csum
  | give i d =>
    simp only [MsgMem.step, DataTies.step, h.get i]
    cases hi : s.msgs[i]? with
    | none => exact h
    | some o =>
      obtain ⟨t, c, e, h1, h2⟩ := setDataRef_eq L (s.store.alloc d) o s.store.fresh
      rw [alloc_heap_fresh, view_alloc (h.bound o (List.mem_of_getElem? hi))] at h2
      simp only [Option.map_some]
      rw [h1, h2]
      exact h.putNew hi d t c o.csum
  | share i j =>
    simp only [MsgMem.step, DataTies.step, h.get i, h.get j]
    cases hi : s.msgs[i]? with
    | none => exact h
    | some o =>
      cases hj : s.msgs[j]? with
      | none => exact h
      | some p =>
        obtain ⟨t, c, e, h1, h2⟩ := setDataRef_eq L s.store o p.ref
        simp only [Option.map_some]
        rw [h1, show (p.view s.store).data = s.store.heap p.ref from rfl, h2]
        exact h.putJoin hi hj t c o.csum
  | edit i f =>
    simp only [MsgMem.step, DataTies.step, h.get i]
    cases hi : s.msgs[i]? with
    | none => exact h
    | some o =>
      simp only [Option.map_some]
      refine ⟨?_, h.bound, h.tied⟩
      refine List.ext_getElem? fun k => ?_
      simp only [MsgMem.views, List.getElem?_map, List.getElem?_mapIdx]
      rw [h.get k]
      cases hk : s.msgs[k]? with
      | none => rfl
      | some p =>
        simp only [Option.map_some, MsgObj.view, DataMem.change, Option.some.injEq]
        have := h.tied i k o p hi hk
        by_cases hr : p.ref = o.ref
        · rw [if_pos hr, if_pos (this.mp hr.symm)]
        · rw [if_neg hr, if_neg fun hs => hr (this.mpr hs).symm]

theorem shows_run {K : ICMPKind D} (L : K.Lawful) (h : Nat → D) (ops : List (ShareOp D)) :
    Shows (MsgMem.run K h ops) (DataTies.run K ops) := by
  have gen : ∀ (ops : List (ShareOp D)) (s : MsgMem D) (a : DataTies D), Shows s a →
      Shows (ops.foldl (MsgMem.step K) s) (ops.foldl (DataTies.step K) a) := by
    intro ops
    induction ops with
    | nil => exact fun _ _ h => h
    | cons op ops ih => exact fun s a h => ih _ _ (h.step L op)
  exact gen ops _ _ ⟨rfl, by simp, by simp⟩

/-! ## C214 -/

/-- **C214.**  For every program, what the messages show is what the specification says: every action changes one message,
except that a change of data is seen in the messages that have it in common.  These are made by assigning the data of one
message to another, and parted by assigning new data or a type whose class the data is not of. -/
theorem messages_tied {K : ICMPKind D} (L : K.Lawful) (h : Nat → D) (ops : List (ShareOp D)) :
    (MsgMem.run K h ops).views = (DataTies.run K ops).vals := (shows_run L h ops).vals

/-- For both flavours. -/
theorem messages_tied4 (h : Nat → ICMPData) (ops : List (ShareOp ICMPData)) :
    (MsgMem.run icmp4 h ops).views = (DataTies.run icmp4 ops).vals := messages_tied icmp4_lawful h ops

theorem messages_tied6 (h : Nat → ICMPv6Data) (ops : List (ShareOp ICMPv6Data)) :
    (MsgMem.run icmp6 h ops).views = (DataTies.run icmp6 ops).vals := messages_tied icmp6_lawful h ops

/-- No data of one message is assigned to another. -/
def _root_.SY.ShareOp.NoShare : ShareOp D → Prop
  | .share _ _ => False
  | _ => True

/-- The messages as values with data of their own: every action changes the message it is about (or adds one). -/
def ownStep (K : ICMPKind D) (l : List (ICMPMsg D)) : ShareOp D → List (ICMPMsg D)
  | .make m => l ++ [m]
  | .copy i => l ++ (l[i]?).toList
  | .type i v => l.modify i fun m => (K.setType m v).1
  | .code i c => l.modify i fun m => (K.setCode m c).1
  | .give i d => l.modify i fun m => (K.setData m (.obj d)).1
  | .share _ _ => l
  | .edit i f => l.modify i fun m => { m with data := f m.data }

theorem modify_set {α : Type} (l : List α) (i : Nat) (f : α → α) (m : α) (h : l[i]? = some m) : l.modify i f = l.set i (f m) := by
  refine List.ext_getElem? fun k => ?_
  rw [List.getElem?_modify, List.getElem?_set]
  by_cases hk : i = k
  · subst hk
    rcases Nat.lt_or_ge i l.length with hl | hl
    · simp only [h, if_true, if_pos hl]; rfl
    · rw [List.getElem?_eq_none hl] at h; cases h
  · cases l[k]? <;> simp [hk]

theorem modify_none {α : Type} (l : List α) (i : Nat) (f : α → α) (h : l[i]? = none) : l.modify i f = l := by
  refine List.ext_getElem? fun k => ?_
  rw [List.getElem?_modify]
  by_cases hk : i = k
  · subst hk; simp [h]
  · cases l[k]? <;> simp [hk]

theorem alone_id (i : Nat) : aloneAt i (fun x y => x == y) = fun x y => x == y := by
  funext x y
  simp [aloneAt]

theorem own_step {K : ICMPKind D} (a : DataTies D) (ha : a.same = fun x y => x == y) (op : ShareOp D) (hop : op.NoShare) :
    (a.step K op).vals = ownStep K a.vals op ∧ (a.step K op).same = fun x y => x == y := by
  cases op with
  | make m => exact ⟨rfl, by simp only [DataTies.step, ha, alone_id]⟩
  | copy i =>
    simp only [DataTies.step, ownStep]
    cases hi : a.vals[i]? with
    | none => exact ⟨by simp, ha⟩
    | some m => exact ⟨by simp, by simp only [ha, alone_id]⟩
  | type i v =>
    simp only [DataTies.step, ownStep]
    cases hi : a.vals[i]? with
    | none => exact ⟨(modify_none _ _ _ hi).symm, ha⟩
    | some m =>
      refine ⟨?_, by simp only [ha, alone_id, ite_self]⟩
      rw [modify_set _ i _ m hi]
  | code i c =>
    simp only [DataTies.step, ownStep]
    cases hi : a.vals[i]? with
    | none => exact ⟨(modify_none _ _ _ hi).symm, ha⟩
    | some m =>
      refine ⟨?_, ha⟩
      rw [modify_set _ i _ m hi]
  | give i d =>
    simp only [DataTies.step, ownStep]
    cases hi : a.vals[i]? with
    | none => exact ⟨(modify_none _ _ _ hi).symm, ha⟩
    | some m =>
      refine ⟨?_, by simp only [ha, alone_id]⟩
      rw [modify_set _ i _ m hi]
  | share i j => exact hop.elim
  | edit i f =>
    simp only [DataTies.step, ownStep]
    cases hi : a.vals[i]? with
    | none => exact ⟨(modify_none _ _ _ hi).symm, ha⟩
    | some m =>
      refine ⟨?_, ha⟩
      refine List.ext_getElem? fun k => ?_
      simp only [List.getElem?_mapIdx, List.getElem?_modify, ha, beq_iff_eq]
      cases a.vals[k]? <;> simp

/-- **C214** for programs that do not assign the data of one message to another: every message has its own data, and no
action on one changes another. -/
theorem own_data_partial {K : ICMPKind D} (L : K.Lawful) (h : Nat → D) (ops : List (ShareOp D)) (ho : ∀ op ∈ ops, op.NoShare) :
    (MsgMem.run K h ops).views = ops.foldl (ownStep K) [] := by
  rw [messages_tied L]
  have gen : ∀ (ops : List (ShareOp D)) (a : DataTies D), a.same = (fun x y => x == y) → (∀ op ∈ ops, op.NoShare) →
      (ops.foldl (DataTies.step K) a).vals = ops.foldl (ownStep K) a.vals := by
    intro ops
    induction ops with
    | nil => exact fun _ _ _ => rfl
    | cons op ops ih =>
      intro a ha ho
      obtain ⟨h1, h2⟩ := own_step (K := K) a ha op (ho op List.mem_cons_self)
      rw [List.foldl_cons, List.foldl_cons, ← h1]
      exact ih _ h2 fun o hm => ho o (List.mem_cons_of_mem _ hm)
  exact gen ops _ rfl ho

/-- The action does not give message `i` a type or data. -/
def _root_.SY.ShareOp.Leaves (i : Nat) : ShareOp D → Prop
  | .type k _ => k ≠ i
  | .give k _ => k ≠ i
  | .share k _ => k ≠ i
  | _ => True

theorem leaves_ref {K : ICMPKind D} {s : MsgMem D} {op : ShareOp D} {i : Nat} {o : MsgObj} (ho : op.Leaves i)
    (hi : s.msgs[i]? = some o) : ∃ o', (s.step K op).msgs[i]? = some o' ∧ o'.ref = o.ref := by
  have hset : ∀ (k : Nat) (q : MsgObj), k ≠ i → (s.msgs.set k q)[i]? = some o := by
    intro k q hk
    rw [List.getElem?_set, if_neg hk]; exact hi
  have happ : ∀ q : MsgObj, (s.msgs ++ [q])[i]? = some o := by
    intro q
    have : i < s.msgs.length := by
      rcases Nat.lt_or_ge i s.msgs.length with h | h
      · exact h
      · rw [List.getElem?_eq_none h] at hi; cases hi
    rw [List.getElem?_append_left this]; exact hi
  cases op with
  | make m => exact ⟨o, happ _, rfl⟩
  | copy k =>
    simp only [MsgMem.step]
    cases hk : s.msgs[k]? with
    | none => exact ⟨o, hi, rfl⟩
    | some q => exact ⟨o, happ _, rfl⟩
  | type k v =>
    simp only [MsgMem.step]
    cases hk : s.msgs[k]? with
    | none => exact ⟨o, hi, rfl⟩
    | some q => exact ⟨o, hset k _ ho, rfl⟩
  | code k c =>
    simp only [MsgMem.step]
    cases hk : s.msgs[k]? with
    | none => exact ⟨o, hi, rfl⟩
    | some q =>
      by_cases he : k = i
      · subst he
        rw [hi] at hk; cases hk
        have : k < s.msgs.length := by
          rcases Nat.lt_or_ge k s.msgs.length with h | h
          · exact h
          · rw [List.getElem?_eq_none h] at hi; cases hi
        refine ⟨(K.setCodeRef s.store o c).1, ?_, rfl⟩
        simp only [MsgMem.put, List.getElem?_set, if_true, if_pos this]
      · exact ⟨o, hset k _ he, rfl⟩
  | give k d =>
    simp only [MsgMem.step]
    cases hk : s.msgs[k]? with
    | none => exact ⟨o, hi, rfl⟩
    | some q => exact ⟨o, hset k _ ho, rfl⟩
  | share k l =>
    simp only [MsgMem.step]
    cases hk : s.msgs[k]? with
    | none => exact ⟨o, hi, rfl⟩
    | some q =>
      cases hl : s.msgs[l]? with
      | none => exact ⟨o, hi, rfl⟩
      | some p => exact ⟨o, hset k _ ho, rfl⟩
  | edit k f =>
    simp only [MsgMem.step]
    cases hk : s.msgs[k]? with
    | none => exact ⟨o, hi, rfl⟩
    | some q => exact ⟨o, hi, rfl⟩

theorem views_get (s : MsgMem D) (i : Nat) : s.views[i]? = s.msgs[i]?.map (MsgObj.view s.store) := by
  rw [MsgMem.views, List.getElem?_map]

/-- **C214**, what assigning data does: from then on, whatever is done (to the data, through either message, or to other
messages), both show the same data, until one of them is given other data or a type. -/
theorem data_in_common {K : ICMPKind D} (L : K.Lawful) (h : Nat → D) (before after : List (ShareOp D)) (i j : Nat)
    (hi : i < (MsgMem.run K h before).views.length) (hj : j < (MsgMem.run K h before).views.length)
    (ho : ∀ op ∈ after, op.Leaves i ∧ op.Leaves j) :
    ∃ m p, (MsgMem.run K h (before ++ .share i j :: after)).views[i]? = some m ∧
      (MsgMem.run K h (before ++ .share i j :: after)).views[j]? = some p ∧ m.data = p.data := by
  have gen : ∀ (after : List (ShareOp D)) (s : MsgMem D) (o p : MsgObj), s.msgs[i]? = some o → s.msgs[j]? = some p →
      o.ref = p.ref → (∀ op ∈ after, op.Leaves i ∧ op.Leaves j) →
      ∃ m q, (after.foldl (MsgMem.step K) s).views[i]? = some m ∧ (after.foldl (MsgMem.step K) s).views[j]? = some q ∧
        m.data = q.data := by
    intro after
    induction after with
    | nil =>
      intro s o p hi hj hr _
      refine ⟨o.view s.store, p.view s.store, ?_, ?_, ?_⟩
      · simp [views_get, hi]
      · simp [views_get, hj]
      · simp only [MsgObj.view, hr]
    | cons op after ih =>
      intro s o p hi hj hr ho
      obtain ⟨o', h1, h2⟩ := leaves_ref (K := K) (ho op List.mem_cons_self).1 hi
      obtain ⟨p', h3, h4⟩ := leaves_ref (K := K) (ho op List.mem_cons_self).2 hj
      exact ih _ o' p' h1 h3 (by omega) fun x hx => ho x (List.mem_cons_of_mem _ hx)
  simp only [MsgMem.run, List.foldl_append, List.foldl_cons]
  change _ < (MsgMem.run K h before).views.length at hi
  generalize hs : List.foldl (MsgMem.step K) (⟨⟨h, 0⟩, []⟩ : MsgMem D) before = s
  have hs' : MsgMem.run K h before = s := hs
  rw [hs', MsgMem.views, List.length_map] at hi hj
  have hoi := List.getElem?_eq_getElem hi
  have hoj := List.getElem?_eq_getElem hj
  obtain ⟨t, c, e, h1, -⟩ := setDataRef_eq L s.store s.msgs[i] s.msgs[j].ref
  have hst : MsgMem.step K s (.share i j) = ⟨s.store, s.msgs.set i ⟨t, c, s.msgs[j].ref, s.msgs[i].csum⟩⟩ := by
    simp only [MsgMem.step, hoi, hoj, h1, MsgMem.put]
  rw [hst]
  by_cases he : i = j
  · subst he
    have hset : (s.msgs.set i ⟨t, c, s.msgs[i].ref, s.msgs[i].csum⟩)[i]? = some ⟨t, c, s.msgs[i].ref, s.msgs[i].csum⟩ := by
      simp [hi]
    exact gen after _ _ _ hset hset rfl ho
  · exact gen after _ ⟨t, c, s.msgs[j].ref, s.msgs[i].csum⟩ s.msgs[j] (by simp [hi])
      (by simp [he, hoj]) rfl ho

/-- **C214 is violated** by `a.icmpdata = b.icmpdata`: after it, in every program, a change of the data of `b` is a change
of message `a`. -/
theorem own_data_violated {K : ICMPKind D} (L : K.Lawful) (h : Nat → D) (before : List (ShareOp D)) (i j : Nat) (f : D → D)
    (p : ICMPMsg D) (hi : i < (MsgMem.run K h before).views.length) (hj : (MsgMem.run K h before).views[j]? = some p) :
    ∃ m, (MsgMem.run K h (before ++ [.share i j, .edit j f])).views[i]? = some m ∧ m.data = f p.data := by
  have hjl : j < (MsgMem.run K h before).views.length := by
    rcases Nat.lt_or_ge j (MsgMem.run K h before).views.length with h | h
    · exact h
    · rw [List.getElem?_eq_none h] at hj; cases hj
  obtain ⟨m, q, h1, h2, h3⟩ := data_in_common L h before [.edit j f] i j hi hjl
    (fun op hop => by rw [List.mem_singleton.mp hop]; exact ⟨trivial, trivial⟩)
  refine ⟨m, h1, ?_⟩
  rw [h3]
  simp only [MsgMem.run, List.foldl_append, List.foldl_cons, List.foldl_nil] at h2 hj hi hjl
  generalize List.foldl (MsgMem.step K) (⟨⟨h, 0⟩, []⟩ : MsgMem D) before = s at h2 hj hi hjl
  rw [MsgMem.views, List.length_map] at hi hjl
  rw [views_get, List.getElem?_eq_getElem hjl] at hj
  obtain ⟨t, c, e, h1, -⟩ := setDataRef_eq L s.store s.msgs[i] s.msgs[j].ref
  have hst : MsgMem.step K s (.share i j) = ⟨s.store, s.msgs.set i ⟨t, c, s.msgs[j].ref, s.msgs[i].csum⟩⟩ := by
    simp only [MsgMem.step, List.getElem?_eq_getElem hi, List.getElem?_eq_getElem hjl, h1, MsgMem.put]
  rw [hst] at h2
  obtain ⟨x, hx, hxr⟩ : ∃ x, (s.msgs.set i ⟨t, c, s.msgs[j].ref, s.msgs[i].csum⟩)[j]? = some x ∧ x.ref = s.msgs[j].ref := by
    by_cases he : i = j
    · refine ⟨⟨t, c, s.msgs[j].ref, s.msgs[i].csum⟩, ?_, rfl⟩
      rw [List.getElem?_set, if_pos he, if_pos hi]
    · refine ⟨s.msgs[j], ?_, rfl⟩
      rw [List.getElem?_set, if_neg he, List.getElem?_eq_getElem hjl]
  simp only [MsgMem.step, hx, views_get, Option.map_some, Option.some.injEq] at h2 hj
  rw [← h2, ← hj]
  simp only [MsgObj.view, DataMem.change, if_true, hxr]

/-- The action neither is about message `n` nor shares its data. -/
def _root_.SY.ShareOp.Avoids (n : Nat) : ShareOp D → Prop
  | .make _ => True
  | .copy _ => True
  | .type k _ => k ≠ n
  | .code k _ => k ≠ n
  | .give k _ => k ≠ n
  | .share k l => k ≠ n ∧ l ≠ n
  | .edit k _ => k ≠ n

theorem apart_step {K : ICMPKind D} {a : DataTies D} {n : Nat} {m : ICMPMsg D} {op : ShareOp D} (hn : a.vals[n]? = some m)
    (h1 : ∀ j, j ≠ n → a.same j n = false) (ho : op.Avoids n) :
    (a.step K op).vals[n]? = some m ∧ ∀ j, j ≠ n → (a.step K op).same j n = false := by
  have hlen : n < a.vals.length := by
    rcases Nat.lt_or_ge n a.vals.length with h | h
    · exact h
    · rw [List.getElem?_eq_none h] at hn; cases hn
  have happ : ∀ x, (a.vals ++ [x])[n]? = some m := fun x => by rw [List.getElem?_append_left hlen]; exact hn
  have hset : ∀ k x, k ≠ n → (a.vals.set k x)[n]? = some m := fun k x hk => by rw [List.getElem?_set, if_neg hk]; exact hn
  have hal : ∀ k, k ≠ n → ∀ j, j ≠ n → aloneAt k a.same j n = false := by
    intro k hk j hj
    simp only [aloneAt]
    split
    · simp [hj]
    · exact h1 j hj
  cases op with
  | make x => exact ⟨happ _, hal _ (by omega)⟩
  | copy k =>
    simp only [DataTies.step]
    cases a.vals[k]? with
    | none => exact ⟨hn, h1⟩
    | some x => exact ⟨happ _, hal _ (by omega)⟩
  | type k v =>
    simp only [DataTies.step]
    cases a.vals[k]? with
    | none => exact ⟨hn, h1⟩
    | some x =>
      refine ⟨hset _ _ ho, fun j hj => ?_⟩
      simp only
      split
      · exact hal k ho j hj
      · exact h1 j hj
  | code k c =>
    simp only [DataTies.step]
    cases a.vals[k]? with
    | none => exact ⟨hn, h1⟩
    | some x => exact ⟨hset _ _ ho, h1⟩
  | give k d =>
    simp only [DataTies.step]
    cases a.vals[k]? with
    | none => exact ⟨hn, h1⟩
    | some x => exact ⟨hset _ _ ho, hal k ho⟩
  | share k l =>
    simp only [DataTies.step]
    cases a.vals[k]? with
    | none => exact ⟨hn, h1⟩
    | some x =>
      cases a.vals[l]? with
      | none => exact ⟨hn, h1⟩
      | some y =>
        refine ⟨hset _ _ ho.1, fun j hj => ?_⟩
        simp only [joinAt, if_neg (Ne.symm ho.1)]
        split
        · exact h1 l ho.2
        · exact h1 j hj
  | edit k f =>
    simp only [DataTies.step]
    cases a.vals[k]? with
    | none => exact ⟨hn, h1⟩
    | some x =>
      refine ⟨?_, h1⟩
      simp only [List.getElem?_mapIdx, hn, Option.map_some, h1 k ho, Bool.false_eq_true, if_false]

theorem apart_run {K : ICMPKind D} (n : Nat) (m : ICMPMsg D) (after : List (ShareOp D)) (a : DataTies D) (hn : a.vals[n]? = some m)
    (h1 : ∀ j, j ≠ n → a.same j n = false) (ho : ∀ op ∈ after, op.Avoids n) :
    (after.foldl (DataTies.step K) a).vals[n]? = some m := by
  induction after generalizing a with
  | nil => exact hn
  | cons op after ih =>
    obtain ⟨h2, h3⟩ := apart_step (K := K) hn h1 (ho op List.mem_cons_self)
    exact ih _ h2 h3 fun o hm => ho o (List.mem_cons_of_mem _ hm)

/-- **C214**, deep copies: after any program, also if the data of the message is in common with others, a copy shows what
the message shows, and goes on showing it whatever is done to the others. -/
theorem message_copy_apart {K : ICMPKind D} (L : K.Lawful) (h : Nat → D) (before after : List (ShareOp D)) (i : Nat) (m : ICMPMsg D)
    (hi : (MsgMem.run K h before).views[i]? = some m)
    (ho : ∀ op ∈ after, op.Avoids (MsgMem.run K h before).views.length) :
    (MsgMem.run K h (before ++ .copy i :: after)).views[(MsgMem.run K h before).views.length]? = some m := by
  rw [messages_tied L] at hi ho ⊢
  rw [messages_tied L]
  simp only [DataTies.run, List.foldl_append, List.foldl_cons] at hi ho ⊢
  generalize List.foldl (DataTies.step K) (⟨[], fun x y => x == y⟩ : DataTies D) before = a at hi ho ⊢
  simp only [DataTies.step, hi]
  exact apart_run _ m after _ (by simp) (fun j hj => by simp [aloneAt, hj]) ho

/-- **C214**, parting: a message that is given new data has it alone, and goes on showing it whatever is done to the
others. -/
theorem message_given_apart {K : ICMPKind D} (L : K.Lawful) (h : Nat → D) (before after : List (ShareOp D)) (i : Nat) (d : D)
    (m : ICMPMsg D) (hi : (MsgMem.run K h before).views[i]? = some m) (ho : ∀ op ∈ after, op.Avoids i) :
    (MsgMem.run K h (before ++ .give i d :: after)).views[i]? = some (K.setData m (.obj d)).1 := by
  rw [messages_tied L] at hi ⊢
  simp only [DataTies.run, List.foldl_append, List.foldl_cons] at hi ⊢
  generalize List.foldl (DataTies.step K) (⟨[], fun x y => x == y⟩ : DataTies D) before = a at hi ⊢
  have hlen : i < a.vals.length := by
    rcases Nat.lt_or_ge i a.vals.length with h | h
    · exact h
    · rw [List.getElem?_eq_none h] at hi; cases hi
  simp only [DataTies.step, hi]
  exact apart_run _ _ after _ (by simp [hlen]) (fun j hj => by simp [aloneAt, hj]) ho

/-- **C214**, parting: so has one that is given a type its data is not of the class of. -/
theorem message_typed_apart {K : ICMPKind D} (L : K.Lawful) (h : Nat → D) (before after : List (ShareOp D)) (i t : Nat) (d : D)
    (m : ICMPMsg D) (hi : (MsgMem.run K h before).views[i]? = some m) (ht : t ∈ K.types) (hd : K.new t = some d)
    (hA : K.isA m.data t = false) (ho : ∀ op ∈ after, op.Avoids i) :
    (MsgMem.run K h (before ++ .type i t :: after)).views[i]? = some ⟨t, 0, d, m.csum⟩ := by
  rw [messages_tied L] at hi ⊢
  simp only [DataTies.run, List.foldl_append, List.foldl_cons] at hi ⊢
  generalize List.foldl (DataTies.step K) (⟨[], fun x y => x == y⟩ : DataTies D) before = a at hi ⊢
  have hlen : i < a.vals.length := by
    rcases Nat.lt_or_ge i a.vals.length with h | h
    · exact h
    · rw [List.getElem?_eq_none h] at hi; cases hi
  have hs : (K.setType m t).1 = ⟨t, 0, d, m.csum⟩ := by
    rw [ICMPKind.setType_eq L]; simp [enumOf_nat ht, hd, hA]
  simp only [DataTies.step, hi, hs]
  exact apart_run _ _ after _ (by simp [hlen]) (fun j hj => by simp [newData, enumOf_nat ht, hd, hA, aloneAt, hj]) ho

/-! Two echo requests; the second is given the data of the first, the identifier of the first is changed: both have it.
After the second is made an address mask request, the first may be changed alone. -/

def bumpIdent : ICMPData → ICMPData
  | .echo r i s p => .echo r (i + 1) s p
  | d => d

example : (MsgMem.run icmp4 (fun _ => .echo false 0 0 [])
    [.make .default4, .make .default4, .share 1 0, .edit 0 bumpIdent]).views =
    [⟨8, 0, .echo false 1 0 [], 0⟩, ⟨8, 0, .echo false 1 0 [], 0⟩] := by decide +kernel

example : (MsgMem.run icmp4 (fun _ => .echo false 0 0 [])
    [.make .default4, .make .default4, .edit 0 bumpIdent]).views =
    [⟨8, 0, .echo false 1 0 [], 0⟩, ⟨8, 0, .echo false 0 0 [], 0⟩] := by decide +kernel

example : (MsgMem.run icmp4 (fun _ => .echo false 0 0 [])
    [.make .default4, .make .default4, .share 1 0, .type 1 13, .edit 0 bumpIdent]).views.map (·.type) = [8, 13] := by decide +kernel

example : (MsgMem.run icmp4 (fun _ => .echo false 0 0 [])
    [.make .default4, .copy 0, .edit 0 bumpIdent]).views =
    [⟨8, 0, .echo false 1 0 [], 0⟩, ⟨8, 0, .echo false 0 0 [], 0⟩] := by decide +kernel

end SY.Props
