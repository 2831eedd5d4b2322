import Verif.TopoShare
import Verif.Props.TopoInv

/-! # Property C204: topologies and their union -/

namespace SY.Props

/-! ## Names after an operation -/

/-- No name is lost, and names stay unique. -/
structure NamesKept (d d' : Dict Name TNode) : Prop where
  sub : ∀ n ∈ d.keys, n ∈ d'.keys
  uniq : d.Uniq → d'.Uniq

theorem NamesKept.refl (d : Dict Name TNode) : NamesKept d d := ⟨fun _ h => h, id⟩

theorem NamesKept.trans {a b c : Dict Name TNode} (h : NamesKept a b) (h' : NamesKept b c) : NamesKept a c :=
  ⟨fun n hn => h'.sub n (h.sub n hn), fun hu => h'.uniq (h.uniq hu)⟩

theorem NamesKept.set (d : Dict Name TNode) (n : Name) (nd : TNode) : NamesKept d (d.set n nd) := by
  refine ⟨fun m hm => ?_, fun hu => Dict.uniq_set hu _ _⟩
  rw [Dict.keys_set]
  split
  · exact hm
  · exact List.mem_append_left _ hm

theorem namesKept_addIf (t : Topo) (n : Name) (e : EthArg) : NamesKept t.nodes (t.addIf n e).1.nodes := by
  unfold Topo.addIf
  split
  · exact .refl _
  · exact .set _ _ _

theorem namesKept_addNode (t : Topo) (n : Name) (k : NodeKind) : NamesKept t.nodes (t.addNode n k).1.nodes := by
  unfold Topo.addNode
  split
  · exact .refl _
  · exact .set _ _ _

theorem nodes_setIfGiven {α : Type} (t : Topo) (a b k : Name) (mk : α → Attr) (v : Option α) :
    (t.setIfGiven a b k mk v).nodes = t.nodes := by cases v <;> rfl

theorem nodes_setLabel (t : Topo) (a b : Name) : (t.setLabel a b).1.nodes = t.nodes := by
  unfold Topo.setLabel
  split
  · rfl
  · split <;> rfl

theorem nodes_setLink (t : Topo) (a b : Name) (c : CapArg) (d : DelayArg) : (t.setLink a b c d).1.nodes = t.nodes := by
  unfold Topo.setLink
  split
  · split
    · rfl
    · split
      · exact nodes_setIfGiven ..
      · rw [nodes_setLabel, nodes_setIfGiven, nodes_setIfGiven]
  · rfl

theorem nodes_connect (t : Topo) (a b fa fb : Name) (c : CapArg) (d : DelayArg) :
    (t.connect a b fa fb c d).1.nodes = t.nodes := by
  unfold Topo.connect
  rw [nodes_setLink]
  show (t.addEdge a b).nodes = t.nodes
  unfold Topo.addEdge
  split <;> rfl

theorem namesKept_addLink (t : Topo) (a b : Name) (c : CapArg) (d : DelayArg) :
    NamesKept t.nodes (t.addLink a b c d).1.nodes := by
  have hu : t.useMacs.nodes = t.nodes := by unfold Topo.useMacs; split <;> rfl
  have h1 := namesKept_addIf t.useMacs a (t.newMac 0)
  rw [hu] at h1
  unfold Topo.addLink
  split
  · split
    · rename_i t1 e he; rw [he] at h1; exact h1
    · rename_i t1 fa he
      rw [he] at h1
      have h2 := namesKept_addIf t1 b (t.newMac 1)
      split
      · rename_i t2 e he2; rw [he2] at h2; exact h1.trans h2
      · rename_i t2 fb he2
        rw [he2] at h2
        rw [nodes_connect]
        exact h1.trans h2
  · exact .refl _

theorem namesKept_setIface (t : Topo) (n f : Name) (i : Iface) : NamesKept t.nodes (t.setIface n f i).nodes := by
  unfold Topo.setIface
  split
  · exact .refl _
  · exact .set _ _ _

theorem namesKept_numberEnds (num : Name → Bool) (plen : Nat) (es : List (Name × Name × Name)) :
    ∀ (t : Topo) (g : HostGen), NamesKept t.nodes (numberEnds num plen t g es).1.nodes := by
  induction es with
  | nil => intro t g; exact .refl _
  | cons x es ih =>
    obtain ⟨u, v, n⟩ := x
    intro t g
    have h1 : NamesKept t.nodes (t.numberEnd g plen u v n).1.1.nodes := by
      unfold Topo.numberEnd
      split
      · split
        · exact .refl _
        · split
          · exact .refl _
          · exact namesKept_setIface ..
      · exact .refl _
    simp only [numberEnds]
    split
    · split
      · rename_i t' g' e he; rw [he] at h1; exact h1
      · rename_i t' g' he; rw [he] at h1; exact h1.trans (ih _ _)
    · exact ih _ _

/-- An operation that is not the removal of this node keeps it. -/
theorem topo_step_keeps (t : Topo) (op : TopoOp) (hu : t.nodes.Uniq) :
    (t.step op).1.nodes.Uniq ∧ ∀ n ∈ t.nodes.keys, op ≠ .removeNode n → n ∈ (t.step op).1.nodes.keys := by
  have key : NamesKept t.nodes (t.step op).1.nodes →
      (t.step op).1.nodes.Uniq ∧ ∀ n ∈ t.nodes.keys, op ≠ .removeNode n → n ∈ (t.step op).1.nodes.keys :=
    fun h => ⟨h.uniq hu, fun n hn _ => h.sub n hn⟩
  cases op with
  | add k n =>
    apply key
    show NamesKept t.nodes (t.add k n).1.nodes
    unfold Topo.add
    split
    · exact namesKept_addNode ..
    · split
      · exact .refl _
      · have : ∀ j, (t.setCounter k j).nodes = t.nodes := by intro j; cases k <;> rfl
        rw [← this]
        exact namesKept_addNode ..
  | addLink a b c d => exact key (namesKept_addLink ..)
  | removeNode m =>
    show (t.removeNode m).1.nodes.Uniq ∧ ∀ n ∈ t.nodes.keys, _ → n ∈ (t.removeNode m).1.nodes.keys
    unfold Topo.removeNode
    split
    · refine ⟨Dict.uniq_erase hu _, fun n hn hne => (mem_keys_erase hu).mpr ⟨?_, hn⟩⟩
      rintro rfl
      exact hne rfl
    · exact ⟨hu, fun n hn _ => hn⟩
  | removeLink a b =>
    apply key
    show NamesKept t.nodes (t.removeLink a b).1.nodes
    unfold Topo.removeLink
    split <;> exact .refl _
  | setLink a b c d =>
    apply key
    show NamesKept t.nodes (t.setLink a b c d).1.nodes
    rw [nodes_setLink]
    exact .refl _
  | assignIPs p =>
    apply key
    show NamesKept t.nodes (t.assignIPs p).1.nodes
    unfold Topo.assignIPs
    split
    · exact .refl _
    · exact namesKept_numberEnds ..
  | setAddrs n f mac ip =>
    apply key
    show NamesKept t.nodes (t.setAddrs n f mac ip).1.nodes
    unfold Topo.setAddrs
    split
    · exact .refl _
    · split
      · exact .refl _
      · exact namesKept_setIface ..
  | addInterface n e i =>
    apply key
    show NamesKept t.nodes (t.nodeAddInterface n e i).1.nodes
    unfold Topo.nodeAddInterface
    split
    · exact .refl _
    · exact .set _ _ _

/-! ## The store -/

/-- The references of one topology: names once, objects once, and all of them exist. -/
structure RefsOk (refs : Dict Name Nat) (f : Nat) : Prop where
  uniq : refs.Uniq
  inj : ∀ n n' r, refs.get? n = some r → refs.get? n' = some r → n = n'
  old : ∀ n r, refs.get? n = some r → r < f

/-- What storing the nodes `l` does. -/
theorem storeNodes_spec (refs : Dict Name Nat) (l : List (Name × TNode)) :
    ∀ (h : Nat → TNode) (f : Nat), (∀ n r, refs.get? n = some r → r < f) →
      (∀ n n' r, refs.get? n = some r → refs.get? n' = some r → n = n') → (l.map Prod.fst).Nodup →
      let s := storeNodes refs l h f
      f ≤ s.1.2 ∧ s.2.keys = l.map Prod.fst ∧
      (s.2.map fun x => (x.1, s.1.1 x.2)) = l ∧
      (∀ n r, s.2.get? n = some r → refs.get? n = some r ∨ (refs.get? n = none ∧ f ≤ r ∧ r < s.1.2)) ∧
      (∀ n n' r, s.2.get? n = some r → s.2.get? n' = some r → n = n') ∧
      (∀ r, r < f → (∀ n ∈ l.map Prod.fst, refs.get? n ≠ some r) → s.1.1 r = h r) := by
  induction l with
  | nil =>
    intro h f _ _ _
    refine ⟨Nat.le_refl _, rfl, rfl, ?_, ?_, fun _ _ _ => rfl⟩
    · intro n r hr; cases hr
    · intro n n' r hr; cases hr
  | cons x l ih =>
    obtain ⟨n, nd⟩ := x
    intro h f hold hinj hnd
    simp only [List.map_cons, List.nodup_cons] at hnd
    cases hg : refs.get? n with
    | some r =>
      have hr := hold n r hg
      obtain ⟨i1, i2, i3, i4, i5, i6⟩ := ih (heapSet h r nd) f hold hinj hnd.2
      simp only [storeNodes, hg]
      have hval : (storeNodes refs l (heapSet h r nd) f).1.1 r = nd := by
        rw [i6 r hr ?_]
        · simp [heapSet]
        · intro m hm hc
          exact hnd.1 (hinj m n r hc hg ▸ hm)
      refine ⟨i1, by simp [Dict.keys] at i2 ⊢; exact i2, by simp [hval, i3], ?_, ?_, ?_⟩
      · intro m r' hm
        rw [Dict.get?_cons] at hm
        split at hm
        · rename_i e; subst e; cases hm; exact .inl hg
        · exact i4 m r' hm
      · have hne : ∀ m, m ≠ n → (storeNodes refs l (heapSet h r nd) f).2.get? m ≠ some r := by
          intro m hmn hm
          rcases i4 m r hm with h1 | ⟨_, h2, _⟩
          · exact hmn (hinj m n r h1 hg)
          · omega
        intro a b r' ha hb
        rw [Dict.get?_cons] at ha hb
        split at ha <;> split at hb
        · rename_i e1 e2; exact e1.symm.trans e2
        · rename_i e1 e2; cases ha; exact absurd hb (hne b fun e => e2 e.symm)
        · rename_i e1 e2; cases hb; exact absurd ha (hne a fun e => e1 e.symm)
        · exact i5 a b r' ha hb
      · intro r' hr' hn'
        rw [i6 r' hr' fun m hm => hn' m (List.mem_cons_of_mem _ hm)]
        have : r' ≠ r := by rintro rfl; exact hn' n (by simp) hg
        simp [heapSet, this]
    | none =>
      obtain ⟨i1, i2, i3, i4, i5, i6⟩ := ih (heapSet h f nd) (f + 1) (fun m r hm => Nat.lt_succ_of_lt (hold m r hm)) hinj hnd.2
      simp only [storeNodes, hg]
      have hval : (storeNodes refs l (heapSet h f nd) (f + 1)).1.1 f = nd := by
        rw [i6 f (Nat.lt_succ_self _) ?_]
        · simp [heapSet]
        · intro m hm hc
          exact absurd (hold m f hc) (Nat.lt_irrefl _)
      refine ⟨by omega, by simp [Dict.keys] at i2 ⊢; exact i2, by simp [hval, i3], ?_, ?_, ?_⟩
      · intro m r' hm
        rw [Dict.get?_cons] at hm
        split at hm
        · rename_i e; subst e; cases hm; exact .inr ⟨hg, Nat.le_refl _, by omega⟩
        · rcases i4 m r' hm with h1 | ⟨h1, h2, h3⟩
          · exact .inl h1
          · exact .inr ⟨h1, by omega, h3⟩
      · have hne : ∀ m, (storeNodes refs l (heapSet h f nd) (f + 1)).2.get? m ≠ some f := by
          intro m hm
          rcases i4 m f hm with h1 | ⟨_, h2, _⟩
          · exact absurd (hold m f h1) (Nat.lt_irrefl _)
          · omega
        intro a b r' ha hb
        rw [Dict.get?_cons] at ha hb
        split at ha <;> split at hb
        · rename_i e1 e2; exact e1.symm.trans e2
        · cases ha; exact absurd hb (hne b)
        · cases hb; exact absurd ha (hne a)
        · exact i5 a b r' ha hb
      · intro r' hr' hn'
        rw [i6 r' (by omega) fun m hm => hn' m (List.mem_cons_of_mem _ hm)]
        have : r' ≠ f := by omega
        simp [heapSet, this]

/-! ## Histories -/

/-- Names are unique in each topology, references exist, and one object has one name everywhere. -/
structure MemOk (m : TopoMem) : Prop where
  uniq : ∀ o ∈ m.topos, o.refs.Uniq
  one : ∀ o ∈ m.topos, ∀ o' ∈ m.topos, ∀ n n' r, o.refs.get? n = some r → o'.refs.get? n' = some r → n = n'
  old : ∀ o ∈ m.topos, ∀ n r, o.refs.get? n = some r → r < m.fresh

theorem view_keys (m : TopoMem) (o : TopoObj) : (m.view o).nodes.keys = o.refs.keys := by
  simp [TopoMem.view, Dict.keys, Function.comp_def]

theorem view_get? (m : TopoMem) (o : TopoObj) (n : Name) : (m.view o).nodes.get? n = (o.refs.get? n).map m.heap :=
  Dict.get?_map o.refs m.heap n

/-- All about one operation on a topology. -/
theorem put_spec {m : TopoMem} (hm : MemOk m) {i : Nat} {o : TopoObj} (hi : m.topos[i]? = some o) (op : TopoOp) :
    ∃ refs', (m.put i o ((m.view o).step op).1).topos = m.topos.set i ⟨{ ((m.view o).step op).1 with nodes := [] }, refs'⟩ ∧
      refs'.keys = ((m.view o).step op).1.nodes.keys ∧
      (m.put i o ((m.view o).step op).1).view ⟨{ ((m.view o).step op).1 with nodes := [] }, refs'⟩ = ((m.view o).step op).1 ∧
      m.fresh ≤ (m.put i o ((m.view o).step op).1).fresh ∧
      (∀ n r, refs'.get? n = some r → o.refs.get? n = some r ∨
        (o.refs.get? n = none ∧ m.fresh ≤ r ∧ r < (m.put i o ((m.view o).step op).1).fresh)) ∧
      (∀ n n' r, refs'.get? n = some r → refs'.get? n' = some r → n = n') ∧
      refs'.Uniq ∧
      (∀ r, r < m.fresh → (∀ n, o.refs.get? n ≠ some r) → (m.put i o ((m.view o).step op).1).heap r = m.heap r) := by
  have ho : o ∈ m.topos := List.mem_of_getElem? hi
  have hu : (m.view o).nodes.Uniq := by unfold Dict.Uniq; rw [view_keys]; exact hm.uniq o ho
  have hu' := (topo_step_keeps (m.view o) op hu).1
  obtain ⟨s1, s2, s3, s4, s5, s6⟩ := storeNodes_spec o.refs ((m.view o).step op).1.nodes m.heap m.fresh (hm.old o ho)
    (hm.one o ho o ho) hu'
  refine ⟨_, rfl, s2, ?_, s1, s4, s5, ?_, fun r hr hn => s6 r hr fun n _ => hn n⟩
  · have h3 : (((storeNodes o.refs ((m.view o).step op).1.nodes m.heap m.fresh).2).map fun x =>
      (x.1, (m.put i o ((m.view o).step op).1).heap x.2)) = ((m.view o).step op).1.nodes := s3
    unfold TopoMem.view at h3 ⊢
    rw [h3]
    rfl
  · unfold Dict.Uniq; rw [s2]; exact hu'

theorem memOk_start : MemOk TopoMem.start :=
  ⟨fun _ h => (List.not_mem_nil h).elim, fun _ h => (List.not_mem_nil h).elim, fun _ h => (List.not_mem_nil h).elim⟩

theorem memOk_act {m : TopoMem} (hm : MemOk m) (i : Nat) (op : TopoOp) : MemOk (m.act i op) := by
  unfold TopoMem.act
  split
  · exact hm
  · rename_i o hi
    obtain ⟨refs', e1, _, _, e4, e5, e6, e7, _⟩ := put_spec hm hi op
    have ho : o ∈ m.topos := List.mem_of_getElem? hi
    refine ⟨?_, ?_, ?_⟩
    · intro x hx
      rw [e1] at hx
      rcases List.mem_or_eq_of_mem_set hx with hx | rfl
      · exact hm.uniq x hx
      · exact e7
    · intro x hx y hy n n' r hn hn'
      rw [e1] at hx hy
      have hcross : ∀ y ∈ m.topos, ∀ n n', refs'.get? n = some r → y.refs.get? n' = some r → n = n' := by
        intro y hy n n' hn hn'
        rcases e5 n r hn with h1 | ⟨_, h2, _⟩
        · exact hm.one o ho y hy n n' r h1 hn'
        · have := hm.old y hy n' r hn'; omega
      rcases List.mem_or_eq_of_mem_set hx with hx | rfl <;> rcases List.mem_or_eq_of_mem_set hy with hy | rfl
      · exact hm.one x hx y hy n n' r hn hn'
      · exact (hcross x hx n' n hn' hn).symm
      · exact hcross y hy n n' hn hn'
      · exact e6 n n' r hn hn'
    · intro x hx n r hn
      rw [e1] at hx
      rcases List.mem_or_eq_of_mem_set hx with hx | rfl
      · have := hm.old x hx n r hn; omega
      · rcases e5 n r hn with h1 | ⟨_, _, h3⟩
        · have := hm.old o ho n r h1; omega
        · exact h3

theorem dict_get?_append {κ ν : Type} [DecidableEq κ] (d e : Dict κ ν) (k : κ) :
    Dict.get? (d ++ e) k = (Dict.get? d k).or (Dict.get? e k) := by
  induction d with
  | nil => rfl
  | cons x d ih =>
    obtain ⟨k', v⟩ := x
    rw [List.cons_append, Dict.get?_cons, Dict.get?_cons, ih]
    split <;> rfl

/-- What a union that does not raise gives. -/
theorem unite_cases (m : TopoMem) (i j : Nat) :
    m.unite i j = m ∨ ∃ a b u, m.topos[i]? = some a ∧ m.topos[j]? = some b ∧ (m.view a).joinWith (m.view b) = .ok u ∧
      (∀ n ∈ a.refs.keys, n ∉ b.refs.keys) ∧
      m.unite i j = { m with topos := m.topos ++ [⟨{ u with nodes := [] }, a.refs ++ b.refs⟩] } := by
  unfold TopoMem.unite
  split
  · rename_i a b ha hb
    split
    · exact .inl rfl
    · rename_i u hu
      refine .inr ⟨a, b, u, ha, hb, hu, ?_, rfl⟩
      unfold Topo.joinWith at hu
      split at hu
      · cases hu
      · rename_i hd
        rw [view_keys, view_keys] at hd
        intro n hn hn'
        exact hd (List.any_eq_true.mpr ⟨n, hn, by simpa using hn'⟩)
  · exact .inl rfl

theorem memOk_unite {m : TopoMem} (hm : MemOk m) (i j : Nat) : MemOk (m.unite i j) := by
  rcases unite_cases m i j with h | ⟨a, b, u, ha, hb, _, hd, h⟩
  · rw [h]; exact hm
  · rw [h]
    have ha := List.mem_of_getElem? ha
    have hb := List.mem_of_getElem? hb
    have hsrc : ∀ n r, Dict.get? (a.refs ++ b.refs) n = some r → a.refs.get? n = some r ∨ b.refs.get? n = some r := by
      intro n r hn
      rw [dict_get?_append] at hn
      cases hx : a.refs.get? n with
      | none => rw [hx] at hn; exact .inr hn
      | some y => rw [hx] at hn; exact .inl hn
    have hold : ∀ n r, Dict.get? (a.refs ++ b.refs) n = some r → ∃ o ∈ m.topos, o.refs.get? n = some r := by
      intro n r hn
      rcases hsrc n r hn with h | h
      · exact ⟨a, ha, h⟩
      · exact ⟨b, hb, h⟩
    have hsome : ∀ x ∈ m.topos ++ [(⟨{ u with nodes := [] }, a.refs ++ b.refs⟩ : TopoObj)], ∀ n r, x.refs.get? n = some r →
        ∃ o ∈ m.topos, o.refs.get? n = some r := by
      intro x hx n r hn
      rcases List.mem_append.mp hx with hx | hx
      · exact ⟨x, hx, hn⟩
      · rw [List.mem_singleton.mp hx] at hn; exact hold n r hn
    refine ⟨?_, ?_, ?_⟩
    · intro x hx
      rcases List.mem_append.mp hx with hx | hx
      · exact hm.uniq x hx
      · rw [List.mem_singleton.mp hx]
        show (Dict.keys (a.refs ++ b.refs)).Nodup
        rw [show Dict.keys (a.refs ++ b.refs) = a.refs.keys ++ b.refs.keys from List.map_append]
        exact List.nodup_append.mpr ⟨hm.uniq a ha, hm.uniq b hb, fun n hn n' hn' e => hd n hn (e ▸ hn')⟩
    · intro x hx y hy n n' r hn hn'
      obtain ⟨o, ho, h1⟩ := hsome x hx n r hn
      obtain ⟨o', ho', h2⟩ := hsome y hy n' r hn'
      exact hm.one o ho o' ho' n n' r h1 h2
    · intro x hx n r hn
      obtain ⟨o, ho, h1⟩ := hsome x hx n r hn
      exact hm.old o ho n r h1

theorem memOk_step {m : TopoMem} (hm : MemOk m) (op : MemOp) : MemOk (m.step op) := by
  cases op with
  | new name b =>
    have hsome : ∀ x ∈ m.topos ++ [(⟨Topo.init name b 0, []⟩ : TopoObj)], ∀ n r, x.refs.get? n = some r → x ∈ m.topos := by
      intro x hx n r hn
      rcases List.mem_append.mp hx with hx | hx
      · exact hx
      · rw [List.mem_singleton.mp hx] at hn; cases hn
    refine ⟨?_, fun x hx y hy n n' r hn hn' => hm.one x (hsome x hx n r hn) y (hsome y hy n' r hn') n n' r hn hn',
      fun x hx n r hn => hm.old x (hsome x hx n r hn) n r hn⟩
    intro x hx
    rcases List.mem_append.mp hx with hx | hx
    · exact hm.uniq x hx
    · rw [List.mem_singleton.mp hx]; exact List.nodup_nil
  | act i op => exact memOk_act hm i op
  | unite i j => exact memOk_unite hm i j

theorem memOk_run {m : TopoMem} (hm : MemOk m) (ops : List MemOp) : MemOk (m.run ops) := by
  induction ops generalizing m with
  | nil => exact hm
  | cons op ops ih => exact ih (memOk_step hm op)

/-- Operations on other topologies leave the topology object as it is (not the node objects). -/
theorem other_object (m : TopoMem) (op : MemOp) (k : Nat) (o : TopoObj) (hk : m.topos[k]? = some o)
    (hop : ∀ x, op ≠ .act k x) : (m.step op).topos[k]? = some o := by
  have happ : ∀ x : TopoObj, (m.topos ++ [x])[k]? = some o := by
    intro x
    have : k < m.topos.length := (List.getElem?_eq_some_iff.mp hk).1
    rw [List.getElem?_append_left this]; exact hk
  cases op with
  | new name b => exact happ _
  | act i x =>
    show (m.act i x).topos[k]? = some o
    unfold TopoMem.act
    split
    · exact hk
    · have : i ≠ k := by rintro rfl; exact hop x rfl
      show (m.topos.set i _)[k]? = some o
      rw [List.getElem?_set_ne this]; exact hk
  | unite i j =>
    rcases unite_cases m i j with h | ⟨a, b, u, _, _, _, _, h⟩
    · rw [show m.step (.unite i j) = m from h]; exact hk
    · rw [show m.step (.unite i j) = _ from h]; exact happ _

/-! ## The property -/

/-- **C204**: an operation on one of several topologies does to that topology what it does if there is no other. -/
theorem topology_alone (ops : List MemOp) (i : Nat) (op : TopoOp) (t : Topo) (h : (TopoMem.start.run ops).topo? i = some t) :
    ((TopoMem.start.run ops).step (.act i op)).topo? i = some (t.step op).1 := by
  have hm := memOk_run memOk_start ops
  generalize TopoMem.start.run ops = m at h hm ⊢
  simp only [TopoMem.topo?, Option.map_eq_some_iff] at h
  obtain ⟨o, ho, rfl⟩ := h
  obtain ⟨refs', e1, _, e3, _⟩ := put_spec hm ho op
  have hs : m.step (.act i op) = m.put i o ((m.view o).step op).1 := by
    show m.act i op = _
    unfold TopoMem.act; rw [ho]
  rw [hs]
  unfold TopoMem.topo?
  rw [e1, List.getElem?_set_self (List.getElem?_eq_some_iff.mp ho).1]
  simp only [Option.map_some, Option.some.injEq]
  exact e3

/-- **C204**: the union shows the nodes and links of both, as computed from what they show (C128); both are unchanged. -/
theorem topology_union_shows (m : TopoMem) (i j : Nat) (t o u : Topo) (hi : m.topo? i = some t) (hj : m.topo? j = some o)
    (hu : t.joinWith o = .ok u) :
    (m.step (.unite i j)).topo? m.topos.length = some u ∧
    ∀ k, k < m.topos.length → (m.step (.unite i j)).topo? k = m.topo? k := by
  simp only [TopoMem.topo?, Option.map_eq_some_iff] at hi hj
  obtain ⟨a, ha, rfl⟩ := hi
  obtain ⟨b, hb, rfl⟩ := hj
  have e : m.step (.unite i j) = { m with topos := m.topos ++ [⟨{ u with nodes := [] }, a.refs ++ b.refs⟩] } := by
    show m.unite i j = _
    unfold TopoMem.unite
    rw [ha, hb]
    simp only [hu]
  rw [e]
  constructor
  · simp only [TopoMem.topo?, List.getElem?_concat_length, Option.map_some, Option.some.injEq, TopoMem.view, List.map_append]
    unfold Topo.joinWith at hu
    split at hu
    · cases hu
    · injection hu with hu
      subst hu
      split
      · rename_i h0
        simp only [TopoMem.view] at h0
        rw [h0]; rfl
      · rename_i h0
        rw [Topo.ofGraph, if_neg h0]
        rfl
  · intro k hk
    simp only [TopoMem.topo?, List.getElem?_append_left hk]
    rfl

/-- **C204**, partial: operations on other topologies, also on unions it is part of or parts it was made from, never
change which nodes and links a topology has, nor what is known of its links.  Missing: the interfaces of its nodes
(`topology_shared_violated`). -/
theorem topology_graph_kept_partial (ops later : List MemOp) (i : Nat) (t : Topo) (h : (TopoMem.start.run ops).topo? i = some t)
    (hl : ∀ x, MemOp.act i x ∉ later) :
    ∃ t', ((TopoMem.start.run ops).run later).topo? i = some t' ∧ t'.nodes.keys = t.nodes.keys ∧ t'.edges = t.edges ∧
      t'.name = t.name := by
  generalize TopoMem.start.run ops = m at h ⊢
  simp only [TopoMem.topo?, Option.map_eq_some_iff] at h
  obtain ⟨o, ho, rfl⟩ := h
  have key : ((m.run later).topos)[i]? = some o := by
    induction later generalizing m with
    | nil => exact ho
    | cons op later ih =>
      exact ih (fun x hx => hl x (List.mem_cons_of_mem _ hx)) (m := m.step op)
        (other_object m op i o ho fun x e => hl x (e ▸ List.mem_cons_self))
  exact ⟨(m.run later).view o, by simp [TopoMem.topo?, key], by rw [view_keys, view_keys], rfl, rfl⟩

/-- No other topology has a node object of the one with number `k`. -/
def Separate (m : TopoMem) (k : Nat) : Prop :=
  ∀ o o' i n r, m.topos[k]? = some o → m.topos[i]? = some o' → i ≠ k → o.refs.get? n = some r → o'.refs.get? n ≠ some r

theorem separate_step {m : TopoMem} (hm : MemOk m) {k : Nat} (hk : k < m.topos.length) (hs : Separate m k) (op : MemOp)
    (hop : ∀ i, op ≠ .unite i k ∧ op ≠ .unite k i) : Separate (m.step op) k := by
  obtain ⟨c, hc⟩ : ∃ c, m.topos[k]? = some c := ⟨_, List.getElem?_eq_getElem hk⟩
  cases op with
  | new name b =>
    intro o o' i n r h1 h2 hne hn hn'
    rw [show (m.step (.new name b)).topos = m.topos ++ [⟨Topo.init name b 0, []⟩] from rfl] at h1 h2
    rw [List.getElem?_append_left hk] at h1
    by_cases hi : i < m.topos.length
    · rw [List.getElem?_append_left hi] at h2
      exact hs o o' i n r h1 h2 hne hn hn'
    · rw [List.getElem?_append_right (by omega)] at h2
      have := List.mem_singleton.mp (List.mem_of_getElem? h2)
      rw [this] at hn'; cases hn'
  | unite x y =>
    rcases unite_cases m x y with h | ⟨a, b, u, ha, hb, _, _, h⟩
    · rw [show m.step (.unite x y) = m from h]; exact hs
    · rw [show m.step (.unite x y) = _ from h]
      intro o o' i n r h1 h2 hne hn hn'
      simp only at h1 h2
      rw [List.getElem?_append_left hk] at h1
      by_cases hi : i < m.topos.length
      · rw [List.getElem?_append_left hi] at h2
        exact hs o o' i n r h1 h2 hne hn hn'
      · rw [List.getElem?_append_right (by omega)] at h2
        rw [List.mem_singleton.mp (List.mem_of_getElem? h2)] at hn'
        simp only at hn'
        rw [dict_get?_append] at hn'
        have hx : x ≠ k := by rintro rfl; exact (hop y).2 rfl
        have hy : y ≠ k := by rintro rfl; exact (hop x).1 rfl
        cases hax : a.refs.get? n with
        | none => rw [hax] at hn'; exact hs o b y n r h1 hb hy hn hn'
        | some z => rw [hax] at hn'; exact hs o a x n r h1 ha hx hn (by simpa [hax] using hn')
  | act x op =>
    show Separate (m.act x op) k
    unfold TopoMem.act
    split
    · exact hs
    · rename_i o hx
      obtain ⟨refs', e1, _, _, _, e5, _⟩ := put_spec hm hx op
      intro p q i n r h1 h2 hne hn hn'
      rw [e1] at h1 h2
      by_cases hxk : x = k
      · subst hxk
        rw [List.getElem?_set_self hk] at h1
        cases h1
        rw [List.getElem?_set_ne (Ne.symm hne)] at h2
        rcases e5 n r hn with h3 | ⟨_, h3, _⟩
        · exact hs o q i n r hx h2 hne h3 hn'
        · have := hm.old q (List.mem_of_getElem? h2) n r hn'; omega
      · rw [List.getElem?_set_ne hxk] at h1
        by_cases hxi : x = i
        · subst hxi
          rw [List.getElem?_set_self (List.getElem?_eq_some_iff.mp hx).1] at h2
          cases h2
          rcases e5 n r hn' with h3 | ⟨_, h3, _⟩
          · exact hs p o x n r h1 hx hne hn h3
          · have := hm.old p (List.mem_of_getElem? h1) n r hn; omega
        · rw [List.getElem?_set_ne hxi] at h2
          exact hs p q i n r h1 h2 hne hn hn'

theorem length_step (m : TopoMem) (op : MemOp) : m.topos.length ≤ (m.step op).topos.length := by
  cases op with
  | new => simp [TopoMem.step]
  | act i op =>
    show _ ≤ (m.act i op).topos.length
    unfold TopoMem.act
    split
    · exact Nat.le_refl _
    · simp [TopoMem.put]
  | unite i j =>
    rcases unite_cases m i j with h | ⟨a, b, u, _, _, _, _, h⟩
    · rw [show m.step (.unite i j) = m from h]; exact Nat.le_refl _
    · rw [show m.step (.unite i j) = _ from h]; simp

/-- **C204**: a topology that was made anew and was never given to `union` is not changed at all by what is done with others;
only the number of the next interface goes on. -/
theorem topology_separate (before ops : List MemOp) (name : List Char) (b : Bool) (op : MemOp)
    (hk : ∀ i, MemOp.unite i (TopoMem.start.run before).topos.length ∉ ops ∧
      MemOp.unite (TopoMem.start.run before).topos.length i ∉ ops)
    (hop : ∀ x, op ≠ .act (TopoMem.start.run before).topos.length x) :
    let m := (TopoMem.start.run (before ++ [.new name b])).run ops
    ∃ t, m.topo? (TopoMem.start.run before).topos.length = some t ∧
      (m.step op).topo? (TopoMem.start.run before).topos.length = some { t with nextIf := (m.step op).nextIf } := by
  have hm0 := memOk_run memOk_start before
  generalize hmb : TopoMem.start.run before = m0 at *
  have e0 : TopoMem.start.run (before ++ [.new name b]) = m0.step (.new name b) := by
    simp [TopoMem.run, List.foldl_append] at hmb ⊢
    rw [hmb]
  simp only [e0]
  have hm1 := memOk_step hm0 (.new name b)
  have hlen : m0.topos.length < (m0.step (.new name b)).topos.length := by simp [TopoMem.step]
  have hsep : Separate (m0.step (.new name b)) m0.topos.length := by
    intro o o' i n r h1 _ _ hn
    rw [show (m0.step (.new name b)).topos = m0.topos ++ [⟨Topo.init name b 0, []⟩] from rfl] at h1
    simp at h1
    subst h1
    cases hn
  generalize m0.step (.new name b) = m1 at *
  generalize m0.topos.length = k at *
  have hall : ∀ (ops : List MemOp) (m : TopoMem), MemOk m → k < m.topos.length → Separate m k →
      (∀ i, MemOp.unite i k ∉ ops ∧ MemOp.unite k i ∉ ops) →
      MemOk (m.run ops) ∧ k < (m.run ops).topos.length ∧ Separate (m.run ops) k := by
    intro ops
    induction ops with
    | nil => intro m h1 h2 h3 _; exact ⟨h1, h2, h3⟩
    | cons x ops ih =>
      intro m h1 h2 h3 h4
      refine ih (m.step x) (memOk_step h1 x) (Nat.lt_of_lt_of_le h2 (length_step m x)) (separate_step h1 h2 h3 x ?_) ?_
      · intro i
        exact ⟨fun e => (h4 i).1 (e ▸ List.mem_cons_self), fun e => (h4 i).2 (e ▸ List.mem_cons_self)⟩
      · intro i
        exact ⟨fun e => (h4 i).1 (List.mem_cons_of_mem _ e), fun e => (h4 i).2 (List.mem_cons_of_mem _ e)⟩
  obtain ⟨hm, hl, hs⟩ := hall ops m1 hm1 hlen hsep hk
  generalize m1.run ops = m at *
  obtain ⟨o, ho⟩ : ∃ o, m.topos[k]? = some o := ⟨_, List.getElem?_eq_getElem hl⟩
  refine ⟨m.view o, by simp [TopoMem.topo?, ho], ?_⟩
  have hko := other_object m op k o ho hop
  have hheap : ∀ n r, o.refs.get? n = some r → (m.step op).heap r = m.heap r := by
    intro n r hn
    have ho' := List.mem_of_getElem? ho
    cases op with
    | new => rfl
    | unite x y =>
      rcases unite_cases m x y with h | ⟨a, b, u, _, _, _, _, h⟩
      · rw [show m.step (.unite x y) = m from h]
      · rw [show m.step (.unite x y) = _ from h]
    | act x xop =>
      show (m.act x xop).heap r = m.heap r
      unfold TopoMem.act
      split
      · rfl
      · rename_i p hp
        obtain ⟨_, _, _, _, _, _, _, _, e8⟩ := put_spec hm hp xop
        apply e8 r (hm.old o ho' n r hn)
        intro n' hn'
        have hnn := hm.one o ho' p (List.mem_of_getElem? hp) n n' r hn hn'
        subst hnn
        have : x ≠ k := by rintro rfl; exact hop xop rfl
        exact hs o p x n r ho hp this hn hn'
  simp only [TopoMem.topo?, hko, Option.map_some, Option.some.injEq]
  have : (o.refs.map fun x => (x.1, (m.step op).heap x.2)) = o.refs.map fun x => (x.1, m.heap x.2) := by
    apply List.map_congr_left
    intro x hx
    rw [hheap x.1 x.2 (Dict.get?_of_mem (hm.uniq o (List.mem_of_getElem? ho)) hx)]
  simp only [TopoMem.view, this]

/-- The negation of **C204**, for all topologies: a union and the topologies it was made from have the same node, interfaces
included, whatever is done to any of them, until the node is removed from one of the two. -/
theorem topology_shared_violated (ops later : List MemOp) (i j : Nat) (t u : Topo) (n : Name)
    (ht : (TopoMem.start.run ops).topo? i = some t) (hn : n ∈ t.nodes.keys)
    (hu : ((TopoMem.start.run ops).step (.unite i j)).topo? (TopoMem.start.run ops).topos.length = some u)
    (hl : MemOp.act i (.removeNode n) ∉ later ∧ MemOp.act (TopoMem.start.run ops).topos.length (.removeNode n) ∉ later) :
    ∃ (t' u' : Topo) (nd : TNode), (((TopoMem.start.run ops).step (.unite i j)).run later).topo? i = some t' ∧
      (((TopoMem.start.run ops).step (.unite i j)).run later).topo? (TopoMem.start.run ops).topos.length = some u' ∧
      t'.nodes.get? n = some nd ∧ u'.nodes.get? n = some nd := by
  have hm := memOk_run memOk_start ops
  generalize TopoMem.start.run ops = m at *
  simp only [TopoMem.topo?, Option.map_eq_some_iff] at ht
  obtain ⟨o, ho, rfl⟩ := ht
  rw [view_keys] at hn
  obtain ⟨r, hr⟩ := (Dict.mem_keys _ _).mp hn
  have hm' := memOk_step hm (.unite i j)
  have hstart : ∃ p q, (m.step (.unite i j)).topos[i]? = some p ∧ (m.step (.unite i j)).topos[m.topos.length]? = some q ∧
      p.refs.get? n = some r ∧ q.refs.get? n = some r := by
    rcases unite_cases m i j with h | ⟨a, b, w, ha, _, _, _, h⟩
    · rw [show m.step (.unite i j) = m from h] at hu
      simp [TopoMem.topo?] at hu
    · rw [show m.step (.unite i j) = _ from h]
      have hlt := (List.getElem?_eq_some_iff.mp ho).1
      rw [ho] at ha
      cases ha
      refine ⟨o, _, ?_, by simp; rfl, hr, ?_⟩
      · show (m.topos ++ [_])[i]? = _
        rw [List.getElem?_append_left hlt]; exact ho
      · show Dict.get? (o.refs ++ b.refs) n = some r
        rw [dict_get?_append, hr]; rfl
  have hlt : i < m.topos.length := (List.getElem?_eq_some_iff.mp ho).1
  generalize m.step (.unite i j) = m1 at *
  generalize m.topos.length = k at *
  have hstay : ∀ (m : TopoMem) (x : MemOp) (c : Nat) (p : TopoObj), MemOk m → m.topos[c]? = some p → p.refs.get? n = some r →
      x ≠ .act c (.removeNode n) → ∃ p', (m.step x).topos[c]? = some p' ∧ p'.refs.get? n = some r := by
    intro m x c p hm hp hr hx
    by_cases hc : ∃ op, x = .act c op
    · obtain ⟨op, rfl⟩ := hc
      obtain ⟨refs', e1, e2, _, _, e5, _⟩ := put_spec hm hp op
      have hs : m.step (.act c op) = m.put c p ((m.view p).step op).1 := by
        show m.act c op = _
        unfold TopoMem.act; rw [hp]
      refine ⟨_, by rw [hs, e1, List.getElem?_set_self (List.getElem?_eq_some_iff.mp hp).1], ?_⟩
      have hv : (m.view p).nodes.Uniq := by
        unfold Dict.Uniq; rw [view_keys]; exact hm.uniq p (List.mem_of_getElem? hp)
      have hmem := (topo_step_keeps (m.view p) op hv).2 n (by rw [view_keys]; exact (Dict.mem_keys _ _).mpr ⟨r, hr⟩)
        (fun e => hx (by rw [e]))
      rw [← e2] at hmem
      obtain ⟨r', hr'⟩ := (Dict.mem_keys _ _).mp hmem
      rcases e5 n r' hr' with h1 | ⟨h1, _⟩
      · rw [hr] at h1; cases h1; exact hr'
      · rw [hr] at h1; cases h1
    · exact ⟨p, other_object m x c p hp fun op e => hc ⟨op, e⟩, hr⟩
  have hall : ∀ (later : List MemOp) (m : TopoMem), MemOk m →
      (∃ p q, m.topos[i]? = some p ∧ m.topos[k]? = some q ∧ p.refs.get? n = some r ∧ q.refs.get? n = some r) →
      MemOp.act i (.removeNode n) ∉ later ∧ MemOp.act k (.removeNode n) ∉ later →
      ∃ p q, (m.run later).topos[i]? = some p ∧ (m.run later).topos[k]? = some q ∧ p.refs.get? n = some r ∧
        q.refs.get? n = some r := by
    intro later
    induction later with
    | nil => intro m _ h _; exact h
    | cons x later ih =>
      rintro m hm ⟨p, q, h1, h2, h3, h4⟩ hl
      obtain ⟨p', a1, a2⟩ := hstay m x i p hm h1 h3 (fun e => hl.1 (e ▸ List.mem_cons_self))
      obtain ⟨q', b1, b2⟩ := hstay m x k q hm h2 h4 (fun e => hl.2 (e ▸ List.mem_cons_self))
      exact ih (m.step x) (memOk_step hm x) ⟨p', q', a1, b1, a2, b2⟩
        ⟨fun h => hl.1 (List.mem_cons_of_mem _ h), fun h => hl.2 (List.mem_cons_of_mem _ h)⟩
  obtain ⟨p, q, h1, h2, h3, h4⟩ := hall later m1 hm' hstart hl
  exact ⟨_, _, _, by simp [TopoMem.topo?, h1]; rfl, by simp [TopoMem.topo?, h2]; rfl, by rw [view_get?, h3]; rfl,
    by rw [view_get?, h4]; rfl⟩

/-- Two topologies of one host each, and their union. -/
def twoAndUnion : List MemOp :=
  [.new "A".toList true, .act 0 (.add .host (some "h1".toList)), .new "B".toList true,
   .act 1 (.add .host (some "h2".toList)), .unite 0 1]

/-- The negation of **C204**: a link added to the union gives the host of the first topology an interface, though that topology
has no link; the union is made and the link is added without an exception. -/
theorem topology_shared_link_violated :
    let m := TopoMem.start.run (twoAndUnion ++ [.act 2 (.addLink "h1".toList "h2".toList (.int 1000) (.float 1 10))])
    ((TopoMem.start.run twoAndUnion).topo? 0).map (fun t => (t.nodes.map fun x => x.2.ifs.length, t.edges.length)) = some ([0], 0) ∧
    (m.topo? 0).map (fun t => (t.nodes.map fun x => x.2.ifs.length, t.edges.length)) = some ([1], 0) ∧
    (m.topo? 2).map (fun t => (t.nodes.map fun x => x.2.ifs.length, t.edges.length)) = some ([1, 1], 1) := by
  decide +kernel

/-- The hypotheses of the theorems above can be met. -/
example : ((TopoMem.start.run (twoAndUnion.take 4)).topo? 0).isSome ∧ (TopoMem.start.run (twoAndUnion.take 4)).topos.length = 2 ∧
    (((TopoMem.start.run (twoAndUnion.take 4)).step (.unite 0 1)).topo? 2).map (fun u => u.nodes.keys) =
      some ["h1".toList, "h2".toList] := by
  decide +kernel

end SY.Props
