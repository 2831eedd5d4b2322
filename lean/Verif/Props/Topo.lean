import Verif.Props.TopoNum

/-! # Properties C62, C63, C64, C65, C99: topologies -/

namespace SY.Props
open SY

/-! ## C62 -/

/-- **C62**: whatever is done with a topology, every interface is known under its own name, every link
joins existing nodes, and an interface name kept for a link end is that of an interface of this node
which no other link uses.  For ends whose names are not `capacity`, `delay` or `label` it is kept. -/
theorem topology_interfaces_partial (name : List Char) (auto : Bool) (k : Int) (ops : List TopoOp) :
    let t := (Topo.init name auto k).run ops
    (∀ n f i, t.iface? n f = some i → i.name = f) ∧
    (∀ e ∈ t.edges, t.hasNode e.a = true ∧ t.hasNode e.b = true) ∧
    (∀ e ∈ t.edges, ∀ n, n = e.a ∨ n = e.b → n ∉ reserved →
      ∃ f i, e.attrs.get? n = some (.ifname f) ∧ t.iface? n f = some i) ∧
    (∀ (x y : Nat) e e', x ≠ y → t.edges[x]? = some e → t.edges[y]? = some e' →
      ∀ n f, e.attrs.get? n = some (.ifname f) → e'.attrs.get? n ≠ some (.ifname f)) := by
  intro t
  have h : TopoOk t := topoOk_run (topoOk_init name auto k) ops
  refine ⟨?_, ?_, ?_, ?_⟩
  · intro n f i hi
    obtain ⟨nd, hg, hf⟩ := iface?_node hi
    exact ((h.nodes n nd hg).1.named f i hf).1
  · intro e he
    exact ⟨by simpa [Topo.hasNode] using (h.edges e he).endA, by simpa [Topo.hasNode] using (h.edges e he).endB⟩
  · intro e he n hn hr
    obtain ⟨f, hf⟩ := (h.edges e he).kept n hn hr
    obtain ⟨i, hi⟩ := (h.edges e he).exist n f hf
    exact ⟨f, i, hf, hi⟩
  · intro x y e e' hxy hx hy n f hf hf'
    obtain ⟨hx1, hx2⟩ := List.getElem?_eq_some_iff.mp hx
    obtain ⟨hy1, hy2⟩ := List.getElem?_eq_some_iff.mp hy
    have hp := List.pairwise_iff_getElem.mp h.apart
    rcases Nat.lt_or_gt_of_ne hxy with hlt | hlt
    · exact hp x y hx1 hy1 hlt n f (by rw [hx2, hy2]; exact ⟨hf, hf'⟩)
    · exact hp y x hy1 hx1 hlt n f (by rw [hx2, hy2]; exact ⟨hf', hf⟩)

/-- A topology: two hosts and a switch, two links. -/
def exTopoOps : List TopoOp :=
  [.add .host none, .add .host none, .add .switch none,
   .addLink "h0".toList "s0".toList (.int 10000000) (.float 1 20),
   .addLink "h1".toList "s0".toList (.text "1 Gb/s".toList) (.text "5 msec".toList)]

def exTopo : Topo := (Topo.init [] true 1).run exTopoOps

example : exTopo.edges.length = 2 ∧ exTopo.iface? "s0".toList "eth1".toList =
    some ⟨"eth1".toList, ⟨[0, 0, 0, 0, 0, 4]⟩, [], 4, .none⟩ ∧
    (exTopo.attr? "s0".toList "h1".toList "s0".toList) = some (.ifname "eth1".toList) := by decide +kernel

/-- **C62** is false for a node with one of the reserved names: the link keeps a number where the name of
the interface should be. -/
theorem topology_reserved_names_violated :
    ¬ ∀ (ops : List TopoOp) (e : Edge) (n : Name), e ∈ ((Topo.init [] true 1).run ops).edges → n = e.a ∨ n = e.b →
      ∃ f, e.attrs.get? n = some (.ifname f) := by
  intro h
  have := h [.add .host (some "delay".toList), .add .host (some "h".toList),
    .addLink "delay".toList "h".toList (.int 1000) (.float 1 2)]
    ⟨"delay".toList, "h".toList,
      [("delay".toList, .delay (some (1, 2))), ("h".toList, .ifname "eth0".toList), ("capacity".toList, .cap (some 1000)),
       ("label".toList, .label 1000 (1, 2))]⟩ "delay".toList (by decide +kernel) (.inl rfl)
  obtain ⟨f, hf⟩ := this
  have : (Dict.get? [("delay".toList, Attr.delay (some (1, 2))), ("h".toList, .ifname "eth0".toList),
    ("capacity".toList, .cap (some 1000)), ("label".toList, .label 1000 (1, 2))] "delay".toList) = some (.delay (some (1, 2))) := by
    decide +kernel
  rw [this] at hf; cases hf

/-- The operations that may drop an interface or change its MAC address. -/
def _root_.SY.TopoOp.touches (op : TopoOp) (n f : Name) : Prop :=
  match op with
  | .removeNode m => m = n
  | .setAddrs m g mac _ => m = n ∧ g = f ∧ ethArgTrue mac = true
  | _ => False

/-- **C62**: no operation other than removing the node or setting the MAC address of this very interface
changes the name or the MAC address of an interface or takes an address from it; in particular a new
interface never takes the place of another. -/
theorem topology_interfaces_kept (name : List Char) (auto : Bool) (k : Int) (ops : List TopoOp) (op : TopoOp)
    (n f : Name) (i : Iface) (hi : ((Topo.init name auto k).run ops).iface? n f = some i) (ht : ¬ op.touches n f) :
    ∃ j, (((Topo.init name auto k).run ops).step op).1.iface? n f = some j ∧
      j.name = i.name ∧ j.ethaddr = i.ethaddr ∧ ∀ x ∈ i.ips, x ∈ j.ips := by
  have h : TopoOk ((Topo.init name auto k).run ops) := topoOk_run (topoOk_init name auto k) ops
  generalize (Topo.init name auto k).run ops = t at h hi
  have same : ∀ t' : Topo, t'.iface? n f = some i → ∃ j, t'.iface? n f = some j ∧
      j.name = i.name ∧ j.ethaddr = i.ethaddr ∧ ∀ x ∈ i.ips, x ∈ j.ips :=
    fun t' ht' => ⟨i, ht', rfl, rfl, fun _ hx => hx⟩
  cases op with
  | add kd nm => exact same _ ((add_facts t kd nm).1 n f ▸ hi)
  | addLink a b c d => exact same _ (addLink_old h a b c d n f i hi)
  | removeNode m => exact same _ (by rw [Topo.step, removeNode_iface? h, if_neg (by simpa [TopoOp.touches] using ht)]; exact hi)
  | removeLink a b => exact same _ (by rw [Topo.step, sameNodes_iface? (sameNodes_removeLink t a b)]; exact hi)
  | setLink a b c d => exact same _ (by rw [Topo.step, sameNodes_iface? (sameNodes_setLink t a b c d)]; exact hi)
  | assignIPs p =>
    obtain ⟨j, hj, h1, h2, h3⟩ := (readdressed_assignIPs t p).old n f i hi
    exact ⟨j, hj, h1, h2, h3⟩
  | setAddrs m g mac p =>
    rw [Topo.step, setAddrs_iface?]
    split
    · rename_i e
      have hm : ethArgTrue mac = false := by
        simp only [TopoOp.touches, e.1, e.2, true_and, Bool.not_eq_true] at ht; exact ht
      rw [hi]
      exact ⟨_, rfl, setAddresses_name i mac p, (setAddresses_more i mac p).2 hm, (setAddresses_more i mac p).1⟩
    · exact same t hi
  | addInterface m eth ip => exact same _ (nodeAddInterface_old h m eth ip n f i hi)

example : ¬ (TopoOp.addLink "h0".toList "s0".toList (.int 1) .none).touches "h0".toList "eth0".toList := by
  simp [TopoOp.touches]

/-- The operations that give no interface a MAC address chosen by the caller. -/
def _root_.SY.TopoOp.autoMac : TopoOp → Bool
  | .setAddrs _ _ mac _ => !ethArgTrue mac
  | .addInterface _ _ _ => false
  | _ => true

theorem macOk_step {t : Topo} (ho : TopoOk t) (h : MacOk t) (op : TopoOp) (hop : op.autoMac = true) :
    MacOk (t.step op).1 := by
  cases op with
  | add kd nm =>
    obtain ⟨h1, h2, h3, -⟩ := add_facts t kd nm
    exact macOk_shrink h h2 h3 fun n f j hj => ⟨j, (h1 n f) ▸ hj, rfl⟩
  | addLink a b c d => exact macOk_addLink ho h a b c d
  | removeNode m =>
    obtain ⟨h1, h2⟩ := removeNode_counters t m
    refine macOk_shrink h h1 h2 fun n f j hj => ?_
    rw [Topo.step, removeNode_iface? ho] at hj
    split at hj
    · cases hj
    · exact ⟨j, hj, rfl⟩
  | removeLink a b =>
    have hs := sameNodes_removeLink t a b
    exact macOk_shrink h hs.2.1 hs.2.2 fun n f j hj => ⟨j, (sameNodes_iface? hs n f) ▸ hj, rfl⟩
  | setLink a b c d =>
    have hs := sameNodes_setLink t a b c d
    exact macOk_shrink h hs.2.1 hs.2.2 fun n f j hj => ⟨j, (sameNodes_iface? hs n f) ▸ hj, rfl⟩
  | assignIPs p =>
    have hr := readdressed_assignIPs t p
    refine macOk_shrink h hr.auto hr.ifnum fun n f j hj => ?_
    obtain ⟨i, hi, hm⟩ := hr.new n f j hj
    exact ⟨i, hi, hm.2.1.symm⟩
  | setAddrs m g mac p =>
    obtain ⟨h1, h2⟩ := setAddrs_counters t m g mac p
    refine macOk_shrink h h1 h2 fun n f j hj => ?_
    rw [Topo.step, setAddrs_iface?] at hj
    split at hj
    · cases hi : t.iface? n f with
      | none => rw [hi] at hj; cases hj
      | some i =>
        rw [hi] at hj
        cases hj
        refine ⟨i, rfl, ((setAddresses_more i mac p).2 ?_).symm⟩
        simpa [TopoOp.autoMac] using hop
    · exact ⟨j, hj, rfl⟩
  | addInterface m eth ip => cases hop

/-- **C62**: in a topology with automatic MAC addresses, whose interfaces all come from links, no two
interfaces have the same MAC address, whatever nodes and links were added and removed. -/
theorem topology_macs_unique (name : List Char) (k : Int) (ops : List TopoOp) (h : ∀ op ∈ ops, op.autoMac = true)
    (n f n' f' : Name) (i i' : Iface) (hi : ((Topo.init name true k).run ops).iface? n f = some i)
    (hi' : ((Topo.init name true k).run ops).iface? n' f' = some i') (he : i.ethaddr = i'.ethaddr) :
    n = n' ∧ f = f' := by
  have inv : ∀ (ops : List TopoOp) (t : Topo), TopoOk t → MacOk t → (∀ op ∈ ops, op.autoMac = true) → MacOk (t.run ops) := by
    intro ops
    induction ops with
    | nil => intro t _ hm _; exact hm
    | cons op ops ih =>
      intro t ho hm hall
      exact ih _ (topoOk_step ho op) (macOk_step ho hm op (hall op (by simp))) (fun o hmem => hall o (List.mem_cons_of_mem _ hmem))
  have h0 : MacOk (Topo.init name true k) :=
    ⟨rfl, (fun _ _ _ hi => nomatch hi), (fun _ _ _ _ _ _ hi => nomatch hi), Nat.one_pos⟩
  exact (inv ops _ (topoOk_init name true k) h0 h).inj n f i n' f' i' hi hi' he

example : ∀ op ∈ exTopoOps, op.autoMac = true := by decide

/-! ## C63 -/

/-- **C63** holds for the first of the two: it is the interface of the first node at the link. -/
theorem topology_link_interfaces_partial (name : List Char) (auto : Bool) (k : Int) (ops : List TopoOp) (a b : Name)
    (ha : a ∉ reserved) (hl : ((Topo.init name auto k).run ops).hasLink a b = true) :
    let t := (Topo.init name auto k).run ops
    ∃ f i, t.getLinkInterfaces a b = .ok (.ifname f, .ifname f) ∧ t.attr? a b a = some (.ifname f) ∧
      t.iface? a f = some i ∧ i.name = f := by
  intro t
  have h : TopoOk t := topoOk_run (topoOk_init name auto k) ops
  obtain ⟨e, he, hj⟩ := List.any_eq_true.mp hl
  cases hf : t.edges.find? fun e => e.joins a b with
  | none => exact absurd hj (by simpa using List.find?_eq_none.mp hf e he)
  | some e' =>
    have hj' : e'.joins a b = true := by simpa using List.find?_some hf
    have he' := List.mem_of_find?_eq_some hf
    have hend : a = e'.a ∨ a = e'.b := by
      simp only [Edge.joins, Bool.or_eq_true, Bool.and_eq_true, decide_eq_true_eq] at hj'
      rcases hj' with ⟨h1, -⟩ | ⟨-, h1⟩
      · exact Or.inl h1.symm
      · exact Or.inr h1.symm
    obtain ⟨f, hk⟩ := (h.edges e' he').kept a hend ha
    obtain ⟨i, hi⟩ := (h.edges e' he').exist a f hk
    obtain ⟨nd, hg, hf'⟩ := iface?_node hi
    exact ⟨f, i, by simp [Topo.getLinkInterfaces, Topo.getEdge, hf, hk], by simp [Topo.attr?, hf, hk], hi,
      ((h.nodes a nd hg).1.named f i hf').1⟩

example : exTopo.hasLink "s0".toList "h1".toList = true ∧ "s0".toList ∉ reserved := by decide +kernel

/-- **C63** is false: the interface of the first node is returned twice. -/
theorem topology_link_interfaces_violated :
    ¬ ∀ (ops : List TopoOp) (a b : Name) (x y : Attr), ((Topo.init [] true 1).run ops).getLinkInterfaces a b = .ok (x, y) →
      ((Topo.init [] true 1).run ops).attr? a b b = some y := by
  intro h
  have := h exTopoOps "s0".toList "h1".toList (.ifname "eth1".toList) (.ifname "eth1".toList) (by decide +kernel)
  exact absurd this (by decide +kernel)

/-! ## C64 -/

theorem autoNumber_some (fuel : Nat) (c : Char) (names : List Name) (k j : Nat) (h : autoNumber fuel c names k = some j) :
    k ≤ j ∧ c :: natText j ∉ names ∧ ∀ m, k ≤ m → m < j → c :: natText m ∈ names := by
  induction fuel generalizing k with
  | zero => cases h
  | succ fuel ih =>
    simp only [autoNumber] at h
    split at h
    · rename_i hm
      obtain ⟨h1, h2, h3⟩ := ih (k + 1) h
      refine ⟨by omega, h2, fun m h4 h5 => ?_⟩
      by_cases e : m = k
      · subst e; exact hm
      · exact h3 m (by omega) h5
    · cases h
      exact ⟨Nat.le_refl _, by assumption, fun m h4 h5 => by omega⟩

theorem autoNumber_none (fuel : Nat) (c : Char) (names : List Name) (k : Nat) (h : autoNumber fuel c names k = none) :
    ∀ m, k ≤ m → m < k + fuel → c :: natText m ∈ names := by
  induction fuel generalizing k with
  | zero => intro m h1 h2; omega
  | succ fuel ih =>
    intro m h1 h2
    simp only [autoNumber] at h
    split at h
    · rename_i hm
      by_cases e : m = k
      · subst e; exact hm
      · exact ih (k + 1) h m (by omega) (by omega)
    · cases h

theorem autoNumber_total (c : Char) (names : List Name) (k : Nat) : ∃ j, autoNumber (names.length + 1) c names k = some j := by
  cases h : autoNumber (names.length + 1) c names k with
  | some j => exact ⟨j, rfl⟩
  | none =>
    exfalso
    have hall := autoNumber_none _ c names k h
    have hnd : ((List.range' k (names.length + 1)).map fun m => c :: natText m).Nodup := by
      refine List.Pairwise.map _ ?_ (List.nodup_range' (s := k) (n := names.length + 1) 1)
      intro a b hab he
      exact hab (natText_inj (List.cons.inj he).2)
    have hsub : ((List.range' k (names.length + 1)).map fun m => c :: natText m) ⊆ names := by
      intro x hx
      obtain ⟨m, hm, rfl⟩ := List.mem_map.mp hx
      obtain ⟨h1, h2⟩ := List.mem_range'_1.mp hm
      exact hall m h1 h2
    have := hnd.length_le_of_subset hsub
    simp only [List.length_map, List.length_range'] at this
    omega

/-- **C64**: `addHost()`, `addSwitch()` and `addRouter()` without a name always end; the name is the
first letter of the kind with the first number, from that after the last automatic one of this kind on,
whose name is free; the new node is appended and nothing else changes. -/
theorem topology_auto_name (t : Topo) (k : NodeKind) :
    ∃ j, (t.add k none).2 = .ok (k.letter :: natText j) ∧ t.hasNode (k.letter :: natText j) = false ∧
      t.counter k ≤ j ∧ (∀ m, t.counter k ≤ m → m < j → t.hasNode (k.letter :: natText m) = true) ∧
      (t.add k none).1.counter k = j + 1 ∧ (∀ k', k' ≠ k → (t.add k none).1.counter k' = t.counter k') ∧
      (t.add k none).1.nodes = t.nodes ++ [(k.letter :: natText j, ⟨k.letter :: natText j, k, 0, []⟩)] ∧
      (t.add k none).1.edges = t.edges := by
  obtain ⟨j, hj⟩ := autoNumber_total k.letter t.nodes.keys (t.counter k)
  have hj' : autoNumber (t.nodes.length + 1) k.letter t.nodes.keys (t.counter k) = some j := by
    rw [← hj]; simp [Dict.keys]
  obtain ⟨h1, h2, h3⟩ := autoNumber_some _ _ _ _ _ hj
  have hadd : t.add k none = (t.setCounter k (j + 1)).addNode (k.letter :: natText j) k := by
    simp only [Topo.add, hj']
  obtain ⟨e1, e2, -, -⟩ := setCounter_facts t k (j + 1)
  rw [hadd, addNode_new _ _ _ (by rw [e1]; exact h2)]
  refine ⟨j, rfl, by simpa [Topo.hasNode] using h2, h1, fun m a b => by simpa [Topo.hasNode] using h3 m a b, ?_, ?_,
    by simp [e1], e2⟩
  · cases k <;> rfl
  · intro k' hk'
    cases k <;> cases k' <;> first | rfl | exact absurd rfl hk'

example : ((exTopo.add .host (some "h2".toList)).1.add .host none).2 = .ok "h3".toList := by decide +kernel

/-- **C64**: adding a node whose name exists raises an exception and changes nothing; a free name gives
a new node without interfaces and changes nothing else. -/
theorem topology_named_add (t : Topo) (k : NodeKind) (n : Name) :
    (t.hasNode n = true → t.add k (some n) = (t, .error .generic)) ∧
    (t.hasNode n = false → t.add k (some n) = ({ t with nodes := t.nodes ++ [(n, ⟨n, k, 0, []⟩)] }, .ok n)) := by
  constructor
  · intro h; exact addNode_dup t n k (by simpa [Topo.hasNode] using h)
  · intro h; exact addNode_new t n k (by simpa [Topo.hasNode] using h)

example : exTopo.hasNode "s0".toList = true ∧ exTopo.hasNode "r0".toList = false := by decide +kernel

theorem keys_erase_filter {d : Dict Name TNode} (h : d.Uniq) (n : Name) :
    (d.erase n).keys = d.keys.filter (fun m => m ≠ n) := by
  induction d with
  | nil => rfl
  | cons x d ih =>
    obtain ⟨k, v⟩ := x
    obtain ⟨h1, h2⟩ := List.nodup_cons.mp (show (k :: Dict.keys d).Nodup from h)
    by_cases e : k = n
    · subst e
      have : (Dict.keys d).filter (fun m => m ≠ k) = Dict.keys d :=
        List.filter_eq_self.mpr fun m hm => by simp; rintro rfl; exact h1 hm
      have h3 : Dict.erase ((k, v) :: d) k = d := by simp [Dict.erase]
      rw [h3, show Dict.keys ((k, v) :: d) = k :: Dict.keys d from rfl, List.filter_cons_of_neg (by simp), this]
    · have h3 : Dict.erase ((k, v) :: d) n = (k, v) :: Dict.erase d n := by simp [Dict.erase, e]
      rw [h3, show Dict.keys ((k, v) :: d) = k :: Dict.keys d from rfl, List.filter_cons_of_pos (by simpa using e),
        show Dict.keys ((k, v) :: Dict.erase d n) = k :: Dict.keys (Dict.erase d n) from rfl, ih h2]

/-- **C64**: removing a node removes exactly it and the links that end at it: the other nodes keep all
they have, in the same order, and the other links stay as they are.  For a name that is not there an
exception is raised and nothing changes. -/
theorem topology_remove_node (name : List Char) (auto : Bool) (k : Int) (ops : List TopoOp) (n : Name) :
    let t := (Topo.init name auto k).run ops
    (t.hasNode n = false → t.removeNode n = (t, some .generic)) ∧
    (t.hasNode n = true →
      (t.removeNode n).2 = none ∧
      (t.removeNode n).1.nodes.keys = t.nodes.keys.filter (fun m => m ≠ n) ∧
      (∀ m, m ≠ n → (t.removeNode n).1.nodes.get? m = t.nodes.get? m) ∧
      (∀ a b, (t.removeNode n).1.hasLink a b = (t.hasLink a b && a != n && b != n)) ∧
      (∀ a b c, a ≠ n → b ≠ n → (t.removeNode n).1.attr? a b c = t.attr? a b c)) := by
  intro t
  have h : TopoOk t := topoOk_run (topoOk_init name auto k) ops
  constructor
  · intro hn; simp [Topo.removeNode, hn]
  · intro hn
    simp only [Topo.removeNode, hn, if_true]
    refine ⟨trivial, ?_, ?_, ?_, ?_⟩
    · exact keys_erase_filter h.uniq n
    · intro m hm
      rw [Dict.get?_erase h.uniq, if_neg (Ne.symm hm)]
    · intro a b
      simp only [Topo.hasLink, List.any_filter]
      rw [Bool.eq_iff_iff]
      simp only [List.any_eq_true, Bool.and_eq_true, bne_iff_ne, Edge.joins, Bool.not_eq_true', Bool.or_eq_false_iff,
        Bool.or_eq_true, decide_eq_true_eq, decide_eq_false_iff_not]
      constructor
      · rintro ⟨e, he, ⟨h1, h2⟩, h3⟩
        refine ⟨⟨⟨e, he, h3⟩, ?_⟩, ?_⟩ <;> rcases h3 with ⟨rfl, rfl⟩ | ⟨rfl, rfl⟩ <;> assumption
      · rintro ⟨⟨⟨e, he, h3⟩, h1⟩, h2⟩
        refine ⟨e, he, ?_, h3⟩
        rcases h3 with ⟨rfl, rfl⟩ | ⟨rfl, rfl⟩
        · exact ⟨h1, h2⟩
        · exact ⟨h2, h1⟩
    · intro a b c ha hb
      simp only [Topo.attr?, List.find?_filter]
      congr 2
      funext e
      rw [Bool.eq_iff_iff]
      simp only [Bool.and_eq_true, Edge.joins, Bool.not_eq_true', Bool.or_eq_false_iff, Bool.or_eq_true,
        decide_eq_true_eq, decide_eq_false_iff_not]
      constructor
      · exact fun x => x.2
      · rintro (⟨rfl, rfl⟩ | ⟨rfl, rfl⟩)
        · exact ⟨⟨ha, hb⟩, Or.inl ⟨rfl, rfl⟩⟩
        · exact ⟨⟨hb, ha⟩, Or.inr ⟨rfl, rfl⟩⟩

example : (exTopo.removeNode "h0".toList).1.links = [("h1".toList, "s0".toList)] := by decide +kernel

theorem links_count {t : Topo} (h : TopoOk t) (a b : Name) :
    (t.links.filter fun p => p = (a, b) || p = (b, a)).length = if t.hasLink a b then 1 else 0 := by
  have hp := links_perm h (fun x y => [decide (x = a ∧ y = b ∨ x = b ∧ y = a)]) (fun x y => by
    refine List.Perm.of_eq ?_
    congr 1
    rw [decide_eq_decide]
    constructor <;> (rintro (⟨rfl, rfl⟩ | ⟨rfl, rfl⟩) <;> simp))
  have hc := hp.countP_eq id
  simp only [List.flatMap_singleton', ← List.map_eq_flatMap] at hc
  rw [List.countP_map, List.countP_map] at hc
  rw [← List.countP_eq_length_filter]
  have h1 : t.links.countP (fun p => p = (a, b) || p = (b, a)) =
      t.edges.countP fun e => decide (e.a = a ∧ e.b = b ∨ e.a = b ∧ e.b = a) := by
    refine Eq.trans (List.countP_congr fun p _ => ?_) hc
    obtain ⟨x, y⟩ := p
    simp [Prod.ext_iff]
  rw [h1]
  have h2 : ∀ (es : List Edge), es.Pairwise (fun e e' => e.joins e'.a e'.b = false) →
      es.countP (fun e => decide (e.a = a ∧ e.b = b ∨ e.a = b ∧ e.b = a)) = if es.any (fun e => e.joins a b) then 1 else 0 := by
    intro es
    induction es with
    | nil => intro _; rfl
    | cons e es ih =>
      intro hpw
      obtain ⟨hp1, hp2⟩ := List.pairwise_cons.mp hpw
      have hj : e.joins a b = decide (e.a = a ∧ e.b = b ∨ e.a = b ∧ e.b = a) := by
        simp [Edge.joins, Bool.decide_or, Bool.decide_and]
      rw [List.countP_cons, ih hp2, List.any_cons, ← hj]
      by_cases hjt : e.joins a b = true
      · have : es.any (fun e => e.joins a b) = false := by
          rw [Bool.eq_false_iff]
          intro hany
          obtain ⟨e', he', hj'⟩ := List.any_eq_true.mp hany
          have := hp1 e' he'
          simp only [Edge.joins, Bool.or_eq_true, Bool.and_eq_true, decide_eq_true_eq] at hjt hj'
          simp only [Edge.joins, Bool.or_eq_false_iff, Bool.and_eq_false_iff, decide_eq_false_iff_not] at this
          rcases hjt with ⟨r1, r2⟩ | ⟨r1, r2⟩ <;> rcases hj' with ⟨r3, r4⟩ | ⟨r3, r4⟩ <;>
            simp [r1, r2, r3, r4] at this
        rw [this, hjt]; rfl
      · rw [Bool.not_eq_true] at hjt
        rw [hjt]; simp
  exact h2 t.edges h.once

/-- **C64**: `links` lists each link exactly once, with its ends in one of the two orders, and nothing
else. -/
theorem topology_links (name : List Char) (auto : Bool) (k : Int) (ops : List TopoOp) (a b : Name) :
    let t := (Topo.init name auto k).run ops
    (t.links.filter fun p => p = (a, b) || p = (b, a)).length = if t.hasLink a b then 1 else 0 :=
  links_count (topoOk_run (topoOk_init name auto k) ops) a b

example : exTopo.links = [("h0".toList, "s0".toList), ("h1".toList, "s0".toList)] := by decide +kernel

/-! ## C65 -/

/-- The link ends at hosts and routers, a link of a node with itself counted twice. -/
def _root_.SY.Topo.hostEnds (t : Topo) : List Name :=
  (t.edges.flatMap fun e => [e.a, e.b]).filter fun n => (t.nodes.get? n).any fun nd => nd.kind ≠ .switch

/-- How many addresses a subnet offers. -/
def hostCount (plen : Nat) : Nat := if plen = 31 then 2 else 2 ^ (32 - plen) - 2

/-- An address a subnet offers: it is in the subnet, and unless there are only two, it is neither the
first nor the last. -/
def offered (a plen x : Nat) : Prop :=
  x < 2 ^ 32 ∧ x / 2 ^ (32 - plen) = a / 2 ^ (32 - plen) ∧
  (plen ≠ 31 → x % 2 ^ (32 - plen) ≠ 0 ∧ x % 2 ^ (32 - plen) ≠ 2 ^ (32 - plen) - 1)

theorem subnetOf_lt {pfx : Option (List Char)} {a plen : Nat} (h : subnetOf pfx = .ok (a, plen)) : a < 2 ^ 32 := by
  unfold subnetOf at h
  split at h
  · cases h; decide
  · split at h
    · cases h; decide
    · split at h
      · rename_i x _ _; cases h; exact x.isLt
      · cases h

theorem netBase_bound {a plen : Nat} (h : a < 2 ^ 32) (hp : plen ≤ 32) : netBase a plen + 2 ^ (32 - plen) ≤ 2 ^ 32 := by
  unfold netBase
  have h1 : 2 ^ plen * 2 ^ (32 - plen) = 2 ^ 32 := by rw [← Nat.pow_add]; congr 1; omega
  have h2 : a / 2 ^ (32 - plen) < 2 ^ plen := by
    rw [Nat.div_lt_iff_lt_mul (Nat.two_pow_pos _), h1]; exact h
  rw [← h1, ← Nat.succ_mul]
  exact Nat.mul_le_mul_right _ h2

theorem offered_of_range {a plen x : Nat} (h : a < 2 ^ 32) (hp : plen < 32) (n l : Nat) (hg : hostsOf a plen = .gen n l)
    (h1 : n ≤ x) (h2 : x ≤ l) : offered a plen x := by
  have hb := netBase_bound h (Nat.le_of_lt hp)
  have hpos : 2 ≤ 2 ^ (32 - plen) := by
    calc 2 = 2 ^ 1 := rfl
      _ ≤ 2 ^ (32 - plen) := Nat.pow_le_pow_right (by decide) (by omega)
  have hnb : netBase a plen = a / 2 ^ (32 - plen) * 2 ^ (32 - plen) := rfl
  have key : ∀ d, d < 2 ^ (32 - plen) → x = netBase a plen + d →
      x / 2 ^ (32 - plen) = a / 2 ^ (32 - plen) ∧ x % 2 ^ (32 - plen) = d := by
    intro d hd hx
    rw [hx, hnb, Nat.add_comm]
    exact ⟨by rw [Nat.add_mul_div_right _ _ (by omega), Nat.div_eq_of_lt hd, Nat.zero_add],
      by rw [Nat.add_mul_mod_self_right, Nat.mod_eq_of_lt hd]⟩
  unfold hostsOf at hg
  rw [if_neg (by omega)] at hg
  split at hg
  · rename_i h31
    cases hg
    obtain ⟨k1, -⟩ := key (x - netBase a plen) (by omega) (by omega)
    exact ⟨by omega, k1, fun h => absurd h31 h⟩
  · cases hg
    obtain ⟨k1, k2⟩ := key (x - netBase a plen) (by omega) (by omega)
    exact ⟨by omega, k1, fun _ => ⟨by omega, by omega⟩⟩

theorem hostsOf_count {a plen : Nat} (hp : plen < 32) : ∃ n l, hostsOf a plen = .gen n l ∧ l + 1 = n + hostCount plen := by
  have hpos : plen ≠ 31 → 4 ≤ 2 ^ (32 - plen) := by
    intro h
    calc 4 = 2 ^ 2 := rfl
      _ ≤ 2 ^ (32 - plen) := Nat.pow_le_pow_right (by decide) (by omega)
  unfold hostsOf hostCount
  rw [if_neg (by omega)]
  split
  · exact ⟨_, _, rfl, rfl⟩
  · rename_i h31
    have := hpos h31
    exact ⟨_, _, rfl, by omega⟩

theorem numbered_any {t : Topo} (h : TopoOk t) {n : Name} (hn : n ∈ t.nodes.keys) :
    t.numbered n = (t.nodes.get? n).any fun nd => nd.kind ≠ .switch := by
  cases hg : t.nodes.get? n with
  | none => exact absurd hn ((Dict.get?_eq_none _ _).mp hg)
  | some nd =>
    rw [Bool.eq_iff_iff, numbered_iff h.uniq hg]
    simp

theorem endsOk_ends {t : Topo} (h : TopoOk t) (hr : ∀ n, t.hasNode n = true → n ∉ reserved) : endsOk t t.numbered t.ends := by
  intro x hx _
  have hm := (ends_perm h).mem_iff.mp (List.mem_map.mpr ⟨x, hx, rfl⟩)
  obtain ⟨e, he, hm⟩ := List.mem_flatMap.mp hm
  have hok := h.edges e he
  have : ∃ n, (n = e.a ∨ n = e.b) ∧ x.2.2 = n ∧ t.attr? x.1 x.2.1 x.2.2 = e.attrs.get? n := by
    simp only [List.mem_cons, Prod.mk.injEq, List.not_mem_nil, or_false] at hm
    rcases hm with ⟨e1, e2⟩ | ⟨e1, e2⟩
    · exact ⟨e.a, Or.inl rfl, e1, e2⟩
    · exact ⟨e.b, Or.inr rfl, e1, e2⟩
  obtain ⟨n, hn, e1, e2⟩ := this
  have hmem : n ∈ t.nodes.keys := by
    rcases hn with rfl | rfl
    · exact hok.endA
    · exact hok.endB
  obtain ⟨f, hf⟩ := hok.kept n hn (hr n (by simpa [Topo.hasNode] using hmem))
  obtain ⟨i, hi⟩ := hok.exist n f hf
  exact ⟨f, i, e2.trans hf, by rw [e1]; exact hi⟩

theorem ends_count {t : Topo} (h : TopoOk t) : (t.ends.countP fun e => t.numbered e.2.2) = t.hostEnds.length := by
  have h1 := ((ends_perm h).map Prod.fst).countP_eq t.numbered
  rw [List.map_map, List.countP_map, List.map_flatMap] at h1
  rw [show (t.ends.countP fun e => t.numbered e.2.2) = _ from h1, Topo.hostEnds, ← List.countP_eq_length_filter]
  refine List.countP_congr fun n hn => ?_
  obtain ⟨e, he, hm⟩ := List.mem_flatMap.mp hn
  have hmem : n ∈ t.nodes.keys := by
    simp only [List.map_cons, List.map_nil, List.mem_cons, List.not_mem_nil, or_false] at hm
    rcases hm with rfl | rfl
    · exact (h.edges e he).endA
    · exact (h.edges e he).endB
  rw [numbered_any h hmem]

/-- **C65**: automatic numbering succeeds exactly if the subnet offers an address for every link end at
a host or router; otherwise `StopIteration` escapes. -/
theorem topology_numbering_succeeds_iff (name : List Char) (auto : Bool) (k : Int) (ops : List TopoOp)
    (hr : ∀ n, ((Topo.init name auto k).run ops).hasNode n = true → n ∉ reserved)
    (pfx : Option (List Char)) (a plen : Nat) (hs : subnetOf pfx = .ok (a, plen)) (hp : plen < 32) :
    let t := (Topo.init name auto k).run ops
    (t.assignIPs pfx).2 = if t.hostEnds.length ≤ hostCount plen then none else some .stopIteration := by
  intro t
  have h : TopoOk t := topoOk_run (topoOk_init name auto k) ops
  obtain ⟨n, l, hg, hc⟩ := hostsOf_count (a := a) hp
  simp only [Topo.assignIPs, hs, hg]
  have he := endsOk_ends h hr
  split
  · rename_i hle
    exact (numberEnds_ok t.numbered plen (Nat.le_of_lt hp) l t.ends t n he (by rw [ends_count h]; omega)).1
  · rename_i hle
    exact numberEnds_short t.numbered plen (Nat.le_of_lt hp) l t.ends t n he (by omega) (by rw [ends_count h]; omega)

example : (exTopo.assignIPs none).2 = none ∧ exTopo.hostEnds = ["h0".toList, "h1".toList] ∧
    subnetOf none = .ok (10 * 2 ^ 24, 8) := by decide +kernel

/-- **C65**: when it succeeds, there is one assignment `(node, interface, address)` for each link end at
a host or router; the addresses are pairwise distinct and offered by the subnet; the interfaces assigned
to are exactly those kept for link ends at hosts and routers, so none of a switch; each interface has
afterwards the addresses it had and those assigned to it; and if no link joins a node to itself, each
interface is assigned one address. -/
theorem topology_numbering (name : List Char) (auto : Bool) (k : Int) (ops : List TopoOp)
    (hr : ∀ n, ((Topo.init name auto k).run ops).hasNode n = true → n ∉ reserved)
    (pfx : Option (List Char)) (a plen : Nat) (hs : subnetOf pfx = .ok (a, plen)) (hp : plen < 32)
    (hok : (((Topo.init name auto k).run ops).assignIPs pfx).2 = none) :
    let t := (Topo.init name auto k).run ops
    let t' := (t.assignIPs pfx).1
    ∃ given : List (Name × Name × Nat),
      given.length = t.hostEnds.length ∧
      (given.map fun g => g.2.2).Nodup ∧
      (∀ g ∈ given, offered a plen g.2.2) ∧
      (∀ n f, (∃ x, (n, f, x) ∈ given) ↔
        ∃ e ∈ t.edges, (n = e.a ∨ n = e.b) ∧ e.attrs.get? n = some (.ifname f) ∧
          ∃ nd, t.nodes.get? n = some nd ∧ nd.kind ≠ .switch) ∧
      (∀ n f i, t.iface? n f = some i → ∃ j, t'.iface? n f = some j ∧ j.name = i.name ∧ j.ethaddr = i.ethaddr ∧
        ∀ y, y ∈ j.ips ↔ y ∈ i.ips ∨ ∃ x, (n, f, x) ∈ given ∧ y = ⟨.v4 (BitVec.ofNat 32 x), plen⟩) ∧
      ((∀ e ∈ t.edges, e.a ≠ e.b) → (given.map fun g => (g.1, g.2.1)).Nodup) := by
  intro t t'
  have h : TopoOk t := topoOk_run (topoOk_init name auto k) ops
  obtain ⟨n0, l, hg, hc⟩ := hostsOf_count (a := a) hp
  have he := endsOk_ends h hr
  have hle : t.hostEnds.length ≤ hostCount plen := by
    have := topology_numbering_succeeds_iff name auto k ops hr pfx a plen hs hp
    simp only at this
    rw [hok] at this
    split at this
    · assumption
    · cases this
  have hcnt : n0 + (t.ends.countP fun e => t.numbered e.2.2) ≤ l + 1 := by rw [ends_count h]; omega
  obtain ⟨-, hspec⟩ := numberEnds_ok t.numbered plen (Nat.le_of_lt hp) l t.ends t n0 he hcnt
  have hrun : t' = (numberEnds t.numbered plen t (.gen n0 l) t.ends).1 := by
    simp only [t', Topo.assignIPs, hs, hg]
  have haddrs := handedOut_addrs t t.numbered t.ends n0 he
  have hends := handedOut_ends t t.numbered t.ends n0 he
  -- the ends handed out, in terms of the links
  have hperm : ((handedOut t t.numbered n0 t.ends).map (fun g => (g.1, some (Attr.ifname g.2.1)))).Perm
      ((t.edges.flatMap fun e => [(e.a, e.attrs.get? e.a), (e.b, e.attrs.get? e.b)]).filter fun x => t.numbered x.1) := by
    rw [hends]
    refine List.Perm.trans (List.Perm.of_eq ?_) ((ends_perm h).filter _)
    rw [List.filter_map]; rfl
  have hend : ∀ e ∈ t.edges, ∀ n, n = e.a ∨ n = e.b → n ∈ t.nodes.keys := by
    intro e he n hn; rcases hn with rfl | rfl
    · exact (h.edges e he).endA
    · exact (h.edges e he).endB
  refine ⟨handedOut t t.numbered n0 t.ends, ?_, ?_, ?_, ?_, ?_, ?_⟩
  · have := congrArg List.length haddrs
    rw [List.length_map, List.length_range', ends_count h] at this
    exact this
  · rw [haddrs]; exact List.nodup_range' 1
  · intro g hgm
    have : g.2.2 ∈ List.range' n0 (t.ends.countP fun e => t.numbered e.2.2) := by
      rw [← haddrs]; exact List.mem_map.mpr ⟨g, hgm, rfl⟩
    obtain ⟨h1, h2⟩ := List.mem_range'_1.mp this
    exact offered_of_range (subnetOf_lt hs) hp n0 l hg h1 (by omega)
  · intro n f
    have hm := hperm.mem_iff (a := (n, some (Attr.ifname f)))
    have hl : (n, some (Attr.ifname f)) ∈ (handedOut t t.numbered n0 t.ends).map (fun g => (g.1, some (Attr.ifname g.2.1))) ↔
        ∃ x, (n, f, x) ∈ handedOut t t.numbered n0 t.ends := by
      rw [List.mem_map]
      constructor
      · rintro ⟨⟨n', f', x⟩, hx, e⟩
        simp only [Prod.mk.injEq, Option.some.injEq, Attr.ifname.injEq] at e
        obtain ⟨rfl, rfl⟩ := e
        exact ⟨x, hx⟩
      · rintro ⟨x, hx⟩; exact ⟨_, hx, rfl⟩
    rw [← hl, hm, List.mem_filter, List.mem_flatMap]
    constructor
    · rintro ⟨⟨e, he, hx⟩, hn⟩
      have : (n = e.a ∨ n = e.b) ∧ e.attrs.get? n = some (.ifname f) := by
        simp only [List.mem_cons, Prod.mk.injEq, List.not_mem_nil, or_false] at hx
        rcases hx with ⟨rfl, e2⟩ | ⟨rfl, e2⟩
        · exact ⟨Or.inl rfl, e2.symm⟩
        · exact ⟨Or.inr rfl, e2.symm⟩
      refine ⟨e, he, this.1, this.2, ?_⟩
      simp only [numbered_any h (hend e he n this.1)] at hn
      cases hg : t.nodes.get? n with
      | none => rw [hg] at hn; cases hn
      | some nd => rw [hg] at hn; exact ⟨nd, rfl, by simpa using hn⟩
    · rintro ⟨e, he, hx, hf, nd, hnd, hk⟩
      refine ⟨⟨e, he, ?_⟩, (numbered_iff h.uniq hnd).mpr hk⟩
      rcases hx with rfl | rfl
      · simp [hf]
      · simp [hf]
  · intro n f i hi
    obtain ⟨j, hj, h1, h2, -⟩ := (readdressed_assignIPs t pfx).old n f i hi
    refine ⟨j, hj, h1, h2, hspec n f i j hi (by rw [← hrun]; exact hj)⟩
  · intro hself
    have hnd : ((t.edges.flatMap fun e => [(e.a, e.attrs.get? e.a), (e.b, e.attrs.get? e.b)]).filter
        fun x => t.numbered x.1).Nodup := by
      refine List.Pairwise.filter _ (List.pairwise_flatMap.mpr ⟨?_, ?_⟩)
      · intro e he
        have := hself e he
        simp [this]
      · refine List.Pairwise.imp_of_mem ?_ h.apart
        intro e e' he he' hd x hx y hy hxy
        subst hxy
        have hx' : (x.1 = e.a ∨ x.1 = e.b) ∧ x.2 = e.attrs.get? x.1 := by
          simp only [List.mem_cons, List.not_mem_nil, or_false] at hx
          rcases hx with rfl | rfl <;> simp
        have hy' : x.2 = e'.attrs.get? x.1 := by
          simp only [List.mem_cons, List.not_mem_nil, or_false] at hy
          rcases hy with rfl | rfl <;> simp
        obtain ⟨f, hf⟩ := (h.edges e he).kept x.1 hx'.1
          (hr x.1 (by simpa [Topo.hasNode] using hend e he x.1 hx'.1))
        exact hd x.1 f ⟨hf, by rw [← hy', hx'.2]; exact hf⟩
    have h1 := (hperm.nodup_iff.mpr hnd)
    have h2 : ((handedOut t t.numbered n0 t.ends).map fun g => (g.1, some (Attr.ifname g.2.1))) =
        ((handedOut t t.numbered n0 t.ends).map fun g => (g.1, g.2.1)).map fun p => (p.1, some (Attr.ifname p.2)) := by
      rw [List.map_map]; rfl
    rw [h2] at h1
    exact List.Pairwise.imp (fun hne e => hne (by rw [e])) (List.pairwise_map.mp h1)

example : ∃ i, (exTopo.assignIPs (some "10.1.2.3/16".toList)).1.iface? "h1".toList "eth0".toList = some i ∧
    i.ips = [⟨.v4 0x0a010002, 16⟩] :=
  ⟨⟨"eth0".toList, ⟨[0, 0, 0, 0, 0, 3]⟩, [⟨.v4 0x0a010002, 16⟩], 3, .none⟩, by decide +kernel, rfl⟩

/-- **C65** does not extend to repeated use: numbering, changing the topology and numbering again gives
two interfaces the same address. -/
theorem topology_renumbering_violated :
    ¬ ∀ (ops : List TopoOp) (n f n' f' : Name) (i i' : Iface) (x : IPIface),
      ((Topo.init [] true 1).run ops).iface? n f = some i → ((Topo.init [] true 1).run ops).iface? n' f' = some i' →
      x ∈ i.ips → x ∈ i'.ips → n = n' ∧ f = f' := by
  intro h
  have := h [.add .host (some "b".toList), .add .host (some "c".toList),
      .addLink "b".toList "c".toList (.int 1) (.float 1 2), .assignIPs none,
      .add .host (some "a".toList), .addLink "b".toList "a".toList (.int 1) (.float 1 2), .assignIPs none]
    "c".toList "eth0".toList "a".toList "eth0".toList
    ⟨"eth0".toList, ⟨[0, 0, 0, 0, 0, 2]⟩, [⟨.v4 0x0a000002, 8⟩, ⟨.v4 0x0a000004, 8⟩], 2, .none⟩
    ⟨"eth0".toList, ⟨[0, 0, 0, 0, 0, 4]⟩, [⟨.v4 0x0a000002, 8⟩], 4, .none⟩
    ⟨.v4 0x0a000002, 8⟩ (by decide +kernel) (by decide +kernel) (by simp) (by simp)
  exact absurd this.1 (by decide)

/-! ## C99 -/

/-- **C99** is false: the address given to `addInterface` is not assigned to the interface. -/
theorem topology_addInterface_address_violated :
    ¬ ∀ (next : Int) (nd : TNode) (x : IPIface) (f : Name), (nd.addInterface next .none (.addr x)).2.2 = .ok f →
      ∃ i, (nd.addInterface next .none (.addr x)).2.1.ifs.get? f = some i ∧ x ∈ i.ips := by
  intro h
  obtain ⟨i, hi, hx⟩ := h 1 ⟨[], .host, 0, []⟩ ⟨.v4 0x0a000001, 8⟩ (ethName 0) (by decide +kernel)
  have : Dict.get? (TNode.addInterface 1 ⟨[], .host, 0, []⟩ .none (.addr ⟨.v4 0x0a000001, 8⟩)).2.1.ifs (ethName 0) =
      some ⟨ethName 0, ⟨[0, 0, 0, 0, 0, 0]⟩, [], 1, .none⟩ := by decide +kernel
  rw [this] at hi
  cases hi
  cases hx

/-- **C99**: what `addInterface` does do: without an integer as the IP address, a new interface with the
given MAC address and no IP address, named `eth` and the number of `addInterface` calls before;
the interfaces there were stay. -/
theorem topology_addInterface_partial (name : List Char) (auto : Bool) (k : Int) (ops : List TopoOp) (n : Name) (nd : TNode)
    (hn : ((Topo.init name auto k).run ops).nodes.get? n = some nd) (eth : EthArg) (m : EthAddr) (hm : ifaceEth eth = .ok m)
    (ip : NodeIpArg) (hip : ∀ j, ip ≠ .int j) :
    let t := (Topo.init name auto k).run ops
    (t.nodeAddInterface n eth ip).2 = none ∧
    (∃ j, (t.nodeAddInterface n eth ip).1.iface? n (ethName nd.ifnum) = some ⟨ethName nd.ifnum, m, [], j, .none⟩) ∧
    (t.iface? n (ethName nd.ifnum) = none) ∧
    (∀ n' f, (n', f) ≠ (n, ethName nd.ifnum) → (t.nodeAddInterface n eth ip).1.iface? n' f = t.iface? n' f) := by
  intro t
  have h : TopoOk t := topoOk_run (topoOk_init name auto k) ops
  have hadd : nd.addInterface t.nextIf eth ip = (t.nextIf + 1, { nd with
      ifnum := nd.ifnum + 1
      ifs := nd.ifs.set (ethName nd.ifnum) ⟨ethName nd.ifnum, m, [], t.nextIf, .none⟩ }, .ok (ethName nd.ifnum)) := by
    unfold TNode.addInterface Iface.new
    rw [hm]
    cases ip with
    | int j => exact absurd rfl (hip j)
    | _ => rfl
  have hrun : t.nodeAddInterface n eth ip = ({ t with
      nextIf := t.nextIf + 1
      nodes := t.nodes.set n { nd with ifnum := nd.ifnum + 1, ifs := nd.ifs.set (ethName nd.ifnum) ⟨ethName nd.ifnum, m, [], t.nextIf, .none⟩ } }, none) := by
    have hn' : t.nodes.get? n = some nd := hn
    simp only [Topo.nodeAddInterface, hn', hadd, resErr]
  have hif := fun n' f => iface?_set t n
      { nd with ifnum := nd.ifnum + 1, ifs := nd.ifs.set (ethName nd.ifnum) ⟨ethName nd.ifnum, m, [], t.nextIf, .none⟩ } n' f
      (t.nodeAddInterface n eth ip).1 (by rw [hrun])
  refine ⟨by rw [hrun], ⟨t.nextIf, ?_⟩, ?_, ?_⟩
  · rw [hif, if_pos rfl]; simp [Dict.get?_set]
  · simp only [Topo.iface?, show t.nodes.get? n = some nd from hn, Option.bind_some]
    exact nodeOk_fresh (h.nodes n nd hn).1
  · intro n' f hne
    rw [hif]
    split
    · rename_i e; subst e
      simp only [Dict.get?_set]
      rw [if_neg (fun e => hne (by rw [e]))]
      simp only [Topo.iface?, show t.nodes.get? n = some nd from hn, Option.bind_some]
    · rfl

example : (exTopo.nodes.get? "h0".toList).isSome = true ∧ ifaceEth .none = .ok ⟨[0, 0, 0, 0, 0, 0]⟩ := by decide +kernel

end SY.Props
