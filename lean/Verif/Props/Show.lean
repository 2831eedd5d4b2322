import Verif.Show
import Verif.Props.SimCli
import Verif.Props.TopoList
import Verif.Props.TopoNum
import Verif.Props.Extras

/-! # Properties of what the simulator shows and offers: C116 (labels), C199 and C200 -/

namespace SY.Props

variable {α : Type}

/-! ## C116: the label of a link -/

/-- The link has this capacity and this delay. -/
def LinkIs (t : Topo) (a b : Name) (c : Int) (d : Int × Nat) : Prop :=
  t.attr? a b capacityKey = some (.cap (some c)) ∧ t.attr? a b delayKey = some (.delay (some d))

theorem setLabel_label (t : Topo) (a b : Name) (hl : t.hasLink a b = true) (h : (t.setLabel a b).2 = none) :
    ∃ c d, LinkIs (t.setLabel a b).1 a b c d ∧ (t.setLabel a b).1.attr? a b labelKey = some (.label c d) := by
  unfold Topo.setLabel at h ⊢
  split at h
  · cases h
  · rename_i c hc
    split at h
    · cases h
    · rename_i d hd
      refine ⟨c, d, ⟨?_, ?_⟩, ?_⟩
      · rw [attr?_setAttr, if_neg (by rintro ⟨_, _, h⟩; exact absurd h (by decide))]
        unfold humanCap at hc
        split at hc
        · cases hc
        · rename_i n hn
          split at hc
          · cases hc; assumption
          · cases hc
        · cases hc
      · rw [attr?_setAttr, if_neg (by rintro ⟨_, _, h⟩; exact absurd h (by decide))]
        unfold humanDelay at hd
        split at hd
        · cases hd
        · cases hd; assumption
        · cases hd
        · cases hd
      · rw [attr?_setAttr, if_pos ⟨.inl ⟨rfl, rfl⟩, hl, rfl⟩]

/-- C116: after a change of the characteristics of a link that raised nothing, the link has a capacity and a delay, and the
text in its label is that of this capacity and this delay. -/
theorem topology_label (t : Topo) (a b : Name) (c : CapArg) (d : DelayArg) (h : (t.setLink a b c d).2 = none) :
    ∃ c' d', LinkIs (t.setLink a b c d).1 a b c' d' ∧ (t.setLink a b c d).1.attr? a b labelKey = some (.label c' d') := by
  unfold Topo.setLink at h ⊢
  split at h
  · rename_i hl
    rw [if_pos hl]
    split at h
    · cases h
    · rename_i cv hc
      split at h
      · cases h
      · rename_i dv hd
        exact setLabel_label _ a b (by rw [hasLink_setIfGiven, hasLink_setIfGiven]; exact hl) h
  · cases h

example : (simTopo.setLink "h1".toList "s0".toList (.text "5 Mb/s".toList) .none).2 = none ∧
    (simTopo.setLink "h1".toList "s0".toList (.text "5 Mb/s".toList) .none).1.attr? "s0".toList "h1".toList labelKey =
      some (.label 5000000 (1, 2)) := by decide +kernel

/-! ## Every link has its label -/

/-- Every link has a capacity, a delay and the label made from them. -/
def Labelled (t : Topo) : Prop :=
  ∀ a b, t.hasLink a b = true → ∃ c d, LinkIs t a b c d ∧ t.attr? a b labelKey = some (.label c d)

/-- The same for one link. -/
def EdgeLabelled (e : Edge) : Prop :=
  ∃ c d, e.attrs.get? capacityKey = some (.cap (some c)) ∧ e.attrs.get? delayKey = some (.delay (some d)) ∧
    e.attrs.get? labelKey = some (.label c d)

theorem joins_pair {e : Edge} {a b : Name} (h : e.joins a b = true) : (a = e.a ∧ b = e.b) ∨ (a = e.b ∧ b = e.a) := by
  simp only [Edge.joins, Bool.or_eq_true, Bool.and_eq_true, decide_eq_true_eq] at h
  rcases h with ⟨rfl, rfl⟩ | ⟨rfl, rfl⟩
  · exact .inl ⟨rfl, rfl⟩
  · exact .inr ⟨rfl, rfl⟩

theorem attr?_joins {t : Topo} (ho : TopoOk t) {e : Edge} (he : e ∈ t.edges) {a b : Name} (h : e.joins a b = true) (k : Name) :
    t.attr? a b k = e.attrs.get? k := by
  rcases joins_pair h with ⟨rfl, rfl⟩ | ⟨rfl, rfl⟩
  · exact attr?_edge ho he k
  · rw [attr?_symm]; exact attr?_edge ho he k

theorem labelled_iff {t : Topo} (ho : TopoOk t) : Labelled t ↔ ∀ e ∈ t.edges, EdgeLabelled e := by
  constructor
  · intro h e he
    obtain ⟨c, d, ⟨h1, h2⟩, h3⟩ := h e.a e.b (List.any_eq_true.mpr ⟨e, he, by simp [Edge.joins]⟩)
    rw [attr?_edge ho he] at h1 h2 h3
    exact ⟨c, d, h1, h2, h3⟩
  · intro h a b hl
    obtain ⟨e, he, hj⟩ := List.any_eq_true.mp hl
    obtain ⟨c, d, h1, h2, h3⟩ := h e he
    refine ⟨c, d, ⟨?_, ?_⟩, ?_⟩ <;> rw [attr?_joins ho he hj] <;> assumption

theorem setAttr_other {t : Topo} {a b k : Name} {v : Attr} {e : Edge} (he : e ∈ (t.setAttr a b k v).edges)
    (hj : e.joins a b = false) : e ∈ t.edges := by
  obtain ⟨e0, h0, rfl⟩ := List.mem_map.mp he
  split at hj
  · rename_i h
    rw [show Edge.joins { e0 with attrs := e0.attrs.set k v } a b = e0.joins a b from rfl, h] at hj; cases hj
  · rename_i h; rw [if_neg h]; exact h0

theorem setIfGiven_other {β : Type} {t : Topo} {a b k : Name} {mk : β → Attr} {v : Option β} {e : Edge}
    (he : e ∈ (t.setIfGiven a b k mk v).edges) (hj : e.joins a b = false) : e ∈ t.edges := by
  cases v with
  | none => exact he
  | some v => exact setAttr_other he hj

theorem setLabel_other {t : Topo} {a b : Name} {e : Edge} (he : e ∈ (t.setLabel a b).1.edges) (hj : e.joins a b = false) :
    e ∈ t.edges := by
  unfold Topo.setLabel at he
  split at he
  · exact he
  · split at he
    · exact he
    · exact setAttr_other he hj

theorem setLink_other {t : Topo} {a b : Name} {c : CapArg} {d : DelayArg} {e : Edge} (he : e ∈ (t.setLink a b c d).1.edges)
    (hj : e.joins a b = false) : e ∈ t.edges := by
  unfold Topo.setLink at he
  split at he
  · split at he
    · exact he
    · split at he
      · exact setIfGiven_other he hj
      · exact setIfGiven_other (setIfGiven_other (setLabel_other he hj) hj) hj
  · exact he

theorem addEdge_other {t : Topo} {a b : Name} {e : Edge} (he : e ∈ (t.addEdge a b).edges) (hj : e.joins a b = false) :
    e ∈ t.edges := by
  unfold Topo.addEdge at he
  split at he
  · exact he
  · rcases List.mem_append.mp he with h | h
    · exact h
    · rw [List.mem_singleton] at h; subst h; simp [Edge.joins] at hj

theorem addIf_edges (t : Topo) (n : Name) (m : EthArg) : (t.addIf n m).1.edges = t.edges := by
  unfold Topo.addIf
  repeat' split
  all_goals rfl

theorem connect_other {t : Topo} {a b fa fb : Name} {c : CapArg} {d : DelayArg} {e : Edge}
    (he : e ∈ (t.connect a b fa fb c d).1.edges) (hj : e.joins a b = false) : e ∈ t.edges :=
  addEdge_other (setAttr_other (setAttr_other (setLink_other he hj) hj) hj) hj

/-- A link operation that raises nothing ends with setting the characteristics of its link. -/
theorem addLink_label (t : Topo) (a b : Name) (c : CapArg) (d : DelayArg) (h : (t.addLink a b c d).2 = none) :
    (∃ c' d', LinkIs (t.addLink a b c d).1 a b c' d' ∧ (t.addLink a b c d).1.attr? a b labelKey = some (.label c' d')) ∧
    ∀ e ∈ (t.addLink a b c d).1.edges, e.joins a b = false → e ∈ t.edges := by
  unfold Topo.addLink at h ⊢
  split at h
  · rename_i hn
    rw [if_pos hn]
    split at h
    · cases h
    · rename_i t1 fa h1
      split at h
      · cases h
      · rename_i t2 fb h2
        refine ⟨topology_label _ a b c d h, ?_⟩
        intro e he hj
        have := connect_other he hj
        have e2 := addIf_edges t1 b (t.newMac 1)
        have e1 := addIf_edges t.useMacs a (t.newMac 0)
        rw [h2] at e2
        rw [h1] at e1
        simp only at e1 e2
        rw [e2, e1, useMacs_edges] at this
        exact this
  · cases h

/-- The operation adds a link or sets its characteristics. -/
def SetsLink : TopoOp → Prop
  | .addLink _ _ _ _ => True
  | .setLink _ _ _ _ => True
  | _ => False

theorem labelled_at {t t' : Topo} (ho' : TopoOk t') (h : ∀ e ∈ t.edges, EdgeLabelled e) {a b : Name}
    (hl : ∃ c d, LinkIs t' a b c d ∧ t'.attr? a b labelKey = some (.label c d))
    (hr : ∀ e ∈ t'.edges, e.joins a b = false → e ∈ t.edges) : ∀ e ∈ t'.edges, EdgeLabelled e := by
  intro e he
  cases hj : e.joins a b with
  | false => exact h e (hr e he hj)
  | true =>
    obtain ⟨c, d, ⟨h1, h2⟩, h3⟩ := hl
    rw [attr?_joins ho' he hj] at h1 h2 h3
    exact ⟨c, d, h1, h2, h3⟩

theorem labelled_step {t : Topo} (ho : TopoOk t) (h : Labelled t) (op : TopoOp) (hop : SetsLink op → (t.step op).2 = none) :
    Labelled (t.step op).1 := by
  have ho' := topoOk_step ho op
  rw [labelled_iff ho] at h
  rw [labelled_iff ho']
  cases op with
  | add k n =>
    have : (t.add k n).1.edges = t.edges := by
      unfold Topo.add
      cases n with
      | some n => exact addNode_edges t n k
      | none =>
        dsimp only
        split
        · rfl
        · rw [addNode_edges]; cases k <;> rfl
    simp only [Topo.step, this]; exact h
  | addLink a b c d =>
    have := addLink_label t a b c d (hop trivial)
    exact labelled_at ho' h this.1 this.2
  | removeNode n =>
    simp only [Topo.step, Topo.removeNode]
    split
    · intro e he; exact h e (List.mem_filter.mp he).1
    · exact h
  | removeLink a b =>
    simp only [Topo.step, Topo.removeLink]
    split
    · intro e he; exact h e (List.mem_filter.mp he).1
    · exact h
  | setLink a b c d =>
    exact labelled_at ho' h (topology_label t a b c d (hop trivial)) fun e he hj => setLink_other he hj
  | assignIPs p =>
    simp only [Topo.step, (readdressed_assignIPs t p).edges]; exact h
  | setAddrs n f m p =>
    have : (t.setAddrs n f m p).1.edges = t.edges := by
      unfold Topo.setAddrs
      split
      · rfl
      · split
        · rfl
        · unfold Topo.setIface; split <;> rfl
    simp only [Topo.step, this]; exact h
  | addInterface n m p =>
    have : (t.nodeAddInterface n m p).1.edges = t.edges := by unfold Topo.nodeAddInterface; split <;> rfl
    simp only [Topo.step, this]; exact h

/-- A history in which no operation that adds a link or sets its characteristics raises. -/
def LinksSet (t : Topo) : List TopoOp → Prop
  | [] => True
  | op :: ops => (SetsLink op → (t.step op).2 = none) ∧ LinksSet (t.step op).1 ops

/-- C116: after every history in which no call that adds a link or sets its characteristics raised, every link has a capacity, a
delay and the label made from them. -/
theorem topology_labels (name : List Char) (auto : Bool) (k : Int) (ops : List TopoOp)
    (h : LinksSet (Topo.init name auto k) ops) : Labelled ((Topo.init name auto k).run ops) := by
  have key : ∀ (ops : List TopoOp) (t : Topo), TopoOk t → Labelled t → LinksSet t ops → Labelled (t.run ops) := by
    intro ops
    induction ops with
    | nil => intro t _ h _; exact h
    | cons op ops ih => intro t ho hl hs; exact ih _ (topoOk_step ho op) (labelled_step ho hl op hs.1) hs.2
  refine key ops _ (topoOk_init name auto k) ?_ h
  intro a b hl; simp [Topo.hasLink, Topo.init] at hl

example : LinksSet (Topo.init [] true 1) simTopoOps := by
  simp only [LinksSet, simTopoOps, SetsLink]; decide +kernel

/-! ## C199: what is shown -/

/-- The line for a link with this capacity and this delay. -/
def linkText (other : Int × Nat → List Char) (u v : Name) (c : Int) (d : Int × Nat) : List Char :=
  u ++ " <-> ".toList ++ v ++ " (".toList ++ capText c ++ " ".toList ++ delayText other d ++ ")".toList

/-- These are the lines of these links, in their order, with their capacities and delays. -/
def LinkLines (other : Int × Nat → List Char) (t : Topo) (links : List (Name × Name)) (lines : List (List Char)) : Prop :=
  lines.length = links.length ∧
  ∀ (i : Nat) (l : Name × Name), links[i]? = some l → ∃ c d, LinkIs t l.1 l.2 c d ∧ lines[i]? = some (linkText other l.1 l.2 c d)

theorem showLink_ok {other : Int × Nat → List Char} {t : Topo} {l : Name × Name} {c : Int} {d : Int × Nat}
    (h : t.attr? l.1 l.2 labelKey = some (.label c d)) : showLink other t l = .ok (linkText other l.1 l.2 c d) := by
  unfold Topo.attr? at h
  unfold showLink Topo.getEdge
  cases hf : t.edges.find? fun e => e.joins l.1 l.2 with
  | none => rw [hf] at h; cases h
  | some e =>
    rw [hf] at h
    simp only [Option.bind_some] at h
    simp only [bind_ok, h]
    simp [linkText, Attr.shown]

theorem printAll_links (other : Int × Nat → List Char) (t : Topo) (hl : Labelled t) : ∀ ls : List (Name × Name),
    (∀ l ∈ ls, t.hasLink l.1 l.2 = true) →
    (printAll (ls.map (showLink other t))).2 = none ∧ LinkLines other t ls (printAll (ls.map (showLink other t))).1 := by
  intro ls
  induction ls with
  | nil => intro _; exact ⟨rfl, rfl, fun i l h => by simp at h⟩
  | cons l ls ih =>
    intro hm
    obtain ⟨h1, h2, h3⟩ := ih fun x hx => hm x (List.mem_cons_of_mem _ hx)
    obtain ⟨c, d, hi, hlab⟩ := hl l.1 l.2 (hm l List.mem_cons_self)
    simp only [List.map_cons, showLink_ok hlab, printAll]
    refine ⟨h1, by simp [h2], ?_⟩
    intro i x hx
    cases i with
    | zero =>
      simp only [List.getElem?_cons_zero, Option.some.injEq] at hx
      subst hx
      exact ⟨c, d, hi, rfl⟩
    | succ i => simpa using h3 i x (by simpa using hx)

theorem links_linked {t : Topo} {l : Name × Name} (h : l ∈ t.links) : t.hasLink l.1 l.2 = true := by
  obtain ⟨_, _, e, he, hj⟩ := mem_linksFrom h
  exact List.any_eq_true.mpr ⟨e, he, hj⟩

theorem showCmd_links (other : Int × Nat → List Char) (t : Topo) (mons : Dict (Name × Name) MonClass) (w : Name) (ws : List Name)
    (hw : w <+: "links".toList) : showCmd other t mons (w :: ws) = showLinks other t ws := by
  simp [showCmd, (pre_iff w "links").mpr hw]

/-- C199: `show links` prints one line for every link, with its ends, its capacity and its delay, if every link has its label. -/
theorem show_links_partial (other : Int × Nat → List Char) (t : Topo) (mons : Dict (Name × Name) MonClass) (w : Name)
    (hw : w <+: "links".toList) (hl : Labelled t) :
    ∃ lines, showCmd other t mons [w] = ⟨lines, false, none⟩ ∧ LinkLines other t t.links lines := by
  obtain ⟨h1, h2⟩ := printAll_links other t hl t.links fun l h => links_linked h
  refine ⟨_, ?_, h2⟩
  rw [showCmd_links other t mons w [] hw]
  simp [showLinks, CliShown.ofLines, h1]

/-- C199: `show links` with the name of a node prints one line for every neighbour of the node. -/
theorem show_links_node_partial (other : Int × Nat → List Char) (t : Topo) (mons : Dict (Name × Name) MonClass) (w n : Name)
    (ws : List Name) (hw : w <+: "links".toList) (hn : t.hasNode n = true) (hl : Labelled t) :
    ∃ lines, showCmd other t mons (w :: n :: ws) = ⟨lines, false, none⟩ ∧
      LinkLines other t ((t.neighbors n).map fun m => (n, m)) lines := by
  obtain ⟨h1, h2⟩ := printAll_links other t hl (t.edgesFrom n) fun l h => by
    obtain ⟨m, hm, rfl⟩ := List.mem_map.mp h
    exact (topology_neighbors t n m).mp hm
  refine ⟨_, ?_, h2⟩
  rw [showCmd_links other t mons w _ hw]
  simp [showLinks, CliShown.ofLines, h1, hn]

theorem simTopo_labelled : Labelled simTopo :=
  topology_labels [] true 1 simTopoOps (by simp only [LinksSet, simTopoOps, SetsLink]; decide +kernel)

example : (showCmd (fun _ => []) simTopo [] ["li".toList]).lines =
    ["h0 <-> s0 (10 Mb/s 5 msecs)".toList, "h1 <-> s0 (1 Gb/s 500 msecs)".toList] ∧
    (showCmd (fun _ => []) simTopo [] ["li".toList, "h1".toList]).lines = ["h1 <-> s0 (1 Gb/s 500 msecs)".toList] := by
  decide +kernel

/-- C199: … and each link exactly once. -/
theorem show_links_once {t : Topo} (ho : TopoOk t) (a b : Name) :
    (t.links.filter fun p => p = (a, b) || p = (b, a)).length = if t.hasLink a b then 1 else 0 := links_count ho a b

theorem printAll_error {r : List (Res (List Char))} {e : PyErr} (hm : .error e ∈ r) (ho : ∀ e', .error e' ∈ r → e' = e) :
    (printAll r).2 = some e := by
  induction r with
  | nil => cases hm
  | cons x xs ih =>
    cases x with
    | error e' => simp [printAll, ho e' List.mem_cons_self]
    | ok l =>
      simp only [printAll]
      exact ih (by simpa using hm) fun e' h => ho e' (List.mem_cons_of_mem _ h)

theorem showLink_error {other : Int × Nat → List Char} {t : Topo} {l : Name × Name} {e : PyErr} (h : showLink other t l = .error e) :
    e = .keyError := by
  unfold showLink Topo.getEdge at h
  split at h
  · simp only [bind_ok] at h
    split at h
    · cases h; rfl
    · cases h
  · cases h; rfl

/-- C199 is false: a link without a label makes `show links` end with an exception that the simulator does not catch. -/
theorem show_links_unlabelled {t : Topo} (ho : TopoOk t) (other : Int × Nat → List Char) (mons : Dict (Name × Name) MonClass)
    (w a b : Name) (hw : w <+: "links".toList) (hl : t.hasLink a b = true) (hn : t.attr? a b labelKey = none) :
    (showCmd other t mons [w]).err = some .keyError := by
  rw [showCmd_links other t mons w [] hw]
  simp only [showLinks, CliShown.ofLines]
  have hc := links_count ho a b
  rw [if_pos hl] at hc
  obtain ⟨x, hx⟩ := List.exists_mem_of_length_pos (by rw [hc]; exact Nat.one_pos)
  obtain ⟨hx1, hx2⟩ := List.mem_filter.mp hx
  have hxn : t.attr? x.1 x.2 labelKey = none := by
    simp only [Bool.or_eq_true, decide_eq_true_eq] at hx2
    rcases hx2 with rfl | rfl
    · exact hn
    · rw [attr?_symm]; exact hn
  have hxe : showLink other t x = .error .keyError := by
    unfold Topo.attr? at hxn
    unfold showLink Topo.getEdge
    split
    · rename_i e he
      rw [he] at hxn
      simp only [Option.bind_some] at hxn
      simp [bind_ok, hxn]
    · rfl
  refine printAll_error (List.mem_map.mpr ⟨x, hx1, hxe⟩) ?_
  intro e' he'
  obtain ⟨y, _, hy⟩ := List.mem_map.mp he'
  exact showLink_error hy

/-- C199: a refused `add link` leaves such a link. -/
theorem show_links_violated :
    (simCli.onecmd noEnv "add link h0 h1 capacity 10 delay x".toList).2 = .done true ∧
    ((simCli.onecmd noEnv "add link h0 h1 capacity 10 delay x".toList).1.onecmd noEnv "show links".toList).2 =
      .raised .keyError := by
  decide +kernel

/-- C199: a refused `set link` leaves the old label with the new capacity. -/
theorem show_links_stale_violated :
    (simCli.onecmd noEnv "set link h0 s0 capacity 7 delay x".toList).2 = .done true ∧
    (simCli.onecmd noEnv "set link h0 s0 capacity 7 delay x".toList).1.topo.attr? "h0".toList "s0".toList capacityKey =
      some (.cap (some 7)) ∧
    (showCmd (fun _ => []) (simCli.onecmd noEnv "set link h0 s0 capacity 7 delay x".toList).1.topo [] ["links".toList]).lines.head? =
      some "h0 <-> s0 (10 Mb/s 5 msecs)".toList := by
  decide +kernel

theorem showCmd_nodes (other : Int × Nat → List Char) (t : Topo) (mons : Dict (Name × Name) MonClass) (w : Name) (ws : List Name)
    (hw : Abbr w "nodes".toList) : showCmd other t mons (w :: ws) = showNodes t ws := by
  simp [showCmd, abbr_not_pre (c := 'n') (l := "odes".toList) hw (s := "links") (m := "inks".toList) rfl (by decide), abbr_pre hw]

theorem showCmd_monitor (other : Int × Nat → List Char) (t : Topo) (mons : Dict (Name × Name) MonClass) (w : Name) (ws : List Name)
    (hw : Abbr w "monitor".toList) : showCmd other t mons (w :: ws) = showMonitors mons ws := by
  have h : ∀ (s : String) (d : Char) (m : List Char), s.toList = d :: m → 'm' ≠ d → pre w s = false := fun s d m hs hd =>
    abbr_not_pre (c := 'm') (l := "onitor".toList) hw hs hd
  simp [showCmd, h "links" 'l' "inks".toList rfl (by decide), h "nodes" 'n' "odes".toList rfl (by decide),
    h "topology" 't' "opology".toList rfl (by decide), abbr_pre hw]

/-- C199: `show nodes` prints the names of the nodes, in the order in which they were added, in one line. -/
theorem show_nodes (other : Int × Nat → List Char) (t : Topo) (mons : Dict (Name × Name) MonClass) (w : Name)
    (hw : Abbr w "nodes".toList) (hn : ∀ n ∈ t.nodes.keys, IsWord n) :
    ∃ line, showCmd other t mons [w] = ⟨[line], false, none⟩ ∧ splitWords [] line = t.nodes.keys :=
  ⟨unwords t.nodes.keys, by rw [showCmd_nodes other t mons w [] hw]; rfl, words_unwords _ hn⟩

example : (showCmd (fun _ => []) simTopo [] ["n".toList]).lines = ["h0 h1 s0".toList] ∧
    ∀ n ∈ simTopo.nodes.keys, splitWords [] n = [n] := by decide +kernel

theorem insertKey_perm {β : Type} (x : Name × β) (l : List (Name × β)) : (insertKey x l).Perm (x :: l) := by
  induction l with
  | nil => exact .refl _
  | cons y ys ih =>
    simp only [insertKey]
    split
    · exact .refl _
    · exact (List.Perm.cons y ih).trans (List.Perm.swap x y ys)

theorem sortKeys_perm {β : Type} (l : List (Name × β)) : (sortKeys l).Perm l := by
  induction l with
  | nil => exact .refl _
  | cons x xs ih => exact (insertKey_perm x _).trans (List.Perm.cons x ih)

theorem nameLe_iff (a b : Name) : nameLe a b = true ↔ a ≤ b := by simp [nameLe]

theorem insertKey_sorted {β : Type} (x : Name × β) (l : List (Name × β)) (h : l.Pairwise fun p q => p.1 ≤ q.1) :
    (insertKey x l).Pairwise fun p q => p.1 ≤ q.1 := by
  induction l with
  | nil => simp [insertKey]
  | cons y ys ih =>
    rw [List.pairwise_cons] at h
    simp only [insertKey]
    split
    · rename_i hle
      have hxy := (nameLe_iff _ _).mp hle
      refine List.pairwise_cons.mpr ⟨?_, List.pairwise_cons.mpr h⟩
      intro z hz
      rcases List.mem_cons.mp hz with rfl | hz
      · exact hxy
      · exact List.le_trans hxy (h.1 z hz)
    · rename_i hle
      have hyx : y.1 ≤ x.1 := (List.le_total y.1 x.1).elim id fun h' => absurd ((nameLe_iff _ _).mpr h') hle
      refine List.pairwise_cons.mpr ⟨?_, ih h.2⟩
      intro z hz
      rcases List.mem_cons.mp ((insertKey_perm x ys).mem_iff.mp hz) with rfl | hz
      · exact hyx
      · exact h.1 z hz

theorem sortKeys_sorted {β : Type} (l : List (Name × β)) : (sortKeys l).Pairwise fun p q => p.1 ≤ q.1 := by
  induction l with
  | nil => exact List.Pairwise.nil
  | cons x xs ih => exact insertKey_sorted x _ ih

/-- The name of the kind of a node. -/
def kindTitle : NodeKind → String
  | .host => "Host"
  | .switch => "Switch"
  | .router => "Router"

/-- The first line about a node. -/
def nodeTitle (n : Name) (k : NodeKind) (ifs : Nat) : List Char :=
  "Node ".toList ++ n ++ " is a ".toList ++ (kindTitle k).toList ++ " and has ".toList ++ natText ifs ++
    (if ifs = 1 then " interface:" else " interfaces:").toList

theorem nodeLine_eq (n : Name) (nd : TNode) : nodeLine n nd = nodeTitle n nd.kind nd.ifs.length := by
  have h2 : (if nd.ifs.length = 1 then " interface:" else " interfaces:").toList =
      " interface".toList ++ pluralS nd.ifs.length ++ ":".toList := by
    unfold pluralS; split <;> rfl
  have h1 : nd.kind.cls = (kindTitle nd.kind).toList := by cases nd.kind <;> rfl
  unfold nodeLine nodeTitle
  rw [h2, h1]
  simp only [List.append_assoc]

/-- C199: `show nodes` with the name of a node prints its kind and the number of its interfaces, and then one line for every
interface, ordered by their names; for a name that is not there it complains. -/
theorem show_node (other : Int × Nat → List Char) (t : Topo) (mons : Dict (Name × Name) MonClass) (w n : Name) (ws : List Name)
    (hw : Abbr w "nodes".toList) :
    (∀ nd, t.nodes.get? n = some nd → ∃ ifs : List (Name × Iface), ifs.Perm nd.ifs ∧ (ifs.Pairwise fun p q => p.1 ≤ q.1) ∧
      showCmd other t mons (w :: n :: ws) =
        ⟨nodeTitle n nd.kind nd.ifs.length :: ifs.map fun x => '\t' :: x.2.text, false, none⟩) ∧
    (t.nodes.get? n = none → (showCmd other t mons (w :: n :: ws)).complaint = true ∧ (showCmd other t mons (w :: n :: ws)).err = none) := by
  rw [showCmd_nodes other t mons w _ hw]
  constructor
  · intro nd hn
    refine ⟨sortKeys nd.ifs, sortKeys_perm _, sortKeys_sorted _, ?_⟩
    simp only [showNodes, hn, nodeLine_eq]
  · intro hn
    simp [showNodes, hn, CliShown.bad]

example : (showCmd (fun _ => []) simTopo [] ["nodes".toList, "s0".toList]).lines =
    ["Node s0 is a Switch and has 2 interfaces:".toList, "\teth0 mac:00:00:00:00:00:02".toList, "\teth1 mac:00:00:00:00:00:04".toList] := by
  decide +kernel

theorem mem_insertSet (x : Name) (l : List Name) (y : Name) : y ∈ insertSet x l ↔ y = x ∨ y ∈ l := by
  induction l with
  | nil => simp [insertSet]
  | cons z zs ih =>
    simp only [insertSet]
    split
    · rename_i h; subst h; simp
    · split
      · simp
      · simp only [List.mem_cons, ih]
        constructor
        · rintro (h | h | h)
          · exact .inr (.inl h)
          · exact .inl h
          · exact .inr (.inr h)
        · rintro (h | h | h)
          · exact .inr (.inl h)
          · exact .inl h
          · exact .inr (.inr h)

theorem nameLt_of_le_ne {x y : Name} (h : x ≤ y) (hne : x ≠ y) : x < y :=
  Decidable.byContradiction fun hn => hne (List.le_antisymm h (List.not_lt.mp hn))

theorem insertSet_sorted (x : Name) (l : List Name) (h : l.Pairwise (· < ·)) : (insertSet x l).Pairwise (· < ·) := by
  induction l with
  | nil => simp [insertSet]
  | cons y ys ih =>
    have h0 := h
    rw [List.pairwise_cons] at h
    simp only [insertSet]
    split
    · exact h0
    · rename_i hne
      split
      · rename_i hle
        have hxy : x < y := nameLt_of_le_ne ((nameLe_iff _ _).mp hle) hne
        refine List.pairwise_cons.mpr ⟨?_, h0⟩
        intro z hz
        rcases List.mem_cons.mp hz with rfl | hz
        · exact hxy
        · exact List.lt_trans hxy (h.1 z hz)
      · rename_i hle
        have hyx : y < x := by
          have : y ≤ x := (List.le_total y x).elim id fun h' => absurd ((nameLe_iff _ _).mpr h') hle
          exact nameLt_of_le_ne this fun e => hne e.symm
        refine List.pairwise_cons.mpr ⟨?_, ih h.2⟩
        intro z hz
        rcases (mem_insertSet x ys z).mp hz with rfl | hz
        · exact hyx
        · exact h.1 z hz

theorem mem_sortSet (l : List Name) (y : Name) : y ∈ sortSet l ↔ y ∈ l := by
  induction l with
  | nil => simp [sortSet]
  | cons x xs ih => simp [sortSet, mem_insertSet, ih]

theorem sortSet_sorted (l : List Name) : (sortSet l).Pairwise (· < ·) := by
  induction l with
  | nil => exact List.Pairwise.nil
  | cons x xs ih => exact insertSet_sorted x _ ih

/-- C199: `show monitor` prints one line for every node with a monitored interface (if nodes are named, for these nodes only),
ordered by their names; each line has the interfaces of the node that are monitored, ordered by their names, with the
kinds of the monitors. -/
theorem show_monitors (other : Int × Nat → List Char) (t : Topo) (mons : Dict (Name × Name) MonClass) (w : Name) (ws : List Name)
    (hw : Abbr w "monitor".toList) :
    ∃ ns : List Name, ns.Pairwise (· < ·) ∧
      (∀ n, n ∈ ns ↔ (ws = [] ∨ n ∈ ws) ∧ ∃ i c, ((n, i), c) ∈ mons) ∧
      ∃ line : Name → List Char, showCmd other t mons (w :: ws) = ⟨ns.map line, false, none⟩ ∧
        ∀ n ∈ ns, ∃ ms : List (Name × MonClass), (ms.Pairwise fun p q => p.1 ≤ q.1) ∧
          ms.Perm ((mons.filter fun x => x.1.1 = n).map fun x => (x.1.2, x.2)) ∧
          line n = n ++ ": ".toList ++ unwords (ms.map fun x => x.1 ++ (" (" ++ (match x.2 with
            | .pcapMonitor => "PcapMonitor" | .interactiveMonitor => "InteractiveMonitor" | .codeMonitor => "CodeMonitor") ++ ")").toList) := by
  refine ⟨_, sortSet_sorted _, ?_, monLine mons, showCmd_monitor other t mons w ws hw, ?_⟩
  · intro n
    rw [mem_sortSet, List.mem_filter, List.mem_map, monSelected]
    constructor
    · rintro ⟨⟨x, hx, rfl⟩, hs⟩
      refine ⟨?_, x.1.2, x.2, hx⟩
      simpa using hs
    · rintro ⟨hs, i, c, hm⟩
      exact ⟨⟨_, hm, rfl⟩, by simpa using hs⟩
  · intro n _
    refine ⟨_, sortKeys_sorted _, sortKeys_perm _, ?_⟩
    unfold monLine
    refine congrArg (fun z => n ++ ": ".toList ++ unwords z) (List.map_congr_left fun x _ => ?_)
    rw [List.append_assoc, List.append_assoc]
    refine congrArg (x.1 ++ ·) ?_
    rw [String.toList_append, String.toList_append]
    cases x with
    | mk a b => cases b <;> rfl

/-- Two interfaces of `s0` and one of `h0` are watched. -/
def shownMons : Dict (Name × Name) MonClass :=
  [(("s0".toList, "eth1".toList), .pcapMonitor), (("h0".toList, "eth0".toList), .codeMonitor),
   (("s0".toList, "eth0".toList), .interactiveMonitor)]

example : (showCmd (fun _ => []) simTopo shownMons ["mon".toList]).lines =
    ["h0: eth0 (CodeMonitor)".toList, "s0: eth0 (InteractiveMonitor) eth1 (PcapMonitor)".toList] ∧
    (showCmd (fun _ => []) simTopo shownMons ["m".toList, "h0".toList, "x".toList]).lines = ["h0: eth0 (CodeMonitor)".toList] := by
  decide +kernel

/-- C199: the word `monitors` is refused, although `links` and `nodes` are the words for the others. -/
theorem show_word_violated (other : Int × Nat → List Char) (t : Topo) (mons : Dict (Name × Name) MonClass) (ws : List Name) :
    (showCmd other t mons ("monitors".toList :: ws)).complaint = true := by
  simp only [showCmd]
  rw [show pre "monitors".toList "links" = false by decide, show pre "monitors".toList "nodes" = false by decide,
    show pre "monitors".toList "topology" = false by decide, show pre "monitors".toList "monitor" = false by decide,
    if_neg (show ¬ "monitors".toList = ['?'] by decide)]
  rfl

theorem showCmd_err_other {t : Topo} (hl : Labelled t) (other : Int × Nat → List Char) (mons : Dict (Name × Name) MonClass)
    (ws : List Name) : (showCmd other t mons ws).err = none := by
  cases ws with
  | nil => rfl
  | cons w ws =>
    simp only [showCmd]
    split
    · cases ws with
      | nil =>
        exact (printAll_links other t hl t.links fun l h => links_linked h).1
      | cons n ws =>
        simp only [showLinks]
        split
        · exact (printAll_links other t hl (t.edgesFrom n) fun l h => by
            obtain ⟨m, hm, rfl⟩ := List.mem_map.mp h
            exact (topology_neighbors t n m).mp hm).1
        · rfl
    · split
      · cases ws with
        | nil => rfl
        | cons n ws => simp only [showNodes]; split <;> rfl
      · split
        · rfl
        · split
          · rfl
          · split <;> rfl

/-- C199: a line with `show`, whatever follows, changes nothing and ends the simulator only if a link has lost its label. -/
theorem show_keeps (c : Cli α) (env : CliEnv α) (line w : Name) (ws : List Name) (hl : splitWords [] line = w :: ws)
    (hw : w <+: "show".toList) (hu : ∀ c' : CliCmd, w <+: c'.word.toList → c' = .show) :
    (c.onecmd env line).1 = c ∧ (Labelled c.topo → ∃ b, (c.onecmd env line).2 = .done b) := by
  obtain ⟨arg, hcall, ha⟩ := cli_abbreviation_partial line w ws .show hl (by decide) hw hu
  simp only [Cli.onecmd, hcall, Cli.command, Cli.doShow]
  constructor
  · split <;> rfl
  · intro hl
    rw [showCmd_err_other hl]
    exact ⟨_, rfl⟩

example : splitWords [] "show links h0".toList = ["show".toList, "links".toList, "h0".toList] ∧
    (simCli.onecmd noEnv "sh links h0".toList).2 = .done false ∧ (simCli.onecmd noEnv "show links q".toList).2 = .done true := by
  decide +kernel

/-! ## C200: what is offered -/

theorem doCompletion_sub (matched unmatched : Name) (m : List (Name × List Name)) :
    ∀ o ∈ doCompletion matched unmatched m, unmatched <+: o ∧ ∃ x ∈ m, x.1 = matched ∧ o ∈ x.2 := by
  induction m with
  | nil => intro o h; cases h
  | cons x m ih =>
    intro o h
    simp only [doCompletion] at h
    split at h
    · rename_i he
      obtain ⟨h1, h2⟩ := List.mem_filter.mp h
      exact ⟨List.isPrefixOf_iff_prefix.mp h2, x, List.mem_cons_self, he.symm, h1⟩
    · obtain ⟨h1, y, hy, h2⟩ := ih o h
      exact ⟨h1, y, List.mem_cons_of_mem _ hy, h2⟩

/-- C200: every word offered begins with what has been typed. -/
theorem completion_prefix (t : Topo) (mons : Dict (Name × Name) MonClass) (matched unmatched : Name) (k : Completer) (os : List Name)
    (h : complete t mons matched unmatched k = .ok os) : ∀ o ∈ os, unmatched <+: o := by
  intro o ho
  cases k <;> simp only [complete] at h <;> first | cases h; exact (doCompletion_sub _ _ _ o ho).1 | cases h

/-- C200: after `remove node` exactly the nodes are offered whose names begin so. -/
theorem completion_remove_node (t : Topo) (mons : Dict (Name × Name) MonClass) (unmatched o : Name) :
    ∃ os, complete t mons "remove node ".toList unmatched .remove = .ok os ∧
      (o ∈ os ↔ t.hasNode o = true ∧ unmatched <+: o) := by
  refine ⟨_, rfl, ?_⟩
  rw [doCompletion, if_neg (by decide), doCompletion, if_pos rfl, List.mem_filter]
  simp [Topo.hasNode]

/-- C200: after `remove link` exactly the links are offered whose ends, in one line, begin so. -/
theorem completion_remove_link {t : Topo} (ho : TopoOk t) (mons : Dict (Name × Name) MonClass) (unmatched : Name) :
    ∃ os, complete t mons "remove link ".toList unmatched .remove = .ok os ∧
      (∀ o, o ∈ os ↔ ∃ l ∈ t.links, o = l.1 ++ ' ' :: l.2 ∧ unmatched <+: o) ∧
      ∀ a b, t.hasLink a b = true → (a, b) ∈ t.links ∨ (b, a) ∈ t.links := by
  refine ⟨_, rfl, ?_, ?_⟩
  · intro o
    rw [doCompletion, if_neg (by decide), doCompletion, if_neg (by decide), doCompletion, if_pos rfl, List.mem_filter, List.mem_map]
    constructor
    · rintro ⟨⟨l, hl, rfl⟩, hp⟩
      exact ⟨l, hl, rfl, List.isPrefixOf_iff_prefix.mp hp⟩
    · rintro ⟨l, hl, rfl, hp⟩
      exact ⟨⟨l, hl, rfl⟩, List.isPrefixOf_iff_prefix.mpr hp⟩
  · intro a b hl
    have hc := links_count ho a b
    rw [if_pos hl] at hc
    obtain ⟨x, hx⟩ := List.exists_mem_of_length_pos (by rw [hc]; exact Nat.one_pos)
    obtain ⟨hx1, hx2⟩ := List.mem_filter.mp hx
    simp only [Bool.or_eq_true, decide_eq_true_eq] at hx2
    rcases hx2 with rfl | rfl
    · exact .inl hx1
    · exact .inr hx1

/-- The words a user may type next: after `matched`, for the command. -/
inductive Offered (t : Topo) (mons : Dict (Name × Name) MonClass) : Completer → String → Name → Prop
  | unmonitorWhere (o : String) : o ∈ ["all", "any", "node"] → Offered t mons .unmonitor "unmonitor " o.toList
  | unmonitorNode (n i : Name) (c : MonClass) : ((n, i), c) ∈ mons → Offered t mons .unmonitor "unmonitor node " n
  | monitorWhere (o : String) : o ∈ ["all", "any", "node"] → Offered t mons .monitor "monitor " o.toList
  | monitorAll (o : String) : o ∈ ["debug", "dump", "code"] → Offered t mons .monitor "monitor all " o.toList
  | monitorAny (o : String) : o ∈ ["debug", "dump", "code"] → Offered t mons .monitor "monitor any " o.toList
  | monitorNode (n : Name) : t.hasNode n = true → Offered t mons .monitor "monitor node " n
  | monitorHow (n : Name) (o : String) : t.hasNode n = true → o ∈ ["debug", "dump", "code"] →
      Offered t mons .monitor ("monitor node " ++ String.ofList n ++ " ") o.toList
  | removeWhat (o : String) : o ∈ ["node", "link"] → Offered t mons .remove "remove " o.toList
  | removeNode (n : Name) : t.hasNode n = true → Offered t mons .remove "remove node " n
  | removeLink (l : Name × Name) : l ∈ t.links → Offered t mons .remove "remove link " (l.1 ++ ' ' :: l.2)
  | addWhat (o : String) : o ∈ ["host", "router", "switch", "link"] → Offered t mons .add "add " o.toList
  | setWhat (o : String) : o ∈ ["node", "link"] → Offered t mons .set "set " o.toList
  | setNode (n : Name) : t.hasNode n = true → Offered t mons .set "set node " n
  | setLink (l : Name × Name) : l ∈ t.links → Offered t mons .set "set link " l.1

theorem doCompletion_mem (matched unmatched o : Name) (m : List (Name × List Name)) (hu : ∀ x ∈ m, ∀ y ∈ m, x.1 = y.1 → x.2 = y.2) :
    o ∈ doCompletion matched unmatched m ↔ (∃ x ∈ m, x.1 = matched ∧ o ∈ x.2) ∧ unmatched <+: o := by
  constructor
  · intro h
    have := doCompletion_sub matched unmatched m o h
    exact ⟨this.2, this.1⟩
  · rintro ⟨⟨x, hx, hm, ho⟩, hp⟩
    induction m with
    | nil => cases hx
    | cons y m ih =>
      simp only [doCompletion]
      split
      · rename_i he
        have := hu x hx y List.mem_cons_self (hm.trans he)
        exact List.mem_filter.mpr ⟨this ▸ ho, List.isPrefixOf_iff_prefix.mpr hp⟩
      · rename_i he
        rcases List.mem_cons.mp hx with rfl | hx
        · exact absurd hm.symm he
        · exact ih (fun a ha b hb => hu a (List.mem_cons_of_mem _ ha) b (List.mem_cons_of_mem _ hb)) hx

/-- The texts before a word that are known for the command `monitor`. -/
theorem monitor_keys_apart (ns : List Name) : ∀ x ∈ ([("monitor ".toList, ["all".toList, "any".toList, "node".toList]),
      ("monitor all ".toList, monWays), ("monitor any ".toList, monWays), ("monitor node ".toList, ns)] ++
       ns.map fun n => ("monitor node ".toList ++ n ++ " ".toList, monWays) : List (Name × List Name)),
    ∀ y ∈ ([("monitor ".toList, ["all".toList, "any".toList, "node".toList]),
      ("monitor all ".toList, monWays), ("monitor any ".toList, monWays), ("monitor node ".toList, ns)] ++
       ns.map fun n => ("monitor node ".toList ++ n ++ " ".toList, monWays) : List (Name × List Name)), x.1 = y.1 → x.2 = y.2 := by
  have hlong : ∀ (n : Name) (s : String), s = "monitor " ∨ s = "monitor all " ∨ s = "monitor any " ∨ s = "monitor node " →
      s.toList ≠ "monitor node ".toList ++ n ++ " ".toList := by
    intro n s hs e
    have hl := congrArg List.length e
    simp only [List.length_append] at hl
    have h1 : "monitor node ".toList.length = 13 := by decide
    have h2 : " ".toList.length = 1 := by decide
    rw [h1, h2] at hl
    have : s.toList.length ≤ 13 := by rcases hs with rfl | rfl | rfl | rfl <;> decide
    omega
  intro x hx y hy
  rw [List.mem_append, List.mem_map] at hx hy
  rcases hx with hx | ⟨n, _, rfl⟩ <;> rcases hy with hy | ⟨n', _, rfl⟩
  · simp only [List.mem_cons, List.not_mem_nil, or_false] at hx hy
    rcases hx with rfl | rfl | rfl | rfl <;> rcases hy with rfl | rfl | rfl | rfl <;>
      first | exact fun _ => rfl | exact fun e => absurd e (by dsimp only; decide)
  · simp only [List.mem_cons, List.not_mem_nil, or_false] at hx
    rcases hx with rfl | rfl | rfl | rfl <;> intro e
    · exact absurd e (hlong n' _ (.inl rfl))
    · exact absurd e (hlong n' _ (.inr (.inl rfl)))
    · exact absurd e (hlong n' _ (.inr (.inr (.inl rfl))))
    · exact absurd e (hlong n' _ (.inr (.inr (.inr rfl))))
  · simp only [List.mem_cons, List.not_mem_nil, or_false] at hy
    rcases hy with rfl | rfl | rfl | rfl <;> intro e
    · exact absurd e.symm (hlong n _ (.inl rfl))
    · exact absurd e.symm (hlong n _ (.inr (.inl rfl)))
    · exact absurd e.symm (hlong n _ (.inr (.inr (.inl rfl))))
    · exact absurd e.symm (hlong n _ (.inr (.inr (.inr rfl))))
  · intro _; rfl

theorem mem_texts (ss : List String) (o : Name) : o ∈ ss.map String.toList ↔ ∃ s ∈ ss, o = s.toList := by
  rw [List.mem_map]; exact ⟨fun ⟨s, h, e⟩ => ⟨s, h, e.symm⟩, fun ⟨s, h, e⟩ => ⟨s, h, e.symm⟩⟩

theorem hasNode_iff (t : Topo) (n : Name) : n ∈ t.nodes.keys ↔ t.hasNode n = true := by simp [Topo.hasNode]

/-- C200: for all commands but `show`, what is offered is exactly the list of possible next words that begin with what has been
typed. -/
theorem completion_exact_partial (t : Topo) (mons : Dict (Name × Name) MonClass) (matched : String) (unmatched : Name) (k : Completer)
    (hk : k ≠ .show) :
    ∃ os, complete t mons matched.toList unmatched k = .ok os ∧ ∀ o, o ∈ os ↔ Offered t mons k matched o ∧ unmatched <+: o := by
  have hm : ∀ s : String, s.toList = matched.toList → s = matched := fun s h => String.toList_inj.mp h
  cases k with
  | «show» => exact absurd rfl hk
  | unmonitor =>
    refine ⟨_, rfl, fun o => ?_⟩
    rw [doCompletion_mem _ _ _ _ (by
      intro x hx y hy
      simp only [List.mem_cons, List.not_mem_nil, or_false] at hx hy
      rcases hx with rfl | rfl <;> rcases hy with rfl | rfl <;> first | exact fun _ => rfl | exact fun e => absurd e (by dsimp only; decide))]
    refine and_congr_left fun _ => ?_
    constructor
    · rintro ⟨x, hx, he, ho⟩
      simp only [List.mem_cons, List.not_mem_nil, or_false] at hx
      rcases hx with rfl | rfl
      · rw [← hm _ he]
        obtain ⟨s, hs, rfl⟩ := (mem_texts ["all", "any", "node"] o).mp ho
        exact .unmonitorWhere s hs
      · rw [← hm _ he]
        obtain ⟨y, hy, rfl⟩ := List.mem_map.mp ho
        exact .unmonitorNode _ _ _ hy
    · intro h
      cases h with
      | unmonitorWhere s hs => exact ⟨_, List.mem_cons_self, rfl, (mem_texts ["all", "any", "node"] _).mpr ⟨s, hs, rfl⟩⟩
      | unmonitorNode n i c h =>
        exact ⟨_, List.mem_cons_of_mem _ List.mem_cons_self, rfl, List.mem_map.mpr ⟨_, h, rfl⟩⟩
  | monitor =>
    refine ⟨_, rfl, fun o => ?_⟩
    rw [doCompletion_mem _ _ _ _ (monitor_keys_apart t.nodes.keys)]
    refine and_congr_left fun _ => ?_
    constructor
    · rintro ⟨x, hx, he, ho⟩
      rw [List.mem_append, List.mem_map] at hx
      rcases hx with hx | ⟨n, hn, rfl⟩
      · simp only [List.mem_cons, List.not_mem_nil, or_false] at hx
        rcases hx with rfl | rfl | rfl | rfl
        · rw [← hm _ he]
          obtain ⟨s, hs, rfl⟩ := (mem_texts ["all", "any", "node"] o).mp ho
          exact .monitorWhere s hs
        · rw [← hm _ he]
          obtain ⟨s, hs, rfl⟩ := (mem_texts ["debug", "dump", "code"] o).mp ho
          exact .monitorAll s hs
        · rw [← hm _ he]
          obtain ⟨s, hs, rfl⟩ := (mem_texts ["debug", "dump", "code"] o).mp ho
          exact .monitorAny s hs
        · rw [← hm _ he]
          exact .monitorNode o ((hasNode_iff t o).mp ho)
      · have : "monitor node " ++ String.ofList n ++ " " = matched := hm _ (by
          rw [String.toList_append, String.toList_append, String.toList_ofList (l := n)]; exact he)
        rw [← this]
        obtain ⟨s, hs, rfl⟩ := (mem_texts ["debug", "dump", "code"] o).mp ho
        exact .monitorHow n s ((hasNode_iff t n).mp hn) hs
    · intro h
      cases h with
      | monitorWhere s hs =>
        exact ⟨_, List.mem_append_left _ List.mem_cons_self, rfl, (mem_texts ["all", "any", "node"] _).mpr ⟨s, hs, rfl⟩⟩
      | monitorAll s hs =>
        exact ⟨_, List.mem_append_left _ (List.mem_cons_of_mem _ List.mem_cons_self), rfl,
          (mem_texts ["debug", "dump", "code"] _).mpr ⟨s, hs, rfl⟩⟩
      | monitorAny s hs =>
        exact ⟨_, List.mem_append_left _ (List.mem_cons_of_mem _ (List.mem_cons_of_mem _ List.mem_cons_self)), rfl,
          (mem_texts ["debug", "dump", "code"] _).mpr ⟨s, hs, rfl⟩⟩
      | monitorNode _ hn =>
        exact ⟨_, List.mem_append_left _ (List.mem_cons_of_mem _ (List.mem_cons_of_mem _ (List.mem_cons_of_mem _ List.mem_cons_self))),
          rfl, (hasNode_iff t _).mpr hn⟩
      | monitorHow n s hn hs =>
        refine ⟨_, List.mem_append_right _ (List.mem_map.mpr ⟨n, (hasNode_iff t n).mpr hn, rfl⟩), ?_,
          (mem_texts ["debug", "dump", "code"] _).mpr ⟨s, hs, rfl⟩⟩
        rw [String.toList_append, String.toList_append, String.toList_ofList (l := n)]
  | remove =>
    refine ⟨_, rfl, fun o => ?_⟩
    rw [doCompletion_mem _ _ _ _ (by
      intro x hx y hy
      simp only [List.mem_cons, List.not_mem_nil, or_false] at hx hy
      rcases hx with rfl | rfl | rfl <;> rcases hy with rfl | rfl | rfl <;>
        first | exact fun _ => rfl | exact fun e => absurd e (by dsimp only; decide))]
    refine and_congr_left fun _ => ?_
    constructor
    · rintro ⟨x, hx, he, ho⟩
      simp only [List.mem_cons, List.not_mem_nil, or_false] at hx
      rcases hx with rfl | rfl | rfl
      · rw [← hm _ he]
        obtain ⟨s, hs, rfl⟩ := (mem_texts ["node", "link"] o).mp ho
        exact .removeWhat s hs
      · rw [← hm _ he]
        exact .removeNode o ((hasNode_iff t o).mp ho)
      · rw [← hm _ he]
        obtain ⟨l, hl, rfl⟩ := List.mem_map.mp ho
        exact .removeLink l hl
    · intro h
      cases h with
      | removeWhat s hs => exact ⟨_, List.mem_cons_self, rfl, (mem_texts ["node", "link"] _).mpr ⟨s, hs, rfl⟩⟩
      | removeNode _ hn => exact ⟨_, List.mem_cons_of_mem _ List.mem_cons_self, rfl, (hasNode_iff t _).mpr hn⟩
      | removeLink l hl =>
        exact ⟨_, List.mem_cons_of_mem _ (List.mem_cons_of_mem _ List.mem_cons_self), rfl, List.mem_map.mpr ⟨l, hl, rfl⟩⟩
  | add =>
    refine ⟨_, rfl, fun o => ?_⟩
    rw [doCompletion_mem _ _ _ _ (by
      intro x hx y hy
      simp only [List.mem_cons, List.not_mem_nil, or_false] at hx hy
      subst hx hy; exact fun _ => rfl)]
    refine and_congr_left fun _ => ?_
    constructor
    · rintro ⟨x, hx, he, ho⟩
      simp only [List.mem_cons, List.not_mem_nil, or_false] at hx
      subst hx
      rw [← hm _ he]
      obtain ⟨s, hs, rfl⟩ := (mem_texts ["host", "router", "switch", "link"] o).mp ho
      exact .addWhat s hs
    · intro h
      cases h with
      | addWhat s hs => exact ⟨_, List.mem_cons_self, rfl, (mem_texts ["host", "router", "switch", "link"] _).mpr ⟨s, hs, rfl⟩⟩
  | set =>
    refine ⟨_, rfl, fun o => ?_⟩
    rw [doCompletion_mem _ _ _ _ (by
      intro x hx y hy
      simp only [List.mem_cons, List.not_mem_nil, or_false] at hx hy
      rcases hx with rfl | rfl | rfl <;> rcases hy with rfl | rfl | rfl <;>
        first | exact fun _ => rfl | exact fun e => absurd e (by dsimp only; decide))]
    refine and_congr_left fun _ => ?_
    constructor
    · rintro ⟨x, hx, he, ho⟩
      simp only [List.mem_cons, List.not_mem_nil, or_false] at hx
      rcases hx with rfl | rfl | rfl
      · rw [← hm _ he]
        obtain ⟨s, hs, rfl⟩ := (mem_texts ["node", "link"] o).mp ho
        exact .setWhat s hs
      · rw [← hm _ he]
        exact .setNode o ((hasNode_iff t o).mp ho)
      · rw [← hm _ he]
        obtain ⟨l, hl, rfl⟩ := List.mem_map.mp ho
        exact .setLink l hl
    · intro h
      cases h with
      | setWhat s hs => exact ⟨_, List.mem_cons_self, rfl, (mem_texts ["node", "link"] _).mpr ⟨s, hs, rfl⟩⟩
      | setNode _ hn => exact ⟨_, List.mem_cons_of_mem _ List.mem_cons_self, rfl, (hasNode_iff t _).mpr hn⟩
      | setLink l hl =>
        exact ⟨_, List.mem_cons_of_mem _ (List.mem_cons_of_mem _ List.mem_cons_self), rfl, List.mem_map.mpr ⟨l, hl, rfl⟩⟩

example : complete simTopo shownMons "remove node ".toList "h".toList .remove = .ok ["h0".toList, "h1".toList] ∧
    complete simTopo shownMons "remove link ".toList "h1".toList .remove = .ok ["h1 s0".toList] ∧
    complete simTopo shownMons "monitor node s0 ".toList "d".toList .monitor = .ok ["debug".toList, "dump".toList] := by decide +kernel

theorem simulable_removeNode {t : Topo} (h : Simulable t) (n : Name) : Simulable (t.step (.removeNode n)).1 := by
  simp only [Topo.step, Topo.removeNode]
  split
  · refine ⟨fun m hm => h.1 m ?_, fun e he => h.2 e (List.mem_filter.mp he).1⟩
    rw [← hasNode_iff] at hm ⊢
    exact (Dict.keys_erase_subset t.nodes n).subset hm
  · exact h

/-- C200: a completed `remove node` line removes the node. -/
theorem completion_runs (c : Cli α) (hc : Steady c) (hs : Simulable c.topo) (env : CliEnv α) (unmatched o : Name) (os : List Name)
    (h : complete c.topo c.glue.mons "remove node ".toList unmatched .remove = .ok os) (ho : o ∈ os) (hw : IsWord o) :
    ∃ g, c.onecmd env ("remove node ".toList ++ o) = (⟨(c.topo.removeNode o).1, true, g⟩, .done false) ∧
      (c.topo.removeNode o).1.hasNode o = false := by
  obtain ⟨os', h', hm⟩ := completion_remove_node c.topo c.glue.mons unmatched o
  rw [h'] at h
  cases h
  have hn := (hm.mp ho).1
  have hsplit : splitWords [] ("remove node ".toList ++ o) = ["remove".toList, "node".toList, o] := by
    have := words_unwords ["remove".toList, "node".toList, o] (by
      intro w hw'
      simp only [List.mem_cons, List.not_mem_nil, or_false] at hw'
      rcases hw' with rfl | rfl | rfl
      · exact ⟨by decide, by decide⟩
      · exact ⟨by decide, by decide⟩
      · exact hw)
    rw [← this]; rfl
  have hop : (c.topo.step (.removeNode o)).2 = none := by simp [Topo.step, Topo.removeNode, hn]
  obtain ⟨g, hg, _⟩ := cli_changes_partial c hc env _ "remove".toList ["node".toList, o] .remove (.removeNode o) hsplit (by decide)
    (by intro c' h; revert h; cases c' <;> decide) (.removeNode "node".toList o (.inl ⟨by decide, by decide⟩)) hop
    (simulable_removeNode hs o)
  refine ⟨g, hg, ?_⟩
  simp only [Topo.removeNode, hn, if_true]
  cases hh : Topo.hasNode _ o with
  | false => rfl
  | true =>
    rw [← hasNode_iff] at hh
    obtain ⟨x, hx, hxo⟩ := List.mem_map.mp hh
    have hg := Dict.get?_of_mem (Dict.uniq_erase hc.topo.uniq o) hx
    rw [hxo, Dict.get?_erase hc.topo.uniq, if_pos rfl] at hg
    cases hg

example : ∃ g, simCli.onecmd noEnv "remove node h1".toList = (⟨(simTopo.removeNode "h1".toList).1, true, g⟩, .done false) :=
  have ⟨g, h, _⟩ := completion_runs simCli simCli_steady simTopo_links noEnv "h".toList "h1".toList ["h0".toList, "h1".toList]
    (by decide +kernel) (by decide) ⟨by decide, by decide⟩
  ⟨g, h⟩

/-- C200 is false: after `show` nothing is offered; the attempt fails. -/
theorem completion_show_violated (t : Topo) (mons : Dict (Name × Name) MonClass) (matched unmatched : Name) :
    complete t mons matched unmatched .show = .error .typeError := rfl

/-- C200: after the first end of a link nothing is offered, nor after an abbreviated or doubly spaced beginning. -/
theorem completion_second_violated :
    complete simTopo [] "remove link h0 ".toList [] .remove = .ok [] ∧ complete simTopo [] "set link h0 ".toList [] .set = .ok [] ∧
    complete simTopo [] "set node h0 ".toList [] .set = .ok [] ∧ complete simTopo [] "remove n ".toList [] .remove = .ok [] ∧
    complete simTopo [] "remove  node ".toList [] .remove = .ok [] := by decide +kernel

/-- C200: only the first ends of the links are offered for `set link`. -/
theorem completion_set_link_violated :
    complete simTopo [] "set link ".toList "s".toList .set = .ok [] ∧ simTopo.hasLink "s0".toList "h0".toList = true := by decide +kernel
