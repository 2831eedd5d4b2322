import Verif.TopoLoad
import Verif.Props.TopoFile

/-! # Property C126: from the text of a saved topology back to the topology -/

namespace SY.Props
open SY

/-! ## What the values of a link become -/

/-- A value of a link after writing and reading: a label is only a text then, and a delay the number `back d` that is read from
what is written for `d`. -/
def reread (back : Int × Nat → Int × Nat) (other : Int × Nat → List Char) : Attr → Attr
  | .label c d => .ifname ((Attr.label c d).shown other)
  | .delay (some d) => .delay (some (back d))
  | a => a

/-- The topology with all values of links so. -/
def _root_.SY.Topo.reread (t : Topo) (back : Int × Nat → Int × Nat) (other : Int × Nat → List Char) : Topo :=
  { t with edges := t.edges.map fun e => { e with attrs := e.attrs.map fun x => (x.1, Props.reread back other x.2) } }

/-- Capacities are kept only as `capacity`, delays only as `delay`. -/
def TypedAttr (x : Name × Attr) : Prop :=
  (∀ c, x.2 = .cap c → x.1 = capacityKey) ∧ (∀ d, x.2 = .delay d → x.1 = delayKey)

def TypedOk (es : List Edge) : Prop := ∀ e ∈ es, ∀ x ∈ e.attrs, TypedAttr x

theorem mem_set {ν : Type} {d : Dict Name ν} {k : Name} {v : ν} {x : Name × ν} (h : x ∈ d.set k v) : x ∈ d ∨ x = (k, v) := by
  induction d with
  | nil => right; simpa [Dict.set] using h
  | cons y d ih =>
    obtain ⟨k', v'⟩ := y
    rw [Dict.set] at h
    by_cases hk : k' = k
    · rw [if_pos hk] at h
      rcases List.mem_cons.mp h with rfl | h
      · first | exact .inr rfl | (subst hk; exact .inr rfl)
      · exact .inl (List.mem_cons_of_mem _ h)
    · rw [if_neg hk] at h
      rcases List.mem_cons.mp h with rfl | h
      · exact .inl (by simp)
      · rcases ih h with h | h
        · exact .inl (List.mem_cons_of_mem _ h)
        · exact .inr h

theorem typed_ifname (k s : Name) : TypedAttr (k, .ifname s) := ⟨fun _ h => (by cases h), fun _ h => (by cases h)⟩

theorem typedOk_setAttr {t : Topo} (h : TypedOk t.edges) (a b k : Name) (v : Attr) (hk : TypedAttr (k, v)) :
    TypedOk (t.setAttr a b k v).edges := by
  intro e he
  obtain ⟨e0, h0, rfl⟩ := List.mem_map.mp he
  split
  · intro x hx
    rcases mem_set hx with hx | rfl
    · exact h e0 h0 x hx
    · exact hk
  · exact h e0 h0

theorem typedOk_addEdge {t : Topo} (h : TypedOk t.edges) (a b : Name) : TypedOk (t.addEdge a b).edges := by
  unfold Topo.addEdge
  split
  · exact h
  · intro e he
    rcases List.mem_append.mp he with he | he
    · exact h e he
    · rw [List.mem_singleton] at he; subst he
      intro x hx; cases hx

theorem typedOk_setIfGiven {α : Type} {t : Topo} (h : TypedOk t.edges) (a b k : Name) (mk : α → Attr) (v : Option α)
    (hk : ∀ v, TypedAttr (k, mk v)) : TypedOk (t.setIfGiven a b k mk v).edges := by
  cases v with
  | none => exact h
  | some v => exact typedOk_setAttr h a b k _ (hk v)

theorem typedOk_setLabel {t : Topo} (h : TypedOk t.edges) (a b : Name) : TypedOk (t.setLabel a b).1.edges := by
  unfold Topo.setLabel
  split
  · exact h
  · split
    · exact h
    · exact typedOk_setAttr h a b _ _ ⟨fun _ h => (by cases h), fun _ h => (by cases h)⟩

theorem typedOk_setLink {t : Topo} (h : TypedOk t.edges) (a b : Name) (c : CapArg) (d : DelayArg) :
    TypedOk (t.setLink a b c d).1.edges := by
  have h1 : ∀ cv, TypedOk (t.setIfGiven a b capacityKey .cap cv).edges := fun cv =>
    typedOk_setIfGiven h a b _ _ cv fun v => ⟨fun _ _ => rfl, fun _ h => (by cases h)⟩
  unfold Topo.setLink
  split
  · split
    · exact h
    · split
      · exact h1 _
      · exact typedOk_setLabel (typedOk_setIfGiven (h1 _) a b _ _ _ fun v => ⟨fun _ h => (by cases h), fun _ _ => rfl⟩) a b
  · exact h

theorem typedOk_addLink {t : Topo} (ho : TopoOk t) (h : TypedOk t.edges) (a b : Name) (c : CapArg) (d : DelayArg) :
    TypedOk (t.addLink a b c d).1.edges := by
  by_cases hn : a ∈ t.nodes.keys ∧ b ∈ t.nodes.keys
  · obtain ⟨t1, r1, h1, h'⟩ := addLink_course ho a b c d hn.1 hn.2
    rcases h' with ⟨e, -, h'⟩ | ⟨fa, t2, r2, hr1, h2, h'⟩
    · rw [h', h1.edges, useMacs_edges]; exact h
    · rcases h' with ⟨e, -, h'⟩ | ⟨fb, hr2, h'⟩
      · rw [h', h2.edges, h1.edges, useMacs_edges]; exact h
      · rw [h']
        have h2' : TypedOk t2.edges := by rw [h2.edges, h1.edges, useMacs_edges]; exact h
        exact typedOk_setLink (typedOk_setAttr (typedOk_setAttr (typedOk_addEdge h2' a b) a b a _ (typed_ifname _ _)) a b b _
          (typed_ifname _ _)) a b c d
  · rw [addLink_missing t a b c d hn]; exact h

theorem typedOk_step {t : Topo} (ho : TopoOk t) (h : TypedOk t.edges) (op : TopoOp) : TypedOk (t.step op).1.edges := by
  cases op with
  | add k n =>
    have : (t.add k n).1.edges = t.edges := by
      unfold Topo.add
      cases n with
      | some n => exact addNode_edges t n k
      | none =>
        dsimp only
        split
        · rfl
        · rw [addNode_edges]; cases k <;> rfl
    simp only [Topo.step, this]; exact h
  | addLink a b c d => exact typedOk_addLink ho h a b c d
  | removeNode n =>
    simp only [Topo.step, Topo.removeNode]
    split
    · intro e he; exact h e (List.mem_filter.mp he).1
    · exact h
  | removeLink a b =>
    simp only [Topo.step, Topo.removeLink]
    split
    · intro e he; exact h e (List.mem_filter.mp he).1
    · exact h
  | setLink a b c d => exact typedOk_setLink h a b c d
  | assignIPs p =>
    simp only [Topo.step, (readdressed_assignIPs t p).edges]; exact h
  | setAddrs n f m p =>
    have : (t.setAddrs n f m p).1.edges = t.edges := by
      unfold Topo.setAddrs
      split
      · rfl
      · split
        · rfl
        · unfold Topo.setIface; split <;> rfl
    simp only [Topo.step, this]; exact h
  | addInterface n m p =>
    have : (t.nodeAddInterface n m p).1.edges = t.edges := by unfold Topo.nodeAddInterface; split <;> rfl
    simp only [Topo.step, this]; exact h

theorem typedOk_run {t : Topo} (ho : TopoOk t) (h : TypedOk t.edges) (ops : List TopoOp) : TypedOk (t.run ops).edges := by
  induction ops generalizing t with
  | nil => exact h
  | cons op ops ih => exact ih (topoOk_step ho op) (typedOk_step ho h op)

/-! ## Reading what is written -/

theorem toDict_of (l : List (List Char × Json)) : (JFields.of l).toDict = l := by
  induction l with
  | nil => rfl
  | cons x l ih => simp only [JFields.of, JFields.toDict, ih]

theorem toList_of (l : List Json) : (JList.of l).toList = l := by
  induction l with
  | nil => rfl
  | cons x l ih => simp only [JList.of, JList.toList, ih]

theorem mapAll_map {α β γ : Type} (f : β → Res γ) (g : α → β) (h : α → γ) (l : List α) (hl : ∀ x ∈ l, f (g x) = .ok (h x)) :
    mapAll f (l.map g) = .ok (l.map h) := by
  induction l with
  | nil => rfl
  | cons x l ih =>
    rw [List.map_cons, mapAll, hl x (by simp), bind_ok, ih fun y hy => hl y (by simp [hy]), bind_ok, List.map_cons]

/-- A number, not a text or `null`. -/
def IsNumber : Json → Prop
  | .int _ => True
  | .float _ => True
  | _ => False

theorem ofJson_attr {unflt : Json → Option (Int × Nat)} {flt : Int × Nat → Json} {back : Int × Nat → Int × Nat}
    (other : Int × Nat → List Char) (hn : ∀ d, IsNumber (flt d)) (hb : ∀ d, unflt (flt d) = some (back d))
    (x : Name × Attr) (ht : TypedAttr x) :
    Attr.ofJson unflt x.1 (x.2.json flt other) = .ok (reread back other x.2) := by
  obtain ⟨k, a⟩ := x
  match a with
  | .ifname s => rfl
  | .label c d => rfl
  | .cap none =>
    have := ht.1 none rfl
    simp only at this
    simp only [Attr.json, Attr.ofJson, this, if_true, reread]
  | .cap (some n) =>
    have := ht.1 (some n) rfl
    simp only at this
    simp only [Attr.json, Attr.ofJson, this, if_true, reread]
  | .delay none =>
    have := ht.2 none rfl
    simp only at this
    have hne : delayKey ≠ capacityKey := by decide
    simp only [Attr.json, Attr.ofJson, this, if_neg hne, reread]
  | .delay (some d) =>
    have := ht.2 (some d) rfl
    simp only at this
    have hne : delayKey ≠ capacityKey := by decide
    have h1 := hn d
    have h2 := hb d
    simp only [Attr.json, reread]
    generalize flt d = j at h1 h2
    match j, h1 with
    | .int n, _ => simp only [Attr.ofJson, this, if_neg hne, h2]
    | .float s, _ => simp only [Attr.ofJson, h2]

theorem ofJson_kind (k : NodeKind) : NodeKind.ofCls k.cls = .ok k := by cases k <;> decide

theorem ofJson_node (s : SavedNode) : SavedNode.ofJson s.json = .ok s := by
  have h1 : Dict.get? [("label".toList, Json.str s.label),
      ("nodeobj".toList, Json.obj (JFields.of [("interfaces".toList, .obj (JFields.of (s.ifs.map fun x => (x.1, Json.str x.2))))])),
      ("type".toList, .str s.kind.cls), ("id".toList, .str s.id)] "nodeobj".toList =
      some (.obj (JFields.of [("interfaces".toList, .obj (JFields.of (s.ifs.map fun x => (x.1, Json.str x.2))))])) := rfl
  have h2 : ifsOfJson (.obj (JFields.of [("interfaces".toList, .obj (JFields.of (s.ifs.map fun x => (x.1, Json.str x.2))))])) =
      .ok s.ifs := by
    have h : Dict.get? [("interfaces".toList, Json.obj (JFields.of (s.ifs.map fun x => (x.1, Json.str x.2))))]
        "interfaces".toList = some (.obj (JFields.of (s.ifs.map fun x => (x.1, Json.str x.2)))) := rfl
    simp only [ifsOfJson, toDict_of, h]
    have h' := mapAll_map (fun x : List Char × Json => x.2.getStr >>= fun s => .ok (x.1, s))
      (fun x : List Char × List Char => (x.1, Json.str x.2)) id s.ifs fun x _ => rfl
    rw [List.map_id] at h'
    exact h'
  have h3 : ∀ (a b c d : Json), Dict.get? [("label".toList, a), ("nodeobj".toList, b), ("type".toList, c), ("id".toList, d)]
      "type".toList = some c := fun _ _ _ _ => rfl
  have h4 : ∀ (a b c d : Json), Dict.get? [("label".toList, a), ("nodeobj".toList, b), ("type".toList, c), ("id".toList, d)]
      "id".toList = some d := fun _ _ _ _ => rfl
  have h5 : ∀ (a b c d : Json), Dict.get? [("label".toList, a), ("nodeobj".toList, b), ("type".toList, c), ("id".toList, d)]
      "label".toList = some a := fun _ _ _ _ => rfl
  simp only [SavedNode.json, SavedNode.ofJson, toDict_of, h1, h3, h4, h5, ofJson_kind, h2, bind_ok]

/-- The saved form with all values of links as they are read. -/
def _root_.SY.Saved.reread (s : Saved) (back : Int × Nat → Int × Nat) (other : Int × Nat → List Char) : Saved :=
  { s with links := s.links.map fun d => d.map fun x => (x.1, Props.reread back other x.2) }

theorem ofJson_saved {unflt : Json → Option (Int × Nat)} {flt : Int × Nat → Json} {back : Int × Nat → Int × Nat}
    (other : Int × Nat → List Char) (hn : ∀ d, IsNumber (flt d)) (hb : ∀ d, unflt (flt d) = some (back d))
    (s : Saved) (ht : ∀ d ∈ s.links, ∀ x ∈ d, TypedAttr x) :
    Saved.ofJson unflt (s.json flt other) = .ok (s.reread back other) := by
  have h1 : ∀ (a b c d e : Json), Dict.get? [("directed".toList, a), ("multigraph".toList, b), ("graph".toList, c),
      ("nodes".toList, d), ("links".toList, e)] "graph".toList = some c := fun _ _ _ _ _ => rfl
  have h2 : ∀ (a b c d e : Json), Dict.get? [("directed".toList, a), ("multigraph".toList, b), ("graph".toList, c),
      ("nodes".toList, d), ("links".toList, e)] "nodes".toList = some d := fun _ _ _ _ _ => rfl
  have h3 : ∀ (a b c d e : Json), Dict.get? [("directed".toList, a), ("multigraph".toList, b), ("graph".toList, c),
      ("nodes".toList, d), ("links".toList, e)] "links".toList = some e := fun _ _ _ _ _ => rfl
  have h4 : nameOfJson (some (.obj (JFields.of [("name".toList, .str s.name)]))) = .ok s.name := rfl
  have h5 : mapAll (linkOfJson unflt) (s.links.map fun d => Json.obj (JFields.of (d.map fun x => (x.1, x.2.json flt other)))) =
      .ok (s.links.map fun d => d.map fun x => (x.1, reread back other x.2)) := by
    apply mapAll_map
    intro d hd
    simp only [linkOfJson, toDict_of]
    apply mapAll_map
    intro x hx
    simp only [ofJson_attr other hn hb x (ht d hd x hx), bind_ok]
  have h6 : mapAll SavedNode.ofJson (s.nodes.map SavedNode.json) = .ok (s.nodes.map id) :=
    mapAll_map _ _ id _ fun x _ => ofJson_node x
  rw [List.map_id] at h6
  simp only [Saved.json, Saved.ofJson, toDict_of, h1, h2, h3, h4, toList_of, h5, h6, bind_ok, Saved.reread]

/-! ## Restoring -/

section
variable (back : Int × Nat → Int × Nat) (other : Int × Nat → List Char)

def rereadD (d : Dict Name Attr) : Dict Name Attr := d.map fun x => (x.1, reread back other x.2)

def rereadE (e : Edge) : Edge := { e with attrs := rereadD back other e.attrs }

theorem get?_rereadD (d : Dict Name Attr) (k : Name) : (rereadD back other d).get? k = (d.get? k).map (reread back other) := by
  induction d with
  | nil => rfl
  | cons x d ih =>
    obtain ⟨k', v⟩ := x
    rw [show rereadD back other ((k', v) :: d) = (k', reread back other v) :: rereadD back other d from rfl,
      Dict.get?_cons, Dict.get?_cons, ih]
    split <;> rfl

theorem set_rereadD (d : Dict Name Attr) (k : Name) (v : Attr) :
    rereadD back other (d.set k v) = (rereadD back other d).set k (reread back other v) := by
  induction d with
  | nil => rfl
  | cons x d ih =>
    obtain ⟨k', v'⟩ := x
    rw [show rereadD back other ((k', v') :: d) = (k', reread back other v') :: rereadD back other d from rfl, Dict.set, Dict.set]
    split
    · rfl
    · rw [← ih]; rfl

theorem filter_rereadD (d : Dict Name Attr) (p : Name → Bool) :
    (rereadD back other d).filter (fun x => p x.1) = rereadD back other (d.filter fun x => p x.1) := by
  induction d with
  | nil => rfl
  | cons x d ih =>
    rw [show rereadD back other (x :: d) = (x.1, reread back other x.2) :: rereadD back other d from rfl, List.filter_cons,
      List.filter_cons, ih]
    dsimp only
    split <;> rfl

theorem any_rereadD (d : Dict Name Attr) (p : Name → Bool) : (rereadD back other d).any (fun x => p x.1) = d.any fun x => p x.1 := by
  simp [rereadD, List.any_map, Function.comp_def]

theorem foldl_rereadD (l d : Dict Name Attr) :
    (rereadD back other l).foldl (fun d x => d.set x.1 x.2) (rereadD back other d) =
      rereadD back other (l.foldl (fun d x => d.set x.1 x.2) d) := by
  induction l generalizing d with
  | nil => rfl
  | cons x l ih =>
    rw [show rereadD back other (x :: l) = (x.1, reread back other x.2) :: rereadD back other l from rfl, List.foldl_cons,
      List.foldl_cons, ← set_rereadD, ih]

theorem addEdgeWith_reread (es : List Edge) (a b : Name) (d : Dict Name Attr) :
    addEdgeWith (es.map (rereadE back other)) a b (rereadD back other d) = (addEdgeWith es a b d).map (rereadE back other) := by
  have h : ((es.map (rereadE back other)).any fun e => e.joins a b) = es.any fun e => e.joins a b := by
    rw [List.any_map]; rfl
  unfold addEdgeWith
  rw [h]
  split
  · rw [List.map_map, List.map_map]
    apply List.map_congr_left
    intro e _
    simp only [Function.comp_apply]
    have hj : (rereadE back other e).joins a b = e.joins a b := rfl
    rw [hj]
    split
    · simp only [rereadE, foldl_rereadD]
    · rfl
  · rw [List.map_append]; rfl

theorem readLinks_reread (ds : List (Dict Name Attr)) : ∀ (es r : List Edge), readLinks es ds = .ok r →
    readLinks (es.map (rereadE back other)) (ds.map (rereadD back other)) = .ok (r.map (rereadE back other)) := by
  induction ds with
  | nil => intro es r h; cases h; rfl
  | cons d ds ih =>
    intro es r h
    rw [readLinks] at h
    split at h
    · rename_i a b ha hb
      by_cases hp : ((d.filter fun x => x.1 ≠ sourceKey && x.1 ≠ targetKey).any fun x => decide (x.1 ∈ addEdgeParams)) = true
      · rw [if_pos hp] at h; cases h
      · rw [if_neg hp] at h
        have h1 := filter_rereadD back other d fun k => k ≠ sourceKey && k ≠ targetKey
        have h2 := any_rereadD back other (d.filter fun x => x.1 ≠ sourceKey && x.1 ≠ targetKey) fun k => decide (k ∈ addEdgeParams)
        rw [List.map_cons, readLinks, get?_rereadD, get?_rereadD, ha, hb]
        simp only [Option.map_some, reread]
        rw [h1, h2, if_neg hp, addEdgeWith_reread]
        exact ih _ _ h
    · cases h

theorem restore_reread {s : Saved} {next : Int} {t : Topo} (h : s.restore next = .ok t) :
    (s.reread back other).restore next = .ok (t.reread back other) := by
  unfold Saved.restore at h
  obtain ⟨es, h1, h⟩ := bind_eq_ok.mp h
  obtain ⟨x, h2, h⟩ := bind_eq_ok.mp h
  cases h
  have h3 := readLinks_reread back other s.links [] es h1
  have h4 : (s.reread back other).links = s.links.map (rereadD back other) := rfl
  unfold Saved.restore
  rw [h4, show ([] : List Edge) = [].map (rereadE back other) from rfl, h3, bind_ok]
  rw [show (s.reread back other).nodes = s.nodes from rfl, h2, bind_ok]
  congr 1
  unfold Topo.ofGraph
  split
  · rfl
  · rfl

theorem linksFrom_reread (es : List Edge) (seen ns : List Name) :
    linksFrom (es.map (rereadE back other)) seen ns = linksFrom es seen ns := by
  induction ns generalizing seen with
  | nil => rfl
  | cons n ns ih => rw [linksFrom, linksFrom, ih, List.filterMap_map]; rfl

theorem edges_reread (t : Topo) : (t.reread back other).edges = t.edges.map (rereadE back other) := rfl

theorem links_reread (t : Topo) : (t.reread back other).links = t.links := by
  unfold Topo.links
  rw [edges_reread, linksFrom_reread]; rfl

theorem hasLink_reread (t : Topo) (a b : Name) : (t.reread back other).hasLink a b = t.hasLink a b := by
  unfold Topo.hasLink
  rw [edges_reread, List.any_map]; rfl

theorem getEdge_reread (t : Topo) (a b : Name) :
    (t.reread back other).getEdge a b = (rereadD back other) <$> t.getEdge a b := by
  unfold Topo.getEdge
  rw [edges_reread, List.find?_map]
  have : (fun e : Edge => e.joins a b) ∘ rereadE back other = fun e => e.joins a b := rfl
  rw [this]
  cases t.edges.find? fun e => e.joins a b <;> rfl

theorem sameNetwork_reread {t t' : Topo} (h : SameNetwork t t') : SameNetwork (t.reread back other) (t'.reread back other) where
  name := h.name
  nodes := h.nodes
  kinds := h.kinds
  labels := h.labels
  ifnames := h.ifnames
  addrs := h.addrs
  links := by rw [links_reread, links_reread, h.links]
  linked a b := by rw [hasLink_reread, hasLink_reread, h.linked]
  attrs a b := by rw [getEdge_reread, getEdge_reread, h.attrs]

end

/-- **C126**: `unserialize(t.serialize())`, text and all, is the same network for every topology built by any history that
`topology_restore_partial` is about.  Capacities, unknown capacities and delays, and interface names are as before; a label is the
text it was written as, and a delay is the number read from what is written for it. -/
theorem topology_reload_partial (flt : Int × Nat → Json) (unflt : Json → Option (Int × Nat)) (back : Int × Nat → Int × Nat)
    (other : Int × Nat → List Char) (hf : ∀ d, (flt d).WF) (hn : ∀ d, IsNumber (flt d)) (hb : ∀ d, unflt (flt d) = some (back d))
    (name : List Char) (auto : Bool) (k : Int) (ops : List TopoOp) (next : Int)
    (hne : ((Topo.init name auto k).run ops).nodes ≠ [])
    (hi : ∀ n f i, ((Topo.init name auto k).run ops).iface? n f = some i →
      (i.ethaddr.raw.length = 6 ∧ i.ips.Nodup) ∧ ∀ x ∈ i.ips, ∃ a p, x = ⟨.v4 a, p⟩ ∧ p ≤ 32 ∧ a ≠ 0)
    (hl : ∀ a b, ((Topo.init name auto k).run ops).hasLink a b = true → a ∉ unsavable) :
    ∃ t', unserialize unflt next (((Topo.init name auto k).run ops).serialize flt other) = .ok t' ∧
      SameNetwork (((Topo.init name auto k).run ops).reread back other) t' := by
  obtain ⟨t', h1, h2⟩ := topology_restore_partial name auto k ops next hne hi hl
  refine ⟨t'.reread back other, ?_, sameNetwork_reread back other h2⟩
  have hty : TypedOk ((Topo.init name auto k).run ops).edges :=
    typedOk_run (topoOk_init name auto k) (by intro e he; cases he) ops
  unfold unserialize
  rw [topology_text_roundtrip flt other hf, bind_ok, ofJson_saved other hn hb, bind_ok]
  · exact restore_reread back other h1
  · intro d hd x hx
    obtain ⟨e, he, rfl⟩ := List.mem_map.1 hd
    obtain ⟨-, e0, h0, h3⟩ := mem_listed.mp he
    rcases mem_set hx with hx | rfl
    · rcases mem_set hx with hx | rfl
      · rw [h3] at hx
        exact hty e0 (List.mem_of_find?_eq_some h0) x hx
      · exact typed_ifname _ _
    · exact typed_ifname _ _

/-- How the example writes and reads delays: a whole number of seconds as an integer, every other as 0.5 seconds. -/
def exFlt (d : Int × Nat) : Json := if d.2 = 0 then .int d.1 else .float "0.5".toList

def exUnflt : Json → Option (Int × Nat)
  | .int n => some (n, 0)
  | .float _ => some (5, 1)
  | _ => none

example : (∀ d, (exFlt d).WF) ∧ (∀ d, IsNumber (exFlt d)) ∧
    (∀ d, exUnflt (exFlt d) = some (if d.2 = 0 then d else (5, 1))) ∧
    (Except.test (unserialize exUnflt 50 (exNumbered.serialize exFlt fun _ => [])) fun t' => decide (
      t'.links = [("h0".toList, "s0".toList), ("h1".toList, "s0".toList)] ∧ t'.name = "net".toList ∧
      t'.iface? "h1".toList "eth0".toList = some ⟨"eth0".toList, ⟨[0, 0, 0, 0, 0, 3]⟩, [⟨.v4 0x0a000002, 8⟩], 51, .unknown⟩)) = true := by
  refine ⟨?_, ?_, ?_, by decide +kernel⟩
  · intro d; unfold exFlt; split
    · trivial
    · show scanNumber _ = _
      rfl
  · intro d; unfold exFlt; split <;> trivial
  · rintro ⟨p, q⟩
    unfold exFlt
    by_cases h : q = 0
    · simp [h, exUnflt]
    · simp [h, exUnflt]

end SY.Props
