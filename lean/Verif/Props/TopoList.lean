import Verif.Props.Topo
import Verif.TopoSave

/-! # Lemmas on listed links and on the keys of link dictionaries -/

namespace SY.Props
open SY

/-! ## Listing -/

theorem mem_linksFrom {es : List Edge} {x : Name × Name} : ∀ {ns seen : List Name}, x ∈ linksFrom es seen ns →
    x.1 ∈ ns ∧ x.2 ∉ seen ∧ ∃ e ∈ es, e.joins x.1 x.2 = true := by
  intro ns
  induction ns with
  | nil => intro seen h; cases h
  | cons n ns ih =>
    intro seen h
    rw [linksFrom, List.mem_append] at h
    rcases h with h | h
    · obtain ⟨e, he, h⟩ := List.mem_filterMap.mp h
      split at h
      · rename_i h1; cases h; exact ⟨by simp, h1.2, e, he, by simp [Edge.joins, h1.1]⟩
      · split at h
        · rename_i h1; cases h; exact ⟨by simp, h1.2, e, he, by simp [Edge.joins, h1.1]⟩
        · cases h
    · obtain ⟨h1, h2, h3⟩ := ih h
      exact ⟨List.mem_cons_of_mem _ h1, fun h => h2 (List.mem_cons_of_mem _ h), h3⟩

/-- The joined pair decides which links join a pair. -/
theorem joins_congr {e : Edge} {a b : Name} (h : e.joins a b = true) : (fun x : Edge => x.joins e.a e.b) = fun x => x.joins a b := by
  simp only [Edge.joins, Bool.or_eq_true, Bool.and_eq_true, decide_eq_true_eq] at h
  rcases h with ⟨rfl, rfl⟩ | ⟨rfl, rfl⟩
  · rfl
  · exact funext fun x => joins_symm x _ _

/-- The link a listed link stands for. -/
theorem mem_listed {t : Topo} {e : Edge} : e ∈ t.listed ↔
    (e.a, e.b) ∈ t.links ∧ ∃ e0, t.edges.find? (fun x => x.joins e.a e.b) = some e0 ∧ e.attrs = e0.attrs := by
  unfold Topo.listed
  rw [List.mem_filterMap]
  constructor
  · rintro ⟨⟨a, b⟩, hx, h⟩
    obtain ⟨e0, h0, rfl⟩ := Option.map_eq_some_iff.mp h
    exact ⟨hx, e0, h0, rfl⟩
  · rintro ⟨hx, e0, h0, h1⟩
    refine ⟨_, hx, ?_⟩
    rw [h0]
    cases e
    simp only at h1
    subst h1; rfl

theorem map_listed (t : Topo) : t.listed.map (fun e => (e.a, e.b)) = t.links := by
  have main : ∀ l : List (Name × Name), (∀ x ∈ l, ∃ e ∈ t.edges, e.joins x.1 x.2 = true) →
      (l.filterMap fun x => (t.edges.find? fun e => e.joins x.1 x.2).map fun e => (⟨x.1, x.2, e.attrs⟩ : Edge)).map
        (fun e => (e.a, e.b)) = l := by
    intro l
    induction l with
    | nil => intro _; rfl
    | cons x l ih =>
      intro h
      obtain ⟨e, he, hj⟩ := h x (by simp)
      have : (t.edges.find? fun e => e.joins x.1 x.2).isSome = true := List.find?_isSome.mpr ⟨e, he, hj⟩
      obtain ⟨e0, h0⟩ := Option.isSome_iff_exists.mp this
      rw [List.filterMap_cons_some (b := ⟨x.1, x.2, e0.attrs⟩) (by rw [h0]; rfl), List.map_cons,
        ih fun y hy => h y (List.mem_cons_of_mem _ hy)]
  exact main t.links fun x hx => (mem_linksFrom hx).2.2

/-- Every link is listed, in one of the two orders. -/
theorem listed_of_link {t : Topo} (h : TopoOk t) {a b : Name} (hl : t.hasLink a b = true) :
    ∃ e ∈ t.listed, e.joins a b = true := by
  have hc := links_count h a b
  rw [if_pos hl] at hc
  obtain ⟨x, hx⟩ := List.exists_mem_of_length_pos (by rw [hc]; exact Nat.one_pos)
  obtain ⟨h1, h2⟩ := List.mem_filter.mp hx
  rw [← map_listed, List.mem_map] at h1
  obtain ⟨e, he, rfl⟩ := h1
  refine ⟨e, he, ?_⟩
  simpa [Edge.joins, Prod.ext_iff] using h2

theorem find_listed {t : Topo} (h : TopoOk t) (a b : Name) :
    (t.listed.find? fun e => e.joins a b).map Edge.attrs = (t.edges.find? fun e => e.joins a b).map Edge.attrs := by
  cases hf : t.listed.find? fun e => e.joins a b with
  | some e =>
    have hj := List.find?_some hf
    obtain ⟨-, e0, h0, h1⟩ := mem_listed.mp (List.mem_of_find?_eq_some hf)
    rw [joins_congr hj] at h0
    rw [h0, Option.map_some, Option.map_some, h1]
  | none =>
    cases hf' : t.edges.find? fun e => e.joins a b with
    | none => rfl
    | some e =>
      have hj' := List.find?_some hf'
      have hl : t.hasLink a b = true := List.any_eq_true.mpr ⟨e, List.mem_of_find?_eq_some hf', hj'⟩
      obtain ⟨e', he', hj⟩ := listed_of_link h hl
      exact absurd hj (List.find?_eq_none.mp hf e' he')

/-- No pair of nodes is listed twice. -/
theorem listed_once {t : Topo} (h : TopoOk t) : t.listed.Pairwise fun e e' => e.joins e'.a e'.b = false := by
  have main : ∀ l : List (Name × Name), (∀ a b, (l.filter fun p => p = (a, b) || p = (b, a)).length ≤ 1) →
      l.Pairwise fun x y => ¬ (x = y ∨ x = (y.2, y.1)) := by
    intro l
    induction l with
    | nil => intro _; exact List.Pairwise.nil
    | cons x l ih =>
      intro hc
      refine List.pairwise_cons.mpr ⟨?_, ih fun a b => ?_⟩
      · intro y hy hxy
        have h1 := hc y.1 y.2
        have hx : (decide (x = (y.1, y.2)) || decide (x = (y.2, y.1))) = true := by
          rcases hxy with rfl | rfl <;> simp
        rw [List.filter_cons, if_pos hx, List.length_cons] at h1
        have : 0 < (l.filter fun p => p = (y.1, y.2) || p = (y.2, y.1)).length :=
          List.length_pos_of_mem (List.mem_filter.mpr ⟨hy, by simp⟩)
        omega
      · refine Nat.le_trans ?_ (hc a b)
        rw [List.filter_cons]
        split <;> simp
  have h1 := main t.links fun a b => by rw [links_count h a b]; split <;> simp
  rw [← map_listed, List.pairwise_map] at h1
  refine h1.imp ?_
  intro e e' hne
  rw [Bool.eq_false_iff]
  intro hj
  apply hne
  simp only [Edge.joins, Bool.or_eq_true, Bool.and_eq_true, decide_eq_true_eq] at hj
  rcases hj with ⟨h1, h2⟩ | ⟨h1, h2⟩
  · left; rw [h1, h2]
  · right; rw [h1, h2]

/-! ## Listing a listing -/

/-- The links of one node. -/
def chunkOf (es : List Edge) (n : Name) (seen : List Name) : List (Name × Name) :=
  es.filterMap fun e =>
      if e.a = n ∧ e.b ∉ seen then some (n, e.b)
      else if e.b = n ∧ e.a ∉ seen then some (n, e.a) else none

/-- The same for links given by their ends. -/
def chunkOfPairs (l : List (Name × Name)) (n : Name) (seen : List Name) : List (Name × Name) :=
  l.filterMap fun e =>
      if e.1 = n ∧ e.2 ∉ seen then some (n, e.2)
      else if e.2 = n ∧ e.1 ∉ seen then some (n, e.1) else none

theorem chunkOf_pairs (es : List Edge) (n : Name) (seen : List Name) :
    chunkOf es n seen = chunkOfPairs (es.map fun e => (e.a, e.b)) n seen := by
  unfold chunkOf chunkOfPairs
  rw [List.filterMap_map]
  rfl

theorem linksFrom_cons (es : List Edge) (seen : List Name) (n : Name) (ns : List Name) :
    linksFrom es seen (n :: ns) = chunkOf es n seen ++ linksFrom es (n :: seen) ns := rfl

theorem mem_chunkOf {es : List Edge} {n : Name} {seen : List Name} {x : Name × Name} (h : x ∈ chunkOf es n seen) :
    x.1 = n ∧ x.2 ∉ seen := by
  obtain ⟨e, -, h⟩ := List.mem_filterMap.mp h
  split at h
  · rename_i h1; cases h; exact ⟨rfl, h1.2⟩
  · split at h
    · rename_i h1; cases h; exact ⟨rfl, h1.2⟩
    · cases h

theorem chunkOfPairs_append (l l' : List (Name × Name)) (n : Name) (seen : List Name) :
    chunkOfPairs (l ++ l') n seen = chunkOfPairs l n seen ++ chunkOfPairs l' n seen := List.filterMap_append

theorem chunkOfPairs_none {l : List (Name × Name)} {n : Name} {seen : List Name}
    (h : ∀ x ∈ l, ¬ (x.1 = n ∧ x.2 ∉ seen) ∧ ¬ (x.2 = n ∧ x.1 ∉ seen)) : chunkOfPairs l n seen = [] := by
  refine List.filterMap_eq_nil_iff.mpr fun x hx => ?_
  rw [if_neg (h x hx).1, if_neg (h x hx).2]

theorem chunkOfPairs_self {l : List (Name × Name)} {n : Name} {seen : List Name}
    (h : ∀ x ∈ l, x.1 = n ∧ x.2 ∉ seen) : chunkOfPairs l n seen = l := by
  induction l with
  | nil => rfl
  | cons x l ih =>
    have h1 := h x (by simp)
    unfold chunkOfPairs
    rw [List.filterMap_cons_some (b := (n, x.2)) (by rw [if_pos h1])]
    have := ih fun y hy => h y (List.mem_cons_of_mem _ hy)
    unfold chunkOfPairs at this
    rw [this, ← h1.1]

theorem chunk_listing (es : List Edge) (n : Name) (post : List Name) : ∀ (pre s : List Name),
    (pre ++ n :: post).Nodup → n ∉ s → (∀ m ∈ pre ++ n :: post, m ∉ s) →
    chunkOfPairs (linksFrom es s (pre ++ n :: post)) n (pre.reverse ++ s) = chunkOf es n (pre.reverse ++ s) := by
  intro pre
  induction pre with
  | nil =>
    intro s hnd hn hs
    rw [List.nil_append, linksFrom_cons, chunkOfPairs_append, List.reverse_nil, List.nil_append,
      chunkOfPairs_self fun x hx => mem_chunkOf hx, chunkOfPairs_none, List.append_nil]
    intro x hx
    obtain ⟨h1, h2, -⟩ := mem_linksFrom hx
    have hnp : n ∉ post := (List.nodup_cons.mp hnd).1
    refine ⟨fun h => hnp (h.1 ▸ h1), fun h => h2 (by rw [h.1]; simp)⟩
  | cons m pre ih =>
    intro s hnd hn hs
    have hmn : m ≠ n := by
      intro e; subst e
      exact (List.nodup_cons.mp hnd).1 (by simp)
    rw [List.cons_append, linksFrom_cons, chunkOfPairs_append, List.reverse_cons, List.append_assoc, List.singleton_append,
      ih (m :: s) (List.nodup_cons.mp hnd).2 ?_ ?_, chunkOfPairs_none, List.nil_append]
    · intro x hx
      obtain ⟨h1, h2⟩ := mem_chunkOf hx
      refine ⟨fun h => hmn (h1 ▸ h.1), fun h => h.2 (by rw [h1]; simp)⟩
    · intro h
      rcases List.mem_cons.mp h with h | h
      · exact hmn h.symm
      · exact hn h
    · intro k hk h
      rcases List.mem_cons.mp h with rfl | h
      · exact (List.nodup_cons.mp hnd).1 hk
      · exact hs k (List.mem_cons_of_mem _ hk) h

/-- Links made in the order in which they are listed are listed in this order. -/
theorem linksFrom_listing (es es' : List Edge) (ns : List Name) (hnd : ns.Nodup)
    (h : es'.map (fun e => (e.a, e.b)) = linksFrom es [] ns) : linksFrom es' [] ns = linksFrom es [] ns := by
  have main : ∀ (post pre : List Name), pre ++ post = ns → linksFrom es' pre.reverse post = linksFrom es pre.reverse post := by
    intro post
    induction post with
    | nil => intro _ _; rfl
    | cons n post ih =>
      intro pre hp
      rw [linksFrom_cons, linksFrom_cons, chunkOf_pairs, h, ← hp]
      have h1 := chunk_listing es n post pre [] (by rw [hp]; exact hnd) (by simp) (by simp)
      rw [List.append_nil] at h1
      rw [h1]
      have h2 := ih (pre ++ [n]) (by rw [← hp]; simp)
      rw [List.reverse_append] at h2
      exact congrArg _ h2
  exact main ns [] rfl

/-! ## The keys of the dictionary of a link -/

/-- A link dictionary has no keys but its ends and the reserved ones, each once. -/
def KeysOk (es : List Edge) : Prop :=
  ∀ e ∈ es, e.attrs.Uniq ∧ ∀ k ∈ e.attrs.keys, k = e.a ∨ k = e.b ∨ k ∈ reserved

theorem keysOk_setAttr {t : Topo} (h : KeysOk t.edges) (a b k : Name) (v : Attr) (hk : k = a ∨ k = b ∨ k ∈ reserved) :
    KeysOk (t.setAttr a b k v).edges := by
  intro e he
  obtain ⟨e0, h0, rfl⟩ := List.mem_map.mp he
  obtain ⟨h1, h2⟩ := h e0 h0
  by_cases hj : e0.joins a b = true
  · rw [if_pos hj]
    refine ⟨Dict.uniq_set h1 _ _, ?_⟩
    intro k' hk'
    have : k' ∈ e0.attrs.keys ∨ k' = k := by
      simp only [Dict.keys_set] at hk'
      split at hk'
      · exact .inl hk'
      · simpa using hk'
    rcases this with h' | rfl
    · exact h2 k' h'
    · simp only [Edge.joins, Bool.or_eq_true, Bool.and_eq_true, decide_eq_true_eq] at hj
      rcases hj with ⟨rfl, rfl⟩ | ⟨rfl, rfl⟩
      · exact hk
      · rcases hk with h | h | h
        · exact .inr (.inl h)
        · exact .inl h
        · exact .inr (.inr h)
  · rw [if_neg hj]; exact ⟨h1, h2⟩

theorem keysOk_addEdge {t : Topo} (h : KeysOk t.edges) (a b : Name) : KeysOk (t.addEdge a b).edges := by
  unfold Topo.addEdge
  split
  · exact h
  · intro e he
    rcases List.mem_append.mp he with he | he
    · exact h e he
    · rw [List.mem_singleton] at he; subst he
      exact ⟨List.nodup_nil, by intro k hk; cases hk⟩

theorem keysOk_setIfGiven {α : Type} {t : Topo} (h : KeysOk t.edges) (a b k : Name) (mk : α → Attr) (v : Option α)
    (hk : k ∈ reserved) : KeysOk (t.setIfGiven a b k mk v).edges := by
  cases v with
  | none => exact h
  | some v => exact keysOk_setAttr h a b k _ (.inr (.inr hk))

theorem keysOk_setLabel {t : Topo} (h : KeysOk t.edges) (a b : Name) : KeysOk (t.setLabel a b).1.edges := by
  unfold Topo.setLabel
  split
  · exact h
  · split
    · exact h
    · exact keysOk_setAttr h a b _ _ (by simp [reserved])

theorem keysOk_setLink {t : Topo} (h : KeysOk t.edges) (a b : Name) (c : CapArg) (d : DelayArg) :
    KeysOk (t.setLink a b c d).1.edges := by
  have h1 : ∀ cv, KeysOk (t.setIfGiven a b capacityKey .cap cv).edges := fun cv =>
    keysOk_setIfGiven h a b _ _ cv (by simp [reserved])
  unfold Topo.setLink
  split
  · split
    · exact h
    · split
      · exact h1 _
      · exact keysOk_setLabel (keysOk_setIfGiven (h1 _) a b _ _ _ (by simp [reserved])) a b
  · exact h

theorem keysOk_addLink {t : Topo} (ho : TopoOk t) (h : KeysOk t.edges) (a b : Name) (c : CapArg) (d : DelayArg) :
    KeysOk (t.addLink a b c d).1.edges := by
  by_cases hn : a ∈ t.nodes.keys ∧ b ∈ t.nodes.keys
  · obtain ⟨t1, r1, h1, h'⟩ := addLink_course ho a b c d hn.1 hn.2
    rcases h' with ⟨e, -, h'⟩ | ⟨fa, t2, r2, hr1, h2, h'⟩
    · rw [h', h1.edges, useMacs_edges]; exact h
    · rcases h' with ⟨e, -, h'⟩ | ⟨fb, hr2, h'⟩
      · rw [h', h2.edges, h1.edges, useMacs_edges]; exact h
      · rw [h']
        have h2' : KeysOk t2.edges := by rw [h2.edges, h1.edges, useMacs_edges]; exact h
        exact keysOk_setLink (keysOk_setAttr (keysOk_setAttr (keysOk_addEdge h2' a b) a b a _ (.inl rfl)) a b b _ (.inr (.inl rfl))) a b c d
  · rw [addLink_missing t a b c d hn]; exact h

theorem addNode_edges (t : Topo) (n : Name) (k : NodeKind) : (t.addNode n k).1.edges = t.edges := by
  unfold Topo.addNode; split <;> rfl

theorem keysOk_step {t : Topo} (ho : TopoOk t) (h : KeysOk t.edges) (op : TopoOp) : KeysOk (t.step op).1.edges := by
  cases op with
  | add k n =>
    have : (t.add k n).1.edges = t.edges := by
      unfold Topo.add
      cases n with
      | some n => exact addNode_edges t n k
      | none =>
        dsimp only
        split
        · rfl
        · rw [addNode_edges]; cases k <;> rfl
    simp only [Topo.step, this]; exact h
  | addLink a b c d => exact keysOk_addLink ho h a b c d
  | removeNode n =>
    simp only [Topo.step, Topo.removeNode]
    split
    · intro e he; exact h e (List.mem_filter.mp he).1
    · exact h
  | removeLink a b =>
    simp only [Topo.step, Topo.removeLink]
    split
    · intro e he; exact h e (List.mem_filter.mp he).1
    · exact h
  | setLink a b c d => exact keysOk_setLink h a b c d
  | assignIPs p =>
    simp only [Topo.step, (readdressed_assignIPs t p).edges]; exact h
  | setAddrs n f m p =>
    have : (t.setAddrs n f m p).1.edges = t.edges := by
      unfold Topo.setAddrs
      split
      · rfl
      · split
        · rfl
        · unfold Topo.setIface; split <;> rfl
    simp only [Topo.step, this]; exact h
  | addInterface n m p =>
    have : (t.nodeAddInterface n m p).1.edges = t.edges := by unfold Topo.nodeAddInterface; split <;> rfl
    simp only [Topo.step, this]; exact h

theorem keysOk_run {t : Topo} (ho : TopoOk t) (h : KeysOk t.edges) (ops : List TopoOp) : KeysOk (t.run ops).edges := by
  induction ops generalizing t with
  | nil => exact h
  | cons op ops ih => exact ih (topoOk_step ho op) (keysOk_step ho h op)

theorem keysOk_listed {t : Topo} (h : KeysOk t.edges) : KeysOk t.listed := by
  intro e he
  obtain ⟨-, e0, h0, h1⟩ := mem_listed.mp he
  obtain ⟨h2, h3⟩ := h e0 (List.mem_of_find?_eq_some h0)
  have hj := List.find?_some h0
  rw [h1]
  refine ⟨h2, fun k hk => ?_⟩
  simp only [Edge.joins, Bool.or_eq_true, Bool.and_eq_true, decide_eq_true_eq] at hj
  rcases h3 k hk with h4 | h4 | h4 <;> rcases hj with ⟨h5, h6⟩ | ⟨h5, h6⟩ <;> simp [h4, h5, h6]

/-- Both invariants, for every history. -/
theorem topo_reach (name : List Char) (auto : Bool) (k : Int) (ops : List TopoOp) :
    TopoOk ((Topo.init name auto k).run ops) ∧ KeysOk ((Topo.init name auto k).run ops).edges :=
  ⟨topoOk_run (topoOk_init name auto k) ops,
   keysOk_run (topoOk_init name auto k) (by intro e he; cases he) ops⟩

end SY.Props
