import Verif.SimCli
import Verif.Props.Topo

/-! # The wiring of the simulator (C136) -/

namespace SY.Props

variable {α : Type}

/-! ## Wiring -/

/-- Interface `f` of node `u` is one end of a link, and the other end is interface `p.remote` of node `p.dest`;
the capacity and delay of `p` are those of the link. -/
def Wired (t : Topo) (u f : Name) (p : EgressPipe) : Prop :=
  ∃ e ∈ t.edges, (e.a = u ∧ e.b = p.dest ∨ e.b = u ∧ e.a = p.dest) ∧ e.attrs.get? u = some (.ifname f) ∧
    e.attrs.get? p.dest = some (.ifname p.remote) ∧ e.attrs.get? capacityKey = some p.capacity ∧
    e.attrs.get? delayKey = some p.delay

/-- The same for the links in a list. -/
def WiredBy (t : Topo) (ls : List (Name × Name)) (u f : Name) (p : EgressPipe) : Prop :=
  ∃ l ∈ ls, ∃ e ∈ t.edges, e.joins l.1 l.2 = true ∧ (e.a = u ∧ e.b = p.dest ∨ e.b = u ∧ e.a = p.dest) ∧
    e.attrs.get? u = some (.ifname f) ∧
    e.attrs.get? p.dest = some (.ifname p.remote) ∧ e.attrs.get? capacityKey = some p.capacity ∧
    e.attrs.get? delayKey = some p.delay

theorem pairwise_apart {β : Type} {R : β → β → Prop} {l : List β} (h : l.Pairwise R) {i j : Nat} (hij : i < j) {x y : β}
    (hx : l[i]? = some x) (hy : l[j]? = some y) : R x y := by
  obtain ⟨hi, rfl⟩ := List.getElem?_eq_some_iff.mp hx
  obtain ⟨hj, rfl⟩ := List.getElem?_eq_some_iff.mp hy
  exact List.pairwise_iff_getElem.mp h i j hi hj hij

theorem wired_unique {t : Topo} (h : TopoOk t) {u f : Name} {p q : EgressPipe} (hp : Wired t u f p) (hq : Wired t u f q) :
    p = q := by
  obtain ⟨e, he, h1, h2, h3, h4, h5⟩ := hp
  obtain ⟨e', he', h1', h2', h3', h4', h5'⟩ := hq
  have hee : e = e' := by
    obtain ⟨i, hi⟩ := List.getElem?_of_mem he
    obtain ⟨j, hj⟩ := List.getElem?_of_mem he'
    rcases Nat.lt_trichotomy i j with hij | hij | hij
    · exact (pairwise_apart h.apart hij hi hj u f ⟨h2, h2'⟩).elim
    · subst hij; rw [hi] at hj; cases hj; rfl
    · exact (pairwise_apart h.apart hij hj hi u f ⟨h2', h2⟩).elim
  subst hee
  have hd : p.dest = q.dest := by grind
  obtain ⟨pd, pdel, pc, pr⟩ := p
  obtain ⟨qd, qdel, qc, qr⟩ := q
  simp only at *
  subst hd
  rw [h3] at h3'; rw [h4] at h4'; rw [h5] at h5'
  cases h3'; cases h4'; cases h5'
  rfl

/-- What holds of the nodes while they are wired; `Q` says which pipes there are. -/
structure PipeInv (t : Topo) (d : Dict Name (NodeExec α)) (Q : Name → Name → EgressPipe → Prop) : Prop where
  keys : d.keys = t.nodes.keys
  pipes : ∀ u x, d.get? u = some x → ∀ f p, x.pipes.get? f = some p ↔ Q u f p
  mons : ∀ u x, d.get? u = some x → ∀ f, x.mons.get? f = if f = hostDev ∨ f ∈ x.pipes.keys then some .null else none
  ifs : ∀ u x, d.get? u = some x → ∀ f, x.ifs.get? f = if f ∈ x.pipes.keys then t.iface? u f else none
  rest : ∀ u x, d.get? u = some x → x.phase = .created ∧ x.queue = [] ∧ x.sent = [] ∧ x.calls = [] ∧ x.blocked = false

theorem addPipe_step {t : Topo} {d : Dict Name (NodeExec α)} {Q : Name → Name → EgressPipe → Prop} (h : PipeInv t d Q)
    {u v f r : Name} {cap delay : Attr} (hu : u ∈ t.nodes.keys) {i : Iface} (hi : t.iface? u f = some i)
    (hq : ∀ p, Q u f p → p = ⟨v, delay, cap, r⟩) :
    ∃ d', addPipe t d u v (.ifname f) (.ifname r) cap delay = .ok d' ∧
      PipeInv t d' fun u' f' p' => Q u' f' p' ∨ (u' = u ∧ f' = f ∧ p' = ⟨v, delay, cap, r⟩) := by
  have hd : ∃ x, d.get? u = some x := (Dict.mem_keys d u).mp (h.keys ▸ hu)
  obtain ⟨x, hx⟩ := hd
  refine ⟨d.set u (x.addEgress f i ⟨v, delay, cap, r⟩), by simp [addPipe, hx, hi], ?_, ?_, ?_, ?_, ?_⟩
  · rw [keys_set_of_get hx]; exact h.keys
  · intro u' y hy f' p'
    rw [Dict.get?_set] at hy
    split at hy
    · rename_i e; subst e; cases hy
      simp only [NodeExec.addEgress, Dict.get?_set]
      have := h.pipes u x hx f' p'
      split
      · rename_i e; subst e
        constructor
        · intro e; cases e; exact .inr (by simp)
        · rintro (e | ⟨-, -, rfl⟩)
          · rw [hq _ e]
          · rfl
      · rename_i e
        rw [this]
        constructor
        · exact .inl
        · rintro (e' | ⟨-, rfl, -⟩)
          · exact e'
          · exact absurd rfl e
    · rename_i e
      rw [h.pipes u' y hy f' p']
      constructor
      · exact .inl
      · rintro (e' | ⟨rfl, -⟩)
        · exact e'
        · exact absurd rfl e
  · intro u' y hy f'
    rw [Dict.get?_set] at hy
    split at hy
    · rename_i e; subst e; cases hy
      simp only [NodeExec.addEgress, Dict.get?_set, h.mons u x hx f', Dict.keys_set]
      have hm := Dict.mem_keys x.pipes f
      grind
    · exact h.mons u' y hy f'
  · intro u' y hy f'
    rw [Dict.get?_set] at hy
    split at hy
    · rename_i e; subst e; cases hy
      simp only [NodeExec.addEgress, Dict.get?_set, h.ifs u x hx f', Dict.keys_set]
      grind
    · exact h.ifs u' y hy f'
  · intro u' y hy
    rw [Dict.get?_set] at hy
    split at hy
    · rename_i e; subst e; cases hy
      exact h.rest u x hx
    · exact h.rest u' y hy

theorem pipeInv_congr {t : Topo} {d : Dict Name (NodeExec α)} {Q Q' : Name → Name → EgressPipe → Prop} (h : PipeInv t d Q)
    (hq : ∀ u f p, Q u f p ↔ Q' u f p) : PipeInv t d Q' :=
  ⟨h.keys, fun u x hx f p => (h.pipes u x hx f p).trans (hq u f p), h.mons, h.ifs, h.rest⟩

theorem glueNodes_inv (t : Topo) (hu : t.nodes.Uniq) :
    PipeInv t (glueNodes (α := α) t.nodes.keys) fun _ _ _ => False := by
  have key : ∀ (ns : List Name) (d : Dict Name (NodeExec α)), (d.keys ++ ns).Nodup →
      (∀ u x, d.get? u = some x → x = NodeExec.new) →
      (ns.foldl (fun d n => Dict.set d n NodeExec.new) d).keys = d.keys ++ ns ∧
      ∀ u x, Dict.get? (ns.foldl (fun d n => Dict.set d n NodeExec.new) d) u = some x → x = NodeExec.new := by
    intro ns
    induction ns with
    | nil => intro d _ h; exact ⟨by simp, h⟩
    | cons n ns ih =>
      intro d hn h
      have hnd : n ∉ d.keys := by
        intro hm
        exact (List.nodup_append.mp hn).2.2 n hm n (by simp) rfl
      have hk : (d.set n NodeExec.new).keys = d.keys ++ [n] := by rw [Dict.keys_set, if_neg hnd]
      have := ih (d.set n NodeExec.new) (by rw [hk]; simpa using hn) (by
        intro u x hx
        rw [Dict.get?_set] at hx
        split at hx
        · cases hx; rfl
        · exact h u x hx)
      refine ⟨?_, this.2⟩
      rw [List.foldl_cons, this.1, hk]; simp
  have hb := key t.nodes.keys [] (by simpa [Dict.Uniq, Dict.keys] using hu) (by intro u x h; cases h)
  refine ⟨by simpa [glueNodes, Dict.keys] using hb.1, ?_, ?_, ?_, ?_⟩ <;> intro u x hx
  all_goals (rw [hb.2 u x hx])
  · intro f p; simp [NodeExec.new]
  · intro f
    simp only [NodeExec.new, Dict.keys, List.map_nil, List.not_mem_nil, or_false, Dict.get?_cons, Dict.get?_nil]
    grind
  · intro f; simp [NodeExec.new, Dict.keys]
  · simp [NodeExec.new]

/-- Each link is wired. -/
theorem wireLinks_inv {t : Topo} (h : TopoOk t) (hr : ∀ n, t.hasNode n = true → n ∉ reserved)
    (hcd : ∀ e ∈ t.edges, (∃ c, e.attrs.get? capacityKey = some c) ∧ ∃ d, e.attrs.get? delayKey = some d) :
    ∀ (ls done : List (Name × Name)) (d : Dict Name (NodeExec α)),
      (∀ l ∈ ls, ∃ e ∈ t.edges, e.joins l.1 l.2 = true) → PipeInv t d (WiredBy t done) →
      ∃ d', wireLinks t d ls = .ok d' ∧ PipeInv t d' (WiredBy t (done ++ ls)) := by
  intro ls
  induction ls with
  | nil => intro done d _ hi; exact ⟨d, rfl, by simpa using hi⟩
  | cons l ls ih =>
    intro done d hl hi
    obtain ⟨u, v⟩ := l
    obtain ⟨e, he, hj⟩ := hl (u, v) (by simp)
    have hok := h.edges e he
    have hends : e.a = u ∧ e.b = v ∨ e.a = v ∧ e.b = u := by
      simpa [Edge.joins] using hj
    have hsub : ∀ {Q : List (Name × Name)} {u f p}, WiredBy t Q u f p → Wired t u f p := by
      rintro Q u f p ⟨l, -, e, he, -, rest⟩; exact ⟨e, he, rest⟩
    have hu : u ∈ t.nodes.keys := by
      rcases hends with ⟨rfl, -⟩ | ⟨-, rfl⟩
      · exact hok.endA
      · exact hok.endB
    have hv : v ∈ t.nodes.keys := by
      rcases hends with ⟨-, rfl⟩ | ⟨rfl, -⟩
      · exact hok.endB
      · exact hok.endA
    obtain ⟨fu, hfu⟩ := hok.kept u (by grind) (hr u (by simpa [Topo.hasNode] using hu))
    obtain ⟨fv, hfv⟩ := hok.kept v (by grind) (hr v (by simpa [Topo.hasNode] using hv))
    obtain ⟨iu, hiu⟩ := hok.exist u fu hfu
    obtain ⟨iv, hiv⟩ := hok.exist v fv hfv
    obtain ⟨⟨c, hc⟩, dl, hdl⟩ := hcd e he
    have hw1 : Wired t u fu ⟨v, dl, c, fv⟩ := ⟨e, he, by simp only; grind, hfu, hfv, hc, hdl⟩
    have hw2 : Wired t v fv ⟨u, dl, c, fu⟩ := ⟨e, he, by simp only; grind, hfv, hfu, hc, hdl⟩
    obtain ⟨d1, hd1, hi1⟩ := addPipe_step hi (u := u) (v := v) (f := fu) (r := fv) (cap := c) (delay := dl) hu hiu
      (fun p hp => wired_unique h (hsub hp) hw1)
    obtain ⟨d2, hd2, hi2⟩ := addPipe_step hi1 (u := v) (v := u) (f := fv) (r := fu) (cap := c) (delay := dl) hv hiv
      (fun p hp => by
        rcases hp with hp | ⟨rfl, rfl, rfl⟩
        · exact wired_unique h (hsub hp) hw2
        · exact wired_unique h hw1 hw2)
    have hge : t.getEdge u v = .ok e.attrs := by
      have := attr?_edge h he
      have hf : t.edges.find? (fun x => x.joins u v) = some e := by
        obtain ⟨l1, l2, hl12⟩ := List.append_of_mem he
        refine List.find?_eq_some_iff_append.mpr ⟨by simpa using hj, l1, l2, hl12, ?_⟩
        intro x hx
        have hp := h.once
        rw [hl12] at hp
        have := (List.pairwise_append.mp hp).2.2 x hx e (by simp)
        rcases hends with ⟨rfl, rfl⟩ | ⟨rfl, rfl⟩
        · simpa using this
        · rw [joins_symm]; simpa using this
      simp [Topo.getEdge, hf]
    have hwl : wireLink t d u v = .ok d2 := by
      simp [wireLink, hge, attrOr, hfu, hfv, hc, hdl, hd1, hd2]
    obtain ⟨d3, hd3, hi3⟩ := ih (done ++ [(u, v)]) d2 (fun l hl' => hl l (by simp [hl'])) (by
      refine pipeInv_congr hi2 fun u' f' p' => ?_
      constructor
      · rintro ((⟨l, hl', rest⟩ | ⟨rfl, rfl, rfl⟩) | ⟨rfl, rfl, rfl⟩)
        · exact ⟨l, by simp [hl'], rest⟩
        · exact ⟨(u', v), by simp, e, he, hj, by simp only; grind, hfu, hfv, hc, hdl⟩
        · exact ⟨(u, u'), by simp, e, he, hj, by simp only; grind, hfv, hfu, hc, hdl⟩
      · rintro ⟨l, hl', e', he', hj', rest⟩
        rcases List.mem_append.mp hl' with hl' | hl'
        · exact .inl (.inl ⟨l, hl', e', he', hj', rest⟩)
        · simp only [List.mem_singleton] at hl'
          subst hl'
          have hee : e' = e := by
            have h1 : e'.joins e.a e.b = true := by
              rcases hends with ⟨rfl, rfl⟩ | ⟨rfl, rfl⟩
              · exact hj'
              · rw [joins_symm]; exact hj'
            by_cases hne : e' = e
            · exact hne
            · exfalso
              have hp := h.once
              obtain ⟨i, hi'⟩ := List.getElem?_of_mem he
              obtain ⟨j, hj''⟩ := List.getElem?_of_mem he'
              rcases Nat.lt_trichotomy i j with hij | hij | hij
              · have := pairwise_apart hp hij hi' hj''
                have h2 : e.joins e'.a e'.b = true := by
                  simp only [Edge.joins, Bool.or_eq_true, Bool.and_eq_true, decide_eq_true_eq] at h1 ⊢
                  grind
                rw [h2] at this; cases this
              · subst hij; rw [hi'] at hj''; cases hj''; exact hne rfl
              · have := pairwise_apart hp hij hj'' hi'
                rw [h1] at this; cases this
          subst hee
          obtain ⟨h1, h2, h3, h4, h5⟩ := rest
          have hw : Wired t u' f' p' := ⟨e', he', h1, h2, h3, h4, h5⟩
          by_cases huu : u' = u
          · subst huu
            rw [hfu] at h2; cases h2
            exact .inl (.inr ⟨rfl, rfl, wired_unique h hw hw1⟩)
          · have hvv : u' = v := by grind
            subst hvv
            rw [hfv] at h2; cases h2
            exact .inr ⟨rfl, rfl, wired_unique h hw hw2⟩)
    refine ⟨d3, ?_, ?_⟩
    · simp [wireLinks, hwl, hd3]
    · simpa using hi3

theorem wired_symm {t : Topo} {u f : Name} {p : EgressPipe} (h : Wired t u f p) :
    Wired t p.dest p.remote ⟨u, p.delay, p.capacity, f⟩ := by
  obtain ⟨e, he, h1, h2, h3, h4, h5⟩ := h
  exact ⟨e, he, by simp only; grind, h3, h2, h4, h5⟩

/-- Only one interface is wired to a given one. -/
theorem wired_inj {t : Topo} (h : TopoOk t) {u f u' f' : Name} {p p' : EgressPipe} (hp : Wired t u f p) (hp' : Wired t u' f' p')
    (hd : p.dest = p'.dest) (hr : p.remote = p'.remote) : u = u' ∧ f = f' ∧ p = p' := by
  have h1 := wired_symm hp
  have h2 := wired_symm hp'
  rw [hd, hr] at h1
  have h3 := wired_unique h h1 h2
  simp only [EgressPipe.mk.injEq] at h3
  obtain ⟨rfl, -, -, rfl⟩ := h3
  exact ⟨rfl, rfl, wired_unique h hp hp'⟩

theorem wired_not_host {t : Topo} (h : TopoOk t) {u f : Name} {p : EgressPipe} (hp : Wired t u f p) : f ≠ hostDev := by
  obtain ⟨e, he, -, h2, -⟩ := hp
  obtain ⟨i, hi⟩ := (h.edges e he).exist u f h2
  unfold Topo.iface? at hi
  cases hn : t.nodes.get? u with
  | none => rw [hn] at hi; cases hi
  | some nd =>
    rw [hn] at hi
    obtain ⟨-, j, -, rfl⟩ := (h.nodes u nd hn).1.named f i hi
    intro e
    have := congrArg List.head? e
    simp [ethName, hostDev] at this

theorem wired_nodes {t : Topo} (h : TopoOk t) {u f : Name} {p : EgressPipe} (hp : Wired t u f p) :
    u ∈ t.nodes.keys ∧ p.dest ∈ t.nodes.keys := by
  obtain ⟨e, he, h1, -⟩ := hp
  have := h.edges e he
  rcases h1 with ⟨rfl, h1⟩ | ⟨rfl, h1⟩ <;> rw [← h1]
  · exact ⟨this.endA, this.endB⟩
  · exact ⟨this.endB, this.endA⟩

/-! ## The packets between two rebuilds -/

/-- The packets that came to a node on a device: those taken from its queue, and those still in it. -/
def arrivedAt (x : NodeExec α) (dev : Name) : List α :=
  ((x.calls.map Prod.snd ++ x.queue).filter fun s => s.1 = dev).map Prod.snd

/-- The packets on their way through a pipe. -/
def inFlight (x : NodeExec α) (p : EgressPipe) : List α := (x.sent.filter fun s => s.1 = p).map Prod.snd

/-- The packets emitted without exception: node, device, packet. -/
def _root_.SY.Glue.emitted (g : Glue α) : List (GlueOp α) → List (Name × Name × α)
  | [] => []
  | .emit n d p :: os =>
    (if (g.emit n d p).2 = none then [(n, d, p)] else []) ++ Glue.emitted (g.emit n d p).1 os
  | o :: os => Glue.emitted (g.op o).1 os

/-- The packets handed to existing nodes as their own. -/
def _root_.SY.Glue.hosted (g : Glue α) : List (GlueOp α) → List (Name × α)
  | [] => []
  | .host n p :: os => (if (g.sendHost n p).2 = none then [(n, p)] else []) ++ Glue.hosted (g.sendHost n p).1 os
  | o :: os => Glue.hosted (g.op o).1 os

/-- The packets emitted on one interface. -/
def emittedOn (L : List (Name × Name × α)) (u f : Name) : List α :=
  (L.filter fun s => s.1 = u ∧ s.2.1 = f).map fun s => s.2.2

/-- The packets handed to one node. -/
def hostedOn (L : List (Name × α)) (u : Name) : List α := (L.filter fun s => s.1 = u).map Prod.snd

structure FlowInv (t : Topo) (g : Glue α) (L : List (Name × Name × α)) (H : List (Name × α)) : Prop where
  nodes : ∀ u, u ∈ t.nodes.keys ↔ ∃ x, g.xnode.get? u = some x
  pipes : ∀ u x, g.xnode.get? u = some x → ∀ f p, x.pipes.get? f = some p ↔ Wired t u f p
  sent : ∀ u x, g.xnode.get? u = some x → ∀ s ∈ x.sent, ∃ f, Wired t u f s.1
  mons : ∀ u x, g.xnode.get? u = some x → ∀ f, (f = hostDev ∨ ∃ p, Wired t u f p) → ∃ m, x.mons.get? f = some m
  devs : ∀ u x, g.xnode.get? u = some x → ∀ s ∈ x.calls.map Prod.snd ++ x.queue, s.1 = hostDev ∨ ∃ p, Wired t u s.1 p
  flow : ∀ u f p x y, Wired t u f p → g.xnode.get? u = some x → g.xnode.get? p.dest = some y →
    (emittedOn L u f).Perm (inFlight x p ++ arrivedAt y p.remote)
  host : ∀ u x, g.xnode.get? u = some x → arrivedAt x hostDev = hostedOn H u

/-- A change of a node that moves no packet except from its queue to the monitors. -/
structure SameFlow (x y : NodeExec α) : Prop where
  pipes : y.pipes = x.pipes
  sent : y.sent = x.sent
  arrived : ∀ dev, arrivedAt y dev = arrivedAt x dev
  queue : ∀ s ∈ y.calls.map Prod.snd ++ y.queue, s ∈ x.calls.map Prod.snd ++ x.queue
  mons : ∀ k m, x.mons.get? k = some m → ∃ m', y.mons.get? k = some m'

theorem sameFlow_refl (x : NodeExec α) : SameFlow x x := ⟨rfl, rfl, fun _ => rfl, fun _ h => h, fun _ m h => ⟨m, h⟩⟩

theorem flowInv_same {t : Topo} {g g' : Glue α} {L H} (h : FlowInv t g L H)
    (hs : ∀ u, g'.xnode.get? u = none ∧ g.xnode.get? u = none ∨
      ∃ x y, g.xnode.get? u = some x ∧ g'.xnode.get? u = some y ∧ SameFlow x y) : FlowInv t g' L H := by
  have back : ∀ u y, g'.xnode.get? u = some y → ∃ x, g.xnode.get? u = some x ∧ SameFlow x y := by
    intro u y hy
    rcases hs u with ⟨h1, -⟩ | ⟨x, y', h1, h2, h3⟩
    · rw [h1] at hy; cases hy
    · rw [hy] at h2; cases h2; exact ⟨x, h1, h3⟩
  refine ⟨?_, ?_, ?_, ?_, ?_, ?_, ?_⟩
  · intro u
    rw [h.nodes u]
    rcases hs u with ⟨h1, h2⟩ | ⟨x, y, h1, h2, -⟩
    · rw [h1, h2]
    · rw [h1, h2]; simp
  · intro u y hy f p
    obtain ⟨x, hx, hxy⟩ := back u y hy
    rw [hxy.pipes]; exact h.pipes u x hx f p
  · intro u y hy
    obtain ⟨x, hx, hxy⟩ := back u y hy
    rw [hxy.sent]; exact h.sent u x hx
  · intro u y hy f hf
    obtain ⟨x, hx, hxy⟩ := back u y hy
    obtain ⟨m, hm⟩ := h.mons u x hx f hf
    exact hxy.mons f m hm
  · intro u y hy s hs'
    obtain ⟨x, hx, hxy⟩ := back u y hy
    exact h.devs u x hx s (hxy.queue s hs')
  · intro u f p a b hw ha hb
    obtain ⟨x, hx, hxa⟩ := back u a ha
    obtain ⟨y, hy, hyb⟩ := back _ b hb
    have := h.flow u f p x y hw hx hy
    rw [hyb.arrived, inFlight, hxa.sent]
    exact this
  · intro u y hy
    obtain ⟨x, hx, hxy⟩ := back u y hy
    rw [hxy.arrived]; exact h.host u x hx

theorem onNode_get (g : Glue α) (n : Name) (f : NodeExec α → NodeExec α × Option PyErr) (u : Name) :
    (g.onNode n f).1.xnode.get? u =
      if n = u then (g.xnode.get? n).map (fun x => (f x).1) else g.xnode.get? u := by
  unfold Glue.onNode
  split
  · rename_i h; split
    · rename_i e; subst e; simp [h]
    · rfl
  · rename_i x h
    simp only [Dict.get?_set, h, Option.map_some]

theorem flowInv_onNode {t : Topo} {g : Glue α} {L H} (h : FlowInv t g L H) (n : Name)
    (f : NodeExec α → NodeExec α × Option PyErr) (hf : ∀ x, g.xnode.get? n = some x → SameFlow x (f x).1) :
    FlowInv t (g.onNode n f).1 L H := by
  refine flowInv_same h fun u => ?_
  rw [onNode_get]
  cases hu : g.xnode.get? u with
  | none =>
    left
    split
    · rename_i e; subst e; simp [hu]
    · simp
  | some x =>
    right
    split
    · rename_i e; subst e
      exact ⟨x, (f x).1, rfl, by simp [hu], hf x hu⟩
    · exact ⟨x, x, rfl, rfl, sameFlow_refl x⟩

theorem sameFlow_attach (x : NodeExec α) (i : Name) (m : Mon) : SameFlow x (x.attach i m).1 := by
  unfold NodeExec.attach
  split
  · exact sameFlow_refl x
  · refine ⟨rfl, rfl, fun _ => rfl, fun _ h => h, fun k m' h => ?_⟩
    simp only [Dict.get?_set]
    split
    · exact ⟨m, rfl⟩
    · exact ⟨m', h⟩

theorem sameFlow_begin (x : NodeExec α) : SameFlow x (x.begin_).1 := by
  unfold NodeExec.begin_
  simp only
  split
  · exact ⟨rfl, rfl, fun _ => rfl, fun _ h => h, fun k m' h => ⟨m', h⟩⟩
  · exact sameFlow_refl x

theorem sameFlow_idle (x : NodeExec α) (h : ∀ s ∈ x.queue, ∃ m, x.mons.get? s.1 = some m) : SameFlow x (x.idleRecv).1 := by
  unfold NodeExec.idleRecv
  split
  · split
    · exact sameFlow_refl x
    · rename_i dev p q hq
      obtain ⟨m, hm⟩ := h (dev, p) (by simp [hq])
      simp only at hm
      rw [hm]
      refine ⟨rfl, rfl, fun d => ?_, ?_, fun k m' h => ⟨m', h⟩⟩
      · simp [arrivedAt, hq]
      · intro s hs; rw [hq]; simpa using hs
  · exact sameFlow_refl x

theorem idleRecv_ok (x : NodeExec α) (h : ∀ s ∈ x.queue, ∃ m, x.mons.get? s.1 = some m) : (x.idleRecv).2 = none := by
  unfold NodeExec.idleRecv
  split
  · split
    · rfl
    · rename_i dev p q hq
      obtain ⟨m, hm⟩ := h (dev, p) (by simp [hq])
      simp only at hm
      rw [hm]
  · rfl

theorem flowInv_queue {t : Topo} {g : Glue α} {L H} (h : FlowInv t g L H) {u : Name} {x : NodeExec α}
    (hx : g.xnode.get? u = some x) : ∀ s ∈ x.queue, ∃ m, x.mons.get? s.1 = some m :=
  fun s hs => h.mons u x hx s.1 (h.devs u x hx s (List.mem_append_right _ hs))

theorem flowInv_registered {t : Topo} {g : Glue α} {L H} (h : FlowInv t g L H) (mons : Dict (Name × Name) MonClass)
    (r : List RegMon) : FlowInv t { g with mons := mons, registered := r } L H :=
  ⟨h.nodes, h.pipes, h.sent, h.mons, h.devs, h.flow, h.host⟩

theorem flowInv_addMonitor {t : Topo} {g : Glue α} {L H} (h : FlowInv t g L H) (co : Name → Bool) (n i : Name) (how : MonHow) :
    FlowInv t (g.addMonitor co n i how).1 L H := by
  have reg : ∀ (d : Dict (Name × Name) MonClass) (r : Option RegMon), FlowInv t (Glue.registerMon { g with mons := d } r) L H := by
    intro d r
    cases r with
    | none => exact flowInv_registered h d g.registered
    | some r => exact flowInv_registered h d _
  unfold Glue.addMonitor
  split
  · exact h
  · split
    · exact flowInv_registered h _ g.registered
    · unfold Glue.attachNew
      split
      · exact reg _ _
      · exact flowInv_onNode (reg _ _) n _ fun x _ => sameFlow_attach x i _

theorem flowInv_removeMonitor {t : Topo} {g : Glue α} {L H} (h : FlowInv t g L H) (n i : Name) :
    FlowInv t (g.removeMonitor n i).1 L H := by
  unfold Glue.removeMonitor
  split
  · exact flowInv_registered h _ g.registered
  · exact flowInv_onNode (g := Glue.registerMon _ _) (flowInv_registered h _ _) n _ fun x _ => sameFlow_attach x i _

theorem emittedOn_append (L M : List (Name × Name × α)) (u f : Name) :
    emittedOn (L ++ M) u f = emittedOn L u f ++ emittedOn M u f := by simp [emittedOn]

theorem hostedOn_append (L M : List (Name × α)) (u : Name) : hostedOn (L ++ M) u = hostedOn L u ++ hostedOn M u := by
  simp [hostedOn]

theorem send_cases (x : NodeExec α) (dev : Name) (p : α) :
    (∃ e, x.send dev p = (x, some e)) ∨
    ∃ pipe, x.pipes.get? dev = some pipe ∧ x.send dev p = ({ x with sent := x.sent ++ [(pipe, p)] }, none) := by
  unfold NodeExec.send
  split
  · exact .inl ⟨_, rfl⟩
  · split
    · exact .inl ⟨_, rfl⟩
    · rename_i pipe hp
      split
      · exact .inl ⟨_, rfl⟩
      · split
        · exact .inl ⟨_, rfl⟩
        · split
          · exact .inr ⟨pipe, hp, rfl⟩
          · exact .inl ⟨_, rfl⟩

theorem flowInv_emit {t : Topo} (ht : TopoOk t) {g : Glue α} {L H} (h : FlowInv t g L H) (n dev : Name) (q : α) :
    FlowInv t (g.emit n dev q).1 (L ++ if (g.emit n dev q).2 = none then [(n, dev, q)] else []) H := by
  cases hn : g.xnode.get? n with
  | none =>
    have : g.emit n dev q = (g, some .keyError) := by simp [Glue.emit, Glue.onNode, hn]
    rw [this]; simpa using h
  | some x =>
    rcases send_cases x dev q with ⟨e, he⟩ | ⟨P, hP, he⟩
    · have : (g.emit n dev q).2 = some e := by simp [Glue.emit, Glue.onNode, hn, he]
      rw [this]
      simp only [reduceCtorEq, if_false, List.append_nil]
      refine flowInv_onNode h n _ fun y hy => ?_
      rw [hn] at hy; cases hy
      rw [he]; exact sameFlow_refl x
    · have h2 : (g.emit n dev q).2 = none := by simp [Glue.emit, Glue.onNode, hn, he]
      rw [h2]
      simp only [if_true]
      have hW : Wired t n dev P := (h.pipes n x hn dev P).mp hP
      have hget : ∀ u, (g.emit n dev q).1.xnode.get? u =
          if n = u then some { x with sent := x.sent ++ [(P, q)] } else g.xnode.get? u := by
        intro u
        rw [Glue.emit, onNode_get]
        split
        · simp [hn, he]
        · rfl
      have back : ∀ u y, (g.emit n dev q).1.xnode.get? u = some y → ∃ z, g.xnode.get? u = some z ∧ y.pipes = z.pipes ∧
          y.mons = z.mons ∧ y.queue = z.queue ∧ y.calls = z.calls ∧
          y.sent = z.sent ++ if n = u then [(P, q)] else [] := by
        intro u y hy
        rw [hget] at hy
        split at hy
        · rename_i e; subst e; cases hy; exact ⟨x, hn, rfl, rfl, rfl, rfl, by simp⟩
        · exact ⟨y, hy, rfl, rfl, rfl, rfl, by simp_all⟩
      refine ⟨?_, ?_, ?_, ?_, ?_, ?_, ?_⟩
      · intro u
        rw [h.nodes u, hget]
        split
        · rename_i e; subst e; simp [hn]
        · rfl
      · intro u y hy f p
        obtain ⟨z, hz, e1, -⟩ := back u y hy
        rw [e1]; exact h.pipes u z hz f p
      · intro u y hy s hs
        obtain ⟨z, hz, -, -, -, -, e⟩ := back u y hy
        rw [e] at hs
        rcases List.mem_append.mp hs with hs' | hs'
        · exact h.sent u z hz s hs'
        · split at hs'
          · rename_i hnu
            subst hnu
            obtain rfl := List.mem_singleton.mp hs'
            exact ⟨dev, hW⟩
          · cases hs'
      · intro u y hy f hf
        obtain ⟨z, hz, -, e, -⟩ := back u y hy
        rw [e]; exact h.mons u z hz f hf
      · intro u y hy
        obtain ⟨z, hz, -, -, e, e', -⟩ := back u y hy
        rw [e, e']; exact h.devs u z hz
      · intro u f p a b hw ha hb
        obtain ⟨z, hz, -, -, -, -, es⟩ := back u a ha
        obtain ⟨w, hw', -, -, eq, ec, -⟩ := back _ b hb
        have hperm := h.flow u f p z w hw hz hw'
        have e1 : arrivedAt b p.remote = arrivedAt w p.remote := by simp [arrivedAt, eq, ec]
        have e2 : inFlight a p = inFlight z p ++ if n = u ∧ dev = f then [q] else [] := by
          simp only [inFlight, es, List.filter_append, List.map_append]
          congr 1
          by_cases hnu : n = u
          · subst hnu
            have : P = p ↔ dev = f := by
              constructor
              · intro e; subst e; exact (wired_inj ht hW hw rfl rfl).2.1
              · intro e; subst e; exact wired_unique ht hW hw
            by_cases hd : dev = f
            · simp [hd, this.mpr hd]
            · simp [hd, mt this.mp hd]
          · simp [hnu]
        have e3 : emittedOn (L ++ [(n, dev, q)]) u f = emittedOn L u f ++ if n = u ∧ dev = f then [q] else [] := by
          rw [emittedOn_append]
          congr 1
          simp only [emittedOn, List.filter_cons, List.filter_nil]
          by_cases hc : n = u ∧ dev = f <;> simp [hc]
        rw [e1, e2, e3]
        refine (hperm.append_right _).trans ?_
        rw [List.append_assoc, List.append_assoc]
        exact List.Perm.append_left _ List.perm_append_comm
      · intro u y hy
        obtain ⟨z, hz, -, -, eq, ec, -⟩ := back u y hy
        rw [← h.host u z hz]; simp [arrivedAt, eq, ec]

theorem flowInv_host {t : Topo} (ht : TopoOk t) {g : Glue α} {L H} (h : FlowInv t g L H) (n : Name) (q : α) :
    FlowInv t (g.sendHost n q).1 L (H ++ if (g.sendHost n q).2 = none then [(n, q)] else []) := by
  cases hn : g.xnode.get? n with
  | none =>
    have : g.sendHost n q = (g, some .keyError) := by simp [Glue.sendHost, Glue.onNode, hn]
    rw [this]; simpa using h
  | some x =>
    have h2 : (g.sendHost n q).2 = none := by simp [Glue.sendHost, Glue.onNode, hn]
    rw [h2]
    simp only [if_true]
    have back : ∀ u y, (g.sendHost n q).1.xnode.get? u = some y → ∃ z, g.xnode.get? u = some z ∧ y.pipes = z.pipes ∧
        y.mons = z.mons ∧ y.queue = z.queue ++ (if n = u then [(hostDev, q)] else []) ∧ y.calls = z.calls ∧
        y.sent = z.sent := by
      intro u y hy
      rw [Glue.sendHost, onNode_get] at hy
      split at hy
      · rename_i e; subst e
        rw [hn] at hy; cases hy; exact ⟨x, hn, rfl, rfl, by simp [NodeExec.sendHost], rfl, rfl⟩
      · exact ⟨y, hy, rfl, rfl, by simp_all, rfl, rfl⟩
    refine ⟨?_, ?_, ?_, ?_, ?_, ?_, ?_⟩
    · intro u
      rw [h.nodes u, Glue.sendHost, onNode_get]
      split
      · rename_i e; subst e; simp [hn]
      · rfl
    · intro u y hy f p
      obtain ⟨z, hz, e1, -⟩ := back u y hy
      rw [e1]; exact h.pipes u z hz f p
    · intro u y hy
      obtain ⟨z, hz, -, -, -, -, e⟩ := back u y hy
      rw [e]; exact h.sent u z hz
    · intro u y hy f hf
      obtain ⟨z, hz, -, e, -⟩ := back u y hy
      rw [e]; exact h.mons u z hz f hf
    · intro u y hy s hs
      obtain ⟨z, hz, -, -, e, e', -⟩ := back u y hy
      rw [e, e', ← List.append_assoc] at hs
      rcases List.mem_append.mp hs with hs' | hs'
      · exact h.devs u z hz s hs'
      · split at hs'
        · obtain rfl := List.mem_singleton.mp hs'; exact .inl rfl
        · cases hs'
    · intro u f p a b hw ha hb
      obtain ⟨z, hz, -, -, -, -, es⟩ := back u a ha
      obtain ⟨w, hw', -, -, eq, ec, -⟩ := back _ b hb
      have hperm := h.flow u f p z w hw hz hw'
      have hne := wired_not_host ht (wired_symm hw)
      have e1 : arrivedAt b p.remote = arrivedAt w p.remote := by
        simp only [arrivedAt, eq, ec]
        congr 1
        split <;> simp [List.filter_append, Ne.symm hne]
      have e2 : inFlight a p = inFlight z p := by simp [inFlight, es]
      rw [e1, e2]; exact hperm
    · intro u y hy
      obtain ⟨z, hz, -, -, eq, ec, -⟩ := back u y hy
      rw [hostedOn_append, ← h.host u z hz]
      simp only [arrivedAt, eq, ec]
      split
      · rename_i e; subst e; simp [hostedOn]
      · rename_i e; simp [hostedOn, e]

theorem cons_eraseIdx_perm {β : Type} {l : List β} {i : Nat} (h : i < l.length) : (l[i] :: l.eraseIdx i).Perm l := by
  induction l generalizing i with
  | nil => cases h
  | cons a l ih =>
    cases i with
    | zero => exact List.Perm.refl _
    | succ i =>
      simp only [List.getElem_cons_succ, List.eraseIdx_cons_succ]
      exact (List.Perm.swap a _ _).trans ((ih (Nat.lt_of_succ_lt_succ h)).cons a)

theorem flowInv_deliver {t : Topo} (ht : TopoOk t) {g : Glue α} {L H} (h : FlowInv t g L H) (n : Name) (i : Nat) :
    FlowInv t (g.deliver n i) L H := by
  unfold Glue.deliver
  split
  · exact h
  · rename_i x hn
    split
    · rename_i P q hi _
      obtain ⟨hlt, hiq⟩ := List.getElem?_eq_some_iff.mp hi
      obtain ⟨f0, hW⟩ := h.sent n x hn (P, q) (List.mem_of_getElem? hi)
      simp only at hW
      have hdest := (wired_nodes ht hW).2
      have hperm : ((P, q) :: x.sent.eraseIdx i).Perm x.sent := by
        rw [← hiq]; exact cons_eraseIdx_perm hlt
      generalize hg' : (Glue.onNode { g with xnode := g.xnode.set n { x with sent := x.sent.eraseIdx i } } P.dest fun y =>
        ({ y with queue := y.queue ++ [(P.remote, q)] }, none)).1 = g'
      have hget : ∀ u, g'.xnode.get? u = (g.xnode.get? u).map fun z =>
          { z with sent := if n = u then x.sent.eraseIdx i else z.sent,
                   queue := if P.dest = u then z.queue ++ [(P.remote, q)] else z.queue } := by
        intro u
        rw [← hg', onNode_get]
        simp only [Dict.get?_set]
        by_cases h1 : P.dest = u
        · subst h1
          by_cases h2 : n = P.dest
          · rw [if_pos rfl, if_pos h2, ← h2, hn]; simp
          · rw [if_pos rfl, if_neg h2]; simp [h2]
        · by_cases h2 : n = u
          · subst h2; simp [h1, hn]
          · simp [h1, h2]
      have back : ∀ u y, g'.xnode.get? u = some y → ∃ z, g.xnode.get? u = some z ∧ y.pipes = z.pipes ∧
          y.mons = z.mons ∧ y.queue = z.queue ++ (if P.dest = u then [(P.remote, q)] else []) ∧ y.calls = z.calls ∧
          y.sent = if n = u then x.sent.eraseIdx i else z.sent := by
        intro u y hy
        rw [hget] at hy
        cases hz : g.xnode.get? u with
        | none => rw [hz] at hy; cases hy
        | some z =>
          rw [hz] at hy; cases hy
          refine ⟨z, rfl, rfl, rfl, ?_, rfl, rfl⟩
          simp only
          split <;> simp
      refine ⟨?_, ?_, ?_, ?_, ?_, ?_, ?_⟩
      · intro u
        rw [h.nodes u, hget]
        cases g.xnode.get? u <;> simp
      · intro u y hy f p
        obtain ⟨z, hz, e1, -⟩ := back u y hy
        rw [e1]; exact h.pipes u z hz f p
      · intro u y hy s hs
        obtain ⟨z, hz, -, -, -, -, e⟩ := back u y hy
        rw [e] at hs
        split at hs
        · rename_i hnu; subst hnu
          exact h.sent n x hn s (List.mem_of_mem_eraseIdx hs)
        · exact h.sent u z hz s hs
      · intro u y hy f hf
        obtain ⟨z, hz, -, e, -⟩ := back u y hy
        rw [e]; exact h.mons u z hz f hf
      · intro u y hy s hs
        obtain ⟨z, hz, -, -, e, e', -⟩ := back u y hy
        rw [e, e', ← List.append_assoc] at hs
        rcases List.mem_append.mp hs with hs' | hs'
        · exact h.devs u z hz s hs'
        · split at hs'
          · rename_i hu; subst hu
            obtain rfl := List.mem_singleton.mp hs'
            exact .inr ⟨_, wired_symm hW⟩
          · cases hs'
      · intro u f p a b hw ha hb
        obtain ⟨z, hz, -, -, -, -, es⟩ := back u a ha
        obtain ⟨w, hw', -, -, eq, ec, -⟩ := back _ b hb
        have hfl := h.flow u f p z w hw hz hw'
        by_cases hc : p.dest = P.dest ∧ p.remote = P.remote
        · obtain ⟨rfl, rfl, rfl⟩ := wired_inj ht hW hw hc.1.symm hc.2.symm
          rw [hn] at hz; cases hz
          have e1 : arrivedAt b P.remote = arrivedAt w P.remote ++ [q] := by
            simp [arrivedAt, eq, ec]
          have e2 : (q :: inFlight a P).Perm (inFlight x P) := by
            have := (hperm.filter fun s => s.1 = P).map Prod.snd
            simpa [inFlight, es] using this
          rw [e1]
          refine hfl.trans ((e2.symm.append_right _).trans ?_)
          rw [← List.append_assoc, List.cons_append]
          exact (List.perm_append_singleton q _).symm
        · have e1 : arrivedAt b p.remote = arrivedAt w p.remote := by
            simp only [arrivedAt, eq, ec]
            congr 1
            by_cases hd : P.dest = p.dest
            · have : ¬ P.remote = p.remote := fun e => hc ⟨hd.symm, e.symm⟩
              simp [hd, List.filter_append, this]
            · simp [hd]
          have e2 : (inFlight a p).Perm (inFlight z p) := by
            by_cases hnu : n = u
            · subst hnu
              rw [hn] at hz; cases hz
              have hPp : ¬ P = p := fun e => hc ⟨by rw [e], by rw [e]⟩
              have := (hperm.filter fun s => s.1 = p).map Prod.snd
              simpa [inFlight, es, hPp] using this
            · simp [inFlight, es, hnu]
          rw [e1]
          exact hfl.trans (e2.symm.append_right _)
      · intro u y hy
        obtain ⟨z, hz, -, -, eq, ec, -⟩ := back u y hy
        rw [← h.host u z hz]
        simp only [arrivedAt, eq, ec]
        congr 1
        have hne := wired_not_host ht (wired_symm hW)
        split <;> simp [List.filter_append, hne]
    · exact h

theorem flowInv_ops {t : Topo} (ht : TopoOk t) (os : List (GlueOp α)) : ∀ (g : Glue α) (L : List (Name × Name × α))
    (H : List (Name × α)), FlowInv t g L H → FlowInv t (g.ops os) (L ++ g.emitted os) (H ++ g.hosted os) := by
  induction os with
  | nil => intro g L H h; simpa [Glue.ops, Glue.emitted, Glue.hosted] using h
  | cons o os ih =>
    intro g L H h
    cases o with
    | emit n d p =>
      have := ih _ _ _ (flowInv_emit ht h n d p)
      simp only [Glue.emitted, Glue.hosted]
      rw [← List.append_assoc]; exact this
    | host n p =>
      have := ih _ _ _ (flowInv_host ht h n p)
      simp only [Glue.emitted, Glue.hosted]
      rw [← List.append_assoc]; exact this
    | addMonitor co n i how => exact ih _ _ _ (flowInv_addMonitor h co n i how)
    | removeMonitor n i => exact ih _ _ _ (flowInv_removeMonitor h n i)
    | thread e =>
      cases e with
      | begin_ n => exact ih _ _ _ (flowInv_onNode h n _ fun x _ => sameFlow_begin x)
      | recv n => exact ih _ _ _ (flowInv_onNode h n _ fun x hx => sameFlow_idle x (flowInv_queue h hx))
      | deliver n i => exact ih _ _ _ (flowInv_deliver ht h n i)

theorem startNodes_get (d : Dict Name (NodeExec α)) (u : Name) :
    (startNodes d).get? u = (d.get? u).map fun x => { x with phase := .starting } := by
  unfold startNodes
  induction d with
  | nil => rfl
  | cons a d ih =>
    obtain ⟨k, v⟩ := a
    simp only [List.map_cons, Dict.get?_cons]
    split
    · rfl
    · exact ih

theorem links_joined {t : Topo} (h : TopoOk t) : ∀ l ∈ t.links, ∃ e ∈ t.edges, e.joins l.1 l.2 = true := by
  intro l hl
  have hp := (links_perm h (fun x y => [(x, y), (y, x)]) (fun x y => List.Perm.swap _ _ _)).mem_iff (a := l)
  have : l ∈ t.links.flatMap fun p => [(p.1, p.2), (p.2, p.1)] := List.mem_flatMap.mpr ⟨l, hl, by simp⟩
  obtain ⟨e, he, hm⟩ := List.mem_flatMap.mp (hp.mp this)
  refine ⟨e, he, ?_⟩
  simp only [List.mem_cons, List.not_mem_nil, or_false] at hm
  rcases hm with rfl | rfl <;> simp [Edge.joins]

theorem edges_linked {t : Topo} (h : TopoOk t) : ∀ e ∈ t.edges, ∃ l ∈ t.links, e.joins l.1 l.2 = true := by
  intro e he
  have hp := (links_perm h (fun x y => [(x, y), (y, x)]) (fun x y => List.Perm.swap _ _ _)).mem_iff (a := (e.a, e.b))
  have : (e.a, e.b) ∈ t.edges.flatMap fun e => [(e.a, e.b), (e.b, e.a)] := List.mem_flatMap.mpr ⟨e, he, by simp⟩
  obtain ⟨l, hl, hm⟩ := List.mem_flatMap.mp (hp.mpr this)
  refine ⟨l, hl, ?_⟩
  simp only [List.mem_cons, Prod.mk.injEq, List.not_mem_nil, or_false] at hm
  rcases hm with ⟨h1, h2⟩ | ⟨h1, h2⟩ <;> simp [Edge.joins, h1, h2]

/-- A topology that can be simulated: no node has a name that links use for other things, and every link has a capacity
and a delay. -/
def Simulable (t : Topo) : Prop :=
  (∀ n, t.hasNode n = true → n ∉ reserved) ∧
  ∀ e ∈ t.edges, (∃ c, e.attrs.get? capacityKey = some c) ∧ ∃ d, e.attrs.get? delayKey = some d

theorem build_inv {t : Topo} (h : TopoOk t) (hs : Simulable t) :
    ∃ d, wireLinks t (glueNodes t.nodes.keys) t.links = .ok d ∧ PipeInv (α := α) t d (Wired t) := by
  obtain ⟨d, hd, hi⟩ := wireLinks_inv h hs.1 hs.2 t.links [] (glueNodes (α := α) t.nodes.keys) (links_joined h)
    (pipeInv_congr (glueNodes_inv t h.uniq) fun u f p => by simp [WiredBy])
  refine ⟨d, hd, pipeInv_congr hi fun u f p => ?_⟩
  constructor
  · rintro ⟨l, -, e, he, -, rest⟩; exact ⟨e, he, rest⟩
  · rintro ⟨e, he, rest⟩
    obtain ⟨l, hl, hj⟩ := edges_linked h e he
    exact ⟨l, by simpa using hl, e, he, hj, rest⟩

/-- The glue after a successful build. -/
theorem build_ok {t : Topo} (h : TopoOk t) (hs : Simulable t) (g : Glue α) (hg : RegMon.half ∉ g.registered) :
    ∃ d, g.build t = (⟨startNodes d, [], []⟩, none) ∧ PipeInv (α := α) t d (Wired t) := by
  obtain ⟨d, hd, hi⟩ := build_inv (α := α) h hs
  refine ⟨d, ?_, hi⟩
  have : RegMon.half ∉ g.registered ++ glueMonitors t := by
    simp only [List.mem_append, not_or]
    refine ⟨hg, ?_⟩
    intro hm
    have := List.eq_of_mem_replicate hm
    cases this
  simp [Glue.build, hd, resetMonitors, this]

theorem flowInv_build {t : Topo} (h : TopoOk t) {d : Dict Name (NodeExec α)} (hi : PipeInv t d (Wired t)) :
    FlowInv t (⟨startNodes d, [], []⟩ : Glue α) [] [] := by
  have back : ∀ u y, (startNodes d).get? u = some y → ∃ x, d.get? u = some x ∧ y = { x with phase := .starting } := by
    intro u y hy
    rw [startNodes_get] at hy
    cases hx : d.get? u with
    | none => rw [hx] at hy; cases hy
    | some x => rw [hx] at hy; cases hy; exact ⟨x, rfl, rfl⟩
  refine ⟨?_, ?_, ?_, ?_, ?_, ?_, ?_⟩
  · intro u
    rw [← hi.keys, Dict.mem_keys]
    simp only [startNodes_get]
    cases d.get? u <;> simp
  · intro u y hy f p
    obtain ⟨x, hx, rfl⟩ := back u y hy
    exact hi.pipes u x hx f p
  · intro u y hy s hs
    obtain ⟨x, hx, rfl⟩ := back u y hy
    rw [(hi.rest u x hx).2.2.1] at hs; cases hs
  · intro u y hy f hf
    obtain ⟨x, hx, rfl⟩ := back u y hy
    refine ⟨.null, ?_⟩
    simp only
    rw [hi.mons u x hx f, if_pos]
    rcases hf with hf | ⟨p, hp⟩
    · exact .inl hf
    · exact .inr ((Dict.mem_keys _ _).mpr ⟨p, (hi.pipes u x hx f p).mpr hp⟩)
  · intro u y hy s hs
    obtain ⟨x, hx, rfl⟩ := back u y hy
    rw [(hi.rest u x hx).2.1, (hi.rest u x hx).2.2.2.1] at hs; cases hs
  · intro u f p a b hw ha hb
    obtain ⟨x, hx, rfl⟩ := back u a ha
    obtain ⟨y, hy, rfl⟩ := back _ b hb
    simp [emittedOn, inFlight, arrivedAt, (hi.rest u x hx).2.2.1, (hi.rest _ y hy).2.1, (hi.rest _ y hy).2.2.2.1]
  · intro u y hy
    obtain ⟨x, hx, rfl⟩ := back u y hy
    simp [hostedOn, arrivedAt, (hi.rest u x hx).2.1, (hi.rest u x hx).2.2.1, (hi.rest u x hx).2.2.2.1]

/-! ## The properties -/

/-- C136: for every topology whose links have capacity and delay and whose nodes have no name that links use otherwise, the
simulator starts, has exactly its nodes, and an interface of a node leads to an interface of another one if and only if
they are the two ends of a link, with the capacity and delay of the link.  No packet is anywhere yet. -/
theorem sim_wiring_partial (name : List Char) (auto : Bool) (k : Int) (ops : List TopoOp)
    (hs : Simulable ((Topo.init name auto k).run ops)) :
    let t := (Topo.init name auto k).run ops
    (Glue.new (α := α) t).2 = none ∧ (Glue.new (α := α) t).1.xnode.keys = t.nodes.keys ∧
    ∀ u x, (Glue.new (α := α) t).1.xnode.get? u = some x →
      (∀ f p, x.pipes.get? f = some p ↔ Wired t u f p) ∧
      (∀ f i, x.ifs.get? f = some i ↔ t.iface? u f = some i ∧ ∃ p, Wired t u f p) ∧
      x.queue = [] ∧ x.sent = [] ∧ x.calls = [] ∧ x.blocked = false := by
  intro t
  have h : TopoOk t := topoOk_run (topoOk_init name auto k) ops
  obtain ⟨d, hd, hi⟩ := build_ok h hs (⟨[], [], []⟩ : Glue α) (by simp)
  have hn : Glue.new (α := α) t = (⟨startNodes d, [], []⟩, none) := by
    simp only [Glue.new, Glue.rebuild, Glue.stop, stopNodes]; exact hd
  rw [hn]
  refine ⟨rfl, ?_, ?_⟩
  · rw [← hi.keys]; simp [startNodes, Dict.keys, Function.comp_def]
  · intro u y hy
    rw [startNodes_get] at hy
    cases hx : d.get? u with
    | none => rw [hx] at hy; cases hy
    | some x =>
      rw [hx] at hy; cases hy
      obtain ⟨-, h2, h3, h4, h5⟩ := hi.rest u x hx
      refine ⟨hi.pipes u x hx, ?_, h2, h3, h4, h5⟩
      intro f i
      simp only
      rw [hi.ifs u x hx f]
      have := Dict.mem_keys x.pipes f
      have hp := hi.pipes u x hx f
      split
      · rename_i hm
        obtain ⟨p, hp'⟩ := this.mp hm
        exact ⟨fun e => ⟨e, p, (hp p).mp hp'⟩, fun e => e.1⟩
      · rename_i hm
        constructor
        · intro e; cases e
        · rintro ⟨-, p, hp'⟩
          exact absurd (this.mpr ⟨p, (hp p).mpr hp'⟩) hm

/-- C137: whatever is sent, received and monitored after that, in any order: the packets sent by a node on an interface are,
each once, those that have come to the other end of the link, on its interface there, and those on their way there; the
packets handed to a node as its own come to it in order, as packets of `host`; a node gets packets on no other device; and
taking a packet from the queue of a node never fails. -/
theorem sim_flow (name : List Char) (auto : Bool) (k : Int) (ops : List TopoOp)
    (hs : Simulable ((Topo.init name auto k).run ops)) (os : List (GlueOp α)) :
    let t := (Topo.init name auto k).run ops
    let g₀ := (Glue.new (α := α) t).1
    (∀ u f p x y, Wired t u f p → (g₀.ops os).xnode.get? u = some x → (g₀.ops os).xnode.get? p.dest = some y →
      (emittedOn (g₀.emitted os) u f).Perm (inFlight x p ++ arrivedAt y p.remote)) ∧
    (∀ u x, (g₀.ops os).xnode.get? u = some x → arrivedAt x hostDev = hostedOn (g₀.hosted os) u ∧
      (∀ s ∈ x.calls.map Prod.snd ++ x.queue, s.1 = hostDev ∨ ∃ p, Wired t u s.1 p) ∧ (x.idleRecv).2 = none) := by
  intro t g₀
  have h : TopoOk t := topoOk_run (topoOk_init name auto k) ops
  obtain ⟨d, hd, hi⟩ := build_ok h hs (⟨[], [], []⟩ : Glue α) (by simp)
  have hn : g₀ = ⟨startNodes d, [], []⟩ := by
    simp only [g₀, Glue.new, Glue.rebuild, Glue.stop, stopNodes]; rw [hd]
  have hf := flowInv_ops h os g₀ [] [] (hn ▸ flowInv_build h hi)
  simp only [List.nil_append] at hf
  refine ⟨hf.flow, fun u x hx => ⟨hf.host u x hx, hf.devs u x hx, idleRecv_ok x (flowInv_queue hf hx)⟩⟩

/-- Two hosts and a switch between them. -/
def simTopoOps : List TopoOp :=
  [.add .host none, .add .host none, .add .switch none,
   .addLink "h0".toList "s0".toList (.text "10 Mb/s".toList) (.text "5 ms".toList),
   .addLink "h1".toList "s0".toList (.text "1g".toList) (.float 1 2)]

def simTopo : Topo := (Topo.init [] true 1).run simTopoOps

instance (t : Topo) : Decidable (Simulable t) :=
  decidable_of_iff ((∀ n ∈ t.nodes.keys, n ∉ reserved) ∧
      ∀ e ∈ t.edges, (e.attrs.get? capacityKey).isSome ∧ (e.attrs.get? delayKey).isSome) (by
    simp only [Simulable, Option.isSome_iff_exists, Topo.hasNode, decide_eq_true_eq])

example : Simulable simTopo := by decide +kernel

example : Wired simTopo "s0".toList "eth1".toList ⟨"h1".toList, .delay (some (1, 2)), .cap (some 1000000000), "eth0".toList⟩ :=
  ⟨⟨"h1".toList, "s0".toList,
    [("h1".toList, .ifname "eth0".toList), ("s0".toList, .ifname "eth1".toList), (capacityKey, .cap (some 1000000000)),
     (delayKey, .delay (some (1, 2))), (labelKey, .label 1000000000 (1, 2))]⟩, by decide +kernel, by decide +kernel⟩

/-- Two packets are sent by `s0` on `eth1`; the second one overtakes the first one, which is still on its way. -/
example : let os : List (GlueOp Nat) := [.thread (.begin_ "s0".toList), .thread (.begin_ "h1".toList),
      .emit "s0".toList "eth1".toList 7, .emit "s0".toList "eth1".toList 8, .emit "s0".toList "eth9".toList 9,
      .host "h1".toList 5, .thread (.deliver "s0".toList 1), .thread (.recv "h1".toList)]
    let g := (Glue.new simTopo).1
    ((g.ops os).xnode.get? "h1".toList).map (fun x => (x.queue, x.calls)) =
      some ([("eth0".toList, 8)], [(.null, hostDev, 5)]) ∧
    g.emitted os = [("s0".toList, "eth1".toList, 7), ("s0".toList, "eth1".toList, 8)] := by decide +kernel

/-- C136 is false in general: after a link was added with a delay that is not understood, or none, the link is there but the
simulator does not start. -/
theorem sim_wiring_violated :
    ¬ ∀ (ops : List TopoOp), (Glue.new (α := Unit) ((Topo.init [] true 1).run ops)).2 = none := by
  intro h
  have := h [.add .host none, .add .host none, .addLink "h0".toList "h1".toList (.int 1000) .none]
  exact absurd this (by decide +kernel)

/-- C136: nor does it with a node called `delay`. -/
theorem sim_reserved_violated :
    ¬ ∀ (ops : List TopoOp),
      (∀ e ∈ ((Topo.init [] true 1).run ops).edges,
        (∃ c, e.attrs.get? capacityKey = some c) ∧ ∃ d, e.attrs.get? delayKey = some d) →
      (Glue.new (α := Unit) ((Topo.init [] true 1).run ops)).2 = none := by
  intro h
  have := h [.add .host (some "delay".toList), .add .host none,
    .addLink "delay".toList "h0".toList (.int 1000) (.float 1 2)]
    (by
      intro e he
      have : (e.attrs.get? capacityKey).isSome ∧ (e.attrs.get? delayKey).isSome := by
        revert e; decide +kernel
      exact ⟨Option.isSome_iff_exists.mp this.1, Option.isSome_iff_exists.mp this.2⟩)
  exact absurd this (by decide +kernel)

/-- C136: an interface can be cut off from the network: after a link was added twice, the first interfaces of its two ends lead
nowhere, and sending on them raises `KeyError`. -/
theorem sim_interface_unwired_violated :
    ¬ ∀ (ops : List TopoOp) (u f : Name) (i : Iface), Simulable ((Topo.init [] true 1).run ops) →
      ((Topo.init [] true 1).run ops).iface? u f = some i →
      ((Glue.new (α := Unit) ((Topo.init [] true 1).run ops)).1.emit u f ()).2 ≠ some .keyError := by
  intro h
  have := h [.add .host none, .add .host none, .addLink "h0".toList "h1".toList (.int 1000) (.float 1 2),
      .addLink "h0".toList "h1".toList (.int 1000) (.float 1 2)] "h0".toList "eth0".toList
    ⟨"eth0".toList, ⟨[0, 0, 0, 0, 0, 1]⟩, [], 1, .none⟩ (by decide +kernel) (by decide +kernel)
  exact absurd this (by decide +kernel)

/-! ## Receiving -/

/-- A round in which nothing happens: there is time left, the queue stays empty, and nobody asks the node to stop. -/
def quiet (timeout giveup : Nat) (r : RecvRound α) : Prop := (timeout = 0 ∨ r.now < giveup) ∧ r.got = none ∧ r.done = false

theorem recvLoop_spec (mons : Dict Name Mon) (timeout giveup : Nat) (stamp : Bool) (rs : List (RecvRound α)) :
    (∀ r ∈ rs, quiet timeout giveup r) ∧ NodeExec.recvLoop mons timeout giveup stamp rs = none ∨
    ∃ l r l', rs = l ++ r :: l' ∧ (∀ q ∈ l, quiet timeout giveup q) ∧ ¬ quiet timeout giveup r ∧
      NodeExec.recvLoop mons timeout giveup stamp rs = NodeExec.recvLoop mons timeout giveup stamp [r] := by
  induction rs with
  | nil => exact .inl ⟨by simp, rfl⟩
  | cons r rs ih =>
    by_cases hq : quiet timeout giveup r
    · have he : NodeExec.recvLoop mons timeout giveup stamp (r :: rs) = NodeExec.recvLoop mons timeout giveup stamp rs := by
        obtain ⟨h1, h2, h3⟩ := hq
        simp [NodeExec.recvLoop, h1, h2, h3]
      rw [he]
      rcases ih with ⟨h1, h2⟩ | ⟨l, x, l', rfl, h1, h2, h3⟩
      · exact .inl ⟨by simpa using ⟨hq, h1⟩, h2⟩
      · exact .inr ⟨r :: l, x, l', rfl, by simpa using ⟨hq, h1⟩, h2, h3⟩
    · refine .inr ⟨[], r, rs, rfl, by simp, hq, ?_⟩
      simp only [NodeExec.recvLoop]
      split
      · rename_i hc
        split
        · rfl
        · rename_i hg
          split
          · rfl
          · rename_i hd
            exact absurd ⟨hc, hg, by simpa using hd⟩ hq
      · rfl

/-- C138: as long as there is time (or the timeout is zero), the queue is empty and the node is not asked to stop,
`recv_packet` waits.  What ends it is decided in the first other round: if the time is over it raises `NoPackets`;
otherwise, a packet is returned with its device, also if the node was asked to stop, and `Shutdown` is raised only if
there is none. -/
theorem node_recv_partial (mons : Dict Name Mon) (t start : Nat) (stamp : Bool) (rs : List (RecvRound α))
    (hm : ∀ r ∈ rs, ∀ dev p, r.got = some (dev, p) → ∃ m, mons.get? dev = some m) :
    ((∀ r ∈ rs, quiet t (start + t) r) ∧ NodeExec.recvPacket mons (some t) stamp start rs = none) ∨
    ∃ l r l', rs = l ++ r :: l' ∧ (∀ q ∈ l, quiet t (start + t) q) ∧
      ((t ≠ 0 ∧ start + t ≤ r.now ∧ NodeExec.recvPacket mons (some t) stamp start rs = some (.error .noPackets)) ∨
       ((t = 0 ∨ r.now < start + t) ∧ r.got = none ∧ r.done = true ∧
          NodeExec.recvPacket mons (some t) stamp start rs = some (.error .shutdown)) ∨
       ((t = 0 ∨ r.now < start + t) ∧ ∃ dev p, r.got = some (dev, p) ∧
          NodeExec.recvPacket mons (some t) stamp start rs =
            some (.ok (if stamp then .timed dev r.now p else .plain dev p)))) := by
  simp only [NodeExec.recvPacket]
  rcases recvLoop_spec mons t (start + t) stamp rs with h | ⟨l, r, l', rfl, h1, h2, h3⟩
  · exact .inl h
  · refine .inr ⟨l, r, l', rfl, h1, ?_⟩
    rw [h3]
    simp only [NodeExec.recvLoop]
    by_cases hc : t = 0 ∨ r.now < start + t
    · rw [if_pos hc]
      cases hg : r.got with
      | none =>
        have hd : r.done = true := by
          cases hd : r.done with
          | true => rfl
          | false => exact absurd ⟨hc, hg, hd⟩ h2
        exact .inr (.inl ⟨hc, rfl, hd, by simp [hd]⟩)
      | some x =>
        obtain ⟨dev, p⟩ := x
        obtain ⟨m, hm'⟩ := hm r (by simp) dev p hg
        exact .inr (.inr ⟨hc, dev, p, rfl, by simp [hm']⟩)
    · rw [if_neg hc]
      exact .inl ⟨fun e => hc (.inl e), by omega, rfl⟩

example : NodeExec.recvPacket [(hostDev, .null), ("eth0".toList, .null)] (some 100) false 1000
    [⟨1000, none, false⟩, ⟨1050, some ("eth0".toList, 7), true⟩, ⟨1060, some (hostDev, 8), true⟩] =
    some (.ok (.plain "eth0".toList 7)) := by decide +kernel

/-- The items of a Python tuple with what was received. -/
inductive RecvItem (α : Type)
  | time (n : Nat)
  | dev (d : Name)
  | pkt (p : α)
  deriving DecidableEq

/-- The tuple `recv_packet` of a node returns, nodeexec.py 83-84. -/
def _root_.SY.NodeRecv.tuple : NodeRecv α → List (RecvItem α)
  | .timed d n p => [.dev d, .time n, .pkt p]
  | .plain d p => [.dev d, .pkt p]

/-- C138 is false as the interface documents it: what is returned is never the triple of time, port and packet. -/
theorem node_recv_tuple_violated (mons : Dict Name Mon) (t start : Nat) (stamp : Bool) (rs : List (RecvRound α)) (r : NodeRecv α)
    (_h : NodeExec.recvPacket mons (some t) stamp start rs = some (.ok r)) (n : Nat) (d : Name) (p : α) :
    r.tuple ≠ [.time n, .dev d, .pkt p] := by
  cases r <;> simp [NodeRecv.tuple]

/-- C138: without a time limit, given as `None`, nothing is ever received. -/
theorem node_recv_none_violated (mons : Dict Name Mon) (stamp : Bool) (start : Nat) (rs : List (RecvRound α)) :
    NodeExec.recvPacket mons none stamp start rs = some (.error .typeError) := rfl

/-- C138: a packet that waits in the queue is not returned if the clock has passed the limit when it is first looked at. -/
theorem node_recv_available_violated :
    ¬ ∀ (mons : Dict Name Mon) (t start : Nat) (r : RecvRound Nat) (dev : Name) (p : Nat), r.got = some (dev, p) →
      mons.get? dev = some .null → start ≤ r.now →
      ∃ x, NodeExec.recvPacket mons (some t) false start [r] = some (.ok x) := by
  intro h
  obtain ⟨x, hx⟩ := h [(hostDev, .null)] 1 0 ⟨2, some (hostDev, 7), false⟩ hostDev 7 rfl rfl (by decide)
  simp [NodeExec.recvPacket, NodeExec.recvLoop] at hx

end SY.Props
