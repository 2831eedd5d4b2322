import Verif.HeapNet
import Verif.Props.Heap

/-!
# Expectations and the packet objects they were made of

C152 (an expectation means the packet as it was when it was made), C153 (an event object can be expected
again), C154 (what is copied is what was sent).
-/

namespace SY.Props

open SY

/-! ## Objects of expectations -/

/-- Event `e` is an output expectation that waits on port `dev`. -/
def Waits (s : OScen) (e : Nat) (dev : List Char) (x : List Nat × Matcher) : Prop :=
  ∃ w sent, s.events[e]? = some (.output w sent) ∧ w.get? dev = some x

/-- Header objects of output expectations are in no packet, and in one expectation only. -/
structure Hidden (s : OScen) : Prop where
  wf : s.heap.WF
  uniq : ∀ (e : Nat) w sent, s.events[e]? = some (.output w sent) → w.Uniq
  priv : ∀ e dev x, Waits s e dev x → ∀ r ∈ x.1, r < s.heap.objs.length ∧ ∀ p, r ∉ s.heap.refs p
  apart : ∀ e e' dev dev' x y, Waits s e dev x → Waits s e' dev' y → (e, dev) ≠ (e', dev') → ∀ r ∈ x.1, r ∉ y.1

/-- Every output expectation still holds the packet it was made of. -/
def AsMade (s : OScen) : Prop := ∀ e dev x, Waits s e dev x → s.heap.vals x.1 = x.2.ref

/-- A heap step seen from the expectations: it changes no object of theirs and puts none into a packet. -/
structure Quiet (h h' : Heap) : Prop where
  len : h.objs.length ≤ h'.objs.length
  wf : h'.WF
  out : ∀ r, r < h.objs.length → (∀ p, r ∉ h.refs p) → ∀ p, r ∉ h'.refs p
  same : ∀ r, r < h.objs.length → (∀ p, r ∉ h.refs p) → h'.item r = h.item r

theorem Quiet.refl {h : Heap} (w : h.WF) : Quiet h h := ⟨Nat.le_refl _, w, fun _ _ h => h, fun _ _ _ => rfl⟩

theorem Quiet.trans {a b c : Heap} (x : Quiet a b) (y : Quiet b c) : Quiet a c :=
  ⟨Nat.le_trans x.len y.len, y.wf, fun r h1 h2 => y.out r (Nat.lt_of_lt_of_le h1 x.len) (x.out r h1 h2),
    fun r h1 h2 => (y.same r (Nat.lt_of_lt_of_le h1 x.len) (x.out r h1 h2)).trans (x.same r h1 h2)⟩

theorem Frame.quiet {h h' : Heap} {us : List Nat} (f : Frame h h' us) : Quiet h h' := by
  refine ⟨f.objs_len, f.wf, ?_, fun r h1 h2 => f.same r h1 fun q _ => h2 q⟩
  intro r h1 h2 p hp
  by_cases ht : p ∈ us ∨ h.pkts.length ≤ p
  · rcases f.source p ht r hp with ⟨q, _, h3⟩ | h3
    · exact h2 q h3
    · omega
  · rw [f.kept p (by omega) (fun x => ht (Or.inl x))] at hp
    exact h2 p hp

theorem vals_same {h h' : Heap} {rs : List Nat} (hs : ∀ r ∈ rs, h'.item r = h.item r) : h'.vals rs = h.vals rs :=
  List.map_congr_left hs

/-- The expectations stay as they are in a quiet step in which their events stay. -/
theorem Hidden.step {s s' : OScen} (i : Hidden s) (q : Quiet s.heap s'.heap)
    (hu : ∀ (e : Nat) w sent, s'.events[e]? = some (.output w sent) → w.Uniq)
    (he : ∀ e dev x, Waits s' e dev x → Waits s e dev x) : Hidden s' := by
  refine ⟨q.wf, hu, ?_, ?_⟩
  · intro e dev x hx r hr
    obtain ⟨h1, h2⟩ := i.priv e dev x (he _ _ _ hx) r hr
    exact ⟨Nat.lt_of_lt_of_le h1 q.len, q.out r h1 h2⟩
  · intro e e' dev dev' x y hx hy
    exact i.apart e e' dev dev' x y (he _ _ _ hx) (he _ _ _ hy)

theorem AsMade.step {s s' : OScen} (i : Hidden s) (a : AsMade s) (q : Quiet s.heap s'.heap)
    (he : ∀ e dev x, Waits s' e dev x → Waits s e dev x) : AsMade s' := by
  intro e dev x hx
  rw [← a e dev x (he _ _ _ hx)]
  refine vals_same fun r hr => ?_
  obtain ⟨h1, h2⟩ := i.priv e dev x (he _ _ _ hx) r hr
  exact q.same r h1 h2

/-! ### Packets are serialised, made, changed -/

theorem toBytes_frame {h : Heap} (w : h.WF) (p : Nat) : Frame h (h.toBytes p).1 [p] := exec_frame h w (.ser p)

theorem make_frame {h : Heap} (w : h.WF) (v : Packet) : Frame h ((h.make v).1.newPkt (h.make v).2) [] := by
  refine frame_newPkt w (make_grown h v) ?_
  intro r hr
  simp only [Heap.make, List.mem_range'] at hr
  obtain ⟨i, h1, h2⟩ := hr
  subst h2
  exact ⟨by simp [Heap.make]; omega, Or.inr (by omega)⟩

theorem setattr_frame {h h' : Heap} (w : h.WF) {p : Nat} {c : Cls} {a : HdrAttr} {v : PyVal}
    (e : h.setattr p c a v = .ok h') : Frame h h' [p] := by
  unfold Heap.setattr at e
  split at e
  · cases e
  · rename_i r hr
    obtain ⟨x, _, h2⟩ := bind_eq_ok.mp e
    cases h2
    have hm := List.mem_of_find?_eq_some hr
    refine Touched.frame w ⟨rfl, by simp [Heap.setObj], ?_⟩
    intro t ht
    rw [item_setObj, if_neg]
    rintro ⟨rfl, _⟩
    exact ht p (by simp) hm

theorem setattr_pkts {h h' : Heap} {p : Nat} {c : Cls} {a : HdrAttr} {v : PyVal} (e : h.setattr p c a v = .ok h') :
    h'.pkts = h.pkts := by
  unfold Heap.setattr at e
  split at e
  · cases e
  · obtain ⟨x, _, h2⟩ := bind_eq_ok.mp e
    cases h2
    rfl

/-- The copies change only the packet. -/
theorem applyCopies_frame (p : Nat) (cs : List Copy) : ∀ s : OScen, s.heap.WF →
    Frame s.heap (s.applyCopies p cs).1.heap [p] ∧ (s.applyCopies p cs).1.events = s.events ∧
      (s.applyCopies p cs).1.pending = s.pending ∧ (s.applyCopies p cs).1.last = s.last ∧
      (s.applyCopies p cs).1.heap.pkts = s.heap.pkts := by
  induction cs with
  | nil => intro s w; exact ⟨Frame.refl w _, rfl, rfl, rfl, rfl⟩
  | cons c cs ih =>
    intro s w
    unfold OScen.applyCopies
    split
    · exact ⟨Frame.refl w _, rfl, rfl, rfl, rfl⟩
    · rename_i h he
      obtain ⟨v, _, h2⟩ := bind_eq_ok.mp he
      have f := setattr_frame w h2
      obtain ⟨f', h3, h4, h5, h6⟩ := ih { s with heap := h } f.wf
      refine ⟨f.trans f' (by simp), h3, h4, h5, h6.trans (setattr_pkts h2)⟩

/-! ### A new output expectation -/

/-- What the loop of `PacketOutputEvent` has made so far: `d` with copies in `h`, from packets in `h0`. -/
structure Made (h0 h : Heap) (d : Dict (List Char) (List Nat × Matcher)) : Prop where
  grown : Grown h0 h
  uniq : d.Uniq
  fresh : ∀ dev x, d.get? dev = some x → ∀ r ∈ x.1, h0.objs.length ≤ r ∧ r < h.objs.length
  apart : ∀ dev dev' x y, d.get? dev = some x → d.get? dev' = some y → dev ≠ dev' → ∀ r ∈ x.1, r ∉ y.1
  made : ∀ dev x, d.get? dev = some x → h.vals x.1 = x.2.ref

theorem mkWaitingO_made {exact : Bool} {wild : List (Cls × HdrAttr)} {preds : List (Packet → Res Bool)} {h0 : Heap} (w : h0.WF)
    (args : List (List Char × Nat)) : ∀ {h h' : Heap} {d d' : Dict (List Char) (List Nat × Matcher)}, Made h0 h d →
    mkWaitingO exact wild preds h d args = .ok (h', d') → Made h0 h' d' ∧
      ((∀ a ∈ args, (h0.refs a.2).Nodup) → (∀ dev x, d.get? dev = some x → x.1.Nodup) →
        ∀ dev x, d'.get? dev = some x → x.1.Nodup) ∧
      ∀ dm, (∀ dev, dm.get? dev = (d.get? dev).map Prod.snd) → ∃ dm',
        mkWaiting exact wild preds dm (args.map fun a => (a.1, h0.view a.2)) = .ok dm' ∧
        ∀ dev, dm'.get? dev = (d'.get? dev).map Prod.snd := by
  induction args with
  | nil =>
    intro h h' d d' m e
    cases e
    exact ⟨m, fun _ h => h, fun dm hd => ⟨dm, rfl, hd⟩⟩
  | cons a args ih =>
    intro h h' d d' m e
    obtain ⟨dev, p⟩ := a
    unfold mkWaitingO at e
    obtain ⟨mm, h1, h2⟩ := bind_eq_ok.mp e
    have hrp : h.refs p = h0.refs p := m.grown.refs p
    have hrl : ∀ r ∈ h0.refs p, r < h.objs.length := fun r hr => Nat.lt_of_lt_of_le (w p r hr) m.grown.len
    have hvp : h.view p = h0.view p := by
      unfold Heap.view
      rw [hrp]
      exact vals_grown m.grown (w p)
    obtain ⟨g, fr⟩ := copyRefs_sound (us := []) (rs := h.refs p) (Grown.refl h) (memo := []) (by simp)
    have href : mm.ref = h.view p := by
      unfold Matcher.new at h1
      obtain ⟨_, _, h3⟩ := bind_eq_ok.mp h1
      obtain ⟨_, _, h4⟩ := bind_eq_ok.mp h3
      cases h4
      rfl
    have m' : Made h0 (h.copyRefs [] (h.refs p)).1 (d.set dev ((h.copyRefs [] (h.refs p)).2, mm)) := by
      refine ⟨m.grown.trans g, Dict.uniq_set m.uniq _ _, ?_, ?_, ?_⟩
      · intro dv x hx r hr
        rw [Dict.get?_set] at hx
        split at hx
        · cases hx
          exact ⟨Nat.le_trans m.grown.len (fr r hr).1, (fr r hr).2⟩
        · obtain ⟨q1, q2⟩ := m.fresh dv x hx r hr
          exact ⟨q1, Nat.lt_of_lt_of_le q2 g.len⟩
      · intro d1 d2 x y hx hy hne r hr hr'
        rw [Dict.get?_set] at hx hy
        split at hx
        · split at hy
          · exact hne (by simp_all)
          · cases hx
            have := (fr r hr).1
            have := (m.fresh d2 y hy r hr').2
            omega
        · split at hy
          · cases hy
            have := (fr r hr').1
            have := (m.fresh d1 x hx r hr).2
            omega
          · exact m.apart d1 d2 x y hx hy hne r hr hr'
      · intro dv x hx
        rw [Dict.get?_set] at hx
        split at hx
        · cases hx
          rw [href]
          exact copyRefs_vals (fun r hr => hrl r (by rw [← hrp]; exact hr)) (by simp)
        · rw [← m.made dv x hx]
          exact vals_grown g fun r hr => (m.fresh dv x hx r hr).2
    obtain ⟨c1, c2, c3⟩ := ih m' h2
    refine ⟨c1, ?_, ?_⟩
    · intro hn hd
      refine c2 (fun a ha => hn a (List.mem_cons_of_mem _ ha)) ?_
      intro dv x hx
      rw [Dict.get?_set] at hx
      split at hx
      · cases hx
        exact (copyRefs_nodup (h := h) (memo := []) (rs := h.refs p) (by rw [hrp]; exact hn (dev, p) (by simp)) (by simp)).1
      · exact hd dv x hx
    · intro dm hd
      obtain ⟨dm', q1, q2⟩ := c3 (dm.set dev mm) (by
        intro dv
        rw [Dict.get?_set, Dict.get?_set, hd]
        split <;> rfl)
      refine ⟨dm', ?_, q2⟩
      rw [hvp] at h1
      simp only [List.map_cons, mkWaiting, h1, bind_ok]
      exact q1

/-! ### Receiving -/

theorem toBytes_pkts (h : Heap) (p : Nat) (w : h.WF) : (h.toBytes p).1.pkts.length = h.pkts.length := by
  have t := serLoop_touched (us := [p]) (rs := h.refs p) (h.refs p).length h h [] ⟨rfl, rfl, fun _ _ => rfl⟩
    (fun r hr => ⟨p, by simp, hr⟩)
  have _ := w
  show (Heap.serLoop (h.refs p) (h.refs p).length h []).1.pkts.length = _
  rw [t.pkts]

/-- What receiving does with the objects: only the packet of the event is changed, the packet delivered is new. -/
theorem generate_frame (s : OScen) (w : s.heap.WF) (e : Nat) (dev : List Char) (p : Nat) (first : Option Cls) (cs : List Copy) :
    Frame s.heap (s.generate e dev p first cs).1.heap [p] ∧
      ((s.generate e dev p first cs).1.events = s.events ∨
        (s.generate e dev p first cs).1.events = s.events.set e (.input dev s.heap.pkts.length first cs)) ∧
      (s.generate e dev p first cs).1.pending = s.pending ∧ (s.generate e dev p first cs).1.last = s.last := by
  have f1 := toBytes_frame w p
  have hl := toBytes_pkts s.heap p w
  unfold OScen.generate
  split
  · rename_i h x he
    rw [he] at f1
    exact ⟨f1, Or.inl rfl, rfl, rfl⟩
  · rename_i h b he
    rw [he] at f1 hl
    simp only at f1 hl
    split
    · exact ⟨f1, Or.inl rfl, rfl, rfl⟩
    · rename_i q hq
      have f2 := make_frame f1.wf q
      have f12 := f1.trans f2 (by simp)
      unfold OScen.handOver
      split
      · obtain ⟨f3, h3, h4, h5, _⟩ := applyCopies_frame h.pkts.length cs
          { s with heap := (h.make q).1.newPkt (h.make q).2, events := s.events.set e (.input dev h.pkts.length first cs) } f2.wf
        have f123 := f12.trans f3 (by simp [hl])
        split
        · rename_i s' he'
          rw [he'] at f123 h3 h4 h5
          exact ⟨f123, Or.inr (by rw [h3, hl]), h4, h5⟩
        · rename_i s' x he'
          rw [he'] at f123 h3 h4 h5
          exact ⟨f123, Or.inr (by rw [h3, hl]), h4, h5⟩
      · exact ⟨f12, Or.inr (by rw [hl]), rfl, rfl⟩

/-! ### Sending -/

/-- Serialising changes only the objects of the list. -/
theorem serLoop_only {rs : List Nat} : ∀ (n : Nat) (h : Heap) (rl : List Bytes),
    (Heap.serLoop rs n h rl).1.pkts = h.pkts ∧ (Heap.serLoop rs n h rl).1.objs.length = h.objs.length ∧
      ∀ r, r ∉ rs → (Heap.serLoop rs n h rl).1.item r = h.item r := by
  intro n
  induction n with
  | zero => intro h rl; exact ⟨rfl, rfl, fun _ _ => rfl⟩
  | succ n ih =>
    intro h rl
    unfold Heap.serLoop
    split
    · exact ⟨rfl, rfl, fun _ _ => rfl⟩
    · rename_i r hr
      have hm : r ∈ rs := listIndex_mem hr
      have hs : ∀ x t, t ∉ rs → (h.setObj r x).item t = h.item t := by
        intro x t ht
        rw [item_setObj, if_neg]
        rintro ⟨rfl, _⟩
        exact ht hm
      split
      · exact ⟨rfl, rfl, fun _ _ => rfl⟩
      · rename_i it' _
        split
        · exact ⟨rfl, by simp [Heap.setObj], hs it'⟩
        · rename_i b _
          obtain ⟨a, c, d⟩ := ih (h.setObj r it') (b :: rl)
          exact ⟨a, by rw [c]; simp [Heap.setObj], fun t ht => by rw [d t ht, hs it' t ht]⟩

theorem toBytes2_frame {h : Heap} (w : h.WF) (p : Nat) (k : List Nat) :
    ∃ h1, Frame h h1 [p] ∧ (h.toBytes2 p k).1.pkts = h1.pkts ∧ (h.toBytes2 p k).1.objs.length = h1.objs.length ∧
      ∀ r, r ∉ k → (h.toBytes2 p k).1.item r = h1.item r := by
  have f := toBytes_frame w p
  unfold Heap.toBytes2
  split
  · rename_i h1 x he
    rw [he] at f
    exact ⟨h1, f, rfl, rfl, fun _ _ => rfl⟩
  · rename_i h1 b he
    rw [he] at f
    obtain ⟨a, c, d⟩ := serLoop_only (rs := k) k.length h1 []
    exact ⟨h1, f, a, c, d⟩

/-- What sending does with the objects: it changes the packet sent and, if something is expected on the port, the copy in
the expectation; it goes on only if it shows nothing, and then the port is not expected any more. -/
theorem send_frame (s : OScen) (w : s.heap.WF) (dev : List Char) (p : Nat) :
    (s.send dev p).1 = s ∧ (s.send dev p).2 = .error .testFailure ∨
    ∃ e es w sent k m h, s.pending = e :: es ∧ s.events[e]? = some (.output w sent) ∧ w.get? dev = some (k, m) ∧
      (s.heap.toBytes2 p k).1 = h ∧
      ((s.send dev p).1 = { s with heap := h } ∧ (s.send dev p).2 ≠ .ok .nothing ∨
        (s.send dev p).1 = OScen.accept { s with heap := h } e es w sent dev p ∧ (s.send dev p).2 = .ok .nothing) := by
  unfold OScen.send
  split
  · exact Or.inl ⟨rfl, rfl⟩
  · rename_i e es hp
    split
    · rename_i wt sent he
      split
      · exact Or.inl ⟨rfl, rfl⟩
      · rename_i k m hk
        refine Or.inr ⟨e, es, wt, sent, k, m, _, hp, he, hk, rfl, ?_⟩
        split
        · rename_i h x h2
          exact Or.inl ⟨by rw [h2], by simp⟩
        · rename_i h x h2
          split
          · exact Or.inl ⟨by rw [h2], by simp⟩
          · exact Or.inl ⟨by rw [h2], by simp⟩
          · exact Or.inr ⟨by rw [h2], rfl⟩
    · exact Or.inl ⟨rfl, rfl⟩

theorem accept_heap (s : OScen) (e : Nat) (es : List Nat) (w : Dict (List Char) (List Nat × Matcher)) (sent : Dict (List Char) Nat)
    (dev : List Char) (p : Nat) : (s.accept e es w sent dev p).heap = s.heap ∧
      (s.accept e es w sent dev p).events = s.events.set e (.output (w.erase dev) (sent.set dev p)) := by
  unfold OScen.accept
  split
  · rename_i h
    rw [h]
    exact ⟨rfl, rfl⟩
  · exact ⟨rfl, rfl⟩

/-! ### Every statement -/

/-- Whatever is done, the objects of output expectations stay hidden; unless a packet was refused they stay as made, and no
expectation made before waits for anything new. -/
theorem step_hidden {s : OScen} (i : Hidden s) (o : OStmt) : Hidden (o.exec s).1 ∧
    (AsMade s → (∀ dev p, o = .send dev p → (o.exec s).2 = .ok .nothing) → AsMade (o.exec s).1) ∧
    (∀ e dev x, e < s.events.length → Waits (o.exec s).1 e dev x → Waits s e dev x) ∧
    s.events.length ≤ (o.exec s).1.events.length := by
  -- statements after which the same expectations wait
  have gen : ∀ s' : OScen, Quiet s.heap s'.heap → s.events.length ≤ s'.events.length →
      (∀ (e : Nat) w sent, s'.events[e]? = some (.output w sent) → w.Uniq) →
      (∀ e dev x, Waits s' e dev x → Waits s e dev x) → Hidden s' ∧ (AsMade s → AsMade s') ∧
      (∀ e dev x, e < s.events.length → Waits s' e dev x → Waits s e dev x) ∧ s.events.length ≤ s'.events.length :=
    fun s' q hl hu hw => ⟨i.step q hu hw, fun a => a.step i q hw, fun e dev x _ h => hw e dev x h, hl⟩
  have snoc : ∀ (v : OEvent) (e : Nat) w sent, (s.events ++ [v])[e]? = some (.output w sent) →
      s.events[e]? = some (.output w sent) ∨ e = s.events.length ∧ v = .output w sent := by
    intro v e w sent h
    rw [List.getElem?_append] at h
    split at h
    · exact Or.inl h
    · rename_i hlt
      right
      rcases hk : e - s.events.length with _ | k
      · rw [hk] at h
        simp at h
        exact ⟨by omega, h⟩
      · rw [hk] at h
        simp at h
  cases o with
  | pkt o =>
    obtain ⟨a, b, c, d⟩ := gen { s with heap := (o.exec s.heap).1 } (exec_frame s.heap i.wf o).quiet (Nat.le_refl _) i.uniq
      (fun _ _ _ h => h)
    exact ⟨a, fun h _ => b h, c, d⟩
  | mkTimeout =>
    obtain ⟨a, b, c, d⟩ := gen { s with events := s.events ++ [.timeout] } (Quiet.refl i.wf) (by simp)
      (fun e w sent h => by
        rcases snoc _ _ _ _ h with h | ⟨_, h⟩
        · exact i.uniq _ _ _ h
        · cases h)
      (fun e dev x h => by
        obtain ⟨w, sent, h1, h2⟩ := h
        rcases snoc _ _ _ _ h1 with h | ⟨_, h⟩
        · exact ⟨w, sent, h, h2⟩
        · cases h)
    exact ⟨a, fun h _ => b h, c, d⟩
  | mkInput dev p cs =>
    obtain ⟨a, b, c, d⟩ := gen { s with events := s.events ++ [.input dev p (firstCls (s.heap.view p)) cs] } (Quiet.refl i.wf) (by simp)
      (fun e w sent h => by
        rcases snoc _ _ _ _ h with h | ⟨_, h⟩
        · exact i.uniq _ _ _ h
        · cases h)
      (fun e dev x h => by
        obtain ⟨w, sent, h1, h2⟩ := h
        rcases snoc _ _ _ _ h1 with h | ⟨_, h⟩
        · exact ⟨w, sent, h, h2⟩
        · cases h)
    exact ⟨a, fun h _ => b h, c, d⟩
  | expect e =>
    obtain ⟨a, b, c, d⟩ := gen { s with pending := s.pending ++ [e] } (Quiet.refl i.wf) (Nat.le_refl _) i.uniq (fun _ _ _ h => h)
    exact ⟨a, fun h _ => b h, c, d⟩
  | mkOutput args exact wild preds =>
    simp only [OStmt.exec]
    split
    · exact ⟨i, fun h _ => h, fun _ _ _ _ h => h, Nat.le_refl _⟩
    split
    · exact ⟨i, fun h _ => h, fun _ _ _ _ h => h, Nat.le_refl _⟩
    · rename_i h w hw
      obtain ⟨m, _, _⟩ := mkWaitingO_made i.wf args ⟨Grown.refl _, by simp [Dict.Uniq, Dict.keys], by simp, by simp, by simp⟩ hw
      have hold : ∀ e dev x, Waits { s with heap := h, events := s.events ++ [.output w []] } e dev x →
          Waits s e dev x ∨ e = s.events.length ∧ w.get? dev = some x := by
        rintro e dev x ⟨w', sent, h1, h2⟩
        rcases snoc _ _ _ _ h1 with h | ⟨h, h'⟩
        · exact Or.inl ⟨w', sent, h, h2⟩
        · cases h'
          exact Or.inr ⟨h, h2⟩
      have hrefs : ∀ p, h.refs p = s.heap.refs p := m.grown.refs
      refine ⟨⟨?_, ?_, ?_, ?_⟩, ?_, ?_, by simp⟩
      · intro p r hr
        rw [hrefs] at hr
        exact Nat.lt_of_lt_of_le (i.wf p r hr) m.grown.len
      · intro e w' sent h1
        rcases snoc _ _ _ _ h1 with h | ⟨_, h'⟩
        · exact i.uniq _ _ _ h
        · cases h'
          exact m.uniq
      · intro e dev x hx r hr
        rcases hold e dev x hx with hx | ⟨_, hx⟩
        · obtain ⟨h1, h2⟩ := i.priv e dev x hx r hr
          exact ⟨Nat.lt_of_lt_of_le h1 m.grown.len, fun p => by rw [hrefs]; exact h2 p⟩
        · obtain ⟨h1, h2⟩ := m.fresh dev x hx r hr
          refine ⟨h2, fun p hp => ?_⟩
          rw [hrefs] at hp
          have := i.wf p r hp
          omega
      · intro e e' dev dev' x y hx hy hne r hr hr'
        rcases hold e dev x hx with hx | ⟨h1, hx⟩
        · rcases hold e' dev' y hy with hy | ⟨h2, hy⟩
          · exact i.apart e e' dev dev' x y hx hy hne r hr hr'
          · have := (i.priv e dev x hx r hr).1
            have := (m.fresh dev' y hy r hr').1
            omega
        · rcases hold e' dev' y hy with hy | ⟨h2, hy⟩
          · have := (i.priv e' dev' y hy r hr').1
            have := (m.fresh dev x hx r hr).1
            omega
          · exact m.apart dev dev' x y hx hy (fun hd => hne (by rw [h1, h2, hd])) r hr hr'
      · intro a _ e dev x hx
        rcases hold e dev x hx with hx | ⟨_, hx⟩
        · rw [← a e dev x hx]
          exact vals_grown m.grown fun r hr => (i.priv e dev x hx r hr).1
        · exact m.made dev x hx
      · intro e dev x he hx
        rcases hold e dev x hx with hx | ⟨h1, _⟩
        · exact hx
        · omega
  | recv =>
    simp only [OStmt.exec, OScen.recv]
    split
    · exact ⟨i, fun h _ => h, fun _ _ _ _ h => h, Nat.le_refl _⟩
    rename_i e es hp
    split
    · obtain ⟨a, b, c, d⟩ := gen { s with pending := es } (Quiet.refl i.wf) (Nat.le_refl _) i.uniq (fun _ _ _ h => h)
      exact ⟨a, fun h _ => b h, c, d⟩
    · rename_i dev p first cs he
      obtain ⟨f, h1, _, _⟩ := generate_frame { s with pending := es } i.wf e dev p first cs
      have hev : ∀ (k : Nat) w sent, (OScen.generate { s with pending := es } e dev p first cs).1.events[k]? = some (.output w sent) →
          s.events[k]? = some (.output w sent) := by
        intro k w sent hk
        rcases h1 with h1 | h1
        · rw [h1] at hk
          exact hk
        · rw [h1, List.getElem?_set] at hk
          split at hk
          · split at hk
            · cases hk
            · cases hk
          · exact hk
      obtain ⟨a, b, c, d⟩ := gen _ f.quiet (by rcases h1 with h1 | h1 <;> rw [h1] <;> simp) (fun k w sent hk => i.uniq k w sent (hev k w sent hk))
        (fun k dv x hx => by
          obtain ⟨w, sent, g1, g2⟩ := hx
          exact ⟨w, sent, hev _ _ _ g1, g2⟩)
      exact ⟨a, fun h _ => b h, c, d⟩
    · exact ⟨i, fun h _ => h, fun _ _ _ _ h => h, Nat.le_refl _⟩
  | send dev p =>
    simp only [OStmt.exec]
    rcases send_frame s i.wf dev p with ⟨h1, h2⟩ | ⟨e, es, w, sent, k, m, h, hp, he, hk, hh, hr⟩
    · rw [h1, h2]
      exact ⟨i, fun h _ => h, fun _ _ _ _ h => h, Nat.le_refl _⟩
    obtain ⟨h1, f, g1, g2, g3⟩ := toBytes2_frame i.wf p k
    rw [hh] at g1 g2 g3
    have q := f.quiet
    have hk' : Waits s e dev (k, m) := ⟨w, sent, he, hk⟩
    have hrefs : ∀ x, h.refs x = h1.refs x := fun x => by rw [Heap.refs, Heap.refs, g1]
    have hwf : h.WF := fun x r hr => by rw [g2]; rw [hrefs] at hr; exact q.wf x r hr
    have hpriv : ∀ e dev x, Waits s e dev x → ∀ r ∈ x.1, r < h.objs.length ∧ ∀ p, r ∉ h.refs p := by
      intro e dev x hx r hr
      obtain ⟨a, b⟩ := i.priv e dev x hx r hr
      exact ⟨by rw [g2]; exact Nat.lt_of_lt_of_le a q.len, fun p => by rw [hrefs]; exact q.out r a b p⟩
    rcases hr with ⟨h2, h3⟩ | ⟨h2, h3⟩
    · rw [h2]
      exact ⟨⟨hwf, i.uniq, hpriv, i.apart⟩, fun _ hs => absurd (hs dev p rfl) h3, fun _ _ _ _ h => h, Nat.le_refl _⟩
    · rw [h2]
      obtain ⟨c1, c2⟩ := accept_heap { s with heap := h } e es w sent dev p
      generalize hs' : OScen.accept { s with heap := h } e es w sent dev p = s' at c1 c2
      simp only at c1 c2
      have hw : ∀ e' dev' x, Waits s' e' dev' x → Waits s e' dev' x ∧ (e', dev') ≠ (e, dev) := by
        rintro e' dev' x ⟨w', sent', d1, d2⟩
        rw [c2, List.getElem?_set] at d1
        split at d1
        · rename_i heq
          subst heq
          split at d1
          · cases d1
            rw [Dict.get?_erase (i.uniq _ _ _ he)] at d2
            split at d2
            · cases d2
            · rename_i hne
              exact ⟨⟨w, sent, he, d2⟩, fun hd => hne (by cases hd; rfl)⟩
          · cases d1
        · rename_i hne
          exact ⟨⟨w', sent', d1, d2⟩, fun hd => hne (by cases hd; rfl)⟩
      refine ⟨⟨by rw [c1]; exact hwf, ?_, ?_, ?_⟩, ?_, fun e dev x _ hx => (hw e dev x hx).1, by rw [c2]; simp⟩
      · intro e' w' sent' d1
        rw [c2, List.getElem?_set] at d1
        split at d1
        · split at d1
          · cases d1
            exact Dict.uniq_erase (i.uniq _ _ _ he) _
          · cases d1
        · exact i.uniq _ _ _ d1
      · intro e' dev' x hx
        rw [c1]
        exact hpriv e' dev' x (hw _ _ _ hx).1
      · intro e1 e2 d1 d2 x y hx hy
        exact i.apart e1 e2 d1 d2 x y (hw _ _ _ hx).1 (hw _ _ _ hy).1
      · intro a _ e' dev' x hx
        obtain ⟨hx1, hx2⟩ := hw _ _ _ hx
        rw [c1, ← a e' dev' x hx1]
        refine vals_same fun r hr => ?_
        rw [g3 r (i.apart e' e dev' dev x (k, m) hx1 hk' hx2 r hr)]
        obtain ⟨a, b⟩ := i.priv e' dev' x hx1 r hr
        exact q.same r a b

/-! ## Output expectations -/

/-- Before anything was done, in a scenario with these interfaces. -/
def start (ifaces : List (List Char)) : OScen := ⟨⟨[], []⟩, [], [], none, ifaces⟩

theorem start_hidden (ifaces : List (List Char)) : Hidden (start ifaces) ∧ AsMade (start ifaces) := by
  have hn : ∀ e dev x, ¬ Waits (start ifaces) e dev x := by
    rintro e dev x ⟨w, sent, h1, _⟩
    simp [start] at h1
  refine ⟨⟨?_, ?_, ?_, ?_⟩, fun e dev x h => absurd h (hn e dev x)⟩
  · intro p r hr
    simp [start, Heap.refs] at hr
  · intro e w sent h
    simp [start] at h
  · intro e dev x h
    exact absurd h (hn e dev x)
  · intro e e' dev dev' x y h
    exact absurd h (hn e dev x)

/-- No packet that was sent is refused. -/
def NoneRefused : OScen → List OStmt → Prop
  | _, [] => True
  | s, o :: os => (∀ dev p, o = .send dev p → (o.exec s).2 = .ok .nothing) ∧ NoneRefused (o.exec s).1 os

theorem all_hidden (os : List OStmt) : ∀ s : OScen, Hidden s → Hidden (oexecAll s os).1 ∧
    (AsMade s → NoneRefused s os → AsMade (oexecAll s os).1) ∧
    (∀ e dev x, e < s.events.length → Waits (oexecAll s os).1 e dev x → Waits s e dev x) ∧
    s.events.length ≤ (oexecAll s os).1.events.length := by
  induction os with
  | nil => intro s i; exact ⟨i, fun a _ => a, fun _ _ _ _ h => h, Nat.le_refl _⟩
  | cons o os ih =>
    intro s i
    obtain ⟨a1, a2, a3, a4⟩ := step_hidden i o
    obtain ⟨b1, b2, b3, b4⟩ := ih _ a1
    exact ⟨b1, fun a n => b2 (a2 a n.1) n.2, fun e dev x he h => a3 e dev x he (b3 e dev x (by omega) h), Nat.le_trans a4 b4⟩

theorem oexecAll_append (os os' : List OStmt) : ∀ s : OScen, (oexecAll s (os ++ os')).1 = (oexecAll (oexecAll s os).1 os').1 := by
  induction os with
  | nil => intro s; rfl
  | cons o os ih => intro s; exact ih _

theorem noneRefused_append (os os' : List OStmt) : ∀ s : OScen, NoneRefused s (os ++ os') →
    NoneRefused s os ∧ NoneRefused (oexecAll s os).1 os' := by
  induction os with
  | nil => intro s h; exact ⟨trivial, h⟩
  | cons o os ih => intro s h; exact ⟨⟨h.1, (ih _ h.2).1⟩, (ih _ h.2).2⟩

/-- Serialising a packet in which no header object is twice is serialising its value. -/
theorem toBytes_value {h : Heap} (w : h.WF) {p : Nat} (hn : (h.refs p).Nodup) :
    (h.toBytes p).1.view p = (h.view p).toBytes.1 ∧ (h.toBytes p).2 = (h.view p).toBytes.2 := by
  obtain ⟨a, b⟩ := serLoop_vals hn (h.refs p).length h [] (Nat.le_refl _) (w p)
  have t := serLoop_touched (us := [p]) (rs := h.refs p) (h.refs p).length h h [] ⟨rfl, rfl, fun _ _ => rfl⟩
    (fun r hr => ⟨p, by simp, hr⟩)
  have hr : (h.toBytes p).1.refs p = h.refs p :=
    congrArg (fun l => l.getD p []) t.pkts
  constructor
  · unfold Heap.view
    rw [hr]
    show (Heap.serLoop _ _ _ _).1.vals _ = _
    rw [a]
    simp [Packet.toBytes, Heap.vals]
  · show List.flatten <$> _ = List.flatten <$> _
    rw [b]
    simp [Heap.view, Heap.vals]

/-- What `send_packet` does when the comparison gives this. -/
def outcome : Res Bool → Res OShown
  | .ok true => .ok .nothing
  | .ok false => .error .testFailure
  | .error x => .error x

/-- **C152** (output expectations): make an output expectation of packets as they look at some moment.  Whatever the
author and the program do before and afterwards, as long as no packet was refused, a packet is accepted if and only
if it matches the packet as it was at that moment: the comparison is that of the value
model (`Verif/Matcher.lean`) with an expectation made of the values. -/
theorem output_as_given (ifaces : List (List Char)) (os1 os2 : List OStmt) (args : List (List Char × Nat)) (exact : Bool)
    (wild : List (Cls × HdrAttr)) (preds : List (Packet → Res Bool))
    (hr : NoneRefused (start ifaces) (os1 ++ .mkOutput args exact wild preds :: os2))
    (s1 s2 : OScen) (h1 : s1 = (oexecAll (start ifaces) os1).1)
    (h2 : s2 = (oexecAll (start ifaces) (os1 ++ .mkOutput args exact wild preds :: os2)).1)
    (hok : ((OStmt.mkOutput args exact wild preds).exec s1).2 = .ok .nothing)
    (hn : ∀ a ∈ args, (s1.heap.refs a.2).Nodup)
    (es : List Nat) (hp : s2.pending = s1.events.length :: es)
    (dev : List Char) (x : List Nat × Matcher) (hw : Waits s2 s1.events.length dev x)
    (q : Nat) (hq : (s2.heap.refs q).Nodup) :
    ∃ d m, Event.mkOutput (args.map fun a => (a.1, s1.heap.view a.2)) false exact wild preds = .ok (.output d []) ∧
      d.get? dev = some m ∧ (s2.send dev q).2 = outcome (m.matchPkt (s2.heap.view q)).2.2 := by
  obtain ⟨i0, a0⟩ := start_hidden ifaces
  obtain ⟨n1, n2⟩ := noneRefused_append _ _ _ hr
  obtain ⟨i1, b1, _, _⟩ := all_hidden os1 _ i0
  rw [← h1] at i1 b1 n2
  obtain ⟨i2, c2, _, _⟩ := step_hidden i1 (.mkOutput args exact wild preds)
  have a2 := c2 (b1 a0 n1) n2.1
  obtain ⟨i3, d2, d3, _⟩ := all_hidden os2 _ i2
  have a3 := d2 a2 n2.2
  rw [oexecAll_append, ← h1] at h2
  rw [show s2 = (oexecAll ((OStmt.mkOutput args exact wild preds).exec s1).1 os2).1 from h2] at *
  clear h2
  generalize hs2 : (oexecAll ((OStmt.mkOutput args exact wild preds).exec s1).1 os2).1 = s2 at *
  -- the expectation when it was made
  simp only [OStmt.exec] at hok d3
  split at hok
  · cases hok
  rename_i hne
  split at hok
  · cases hok
  rename_i hh w hmk
  rw [if_neg hne, hmk] at d3
  simp only at d3
  have hw1 := d3 _ dev x (by simp) hw
  obtain ⟨w', sent', e1, e2⟩ := hw1
  simp at e1
  obtain ⟨e1, rfl⟩ := e1
  subst e1
  obtain ⟨_, m2, m3⟩ := mkWaitingO_made i1.wf args ⟨Grown.refl _, by simp [Dict.Uniq, Dict.keys], by simp, by simp, by simp⟩ hmk
  have hnx : x.1.Nodup := m2 hn (by simp) dev x e2
  obtain ⟨d, f1, f2⟩ := m3 [] (by simp)
  refine ⟨d, x.2, ?_, by rw [f2, e2]; rfl, ?_⟩
  · unfold Event.mkOutput
    rw [if_neg (by simp [hne]), if_neg (by simp), f1]
    rfl
  -- the comparison
  have hv := a3 _ dev x hw
  have hpr := i3.priv _ dev x hw
  obtain ⟨wt, sent, g1, g2⟩ := hw
  obtain ⟨k, m⟩ := x
  simp only at hnx hv hpr g2 ⊢
  obtain ⟨t1, t2⟩ := toBytes_value i3.wf hq
  have fr := toBytes_frame i3.wf q
  have hpk := toBytes_pkts s2.heap q i3.wf
  unfold OScen.send Matcher.matchPkt
  rw [hp]
  simp only [g1, g2]
  unfold Heap.toBytes2
  rcases hb : s2.heap.toBytes q with ⟨h1', r⟩
  rw [hb] at t1 t2 fr hpk
  simp only at t1 t2 fr hpk
  rcases hb' : (s2.heap.view q).toBytes with ⟨q', r'⟩
  rw [hb'] at t1 t2
  simp only at t1 t2
  subst t2
  rcases r with x | b
  · rfl
  · simp only
    have hkv : h1'.vals k = m.ref := by
      rw [← hv]
      exact vals_same fun r hr => fr.same r (hpr r hr).1 (fun q _ => (hpr r hr).2 q)
    have hkl : ∀ r ∈ k, r < h1'.objs.length := fun r hr => Nat.lt_of_lt_of_le (hpr r hr).1 fr.objs_len
    obtain ⟨u1, u2⟩ := serLoop_vals hnx k.length h1' [] (Nat.le_refl _) hkl
    obtain ⟨v1, v2, v3⟩ := serLoop_only (rs := k) k.length h1' []
    have hlen : k.length = m.ref.length := by rw [← hkv]; simp [Heap.vals]
    have hvq : (Heap.serLoop k k.length h1' []).1.view q = q' := by
      rw [← t1]
      unfold Heap.view
      rw [show (Heap.serLoop k k.length h1' []).1.refs q = h1'.refs q from by rw [Heap.refs, Heap.refs, v1]]
      refine vals_same fun r hr => v3 r fun hrk => ?_
      exact fr.quiet.out r (hpr r hrk).1 (hpr r hrk).2 q hr
    rw [hkv] at u1 u2
    have hmt : m.ref.toBytes = ((Heap.serLoop k k.length h1' []).1.vals k, List.flatten <$> (Heap.serLoop k k.length h1' []).2) := by
      rw [u1, u2, hlen]
      rfl
    rw [hmt]
    generalize Heap.serLoop k k.length h1' [] = L at hvq ⊢
    obtain ⟨h2, r2⟩ := L
    simp only at hvq ⊢
    rcases r2 with x | bs
    · rfl
    · show _ = outcome (Matcher.verdict { m with ref := h2.vals k } q')
      simp only [Functor.map, Except.map]
      rw [hvq]
      rcases Matcher.verdict { m with ref := h2.vals k } q' with y | (_ | _) <;> rfl

/-! ## Input expectations -/

/-- The packets that a statement changes or whose headers it puts into another packet; receiving serialises the packet of
the event. -/
def _root_.SY.OStmt.touches (s : OScen) : OStmt → List Nat
  | .pkt o => o.touches
  | .send _ p => [p]
  | .recv =>
    match s.pending with
    | [] => []
    | e :: _ =>
      match s.events[e]? with
      | some (.input _ p _ _) => [p]
      | _ => []
  | _ => []

/-- None of the packets in `S` is touched. -/
def Untouched (S : Nat → Prop) : OScen → List OStmt → Prop
  | _, [] => True
  | s, o :: os => (∀ p ∈ o.touches s, ¬ S p) ∧ Untouched S (o.exec s).1 os

/-- The packets in `S` share no header object with others. -/
structure Safe (S : Nat → Prop) (h : Heap) : Prop where
  old : ∀ p, S p → p < h.pkts.length
  sep : ∀ p q, S p → ¬ S q → ∀ r ∈ h.refs p, r ∉ h.refs q

/-- A step that does not change the packets in `S`. -/
def Unmoved (S : Nat → Prop) (h h' : Heap) : Prop :=
  Safe S h' ∧ ∀ p, S p → h'.view p = h.view p ∧ h'.refs p = h.refs p

theorem Unmoved.trans {S : Nat → Prop} {a b c : Heap} (x : Unmoved S a b) (y : Unmoved S b c) : Unmoved S a c :=
  ⟨y.1, fun p hp => ⟨(y.2 p hp).1.trans (x.2 p hp).1, (y.2 p hp).2.trans (x.2 p hp).2⟩⟩

theorem Frame.kept_all {S : Nat → Prop} {h h' : Heap} {us : List Nat} (w : h.WF) (c : Safe S h) (f : Frame h h' us)
    (hu : ∀ q ∈ us, ¬ S q) : Unmoved S h h' := by
  have hk : ∀ p, S p → h'.refs p = h.refs p := fun p hp => f.kept p (c.old p hp) (fun hm => hu p hm hp)
  refine ⟨⟨fun p hp => Nat.lt_of_lt_of_le (c.old p hp) f.pkts_len, ?_⟩, fun p hp => ⟨?_, hk p hp⟩⟩
  · intro p q hp hq r hr hr'
    rw [hk p hp] at hr
    by_cases ht : q ∈ us ∨ h.pkts.length ≤ q
    · rcases f.source q ht r hr' with ⟨q', h1, h2⟩ | h1
      · exact c.sep p q' hp (hu q' h1) r hr h2
      · exact absurd (w p r hr) (by omega)
    · rw [f.kept q (by omega) (fun x => ht (Or.inl x))] at hr'
      exact c.sep p q hp hq r hr hr'
  · unfold Heap.view
    rw [hk p hp]
    exact vals_same fun r hr => f.same r (w p r hr) fun q hq => c.sep p q hp (hu q hq) r hr

/-- A step that leaves packets in `S` alone; input events made of them and output events that are complete stay. -/
theorem untouched_step {S : Nat → Prop} {s : OScen} (i : Hidden s) (c : Safe S s.heap) (o : OStmt)
    (hu : ∀ p ∈ o.touches s, ¬ S p) : Unmoved S s.heap (o.exec s).1.heap ∧
    (∀ (e : Nat) dev p first cs, s.events[e]? = some (.input dev p first cs) → S p →
      (o.exec s).1.events[e]? = some (.input dev p first cs)) ∧
    (∀ (e : Nat) sent, s.events[e]? = some (.output [] sent) → (o.exec s).1.events[e]? = some (.output [] sent)) := by
  have same : Unmoved S s.heap s.heap := ⟨c, fun _ _ => ⟨rfl, rfl⟩⟩
  have snoc : ∀ (v : OEvent) (e : Nat) (u : OEvent), s.events[e]? = some u → (s.events ++ [v])[e]? = some u := by
    intro v e u h
    rw [List.getElem?_append_left (List.getElem?_eq_some_iff.mp h).1]
    exact h
  cases o with
  | pkt o => exact ⟨(exec_frame s.heap i.wf o).kept_all i.wf c hu, fun _ _ _ _ _ h _ => h, fun _ _ h => h⟩
  | mkTimeout => exact ⟨same, fun _ _ _ _ _ h _ => snoc _ _ _ h, fun _ _ h => snoc _ _ _ h⟩
  | mkInput dev p cs => exact ⟨same, fun _ _ _ _ _ h _ => snoc _ _ _ h, fun _ _ h => snoc _ _ _ h⟩
  | expect e => exact ⟨same, fun _ _ _ _ _ h _ => h, fun _ _ h => h⟩
  | mkOutput args exact wild preds =>
    simp only [OStmt.exec]
    split
    · exact ⟨same, fun _ _ _ _ _ h _ => h, fun _ _ h => h⟩
    split
    · exact ⟨same, fun _ _ _ _ _ h _ => h, fun _ _ h => h⟩
    · rename_i h w hw
      obtain ⟨m, _, _⟩ := mkWaitingO_made i.wf args ⟨Grown.refl _, by simp [Dict.Uniq, Dict.keys], by simp, by simp, by simp⟩ hw
      have hrefs : ∀ p, h.refs p = s.heap.refs p := m.grown.refs
      refine ⟨⟨⟨fun p hp => by rw [m.grown.pkts]; exact c.old p hp, fun p q hp hq r => by
          rw [hrefs, hrefs]; exact c.sep p q hp hq r⟩, fun p hp => ⟨?_, hrefs p⟩⟩,
        fun _ _ _ _ _ h _ => snoc _ _ _ h, fun _ _ h => snoc _ _ _ h⟩
      unfold Heap.view
      rw [hrefs]
      exact vals_grown m.grown (i.wf p)
  | recv =>
    simp only [OStmt.exec, OScen.recv]
    simp only [OStmt.touches] at hu
    split
    · exact ⟨same, fun _ _ _ _ _ h _ => h, fun _ _ h => h⟩
    rename_i e es hp
    rw [hp] at hu
    simp only at hu
    split
    · exact ⟨same, fun _ _ _ _ _ h _ => h, fun _ _ h => h⟩
    · rename_i dev p first cs he
      rw [he] at hu
      simp only at hu
      obtain ⟨f, h1, _, _⟩ := generate_frame { s with pending := es } i.wf e dev p first cs
      refine ⟨f.kept_all i.wf c hu, ?_, ?_⟩
      · intro e' dev' p' first' cs' h' hs'
        rcases h1 with h1 | h1
        · rw [h1]; exact h'
        · rw [h1]
          by_cases hee : e = e'
          · subst hee
            rw [he] at h'
            cases h'
            exact absurd hs' (hu p (by simp))
          · rw [List.getElem?_set_ne hee]
            exact h'
      · intro e' sent' h'
        rcases h1 with h1 | h1
        · rw [h1]; exact h'
        · rw [h1]
          by_cases hee : e = e'
          · subst hee
            rw [he] at h'
            cases h'
          · rw [List.getElem?_set_ne hee]
            exact h'
    · exact ⟨same, fun _ _ _ _ _ h _ => h, fun _ _ h => h⟩
  | send dev p =>
    simp only [OStmt.exec]
    rcases send_frame s i.wf dev p with ⟨h1, h2⟩ | ⟨e, es, w, sent, k, m, h, hp, he, hk, hh, hr⟩
    · rw [h1]
      exact ⟨same, fun _ _ _ _ _ h _ => h, fun _ _ h => h⟩
    obtain ⟨h1, f, g1, g2, g3⟩ := toBytes2_frame i.wf p k
    rw [hh] at g1 g2 g3
    have hrefs : ∀ x, h.refs x = h1.refs x := fun x => by rw [Heap.refs, Heap.refs, g1]
    have k1 := f.kept_all i.wf c hu
    have k2 : Unmoved S h1 h := by
      refine ⟨⟨fun x hx => by rw [g1]; exact k1.1.old x hx, fun x y hx hy r => by
        rw [hrefs, hrefs]; exact k1.1.sep x y hx hy r⟩, fun x hx => ⟨?_, hrefs x⟩⟩
      unfold Heap.view
      rw [hrefs]
      refine vals_same fun r hr => g3 r fun hrk => ?_
      obtain ⟨a, b⟩ := i.priv e dev (k, m) ⟨w, sent, he, hk⟩ r hrk
      exact f.quiet.out r a b x hr
    rcases hr with ⟨h2, _⟩ | ⟨h2, _⟩
    · rw [h2]
      exact ⟨k1.trans k2, fun _ _ _ _ _ h _ => h, fun _ _ h => h⟩
    · rw [h2]
      obtain ⟨c1, c2⟩ := accept_heap { s with heap := h } e es w sent dev p
      refine ⟨by rw [c1]; exact k1.trans k2, ?_, ?_⟩
      · intro e' dev' p' first' cs' h' _
        rw [c2]
        by_cases hee : e = e'
        · subst hee
          rw [he] at h'
          cases h'
        · rw [List.getElem?_set_ne hee]
          exact h'
      · intro e' sent' h'
        rw [c2]
        by_cases hee : e = e'
        · subst hee
          rw [he] at h'
          cases h'
          cases hk
        · rw [List.getElem?_set_ne hee]
          exact h'

theorem untouched_all {S : Nat → Prop} (os : List OStmt) : ∀ s : OScen, Hidden s → Safe S s.heap → Untouched S s os →
    Unmoved S s.heap (oexecAll s os).1.heap ∧
    (∀ (e : Nat) dev p first cs, s.events[e]? = some (.input dev p first cs) → S p →
      (oexecAll s os).1.events[e]? = some (.input dev p first cs)) ∧
    (∀ (e : Nat) sent, s.events[e]? = some (.output [] sent) → (oexecAll s os).1.events[e]? = some (.output [] sent)) := by
  induction os with
  | nil => intro s _ c _; exact ⟨⟨c, fun _ _ => ⟨rfl, rfl⟩⟩, fun _ _ _ _ _ h _ => h, fun _ _ h => h⟩
  | cons o os ih =>
    intro s i c hu
    obtain ⟨a, b, d⟩ := untouched_step i c o hu.1
    obtain ⟨a', b', d'⟩ := ih _ (step_hidden i o).1 a.1 hu.2
    exact ⟨a.trans a', fun e dev p first cs h hp => b' e dev p first cs (b e dev p first cs h hp) hp, fun e sent h => d' e sent (d e sent h)⟩

/-- What an input expectation delivers is made of the bytes of its packet *when it is received*. -/
theorem input_reads_late (s : OScen) (w : s.heap.WF) (e : Nat) (es : List Nat) (dev : List Char) (p : Nat) (first : Option Cls)
    (hp : s.pending = e :: es) (he : s.events[e]? = some (.input dev p first [])) (hd : dev ∈ s.ifaces)
    (hn : (s.heap.refs p).Nodup) (b : Bytes) (v : Packet) (hb : (s.heap.view p).toBytes.2 = .ok b)
    (hv : Packet.parse b first = .ok v) :
    s.recv.2 = .ok (.got dev s.heap.pkts.length) ∧ s.recv.1.heap.view s.heap.pkts.length = v := by
  obtain ⟨_, t2⟩ := toBytes_value w hn
  have hl := toBytes_pkts s.heap p w
  rw [hb] at t2
  unfold OScen.recv
  rw [hp]
  simp only [he, OScen.generate]
  rcases hh : s.heap.toBytes p with ⟨h, r⟩
  rw [hh] at t2 hl
  simp only at t2 hl
  subst t2
  simp only [hv, OScen.handOver, if_pos hd, OScen.applyCopies]
  refine ⟨by rw [hl], ?_⟩
  unfold Heap.view
  rw [refs_newPkt, if_pos (by rw [← hl]; rfl)]
  exact make_vals h v

/-- **C152** (input expectations), partial: make an input expectation of a packet.  If the packet, and those that share
headers with it, are not touched until it is received, the program receives what its bytes were when the
expectation was made.  Missing: packets that are changed meanwhile, for which this is false. -/
theorem input_as_given_partial (ifaces : List (List Char)) (os1 os2 : List OStmt) (dev : List Char) (p : Nat) (S : Nat → Prop)
    (s1 s2 : OScen) (h1 : s1 = (oexecAll (start ifaces) os1).1)
    (h2 : s2 = (oexecAll s1 (.mkInput dev p [] :: os2)).1) (hs : Safe S s1.heap) (hp : S p)
    (hu : Untouched S s1 (.mkInput dev p [] :: os2)) (hn : (s1.heap.refs p).Nodup)
    (es : List Nat) (hpe : s2.pending = s1.events.length :: es) (hd : dev ∈ s2.ifaces)
    (b : Bytes) (v : Packet) (hb : (s1.heap.view p).toBytes.2 = .ok b)
    (hv : Packet.parse b (firstCls (s1.heap.view p)) = .ok v) :
    s2.recv.2 = .ok (.got dev s2.heap.pkts.length) ∧ s2.recv.1.heap.view s2.heap.pkts.length = v := by
  have i1 : Hidden s1 := by rw [h1]; exact (all_hidden os1 _ (start_hidden ifaces).1).1
  have i1' := (step_hidden i1 (.mkInput dev p [])).1
  obtain ⟨k, ev, _⟩ := untouched_all os2 ((OStmt.mkInput dev p []).exec s1).1 i1' hs hu.2
  have i2 : Hidden s2 := by rw [h2]; exact (all_hidden _ _ i1).1
  have hs2 : s2 = (oexecAll ((OStmt.mkInput dev p []).exec s1).1 os2).1 := h2
  rw [← hs2] at k ev
  obtain ⟨k1, k2⟩ := k.2 p hp
  have e1 : s2.heap.view p = s1.heap.view p := k1
  have e2 : s2.heap.refs p = s1.heap.refs p := k2
  exact input_reads_late s2 i2.wf _ es dev p _ hpe
    (ev s1.events.length dev p (firstCls (s1.heap.view p)) [] (by simp [OStmt.exec]) hp) hd (by rw [e2]; exact hn) b v
    (by rw [e1]; exact hb) hv

/-- An Ethernet header with this destination. -/
def exEth (n : UInt8) : Hdr := .eth ⟨⟨[2, 0, 0, 0, 0, n]⟩, ⟨[2, 0, 0, 0, 0, 1]⟩, 0x88cc⟩

/-- The author makes a packet, an input and an output expectation of it, and changes the packet. -/
def exLate : List OStmt :=
  [.pkt .new, .pkt (.addNew 0 (.hdr (exEth 1))), .mkInput ['a'] 0 [], .mkOutput [(['a'], 0)] true [] [],
   .expect 0, .expect 1, .pkt (.change 0 0 fun _ => (exEth 2, .ok ()))]

/-- The last statement went through. -/
def passed (r : List (Res OShown)) : Bool :=
  match r.getLast? with
  | some (.ok _) => true
  | _ => false

/-- The last statement failed the test. -/
def failed (r : List (Res OShown)) : Bool :=
  match r.getLast? with
  | some (.error .testFailure) => true
  | _ => false

/-- The negation of **C152**: the expectations were made of a packet to one address; the program receives a
packet to the other one, and is expected to send one to the first. -/
theorem input_changed_violated :
    (oexecAll (start [['a']]) (exLate ++ [.recv])).1.heap.view 1 = [.hdr (exEth 2)] ∧
    failed (oexecAll (start [['a']]) (exLate ++ [.recv, .send ['a'] 1])).2 = true ∧
    passed (oexecAll (start [['a']])
      (exLate ++ [.recv, .pkt (.change 1 0 fun _ => (exEth 1, .ok ())), .send ['a'] 1])).2 = true := by decide +kernel

/-- `output_as_given` and `input_as_given_partial`: both expectations, packets made, changed and sent meanwhile, other
packets received. -/
def exGiven : List OStmt :=
  [.pkt .new, .pkt (.addNew 0 (.hdr (exEth 1))), .pkt .new, .pkt (.addNew 1 (.hdr (exEth 3))), .mkOutput [(['a'], 0), (['b'], 0)] true [] [],
   .mkInput ['b'] 1 [], .mkInput ['a'] 0 [], .expect 1, .expect 0, .expect 2]

example : NoneRefused (start [['a'], ['b']]) (exGiven ++ [.pkt (.ser 0), .recv, .pkt (.change 2 0 fun _ => (exEth 1, .ok ())), .send ['b'] 2]) ∧
    passed (oexecAll (start [['a'], ['b']]) (exGiven ++
      [.pkt (.ser 0), .recv, .pkt (.change 2 0 fun _ => (exEth 1, .ok ())), .send ['b'] 2, .send ['a'] 2])).2 = true ∧
    failed (oexecAll (start [['a'], ['b']]) (exGiven ++
      [.pkt (.ser 0), .recv, .pkt (.change 2 0 fun _ => (exEth 1, .ok ())), .send ['b'] 2, .send ['b'] 2])).2 = true := by
  refine ⟨?_, by decide +kernel, by decide +kernel⟩
  simp only [exGiven, List.cons_append, List.nil_append, NoneRefused]
  refine ⟨?_, ?_, ?_, ?_, ?_, ?_, ?_, ?_, ?_, ?_, ?_, ?_, ?_, ?_, trivial⟩ <;> intro dev p h <;> cases h
  rfl

/-- `input_as_given_partial`: another packet is made and changed before the packet is received. -/
example : ∃ s1 : OScen, s1 = (oexecAll (start [['a']]) [.pkt .new, .pkt (.addNew 0 (.hdr (exEth 1)))]).1 ∧
    Safe (· = 0) s1.heap ∧ (s1.heap.refs 0).Nodup ∧
    Untouched (· = 0) s1 [.mkInput ['a'] 0 [], .expect 0, .pkt .new, .pkt (.addNew 1 (.hdr (exEth 2))), .pkt (.del 1 0)] := by
  refine ⟨_, rfl, ⟨?_, ?_⟩, by decide +kernel, ?_⟩
  · intro p hp
    subst hp
    decide +kernel
  · intro p q hp hq r _ hr
    have : q = 0 := by
      rcases q with _ | q
      · rfl
      · rw [show (oexecAll (start [['a']]) [.pkt .new, .pkt (.addNew 0 (.hdr (exEth 1)))]).1.heap.refs (q + 1) = [] from rfl] at hr
        cases hr
    exact hq this
  · refine ⟨?_, ?_, ?_, ?_, ?_, trivial⟩ <;> intro p hp <;> simp [OStmt.touches, POp.touches] at hp <;> omega

/-! ## The packet received -/

theorem recv_new {s : OScen} (w : s.heap.WF) {dev : List Char} {n : Nat} (hr : s.recv.2 = .ok (.got dev n)) :
    n = s.heap.pkts.length ∧ s.recv.1.heap.WF ∧ s.recv.1.heap.pkts.length = n + 1 ∧
      ∀ q, q ≠ n → ∀ r ∈ s.recv.1.heap.refs n, r ∉ s.recv.1.heap.refs q := by
  revert hr
  unfold OScen.recv
  split
  · intro hr; cases hr
  rename_i e es hp
  split
  · intro hr; cases hr
  · rename_i dv p first cs he
    obtain ⟨f, _, _, _⟩ := generate_frame { s with pending := es } w e dv p first cs
    revert f
    have f1 := toBytes_frame w p
    have hl := toBytes_pkts s.heap p w
    unfold OScen.generate
    split
    · intro _ hr; cases hr
    · rename_i h b hb
      simp only at hb
      rw [hb] at f1 hl
      simp only at f1 hl
      split
      · intro _ hr; cases hr
      · rename_i q hq
        unfold OScen.handOver
        split
        · obtain ⟨f3, h3, h4, h5, h6⟩ := applyCopies_frame h.pkts.length cs
            { s with pending := es, heap := (h.make q).1.newPkt (h.make q).2, events := s.events.set e (.input dv h.pkts.length first cs) }
            (make_frame f1.wf q).wf
          split
          · rename_i s' he'
            rw [he'] at h6
            intro f hr
            cases hr
            simp only at h6 f ⊢
            have hrefs : ∀ x, s'.heap.refs x = if x = h.pkts.length then (h.make q).2 else h.refs x := by
              intro x
              rw [show s'.heap.refs x = ((h.make q).1.newPkt (h.make q).2).refs x from by rw [Heap.refs, Heap.refs, h6], refs_newPkt]
              rfl
            refine ⟨hl, f.wf, by rw [h6]; simp [Heap.newPkt, Heap.make], ?_⟩
            intro x hx r hr hr'
            rw [hrefs, if_pos rfl] at hr
            rw [hrefs, if_neg hx] at hr'
            simp only [Heap.make, List.mem_range'] at hr
            obtain ⟨j, _, hj⟩ := hr
            have := f1.wf x r hr'
            omega
          · intro _ hr; cases hr
        · intro _ hr; cases hr
  · intro hr; cases hr

/-- **C153**: the packet that the program receives is a new one, and whatever is done with it and packets made
later changes none of the packets made before: neither those of the author nor those received earlier. -/
theorem received_new (s : OScen) (w : s.heap.WF) (dev : List Char) (n : Nat) (hr : s.recv.2 = .ok (.got dev n))
    (os : List POp) (hu : ∀ o ∈ os, ∀ p ∈ o.touches, n ≤ p) :
    n = s.heap.pkts.length ∧ ∀ p, p < n → (execAll s.recv.1.heap os).1.view p = s.recv.1.heap.view p := by
  obtain ⟨h1, h2, h3, h4⟩ := recv_new w hr
  refine ⟨h1, fun p hp => (packets_apart os s.recv.1.heap (· < n) h2 (fun q hq => by rw [h3]; exact Nat.lt_succ_of_lt hq) ?_ ?_).1 p hp⟩
  · intro x y hx hy r hr1 hr2
    rcases Nat.lt_or_ge n y with hny | hny
    · rw [refs_out (by omega)] at hr2
      cases hr2
    · have : y = n := by omega
      subst this
      exact h4 x (by omega) r hr2 hr1
  · intro o ho p hp hlt
    have := hu o ho p hp
    omega

/-- An input expectation is expected twice. -/
def exTwice : List OStmt :=
  [.pkt .new, .pkt (.addNew 0 (.hdr (exEth 1))), .mkInput ['a'] 0 [], .expect 0, .expect 0, .recv]

/-- The negation of **C153** and **C154**: if the program changes the packet it received and the same event is expected
again, it receives the changed packet. -/
theorem input_twice_violated :
    (oexecAll (start [['a']]) exTwice).1.heap.view 1 = [.hdr (exEth 1)] ∧
    (oexecAll (start [['a']]) (exTwice ++ [.pkt (.change 1 0 fun _ => (exEth 2, .ok ())), .recv])).1.heap.view 2 = [.hdr (exEth 2)] := by
  decide +kernel

/-- **C154**, partial: if an input event was delivered and the packet delivered was not touched, the event
delivers again what the bytes of that packet parse to.  Missing: packets that the program changed, and output events. -/
theorem input_again_partial (s : OScen) (i : Hidden s) (dev : List Char) (p : Nat) (first : Option Cls) (S : Nat → Prop)
    (hs : Safe S s.heap) (hp : S p) (e : Nat) (he : s.events[e]? = some (.input dev p first [])) (os : List OStmt)
    (hu : Untouched S s os) (hn : (s.heap.refs p).Nodup) (s2 : OScen) (h2 : s2 = (oexecAll s os).1)
    (es : List Nat) (hpe : s2.pending = e :: es) (hd : dev ∈ s2.ifaces)
    (b : Bytes) (v : Packet) (hb : (s.heap.view p).toBytes.2 = .ok b) (hv : Packet.parse b first = .ok v) :
    s2.recv.2 = .ok (.got dev s2.heap.pkts.length) ∧ s2.recv.1.heap.view s2.heap.pkts.length = v := by
  obtain ⟨k, ev, _⟩ := untouched_all os s i hs hu
  rw [← h2] at k ev
  obtain ⟨k1, k2⟩ := k.2 p hp
  exact input_reads_late s2 (by rw [h2]; exact (all_hidden os s i).1.wf) e es dev p first hpe (ev e dev p first [] he hp) hd
    (by rw [k2]; exact hn) b v (by rw [k1]; exact hb) hv

/-- The negation of **C154**: once an output expectation has been met, expecting the same event again can never
be met: every packet on every port fails the test. -/
theorem output_twice_violated (s : OScen) (i : Hidden s) (e : Nat) (sent : Dict (List Char) Nat)
    (he : s.events[e]? = some (.output [] sent)) (os : List OStmt) (es : List Nat)
    (hp : (oexecAll s os).1.pending = e :: es) (dev : List Char) (p : Nat) :
    (oexecAll s os).1.send dev p = ((oexecAll s os).1, .error .testFailure) := by
  obtain ⟨_, _, h⟩ := untouched_all (S := fun _ => False) os s i ⟨fun _ h => h.elim, fun _ _ h => h.elim⟩ (by
    have : ∀ (os : List OStmt) (s : OScen), Untouched (fun _ => False) s os := by
      intro os
      induction os with
      | nil => intro s; trivial
      | cons o os ih => intro s; exact ⟨fun _ _ h => h, ih _⟩
    exact this os s)
  unfold OScen.send
  rw [hp]
  simp only [h e sent he, Dict.get?_nil]

/-- An output expectation that is met becomes one that waits for nothing. -/
theorem met_waits_for_nothing (s : OScen) (w : s.heap.WF) (dev : List Char) (p e : Nat) (es : List Nat)
    (hp : s.pending = e :: es) (hr : (s.send dev p).2 = .ok .nothing) (hd : (s.send dev p).1.pending = es) :
    ∃ sent, (s.send dev p).1.events[e]? = some (.output [] sent) := by
  rcases send_frame s w dev p with ⟨_, h2⟩ | ⟨e', es', wt, sent, k, m, h, hp', he, hk, hh, hr'⟩
  · rw [h2] at hr; cases hr
  · rw [hp] at hp'
    cases hp'
    rcases hr' with ⟨_, h3⟩ | ⟨h2, _⟩
    · exact absurd hr h3
    · rw [h2] at hd ⊢
      unfold OScen.accept at hd ⊢
      split
      · exact ⟨_, List.getElem?_set_self (List.getElem?_eq_some_iff.mp he).1⟩
      · rename_i hx
        rw [if_neg hx] at hd
        simp only at hd
        rw [hp] at hd
        have hl := congrArg List.length hd
        simp at hl

/-- `output_twice_violated`: an output event that was met is expected again. -/
example : failed (oexecAll (start [['a']]) [.pkt .new, .pkt (.addNew 0 (.hdr (exEth 1))), .mkOutput [(['a'], 0)] true [] [],
    .expect 0, .expect 0, .send ['a'] 0, .send ['a'] 0]).2 = true := by decide +kernel

/-! ## The packet sent -/

/-- **C155**, partial: what `copyfromlastout` finds is what the packets were when the output expectation was met, if
none of them was touched since.  Missing: packets that the program changed after sending them. -/
theorem copied_as_sent_partial (s : OScen) (i : Hidden s) (e : Nat) (sent : Dict (List Char) Nat) (hl : s.last = some e)
    (he : s.events[e]? = some (.output [] sent)) (S : Nat → Prop) (hs : Safe S s.heap) (hS : ∀ x ∈ sent, S x.2)
    (os : List OStmt) (hu : Untouched S s os) (h2 : (oexecAll s os).1.last = s.last) :
    (oexecAll s os).1.lastSent = s.lastSent := by
  obtain ⟨k, _, ev⟩ := untouched_all os s i hs hu
  unfold OScen.lastSent
  rw [h2, hl]
  simp only [ev e sent he, he]
  congr 1
  refine List.map_congr_left fun x hx => ?_
  rw [(k.2 x.2 (hS x hx)).1]

/-- The program sends a packet and receives one that takes its destination from the packet sent. -/
def exCopiedO (os : List OStmt) : OScen :=
  (oexecAll (start [['a']]) ([.pkt .new, .pkt (.addNew 0 (.hdr (exEth 1))), .mkOutput [(['a'], 0)] true [] [],
    .mkInput ['a'] 0 [⟨['a'], .eth, .dst, .eth, .dst⟩], .expect 0, .expect 1,
    .pkt .new, .pkt (.addNew 1 (.hdr (exEth 1))), .send ['a'] 1] ++ os ++ [.recv])).1

/-- The negation of **C155**: if the program changes the packet after it sent it, the changed value is copied. -/
theorem copied_later_violated : (exCopiedO []).heap.view 2 = [.hdr (exEth 1)] ∧
    (exCopiedO [.pkt (.change 1 0 fun _ => (exEth 9, .ok ()))]).heap.view 2 = [.hdr (exEth 9)] := by decide +kernel

end SY.Props
