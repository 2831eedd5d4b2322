import Verif.SimShare
import Verif.Props.Heap
import Verif.Props.Sim

/-!
# Packet objects in the simulator

C205 (a packet arrives as it was sent), C206 (monitors only watch).
-/

namespace SY.Props

open SY

/-! ## C205 -/

theorem watch_glue (m : SimMem) (dev : Name) (p : Nat) (o : Option Mon) : (m.watch dev p o).1.glue = m.glue := by
  unfold SimMem.watch
  split
  · rfl
  · rfl
  · rfl
  · split <;> rfl

theorem toBytes_touched (h : Heap) (p : Nat) : Touched h (h.toBytes p).1 [p] :=
  serLoop_touched _ h h [] ⟨rfl, rfl, fun _ _ => rfl⟩ fun r hr => ⟨p, by simp, hr⟩

/-- The packets that a statement concerns: those changed by a program, and the one that a monitor serialises. -/
def _root_.SY.SimStmt.uses (m : SimMem) : SimStmt → List Nat
  | .pkt o => o.touches
  | .recv n =>
    match m.glue.xnode.get? n with
    | none => []
    | some x =>
      match x.queue with
      | [] => []
      | (dev, p) :: _ =>
        match x.mons.get? dev with
        | some (.pcap _) => [p]
        | _ => []
  | _ => []

/-- No statement of the history concerns the packet. -/
def LeftAlone (p : Nat) (m : SimMem) : List SimStmt → Prop
  | [] => True
  | s :: ss => p ∉ s.uses m ∧ LeftAlone p (m.step s).1 ss

theorem simStep_frame (m : SimMem) (w : m.heap.WF) (s : SimStmt) : Frame m.heap (m.step s).1.heap (s.uses m) := by
  cases s with
  | pkt o => exact exec_frame m.heap w o
  | send n dev p =>
    have : (m.send n dev p).1.heap = m.heap := by
      unfold SimMem.send
      split
      · rfl
      · split
        · split <;> rfl
        · rfl
    show Frame m.heap (m.send n dev p).1.heap _
    rw [this]; exact Frame.refl w _
  | deliver => exact Frame.refl w _
  | monitor => exact Frame.refl w _
  | unmonitor => exact Frame.refl w _
  | recv n =>
    show Frame m.heap (m.recv n).1.heap _
    simp only [SimMem.recv, SimStmt.uses]
    cases hx : m.glue.xnode.get? n with
    | none => exact Frame.refl w _
    | some x =>
      simp only
      split
      · cases hq : x.queue with
        | nil => exact Frame.refl w _
        | cons y q =>
          obtain ⟨dev, p⟩ := y
          simp only
          cases hm : x.mons.get? dev with
          | none => exact Frame.refl w _
          | some mo =>
            cases mo with
            | null => exact Frame.refl w _
            | debug => exact Frame.refl w _
            | pcap f =>
              simp only [SimMem.watch]
              have ht := (toBytes_touched m.heap p).frame w
              split <;> (rename_i h; rw [h] at ht; exact ht)
      · exact Frame.refl w _

/-- **C205**, partial: a packet that shares no header with another one, and that nobody changes after it was sent and no
monitor writes to a file, is received as it was sent, whatever else happens, until it is received and after.  Missing: that
others cannot change it (`sim_sent_violated`, `sim_flood_violated`). -/
theorem sim_packet_kept_partial (ss : List SimStmt) : ∀ (m : SimMem) (p : Nat), m.heap.WF → p < m.heap.pkts.length →
    (∀ q, q ≠ p → ∀ r ∈ m.heap.refs p, r ∉ m.heap.refs q) → LeftAlone p m ss →
    (m.run ss).1.heap.view p = m.heap.view p := by
  induction ss with
  | nil => intro m p _ _ _ _; rfl
  | cons s ss ih =>
    intro m p w hp hd hl
    have f := simStep_frame m w s
    have hk : (m.step s).1.heap.refs p = m.heap.refs p := f.kept p hp hl.1
    have hi : ∀ r ∈ m.heap.refs p, (m.step s).1.heap.item r = m.heap.item r := fun r hr =>
      f.same r (w p r hr) fun q hq h1 => hd q (fun e => hl.1 (e ▸ hq)) r hr h1
    show ((m.step s).1.run ss).1.heap.view p = _
    rw [ih (m.step s).1 p f.wf (Nat.lt_of_lt_of_le hp f.pkts_len) ?_ hl.2]
    · unfold Heap.view Heap.vals
      rw [hk]
      exact List.map_congr_left hi
    · intro q hq r hr hr'
      rw [hk] at hr
      by_cases ht : q ∈ s.uses m ∨ m.heap.pkts.length ≤ q
      · rcases f.source q ht r hr' with ⟨q', h1, h2⟩ | h1
        · exact hd q' (fun e => hl.1 (e ▸ h1)) r hr h2
        · have := w p r hr; omega
      · rw [f.kept q (by omega) (fun x => ht (.inl x))] at hr'
        exact hd q hq r hr hr'

/-- The negation of **C205**, for all networks, packets and programs: what the sender does with the packet after sending it is
done to the packet on its way: what is received is the packet object that the sender has, as it is then. -/
theorem sim_sent_violated (m : SimMem) (n dev : Name) (p : Nat) (o : POp) (x y : NodeExec Nat) (pipe : EgressPipe)
    (hx : m.glue.xnode.get? n = some x) (hy : m.glue.xnode.get? pipe.dest = some y) (hne : pipe.dest ≠ n)
    (hpipe : x.pipes.get? dev = some pipe) (hx1 : x.phase = .running) (hy1 : y.phase = .running) (hy2 : y.blocked = false)
    (hc : pipe.capacity.divisor = none) (hdl : pipe.delay.addend = none) (hq : y.queue = [])
    (hm : y.mons.get? pipe.remote = some .null) (hs : (m.heap.view p).size.isOk) :
    let r := m.run [.send n dev p, .pkt o, .deliver n x.sent.length, .recv pipe.dest]
    r.2.getLast? = some (.ok (.got pipe.remote p)) ∧ r.1.heap.view p = (o.exec m.heap).1.view p := by
  obtain ⟨k, hk⟩ : ∃ k, (m.heap.view p).size = .ok k := by
    cases h : (m.heap.view p).size with
    | ok k => exact ⟨k, rfl⟩
    | error e => rw [h] at hs; cases hs
  have hemit : m.glue.emit n dev p =
      ({ m.glue with xnode := m.glue.xnode.set n { x with sent := x.sent ++ [(pipe, p)] } }, none) := by
    simp [Glue.emit, Glue.onNode, hx, NodeExec.send, hx1, hpipe, hc, hdl]
  have hsend : m.step (.send n dev p) =
      ({ m with glue := { m.glue with xnode := m.glue.xnode.set n { x with sent := x.sent ++ [(pipe, p)] } } }, .ok .nothing) := by
    simp [SimMem.step, SimMem.send, hx, hx1, hpipe, hk, hemit, doneOr]
  simp only [SimMem.run, hsend]
  simp only [SimMem.step, SimMem.recv, Glue.deliver, Dict.get?_set, if_true]
  have hlast : (x.sent ++ [(pipe, p)])[x.sent.length]? = some (pipe, p) := by simp
  simp only [hlast, hx1]
  simp [Glue.onNode, Dict.get?_set, Ne.symm hne, hy, hy1, hy2, hq, hm, SimMem.watch]

/-- **C205**: a packet whose length cannot be computed is not sent: the exception of `len` reaches the program, and nothing in the
network, no packet and no file is changed. -/
theorem sim_send_unsized (m : SimMem) (n dev : Name) (p : Nat) (x : NodeExec Nat) (e : PyErr)
    (hx : m.glue.xnode.get? n = some x) (hph : x.phase ≠ .stopped) (hd : (x.pipes.get? dev).isSome)
    (hs : (m.heap.view p).size = .error e) : m.step (.send n dev p) = (m, .error e) := by
  simp only [SimMem.step, SimMem.send, hx]
  rw [if_pos ⟨hph, hd⟩, hs]

/-- The network: two hosts and a switch between them. -/
def simNet : SimMem :=
  ⟨(((Glue.new simTopo).1.thread (.begin_ "s0".toList)).thread (.begin_ "h0".toList)).thread (.begin_ "h1".toList), ⟨[], []⟩, []⟩

/-- A packet with an object that has no length, sent by a host that runs. -/
example : let m := (simNet.run [.pkt .new, .pkt (.insertNew 0 0 (.other 0))]).1
    (match m.glue.xnode.get? "h0".toList with
      | some x => decide (x.phase ≠ .stopped) && (x.pipes.get? "eth0".toList).isSome
      | none => false) = true ∧
    (match (m.heap.view 0).size with | .error .typeError => true | _ => false) = true := by
  decide +kernel

/-- A router's change of a packet. -/
def lessTtl : Hdr → Hdr × Res Unit
  | .ip4 h => (.ip4 { h with ttl := h.ttl - 1 }, .ok ())
  | h => (h, .error .attributeError)

/-- A packet of Ethernet, IPv4 and UDP. -/
def simPkt : List SimStmt :=
  [.pkt .new, .pkt (.addNew 0 (.hdr (.eth ⟨⟨[1, 2, 3, 4, 5, 6]⟩, ⟨[2, 0, 0, 0, 0, 1]⟩, 0x0800⟩))),
   .pkt (.addNew 0 (.hdr (.ip4 ⟨0, 0, 7, 2, 0, 64, 17, .v4 0x0a000001, .v4 0x0a000002, []⟩))),
   .pkt (.addNew 0 (.hdr (.udp ⟨5353, 53, 0, 0⟩)))]

/-- The TTL of a packet. -/
def ttlOf (v : Packet) : Option Nat :=
  v.findSome? fun x => match x with
    | .hdr (.ip4 h) => some h.ttl
    | _ => none

/-- The negation of **C205**: a switch floods a packet to two hosts; both receive it; the first one decrements the TTL; now the
second one has a packet with the smaller TTL. -/
theorem sim_flood_violated :
    let s := simPkt ++ [.send "s0".toList "eth0".toList 0, .send "s0".toList "eth1".toList 0, .deliver "s0".toList 0,
      .deliver "s0".toList 0, .recv "h0".toList, .recv "h1".toList]
    ((simNet.run s).2.drop 8).map (fun r => match r with
        | .ok (.got dev p) => some (dev, p)
        | _ => none) = [some ("eth0".toList, 0), some ("eth0".toList, 0)] ∧
    ttlOf ((simNet.run s).1.heap.view 0) = some 64 ∧
    ttlOf ((simNet.run (s ++ [.pkt (.change 0 1 lessTtl)])).1.heap.view 0) = some 63 := by
  decide +kernel

/-! ## C206 -/

/-- Objects of a packet that look the same after serialising: nothing has changed. -/
theorem toBytes_same {h : Heap} {p : Nat} (w : h.WF) (hn : (h.refs p).Nodup) {b : Bytes}
    (hs : (h.view p).toBytes = (h.view p, .ok b)) : h.toBytes p = (h, .ok b) := by
  have t := toBytes_touched h p
  obtain ⟨h1, h2⟩ := serLoop_vals hn (h.refs p).length h [] (Nat.le_refl _) (w p)
  have hlen : (h.vals (h.refs p)).length = (h.refs p).length := by simp [Heap.vals]
  unfold Packet.toBytes at hs
  simp only [Heap.view, hlen, Prod.mk.injEq] at hs
  have hobj : (h.toBytes p).1 = h := by
    have hi : ∀ r, (h.toBytes p).1.item r = h.item r := by
      intro r
      by_cases hr : r ∈ h.refs p
      · have hv : (h.toBytes p).1.vals (h.refs p) = h.vals (h.refs p) := h1.trans hs.1
        exact List.map_inj_left.mp hv r hr
      · exact t.same r (by simpa using hr)
    have ho : (h.toBytes p).1.objs = h.objs := by
      apply List.ext_getElem t.len
      intro k hk1 hk2
      have := hi k
      simpa [Heap.item, hk1, hk2] using this
    cases hh : (h.toBytes p).1 with
    | mk objs pkts =>
      rw [hh] at ho
      have := t.pkts
      rw [hh] at this
      cases h
      simp_all
  refine Prod.ext hobj ?_
  show List.flatten <$> _ = _
  rw [h2]
  exact hs.2

/-- Two nodes that differ at most in their monitors: those of the second one do nothing. -/
structure NodeRel (x x' : NodeExec Nat) : Prop where
  phase : x.phase = x'.phase
  queue : x.queue = x'.queue
  pipes : x.pipes = x'.pipes
  sent : x.sent = x'.sent
  blocked : x.blocked = x'.blocked
  devs : ∀ dev, (x.mons.get? dev).isSome = (x'.mons.get? dev).isSome
  null : ∀ dev mo, x'.mons.get? dev = some mo → mo = .null
  free : ∀ dev, x.mons.get? dev ≠ some .debug

/-- Networks that differ at most in their monitors. -/
def GlueRel (g g' : Glue Nat) : Prop :=
  ∀ n, (g.xnode.get? n = none ∧ g'.xnode.get? n = none) ∨
    ∃ x x', g.xnode.get? n = some x ∧ g'.xnode.get? n = some x' ∧ NodeRel x x'

theorem glueRel_set {g g' : Glue Nat} (h : GlueRel g g') (n : Name) {x x' : NodeExec Nat} (hx : NodeRel x x') :
    GlueRel { g with xnode := g.xnode.set n x } { g' with xnode := g'.xnode.set n x' } := by
  intro k
  simp only [Dict.get?_set]
  by_cases e : n = k
  · simp only [if_pos e]; exact .inr ⟨x, x', rfl, rfl, hx⟩
  · simp only [if_neg e]; exact h k

theorem glueRel_xnode {g1 g g' : Glue Nat} (e : g1.xnode = g.xnode) (h : GlueRel g g') : GlueRel g1 g' := by
  intro k; rw [e]; exact h k

theorem glueRel_onNode {g g' : Glue Nat} (h : GlueRel g g') (n : Name) (f : NodeExec Nat → NodeExec Nat × Option PyErr)
    (hf : ∀ y y', NodeRel y y' → NodeRel (f y).1 (f y').1) : GlueRel (g.onNode n f).1 (g'.onNode n f).1 := by
  unfold Glue.onNode
  rcases h n with ⟨h1, h2⟩ | ⟨x, x', h1, h2, r⟩
  · rw [h1, h2]; exact h
  · rw [h1, h2]; exact glueRel_set h n (hf x x' r)

/-- A device with a monitor. -/
def HasDev (m : SimMem) (n i : Name) : Prop := ∀ x, m.glue.xnode.get? n = some x → (x.mons.get? i).isSome

/-- Monitors write to files and are attached to interfaces that exist; and a packet that is written to a file has been serialised
since it was changed last, so that this changes nothing, and holds no header twice. -/
def QuietStep (m : SimMem) : SimStmt → Prop
  | .monitor _ n i how => (∃ base, how = .pcap base) ∧ HasDev m n i
  | .unmonitor n i => HasDev m n i
  | .recv n => ∀ x dev p q f, m.glue.xnode.get? n = some x → x.queue = (dev, p) :: q → x.mons.get? dev = some (.pcap f) →
      (∃ b, (m.heap.view p).toBytes = (m.heap.view p, .ok b)) ∧ (m.heap.refs p).Nodup
  | _ => True

/-- All of a history is so. -/
def QuietAll (m : SimMem) : List SimStmt → Prop
  | [] => True
  | s :: ss => QuietStep m s ∧ QuietAll (m.step s).1 ss

/-- A statement about monitors. -/
def _root_.SY.SimStmt.isWatch : SimStmt → Bool
  | .monitor _ _ _ _ => true
  | .unmonitor _ _ => true
  | _ => false

/-- What the other statements of a history show. -/
def shownElse (m : SimMem) : List SimStmt → List (Res SimShown)
  | [] => []
  | s :: ss => if s.isWatch then shownElse (m.step s).1 ss else (m.step s).2 :: shownElse (m.step s).1 ss

/-- States that differ at most in monitors and files. -/
structure MemRel (m m' : SimMem) : Prop where
  heap : m.heap = m'.heap
  glue : GlueRel m.glue m'.glue

theorem glueRel_attach {g g' : Glue Nat} (h : GlueRel g g') (n i : Name) (mo : Mon) (hmo : mo ≠ .debug)
    (hd : ∀ x, g.xnode.get? n = some x → (x.mons.get? i).isSome) : GlueRel (g.onNode n fun x => x.attach i mo).1 g' := by
  unfold Glue.onNode
  split
  · exact h
  · rename_i x hx
    intro k
    simp only [Dict.get?_set]
    by_cases e : k = n
    · subst e
      rcases h k with ⟨h1, _⟩ | ⟨y, x', h1, h2, r⟩
      · rw [hx] at h1; cases h1
      · rw [hx] at h1; cases h1
        refine .inr ⟨(x.attach i mo).1, x', by simp, h2, ?_⟩
        unfold NodeExec.attach
        split
        · exact r
        · refine ⟨r.phase, r.queue, r.pipes, r.sent, r.blocked, ?_, r.null, ?_⟩
          · intro dev
            rw [← r.devs dev]
            simp only [Dict.get?_set]
            split
            · rename_i e; subst e; rw [hd x hx]; rfl
            · rfl
          · intro dev
            simp only [Dict.get?_set]
            split
            · intro e; injection e with e; exact hmo e
            · exact r.free dev
    · have e' : ¬ n = k := fun h => e h.symm
      simp only [e', if_false]; exact h k

theorem memRel_watch {m m' : SimMem} (h : MemRel m m') (s : SimStmt) (hw : s.isWatch = true) (hq : QuietStep m s) :
    MemRel (m.step s).1 m' := by
  cases s with
  | pkt => cases hw
  | send => cases hw
  | recv => cases hw
  | deliver => cases hw
  | monitor co n i how =>
    obtain ⟨⟨base, rfl⟩, hd⟩ := hq
    refine ⟨h.heap, ?_⟩
    show GlueRel (m.glue.addMonitor co n i (.pcap base)).1 m'.glue
    simp only [Glue.addMonitor, MonHow.cls]
    split
    · exact h.glue
    · simp only [Glue.attachNew, MonHow.make]
      by_cases hc : co (pcapName n i base) = true
      · simp only [hc, if_true]
        exact glueRel_attach (glueRel_xnode (by rfl) h.glue) n i _ (by simp) hd
      · simp only [hc]
        exact h.glue
  | unmonitor n i =>
    refine ⟨h.heap, ?_⟩
    show GlueRel (m.glue.removeMonitor n i).1 m'.glue
    unfold Glue.removeMonitor
    split
    · exact h.glue
    · exact glueRel_attach (glueRel_xnode (by rfl) h.glue) n i _ (by simp) hq

theorem glueRel_emit {g g' : Glue Nat} (h : GlueRel g g') (n dev : Name) (p : Nat) :
    GlueRel (g.emit n dev p).1 (g'.emit n dev p).1 ∧ (g.emit n dev p).2 = (g'.emit n dev p).2 := by
  unfold Glue.emit Glue.onNode
  rcases h n with ⟨h1, h2⟩ | ⟨x, x', h1, h2, r⟩
  · rw [h1, h2]; exact ⟨h, rfl⟩
  · rw [h1, h2]
    simp only
    have hs : (x.send dev p).2 = (x'.send dev p).2 ∧ NodeRel (x.send dev p).1 (x'.send dev p).1 := by
      unfold NodeExec.send
      rw [← r.phase, ← r.pipes]
      split
      · exact ⟨rfl, r⟩
      · split
        · exact ⟨rfl, r⟩
        · split
          · exact ⟨rfl, r⟩
          · split
            · exact ⟨rfl, r⟩
            · split
              · exact ⟨rfl, ⟨rfl, r.queue, rfl, by simp [r.sent], r.blocked, r.devs, r.null, r.free⟩⟩
              · exact ⟨rfl, r⟩
    exact ⟨glueRel_set h n hs.2, hs.1⟩

theorem glueRel_deliver {g g' : Glue Nat} (h : GlueRel g g') (n : Name) (i : Nat) :
    GlueRel (g.deliver n i) (g'.deliver n i) := by
  unfold Glue.deliver
  rcases h n with ⟨h1, h2⟩ | ⟨x, x', h1, h2, r⟩
  · rw [h1, h2]; exact h
  · rw [h1, h2]
    simp only [← r.sent, ← r.phase]
    split
    · rename_i pipe p _ _
      have hset := glueRel_set h n (x := { x with sent := x.sent.eraseIdx i }) (x' := { x' with sent := x.sent.eraseIdx i, phase := x.phase })
        ⟨rfl, r.queue, r.pipes, rfl, r.blocked, r.devs, r.null, r.free⟩
      exact glueRel_onNode hset pipe.dest (fun y => ({ y with queue := y.queue ++ [(pipe.remote, p)] }, none)) fun y y' ry =>
        ⟨ry.phase, congrArg (· ++ [(pipe.remote, p)]) ry.queue, ry.pipes, ry.sent, ry.blocked, ry.devs, ry.null, ry.free⟩
    · exact h

theorem memRel_step {m m' : SimMem} (w : m.heap.WF) (h : MemRel m m') (s : SimStmt) (hw : s.isWatch = false) (hq : QuietStep m s) :
    MemRel (m.step s).1 (m'.step s).1 ∧ (m.step s).2 = (m'.step s).2 := by
  cases s with
  | monitor => cases hw
  | unmonitor => cases hw
  | pkt o =>
    simp only [SimMem.step, h.heap]
    exact ⟨⟨rfl, h.glue⟩, trivial⟩
  | deliver n i => exact ⟨⟨h.heap, glueRel_deliver h.glue n i⟩, rfl⟩
  | send n dev p =>
    obtain ⟨h1, h2⟩ := glueRel_emit h.glue n dev p
    simp only [SimMem.step, SimMem.send, ← h.heap, ← h2]
    rcases h.glue n with ⟨k1, k2⟩ | ⟨x, x', k1, k2, r⟩
    · rw [k1, k2]; exact ⟨h, rfl⟩
    · rw [k1, k2]
      simp only [← r.phase, ← r.pipes]
      split
      · split
        · exact ⟨h, rfl⟩
        · exact ⟨⟨rfl, h1⟩, rfl⟩
      · exact ⟨⟨rfl, h1⟩, rfl⟩
  | recv n =>
    simp only [SimMem.step, SimMem.recv]
    rcases h.glue n with ⟨k1, k2⟩ | ⟨x, x', k1, k2, r⟩
    · rw [k1, k2]; exact ⟨h, rfl⟩
    · rw [k1, k2]
      simp only [← r.phase, ← r.blocked, ← r.queue]
      split
      · rename_i hrun
        cases hqu : x.queue with
        | nil => exact ⟨h, rfl⟩
        | cons y q =>
          obtain ⟨dev, p⟩ := y
          have hqu' : x'.queue = (dev, p) :: q := by rw [← r.queue]; exact hqu
          simp only
          cases hm : x.mons.get? dev with
          | none =>
            have hm' : x'.mons.get? dev = none := by
              have := r.devs dev
              rw [hm] at this
              cases hx' : x'.mons.get? dev with
              | none => rfl
              | some _ => rw [hx'] at this; cases this
            have e1 : m.glue.onNode n NodeExec.idleRecv = ({ m.glue with xnode := m.glue.xnode.set n { x with queue := q } }, some .keyError) := by
              simp [Glue.onNode, k1, NodeExec.idleRecv, hrun, hqu, hm]
            have e2 : m'.glue.onNode n NodeExec.idleRecv =
                ({ m'.glue with xnode := m'.glue.xnode.set n { x' with queue := q } }, some .keyError) := by
              simp [Glue.onNode, k2, NodeExec.idleRecv, ← r.phase, ← r.blocked, hrun, hqu', hm']
            rw [hm']
            simp only [SimMem.watch, e1, e2]
            exact ⟨⟨h.heap, glueRel_set h.glue n ⟨r.phase, rfl, r.pipes, r.sent, r.blocked, r.devs, r.null, r.free⟩⟩, trivial⟩
          | some mo =>
            have hm' : x'.mons.get? dev = some .null := by
              have := r.devs dev
              rw [hm] at this
              cases hx' : x'.mons.get? dev with
              | none => rw [hx'] at this; cases this
              | some mo' => rw [r.null dev mo' hx']
            have hmo : mo ≠ .debug := fun e => r.free dev (by rw [hm, e])
            have e1 : (m.glue.onNode n NodeExec.idleRecv).1 =
                { m.glue with xnode := m.glue.xnode.set n { x with queue := q, calls := x.calls ++ [(mo, dev, p)], blocked := false } } := by
              simp [Glue.onNode, k1, NodeExec.idleRecv, hrun, hqu, hm, hmo]
            have e2 : (m'.glue.onNode n NodeExec.idleRecv).1 =
                { m'.glue with xnode := m'.glue.xnode.set n { x' with queue := q, calls := x'.calls ++ [(.null, dev, p)], blocked := false } } := by
              simp [Glue.onNode, k2, NodeExec.idleRecv, ← r.phase, ← r.blocked, hrun, hqu', hm']
            have hg := glueRel_set h.glue n
              (x := { x with queue := q, calls := x.calls ++ [(mo, dev, p)], blocked := false })
              (x' := { x' with queue := q, calls := x'.calls ++ [(.null, dev, p)], blocked := false })
              ⟨r.phase, rfl, r.pipes, r.sent, rfl, r.devs, r.null, r.free⟩
            rw [hm', e1, e2]
            cases mo with
            | debug => exact absurd rfl hmo
            | null => exact ⟨⟨h.heap, hg⟩, rfl⟩
            | pcap f =>
              obtain ⟨⟨b, hb⟩, hn⟩ := hq x dev p q f k1 hqu hm
              simp only [SimMem.watch, toBytes_same w hn hb]
              exact ⟨⟨h.heap, hg⟩, trivial⟩
      · exact ⟨h, rfl⟩

/-- **C206**, partial: monitors that write files change nothing that programs can see, if packets have been serialised before
they are written.  Missing: other packets (`monitor_serialises_violated`, `monitor_changes_violated`) and interactive monitors,
which stop the node. -/
theorem monitors_watch_partial (ss : List SimStmt) : ∀ (m m' : SimMem), m.heap.WF → MemRel m m' → QuietAll m ss →
    shownElse m ss = (m'.run (ss.filter fun s => !s.isWatch)).2 ∧
    (m.run ss).1.heap = (m'.run (ss.filter fun s => !s.isWatch)).1.heap := by
  induction ss with
  | nil => intro m m' _ h _; exact ⟨rfl, h.heap⟩
  | cons s ss ih =>
    intro m m' w h hq
    have w' := (simStep_frame m w s).wf
    by_cases hw : s.isWatch = true
    · have := ih (m.step s).1 m' w' (memRel_watch h s hw hq.1) hq.2
      simp only [shownElse, hw, if_true, List.filter_cons, Bool.not_true, Bool.false_eq_true, if_false]
      exact this
    · simp only [Bool.not_eq_true] at hw
      obtain ⟨h1, h2⟩ := memRel_step w h s hw hq.1
      have := ih (m.step s).1 (m'.step s).1 w' h1 hq.2
      simp only [shownElse, hw, Bool.false_eq_true, if_false, List.filter_cons, Bool.not_false, if_true, SimMem.run, h2]
      exact ⟨by rw [this.1], this.2⟩

/-- The negation of **C206**, for all packets: a monitor that writes a file leaves the packet as serialising leaves it, and if it
cannot be serialised the exception comes out of `recv_packet`, the packet is gone and nothing is written. -/
theorem monitor_serialises_violated (m : SimMem) (w : m.heap.WF) (n dev file : Name) (p : Nat) (q : List (Name × Nat))
    (x : NodeExec Nat) (hx : m.glue.xnode.get? n = some x) (hr : x.phase = .running ∧ x.blocked = false)
    (hq : x.queue = (dev, p) :: q) (hm : x.mons.get? dev = some (.pcap file)) (hn : (m.heap.refs p).Nodup) :
    (m.step (.recv n)).1.heap.view p = (m.heap.view p).toBytes.1 ∧
    (∃ y, (m.step (.recv n)).1.glue.xnode.get? n = some y ∧ y.queue = q) ∧
    (∀ b, (m.heap.view p).toBytes.2 = .ok b → (m.step (.recv n)).2 = .ok (.got dev p) ∧
      (m.step (.recv n)).1.files = m.files ++ [(file, b)]) ∧
    (∀ e, (m.heap.view p).toBytes.2 = .error e → (m.step (.recv n)).2 = .error e ∧ (m.step (.recv n)).1.files = m.files) := by
  obtain ⟨h1, h2⟩ := serLoop_vals hn (m.heap.refs p).length m.heap [] (Nat.le_refl _) (w p)
  have hlen : (m.heap.vals (m.heap.refs p)).length = (m.heap.refs p).length := by simp [Heap.vals]
  have hv : (m.heap.toBytes p).1.vals (m.heap.refs p) = (m.heap.view p).toBytes.1 := by
    simp only [Heap.view, Packet.toBytes, hlen]; exact h1
  have hres : (m.heap.toBytes p).2 = (m.heap.view p).toBytes.2 := by
    simp only [Heap.view, Packet.toBytes, hlen, Heap.toBytes, h2]
  have hrefs : (m.heap.toBytes p).1.refs p = m.heap.refs p := by
    unfold Heap.refs; rw [(toBytes_touched m.heap p).pkts]
  have hview : (m.heap.toBytes p).1.view p = (m.heap.view p).toBytes.1 := by
    show Heap.vals _ (Heap.refs _ _) = _; rw [hrefs, hv]
  have hgl : (m.glue.onNode n NodeExec.idleRecv).1.xnode.get? n =
      some { x with queue := q, calls := x.calls ++ [(.pcap file, dev, p)], blocked := false } := by
    simp [Glue.onNode, hx, NodeExec.idleRecv, hr, hq, hm, Dict.get?_set]
  simp only [SimMem.step, SimMem.recv, hx, hr, and_self, if_true, hq, hm, SimMem.watch]
  rw [← hres]
  cases hb : m.heap.toBytes p with
  | mk h r =>
    rw [hb] at hview
    cases r with
    | error e =>
      refine ⟨hview, ⟨_, hgl, rfl⟩, ?_, ?_⟩
      · intro b hb'; cases hb'
      · intro e' he; cases he; exact ⟨rfl, rfl⟩
    | ok b =>
      refine ⟨hview, ⟨_, hgl, rfl⟩, ?_, ?_⟩
      · intro b' hb'; cases hb'; exact ⟨rfl, rfl⟩
      · intro e' he; cases he

/-- The length that the UDP header of a packet states. -/
def udpLen (v : Packet) : Option Nat :=
  v.findSome? fun x => match x with
    | .hdr (.udp h) => some h.len
    | _ => none

/-- The exception that a statement raises. -/
def raised : Res SimShown → Option PyErr
  | .ok _ => none
  | .error e => some e

/-- An ICMPv6 header without an IPv6 header. -/
def badPkt : List SimStmt := [.pkt .new, .pkt (.addNew 0 (.hdr (.icmp6 ⟨130, 0, .plain .mlQuery [] [1, 2], 0⟩)))]

/-- A host is sent a packet and receives it. -/
def sentToHost : List SimStmt := [.send "s0".toList "eth1".toList 0, .deliver "s0".toList 0, .recv "h1".toList]

/-- The negation of **C206**: the UDP header received has a length if the interface is monitored, and none otherwise; and a packet
with an ICMPv6 header but without an IPv6 header is received only if the interface is not monitored. -/
theorem monitor_changes_violated :
    let mon : SimStmt := .monitor (fun _ => true) "h1".toList "eth0".toList (.pcap [])
    udpLen ((simNet.run (simPkt ++ sentToHost)).1.heap.view 0) = some 0 ∧
    udpLen ((simNet.run (mon :: (simPkt ++ sentToHost))).1.heap.view 0) = some 8 ∧
    (simNet.run (badPkt ++ sentToHost)).2.filterMap raised = [] ∧
    (simNet.run (mon :: (badPkt ++ sentToHost))).2.filterMap raised = [.assertion] := by
  decide +kernel

/-- `QuietStep`, computed. -/
def quietOk (m : SimMem) : SimStmt → Bool
  | .monitor _ n i (.pcap _) => match m.glue.xnode.get? n with
    | none => true
    | some x => (x.mons.get? i).isSome
  | .recv n => match m.glue.xnode.get? n with
    | none => true
    | some x => match x.queue with
      | [] => true
      | (_, p) :: _ => decide ((m.heap.view p).toBytes.1 = m.heap.view p) && (m.heap.view p).toBytes.2.isOk &&
          decide (m.heap.refs p).Nodup
  | .monitor _ _ _ _ => false
  | .unmonitor _ _ => false
  | _ => true

theorem quietOk_quiet {m : SimMem} {s : SimStmt} (h : quietOk m s = true) : QuietStep m s := by
  cases s with
  | pkt => trivial
  | send => trivial
  | deliver => trivial
  | unmonitor => cases h
  | monitor co n i how =>
    cases how with
    | pcap b =>
      refine ⟨⟨b, rfl⟩, fun x hx => ?_⟩
      simpa [quietOk, hx] using h
    | _ => cases h
  | recv n =>
    intro x dev p q f hx hq _
    simp only [quietOk, hx, hq, Bool.and_eq_true, decide_eq_true_eq] at h
    obtain ⟨⟨h1, h2⟩, h3⟩ := h
    cases hb : (m.heap.view p).toBytes with
    | mk a r =>
      rw [hb] at h1 h2
      cases r with
      | error e => cases h2
      | ok b => exact ⟨⟨b, by simp only at h1; rw [h1]⟩, h3⟩

/-- `QuietAll`, computed. -/
def quietAllOk (m : SimMem) : List SimStmt → Bool
  | [] => true
  | s :: ss => quietOk m s && quietAllOk (m.step s).1 ss

theorem quietAllOk_quiet : ∀ (ss : List SimStmt) (m : SimMem), quietAllOk m ss = true → QuietAll m ss
  | [], _, _ => trivial
  | s :: ss, m, h => by
    simp only [quietAllOk, Bool.and_eq_true] at h
    exact ⟨quietOk_quiet h.1, quietAllOk_quiet ss _ h.2⟩

/-- The history of `monitor_changes_violated`, with the packet serialised before it is sent. -/
def watched : List SimStmt :=
  .monitor (fun _ => true) "h1".toList "eth0".toList (.pcap []) :: (simPkt ++ (.pkt (.ser 0) :: sentToHost))

/-- The hypotheses of `monitors_watch_partial` can be met: the network with no monitors, and this history, which writes a file. -/
example : simNet.heap.WF ∧ MemRel simNet simNet ∧ QuietAll simNet watched ∧
    (simNet.run watched).1.files.map (fun x => (x.1, x.2.length)) = [("h1_eth0.pcap".toList, 42)] := by
  refine ⟨fun p r hr => ?_, ⟨rfl, fun n => ?_⟩, quietAllOk_quiet _ _ (by decide +kernel), by decide +kernel⟩
  · simp [simNet, Heap.refs] at hr
  · cases hx : simNet.glue.xnode.get? n with
    | none => exact .inl ⟨rfl, rfl⟩
    | some x =>
      have key : ∀ e ∈ simNet.glue.xnode, ∀ d ∈ e.2.mons, d.2 = Mon.null := by decide +kernel
      have hnull : ∀ dev mo, x.mons.get? dev = some mo → mo = .null := fun dev mo hd =>
        key _ (Dict.mem_of_get? hx) _ (Dict.mem_of_get? hd)
      exact .inr ⟨x, x, rfl, rfl, ⟨rfl, rfl, rfl, rfl, rfl, fun _ => rfl, hnull, fun dev hd => by cases hnull _ _ hd⟩⟩

/-- The hypotheses of `sim_packet_kept_partial` can be met: a second packet is made and changed while the first one travels. -/
example : let m := (simNet.run (simPkt ++ [.pkt .new, .pkt (.addNew 1 (.hdr (.null 2)))])).1
    0 < m.heap.pkts.length ∧ m.heap.refs 0 = [0, 1, 2] ∧ m.heap.refs 1 = [3] ∧
    ttlOf ((m.run (sentToHost ++ [.pkt (.ser 1)])).1.heap.view 0) = some 64 := by
  decide +kernel

end SY.Props
