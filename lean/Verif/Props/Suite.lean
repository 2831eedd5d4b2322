import Verif.Suite
import Verif.Props.Scenario

/-! # Several scenarios in one run (C217, C218) -/

namespace SY.Props

/-- A scenario as it comes from its file: nothing has been met yet, and no alarm was requested for it. -/
def NewScenario (s : Scenario) : Prop := s.completed = [] ∧ s.timer = false ∧ s.alarm = none

/-- The scenario was not left waiting for an output after something had been met. -/
def Settled (s : Scenario) : Prop := ¬ (s.completed ≠ [] ∧ WaitsForOutput s)

/-! ## The alarm of a single scenario -/

theorem setLast_length (l : List Entry) (e : Event) : (setLast l e).length = l.length := by
  fun_induction setLast l e <;> simp_all

theorem testpass_longer {s : Scenario} {x : Entry} {xs : List Entry} (h : s.pending = x :: xs) :
    s.testpass.1.completed.length = s.completed.length + 1 := by
  rw [(testpass_lists h).2.1]; simp

theorem recv_keeps {n : TestNet} (h : n.recv.1.scen.completed.length = n.scen.completed.length) :
    n.recv.1.scen.alarm = n.scen.alarm := by
  simp only [TestNet.recv, Scenario.next] at h ⊢
  rcases hp : n.scen.pending with _ | ⟨x, xs⟩
  · rfl
  · simp only [hp] at h ⊢
    split
    · rename_i hm
      rw [hm] at h
      simp only [setLast_length, testpass_longer hp] at h
      omega
    · rfl

theorem send_keeps {n : TestNet} {port : SendPort} {p : Packet}
    (h : (n.send port p).1.scen.completed.length = n.scen.completed.length) :
    (n.send port p).1.scen.alarm = n.scen.alarm := by
  simp only [TestNet.send] at h ⊢
  by_cases hd : n.scen.done = true
  · rw [if_pos hd]
  · rw [if_neg hd] at h ⊢
    cases hq : n.port port with
    | error x => rfl
    | ok dev =>
      rw [hq] at h
      simp only [TestNet.sendOn, Scenario.next] at h ⊢
      rcases hp : n.scen.pending with _ | ⟨x, xs⟩
      · rfl
      · simp only [hp] at h ⊢
        rcases hr : (x.event.matchOutput dev p).2.2 with e | r
        · rfl
        · rw [hr] at h
          cases r
          · rfl
          · simp only [TestNet.afterMatch] at h
            rw [testpass_longer (x := { x with event := (x.event.matchOutput dev p).1 }) (xs := xs) rfl] at h
            simp at h
          · rfl

/-- What is known of the timer, also after `debugger()` was called: it is on only while an output is waited for, and a
pending alarm of the scenario implies it. -/
def TimerSafe (s : Scenario) : Prop :=
  (s.timer = true → s.completed ≠ [] ∧ WaitsForOutput s) ∧ (s.alarm ≠ none → s.timer = true)

theorem testpass_safe {s : Scenario} {x : Entry} {xs : List Entry} (h : s.pending = x :: xs) : TimerSafe s.testpass.1 :=
  ⟨(testpass_timer h).1.mp, (testpass_timer h).2⟩

theorem recv_safe {n : TestNet} (h : TimerSafe n.scen) : TimerSafe n.recv.1.scen := by
  simp only [TestNet.recv, Scenario.next]
  rcases hp : n.scen.pending with _ | ⟨x, xs⟩
  · exact h
  · simp only
    split
    · obtain ⟨h1, h2⟩ := testpass_safe hp
      refine ⟨?_, h2⟩
      simp only [setLast_ne]
      exact h1
    · exact h

theorem send_safe {n : TestNet} {port : SendPort} {p : Packet} (h : TimerSafe n.scen) : TimerSafe (n.send port p).1.scen := by
  simp only [TestNet.send]
  by_cases hd : n.scen.done = true
  · rw [if_pos hd]; exact h
  · rw [if_neg hd]
    cases hq : n.port port with
    | error x => exact h
    | ok dev =>
      simp only [TestNet.sendOn, Scenario.next]
      rcases hp : n.scen.pending with _ | ⟨x, xs⟩
      · exact h
      · simp only
        have hset : TimerSafe { n.scen with pending := setFirst n.scen.pending (x.event.matchOutput dev p).1 } := by
          refine ⟨?_, h.2⟩
          rw [waits_setFirst hp _ (matchOutput_isOutput _ _ _)]
          exact h.1
        rw [hp] at hset
        simp only [TestNet.afterMatch]
        split
        · exact hset
        · exact testpass_safe (x := { x with event := (x.event.matchOutput dev p).1 }) rfl
        · exact hset
        · exact hset

/-! ## One process -/

/-- In a process whose earlier scenarios left no alarm, the alarm is that of the scenario that is run. -/
def OwnAlarm (s : Proc) : Prop :=
  s.alarm = s.net.scen.alarm.isSome ∧ (s.alarm = true → s.handler = some s.past.length) ∧ TimerSafe s.net.scen

theorem after_own {s : Proc} (h : OwnAlarm s) {n : TestNet} (ht : TimerSafe n.scen)
    (hk : n.scen.completed.length = s.net.scen.completed.length → n.scen.alarm = s.net.scen.alarm) : OwnAlarm (s.after n) := by
  unfold Proc.after
  by_cases hc : n.scen.completed.length = s.net.scen.completed.length
  · rw [if_pos hc]
    exact ⟨by rw [show s.alarm = _ from h.1, ← hk hc], h.2.1, ht⟩
  · rw [if_neg hc]
    refine ⟨rfl, fun ha => ?_, ht⟩
    have : n.scen.timer = true := ht.2 (fun e => by simp [e] at ha)
    simp [this]

/-- The state after an alarm: no alarm is pending, the flag and what was completed and is pending are as before. -/
theorem fire_state (s : Proc) : s.fire.1.alarm = false ∧ s.fire.1.net.scen.alarm = none ∧ s.fire.1.debug = s.debug ∧
    s.fire.1.net.scen.pending = s.net.scen.pending ∧ s.fire.1.net.scen.completed = s.net.scen.completed ∧
    (s.fire.1.net.scen.timer = true → s.net.scen.timer = true) := by
  unfold Proc.fire
  split
  · exact ⟨rfl, rfl, rfl, rfl, rfl, id⟩
  · split
    · unfold Proc.untime
      split
      · exact ⟨rfl, rfl, rfl, rfl, rfl, by simp⟩
      · exact ⟨rfl, rfl, rfl, rfl, rfl, id⟩
    · exact ⟨rfl, rfl, rfl, rfl, rfl, id⟩

theorem fire_safe {s : Proc} (h : TimerSafe s.net.scen) : TimerSafe s.fire.1.net.scen := by
  obtain ⟨_, f2, _, f4, f5, f6⟩ := fire_state s
  refine ⟨fun ht => ?_, by simp [f2]⟩
  have := h.1 (f6 ht)
  unfold WaitsForOutput at this ⊢
  rw [f4, f5]
  exact this

theorem fire_own {s : Proc} (h : OwnAlarm s) : OwnAlarm s.fire.1 := by
  obtain ⟨f1, f2, _⟩ := fire_state s
  exact ⟨by rw [f1, f2]; rfl, by simp [f1], fire_safe h.2.2⟩

theorem fire_raises {s : Proc} (h : OwnAlarm s) (ha : s.alarm = true) : s.fire.2 = (!s.debug && s.net.scen.timer) := by
  simp only [Proc.fire, h.2.1 ha]
  cases s.debug <;> simp [Proc.timerOf]

theorem fire_net {s : Proc} (h : OwnAlarm s) (ha : s.alarm = true) :
    s.fire.1.net = { s.net with scen := { s.net.scen with alarm := none, timer := !s.debug && s.net.scen.timer } } := by
  simp only [Proc.fire, h.2.1 ha]
  cases s.debug <;> simp [Proc.untime, Proc.disarm]

theorem after_net (s : Proc) (n : TestNet) : (s.after n).net = n := by unfold Proc.after; split <;> rfl

/-- Two processes in the same scenario, with different pasts. -/
def Alike (s s' : Proc) : Prop := s.net = s'.net ∧ s.alarm = s'.alarm ∧ OwnAlarm s ∧ OwnAlarm s' ∧ s.debug = s'.debug

theorem after_debug (s : Proc) (n : TestNet) : (s.after n).debug = s.debug := by unfold Proc.after; split <;> rfl

theorem fire_alike {s s' : Proc} (h : Alike s s') (ha : s.alarm = true) : Alike s.fire.1 s'.fire.1 ∧ s.fire.2 = s'.fire.2 := by
  obtain ⟨h1, h2, h3, h4, h5⟩ := h
  have ha' : s'.alarm = true := h2 ▸ ha
  refine ⟨⟨?_, ?_, fire_own h3, fire_own h4, ?_⟩, ?_⟩
  · rw [fire_net h3 ha, fire_net h4 ha', h1, h5]
  · rw [(fire_state s).1, (fire_state s').1]
  · rw [(fire_state s).2.2.1, (fire_state s').2.2.1, h5]
  · rw [fire_raises h3 ha, fire_raises h4 ha', h1, h5]

theorem after_alike {s s' : Proc} (h : Alike s s') {n : TestNet} (ht : TimerSafe n.scen)
    (hk : n.scen.completed.length = s.net.scen.completed.length → n.scen.alarm = s.net.scen.alarm) :
    Alike (s.after n) (s'.after n) := by
  obtain ⟨h1, h2, h3, h4, h5⟩ := h
  refine ⟨?_, ?_, after_own h3 ht hk, after_own h4 ht (by rw [← h1]; exact hk), by rw [after_debug, after_debug, h5]⟩
  · rw [after_net, after_net]
  · unfold Proc.after; rw [← h1]; split
    · exact h2
    · rfl

theorem turn_alike {s s' : Proc} (h : Alike s s') (prog : Tested) (b : Bool) (l : List Seen) :
    Alike (s.turn prog b l).1 (s'.turn prog b l).1 ∧ (s.turn prog b l).2 = (s'.turn prog b l).2 := by
  have h0 := h
  obtain ⟨h1, h2, h3, h4, h5⟩ := h
  unfold Proc.turn
  rw [← h2]
  by_cases hb : (b && s.alarm) = true
  · rw [if_pos hb, if_pos hb]
    have ha : s.alarm = true := by simp at hb; exact hb.2
    obtain ⟨f1, f2⟩ := fire_alike h0 ha
    exact ⟨f1, by rw [f2]⟩
  · rw [if_neg hb, if_neg hb, ← h1]
    cases prog l with
    | recv => exact ⟨after_alike h0 (recv_safe h3.2.2) recv_keeps, rfl⟩
    | send port p => exact ⟨after_alike h0 (send_safe h3.2.2) send_keeps, rfl⟩
    | debug =>
      have ha : Alike { s with debug := true } { s' with debug := true } := ⟨h1, h2, h3, h4, rfl⟩
      rw [← h1, ← h2] at ha
      exact ⟨ha, rfl⟩
    | wait => exact ⟨h0, rfl⟩
    | stop e => exact ⟨h0, rfl⟩

theorem play_alike {s s' : Proc} (h : Alike s s') (prog : Tested) (bs : List Bool) (l : List Seen) :
    Alike (s.play prog bs l).1 (s'.play prog bs l).1 ∧ (s.play prog bs l).2 = (s'.play prog bs l).2 := by
  induction bs generalizing s s' l with
  | nil => exact ⟨h, rfl⟩
  | cons b bs ih =>
    obtain ⟨g1, g2⟩ := turn_alike h prog b l
    unfold Proc.play
    rcases ht : s.turn prog b l with ⟨a, l1, e⟩
    rcases ht' : s'.turn prog b l with ⟨a', l1', e'⟩
    rw [ht, ht'] at g1 g2
    simp only [Prod.mk.injEq] at g2
    obtain ⟨rfl, rfl⟩ := g2
    cases e with
    | none => exact ih g1 l1
    | some e => exact ⟨g1, rfl⟩

/-! ## The harness -/

/-- Two outcomes that differ in the past at most. -/
def AlikeParts (a a' : Part) : Prop := Alike a.1.proc a'.1.proc ∧ a.2 = a'.2

theorem andThen_alike {a a' : Part} (h : AlikeParts a a') {f f' : Harness → Part}
    (hf : ∀ s s' : Harness, Alike s.proc s'.proc → AlikeParts (f s) (f' s')) : AlikeParts (a.andThen f) (a'.andThen f') := by
  obtain ⟨s, l, e⟩ := a
  obtain ⟨s', l', e'⟩ := a'
  obtain ⟨h1, h2⟩ := h
  simp only [Prod.mk.injEq] at h2
  obtain ⟨rfl, rfl⟩ := h2
  cases e with
  | some x => exact ⟨h1, rfl⟩
  | none =>
    obtain ⟨g1, g2⟩ := hf s s' h1
    refine ⟨g1, ?_⟩
    simp only [Part.andThen]
    rw [g2]

theorem gap_alike {s s' : Harness} (h : Alike s.proc s'.proc) (b : Bool) : AlikeParts (s.gap b) (s'.gap b) := by
  unfold Harness.gap
  rw [← h.2.1]
  by_cases hb : (b && s.proc.alarm) = true
  · rw [if_pos hb, if_pos hb]
    have ha : s.proc.alarm = true := by simp at hb; exact hb.2
    obtain ⟨f1, f2⟩ := fire_alike h ha
    exact ⟨f1, by rw [f2]⟩
  · rw [if_neg hb, if_neg hb]
    exact ⟨h, rfl⟩

theorem step_alike {s s' : Harness} (h : Alike s.proc s'.proc) (e : Option PyErr) (l : List SuiteAct) :
    AlikeParts (s.step e l) (s'.step e l) := by
  cases e <;> exact ⟨h, rfl⟩

theorem hook_alike {s s' : Harness} (h : Alike s.proc s'.proc) (f : Option (Option PyErr)) (a : SuiteAct) :
    AlikeParts (s.hook f a) (s'.hook f a) := by
  cases f with
  | none => exact ⟨h, rfl⟩
  | some e => exact step_alike h e [a]

theorem finish_alike {s s' : Harness} (h : Alike s.proc s'.proc) (nh : Bool) (t : Test) (c : Course) (e : Option PyErr) :
    AlikeParts (s.finish nh t c e) (s'.finish nh t c e) := by
  unfold Harness.finish Harness.report
  refine andThen_alike (andThen_alike (andThen_alike (andThen_alike (gap_alike h _) fun s s' h => hook_alike h _ _) fun s s' h =>
    andThen_alike (gap_alike h _) fun s s' h => ?_) fun s s' h => ?_)
    fun s s' h => gap_alike h _
  · rw [h.1]; exact step_alike h _ _
  · unfold Harness.tell; rw [h.1]; exact ⟨h, rfl⟩

/-- The part of a test that begins with the scenario. -/
theorem rest_alike {s s' : Harness} (h : Alike s.proc s'.proc) (nh : Bool) (t : Test) (c : Course) :
    AlikeParts
      (match s.user c with
        | (s', l, some x) => (s', l, some x)
        | (s', l, none) => ((s'.finish nh t c (endedWith l)).1, l ++ (s'.finish nh t c (endedWith l)).2.1,
            (s'.finish nh t c (endedWith l)).2.2))
      (match s'.user c with
        | (s', l, some x) => (s', l, some x)
        | (s', l, none) => ((s'.finish nh t c (endedWith l)).1, l ++ (s'.finish nh t c (endedWith l)).2.1,
            (s'.finish nh t c (endedWith l)).2.2)) := by
  obtain ⟨g1, g2⟩ := play_alike h c.prog c.turns []
  unfold Harness.user
  rcases hp : s.proc.play c.prog c.turns [] with ⟨a, e⟩
  rcases hp' : s'.proc.play c.prog c.turns [] with ⟨a', e'⟩
  rw [hp, hp'] at g1 g2
  simp only at g2
  subst g2
  have hf : ∀ e : Ending, AlikeParts
      ((Harness.finish nh t c (endedWith [.ended e]) { s with proc := a }).1,
        [SuiteAct.ended e] ++ (Harness.finish nh t c (endedWith [.ended e]) { s with proc := a }).2.1,
        (Harness.finish nh t c (endedWith [.ended e]) { s with proc := a }).2.2)
      ((Harness.finish nh t c (endedWith [.ended e]) { s' with proc := a' }).1,
        [SuiteAct.ended e] ++ (Harness.finish nh t c (endedWith [.ended e]) { s' with proc := a' }).2.1,
        (Harness.finish nh t c (endedWith [.ended e]) { s' with proc := a' }).2.2) := by
    intro e
    obtain ⟨k1, k2⟩ := finish_alike (s := { s with proc := a }) (s' := { s' with proc := a' }) g1 nh t c (endedWith [.ended e])
    exact ⟨k1, by simp only [k2]⟩
  cases e with
  | none => exact ⟨g1, rfl⟩
  | some e =>
    cases e with
    | exits => exact ⟨g1, rfl⟩
    | returned => exact hf _
    | raised x => exact hf _

theorem gap_idle {s : Harness} (h : s.proc.alarm = false) (b : Bool) : s.gap b = (s, [], none) := by
  simp [Harness.gap, h]

theorem andThen_none (s : Harness) (f : Harness → Part) : Part.andThen (s, [], none) f = f s := by
  simp [Part.andThen]

theorem begin_alike {s s' : Harness} (h : s.proc.alarm = false) (h' : s'.proc.alarm = false)
    (hd : s.proc.debug = s'.proc.debug) (t : Test) (ht : NewScenario t.scen) :
    Alike (s.begin t).proc (s'.begin t).proc := by
  obtain ⟨t1, t2, t3⟩ := ht
  have hk : TimerSafe t.scen := ⟨by simp [t1, t2], by simp [t3]⟩
  exact ⟨rfl, by simp [Harness.begin, h, h'], ⟨by simp [Harness.begin, h, t3], by simp [Harness.begin, h], hk⟩,
    ⟨by simp [Harness.begin, h', t3], by simp [Harness.begin, h'], hk⟩, hd⟩

theorem write_alike {s s' : Harness} (h : Alike s.proc s'.proc) (t : Test) (c : Course) :
    AlikeParts
      ((s.gap (c.gaps .files)).andThen fun s => Harness.step { s with files := writeFiles s.files t.files } c.files [.wrote])
      ((s'.gap (c.gaps .files)).andThen fun s => Harness.step { s with files := writeFiles s.files t.files } c.files [.wrote]) := by
  apply andThen_alike (gap_alike h _)
  intro s s' h
  exact step_alike (s := { s with files := writeFiles s.files t.files }) (s' := { s' with files := writeFiles s'.files t.files }) h _ _

theorem setup_alike {s s' : Harness} (h : Alike s.proc s'.proc) (t : Test) (c : Course) :
    AlikeParts ((s.gap (c.gaps .setup)).andThen fun s => s.hook t.setup .setup)
      ((s'.gap (c.gaps .setup)).andThen fun s => s.hook t.setup .setup) := by
  apply andThen_alike (gap_alike h _)
  intro s s' h
  exact hook_alike h _ _

/-- Without an alarm left over, a test goes as it goes in a new process. -/
theorem test_alike {s s' : Harness} (h : s.proc.alarm = false) (h' : s'.proc.alarm = false)
    (hd : s.proc.debug = s'.proc.debug) (nh : Bool) (t : Test) (c : Course) (ht : NewScenario t.scen) :
    (s.test nh t c).2 = (s'.test nh t c).2 ∧
      ((s.test nh t c).2.2 = none → Alike (s.test nh t c).1.proc (s'.test nh t c).1.proc) := by
  unfold Harness.test Harness.prepare
  rw [gap_idle h, gap_idle h', andThen_none, andThen_none]
  rcases hl : c.load with _ | e
  · simp only [Harness.step]
    have e1 : ∀ s : Harness, Part.andThen (s, [SuiteAct.loaded], none) (fun s => (s.begin t, [], none)) =
        (s.begin t, [SuiteAct.loaded], none) := fun _ => rfl
    rw [e1, e1]
    have hb := begin_alike h h' hd t ht
    have := andThen_alike (andThen_alike (andThen_alike (a := (s.begin t, [SuiteAct.loaded], none))
      (a' := (s'.begin t, [SuiteAct.loaded], none)) ⟨hb, rfl⟩ fun s s' h => write_alike h t c) fun s s' h =>
      setup_alike h t c) fun s s' h => rest_alike h nh t c
    exact ⟨this.2, fun _ => this.1⟩
  · simp only [Harness.step, Part.andThen]
    simp

/-- A test that was run to its end without leaving its scenario waiting for an output leaves no alarm. -/
theorem test_settled {s : Harness} (h : s.proc.alarm = false) (nh : Bool) (t : Test) (c : Course) (ht : NewScenario t.scen)
    (he : (s.test nh t c).2.2 = none) (hs : Settled (s.test nh t c).1.proc.net.scen) :
    (s.test nh t c).1.proc.alarm = false := by
  obtain ⟨_, _, ⟨o1, _, o3⟩, _⟩ := (test_alike h h rfl nh t c ht).2 he
  cases ha : (s.test nh t c).1.proc.alarm with
  | false => rfl
  | true =>
    exfalso
    apply hs
    rw [o1] at ha
    exact o3.1 (o3.2 (fun e => by simp [e] at ha))

theorem run_single (nh : Bool) (t : Test) (c : Course) (s : Harness) :
    (s.run nh [(t, c)]).2.1 = [(s.test nh t c).2.1] ∧ (s.run nh [(t, c)]).2.2 = (s.test nh t c).2.2 ∧
      (s.run nh [(t, c)]).1.proc.net = (s.test nh t c).1.proc.net ∧
      (s.run nh [(t, c)]).1.proc.debug = (s.test nh t c).1.proc.debug := by
  unfold Harness.run
  rcases s.test nh t c with ⟨a, l, _ | x⟩ <;> exact ⟨rfl, rfl, rfl, rfl⟩

/-- **C217**, partial: of scenarios run one after the other, each goes — what the harness does, what it says, how it ends —
as it goes when it is run alone, with the same behaviour of the program and the same times of the alarm, provided that the
scenarios before it ran to their end, were not left waiting for an output after something had been met, and no program
called `debugger()` in them.  Missing: the scenarios after one that failed while an output was expected
(`suite_alarm_violated`, `suite_abort_violated`), or in which `debugger()` was called (`debugger_forever_violated`). -/
theorem suite_alone_partial (nh : Bool) (fs fs' : Dict (List Char) (List Char)) (l : List (Test × Course)) (x : Test × Course)
    (hu : ∀ y ∈ l ++ [x], NewScenario y.1.scen)
    (he : ∀ y ∈ l, ((Harness.start fs').run nh [y]).2.2 = none ∧
      Settled ((Harness.start fs').run nh [y]).1.proc.net.scen ∧ ((Harness.start fs').run nh [y]).1.proc.debug = false) :
    ((Harness.start fs).run nh (l ++ [x])).2.1 = (l ++ [x]).flatMap (fun y => ((Harness.start fs').run nh [y]).2.1) ∧
      ((Harness.start fs).run nh (l ++ [x])).2.2 = ((Harness.start fs').run nh [x]).2.2 := by
  have hg : ∀ s : Harness, s.proc.alarm = false → s.proc.debug = false →
      (s.run nh (l ++ [x])).2.1 = (l ++ [x]).flatMap (fun y => ((Harness.start fs').run nh [y]).2.1) ∧
        (s.run nh (l ++ [x])).2.2 = ((Harness.start fs').run nh [x]).2.2 := by
    have h0 : (Harness.start fs').proc.alarm = false := rfl
    induction l with
    | nil =>
      intro s hs hsd
      obtain ⟨t, c⟩ := x
      have ha := (test_alike hs h0 hsd nh t c (hu (t, c) (by simp))).1
      obtain ⟨a1, a2, _, _⟩ := run_single nh t c s
      obtain ⟨b1, b2, _, _⟩ := run_single nh t c (Harness.start fs')
      refine ⟨?_, ?_⟩
      · simp only [List.nil_append, List.flatMap_cons, List.flatMap_nil, List.append_nil]
        rw [a1, b1, ha]
      · simp only [List.nil_append]
        rw [a2, b2, ha]
    | cons y l ih =>
      intro s hs hsd
      obtain ⟨t, c⟩ := y
      have hy := he (t, c) (by simp)
      obtain ⟨b1, b2, b3, b4⟩ := run_single nh t c (Harness.start fs')
      have hut := hu (t, c) (by simp)
      obtain ⟨ha, hb⟩ := test_alike hs h0 hsd nh t c hut
      have hn : (s.test nh t c).2.2 = none := by rw [ha, ← b2]; exact hy.1
      have hb := hb hn
      have hset : Settled (s.test nh t c).1.proc.net.scen := by rw [hb.1, ← b3]; exact hy.2.1
      have hdeb : (s.test nh t c).1.proc.debug = false := by rw [hb.2.2.2.2, ← b4]; exact hy.2.2
      have hal := test_settled hs nh t c hut hn hset
      have ih := ih (fun y hy => hu y (by simp only [List.cons_append, List.mem_cons]; exact .inr hy))
        (fun y hy => he y (List.mem_cons_of_mem _ hy)) (s.test nh t c).1.leave hal hdeb
      have hr : s.run nh ((t, c) :: (l ++ [x])) =
          (((s.test nh t c).1.leave.run nh (l ++ [x])).1, (s.test nh t c).2.1 :: ((s.test nh t c).1.leave.run nh (l ++ [x])).2.1,
            ((s.test nh t c).1.leave.run nh (l ++ [x])).2.2) := by
        conv => lhs; unfold Harness.run
        rcases hq : s.test nh t c with ⟨a, k, e⟩
        rw [hq] at hn
        cases hn
        rfl
      simp only [List.cons_append]
      rw [hr]
      refine ⟨?_, ih.2⟩
      simp only [List.flatMap_cons]
      rw [b1, ih.1, ha]
      rfl
  exact hg _ rfl rfl

/-! ### Examples -/

/-- An expectation that nothing is sent to the program for a second. -/
def waitEvent : Event := .timeout 1

/-- An expectation of an output, on `eth0`. -/
def sendEvent : Event := .output [("eth0".toList, ⟨true, exPacket, [], [], none⟩)] []

/-- A scenario that wants the program to wait once. -/
def waitTest : Test := { scen := Scenario.expect {} waitEvent "wait".toList }

/-- A scenario that wants the program to wait once and then to send. -/
def sendTest : Test :=
  { scen := (Scenario.expect {} waitEvent "wait".toList).expect sendEvent "send".toList, setup := some none, teardown := some none }

/-- A program that asks for one packet and returns; if the alarm interrupts it, the exception escapes. -/
def oneCall : Tested := fun h =>
  match h with
  | [] => .recv
  | .late :: _ => .stop (.raised .testFailure)
  | _ => .stop .returned

/-- What the harness has said about the scenarios. -/
def verdicts (l : List (List SuiteAct)) : List Verdict :=
  l.flatMap fun a => a.filterMap fun x => match x with
    | .said v => some v
    | _ => none

example : ((Harness.start []).run false [(waitTest, { prog := oneCall, turns := [true, false] }),
    (sendTest, { prog := oneCall, turns := [false, false] })]).2 =
    ([[.loaded, .wrote, .ended .returned, .summary, .said .allPassed],
      [.loaded, .wrote, .setup, .ended .returned, .teardown, .summary, .said .aTestFailed]], none) := by decide +kernel

example : NewScenario waitTest.scen ∧ NewScenario sendTest.scen := by
  refine ⟨⟨rfl, rfl, rfl⟩, ⟨rfl, rfl, rfl⟩⟩

example : ((Harness.start []).run false [(waitTest, { prog := oneCall, turns := [true, false] })]).2.2 = none ∧
    Settled ((Harness.start []).run false [(waitTest, { prog := oneCall, turns := [true, false] })]).1.proc.net.scen ∧
    ((Harness.start []).run false [(waitTest, { prog := oneCall, turns := [true, false] })]).1.proc.debug = false :=
  ⟨by decide +kernel, (fun ⟨_, x, xs, hp, _⟩ => by cases hp), by decide +kernel⟩

/-- The alarm of a scenario that failed is not withdrawn: it arrives in the next scenario, whose program does all that is
expected, and makes it fail; alone, with the same times, that scenario passes. -/
theorem suite_alarm_violated :
    verdicts ((Harness.start []).run false [(sendTest, { prog := oneCall, turns := [false, false] }),
      (waitTest, { prog := oneCall, turns := [true, false] })]).2.1 = [.aTestFailed, .aTestFailed] ∧
    verdicts ((Harness.start []).run false [(waitTest, { prog := oneCall, turns := [true, false] })]).2.1 = [.allPassed] := by
  decide +kernel

/-- It may also arrive between the scenarios: then the harness itself ends with the exception, and the scenarios that
remain are not run. -/
theorem suite_abort_violated :
    ((Harness.start []).run false [(sendTest, { prog := oneCall, turns := [false, false] }),
      (waitTest, { prog := oneCall, turns := [false, false], gaps := fun g => g == .load })]).2 =
      ([[.loaded, .wrote, .setup, .ended .returned, .teardown, .summary, .said .aTestFailed], []],
        some (.raised .testFailure)) := by
  decide +kernel

/-- And between the end of the program and `teardown`, which is then never called. -/
theorem suite_teardown_violated :
    ((Harness.start []).run false [(sendTest, { prog := oneCall, turns := [false, false], gaps := fun g => g == .teardown })]).2 =
      ([[.loaded, .wrote, .setup, .ended .returned]], some (.raised .testFailure)) := by
  decide +kernel

/-! ### The handler -/

/-- When the alarm can arrive, a handler is installed. -/
def HasHandler (s : Proc) : Prop := (s.alarm = true → s.handler ≠ none) ∧ TimerSafe s.net.scen

theorem fire_handled {s : Proc} (h : HasHandler s) : HasHandler s.fire.1 := ⟨by simp [(fire_state s).1], fire_safe h.2⟩

theorem after_handled {s : Proc} (h : HasHandler s) {n : TestNet} (ht : TimerSafe n.scen) : HasHandler (s.after n) := by
  refine ⟨?_, by rw [after_net]; exact ht⟩
  unfold Proc.after
  split
  · exact h.1
  · intro ha
    have : n.scen.timer = true := ht.2 (fun e => by simp [e] at ha)
    simp [this]

theorem play_handled {s : Proc} (h : HasHandler s) (prog : Tested) (bs : List Bool) (l : List Seen) : HasHandler (s.play prog bs l).1 := by
  induction bs generalizing s l with
  | nil => exact h
  | cons b bs ih =>
    have ht : HasHandler (s.turn prog b l).1 := by
      unfold Proc.turn
      split
      · exact fire_handled h
      · split
        · exact after_handled h (recv_safe h.2)
        · rename_i port p _
          exact after_handled h (send_safe h.2)
        · exact h
        · exact h
        · exact h
    unfold Proc.play
    rcases hq : s.turn prog b l with ⟨a, k, _ | e⟩
    · rw [hq] at ht; exact ih ht k
    · rw [hq] at ht; exact ht

theorem andThen_handled {a : Part} {f : Harness → Part} (h : HasHandler a.1.proc) (hf : ∀ s : Harness, HasHandler s.proc → HasHandler (f s).1.proc) :
    HasHandler (a.andThen f).1.proc := by
  obtain ⟨s, l, _ | x⟩ := a
  · exact hf s h
  · exact h

theorem gap_handled {s : Harness} (h : HasHandler s.proc) (b : Bool) : HasHandler (s.gap b).1.proc := by
  unfold Harness.gap
  split
  · exact fire_handled h
  · exact h

theorem step_handled {s : Harness} (h : HasHandler s.proc) (e : Option PyErr) (l : List SuiteAct) : HasHandler (s.step e l).1.proc := by
  cases e <;> exact h

theorem hook_handled {s : Harness} (h : HasHandler s.proc) (f : Option (Option PyErr)) (a : SuiteAct) : HasHandler (s.hook f a).1.proc := by
  cases f with
  | none => exact h
  | some e => exact step_handled h e _

theorem begin_handled {s : Harness} (h : HasHandler s.proc) {t : Test} (ht : NewScenario t.scen) : HasHandler (s.begin t).proc := by
  obtain ⟨t1, t2, t3⟩ := ht
  exact ⟨h.1, by simp [Harness.begin, t1, t2], by simp [Harness.begin, t3]⟩

theorem test_handled {s : Harness} (h : HasHandler s.proc) (nh : Bool) {t : Test} (c : Course) (ht : NewScenario t.scen) :
    HasHandler (s.test nh t c).1.proc := by
  unfold Harness.test Harness.prepare
  refine andThen_handled (andThen_handled (andThen_handled (andThen_handled (gap_handled h _) fun s h =>
    andThen_handled (step_handled h _ _) fun s h => begin_handled h ht) fun s h =>
    andThen_handled (gap_handled h _) fun s h => ?_) fun s h =>
    andThen_handled (gap_handled h _) fun s h => hook_handled h _ _) fun s h => ?_
  · exact step_handled (s := { s with files := writeFiles s.files t.files }) h _ _
  · have hp := play_handled h c.prog c.turns []
    have hf : ∀ (z : Harness) (e : Option PyErr), HasHandler z.proc → HasHandler (z.finish nh t c e).1.proc := by
      intro z e hz
      unfold Harness.finish Harness.report
      exact andThen_handled (andThen_handled (andThen_handled (andThen_handled (gap_handled hz _) fun s h => hook_handled h _ _)
        fun s h => andThen_handled (gap_handled h _) fun s h => step_handled h _ _) fun s h => h) fun s h => gap_handled h _
    unfold Harness.user
    rcases hq : s.proc.play c.prog c.turns [] with ⟨p, _ | e⟩
    · rw [hq] at hp; exact hp
    · rw [hq] at hp
      cases e with
      | exits => exact hp
      | returned => exact hf _ _ hp
      | raised x => exact hf _ _ hp

/-- After any run: when the alarm can arrive, a handler is installed (without one, the process would be killed). -/
theorem proc_handler (nh : Bool) (fs : Dict (List Char) (List Char)) (l : List (Test × Course)) (hu : ∀ y ∈ l, NewScenario y.1.scen) :
    ((Harness.start fs).run nh l).1.proc.alarm = true → ((Harness.start fs).run nh l).1.proc.handler ≠ none := by
  have hg : ∀ s : Harness, HasHandler s.proc → HasHandler (s.run nh l).1.proc := by
    induction l with
    | nil => exact fun s h => h
    | cons y l ih =>
      obtain ⟨t, c⟩ := y
      intro s h
      have ht := test_handled h nh c (hu (t, c) (by simp))
      unfold Harness.run
      rcases hq : s.test nh t c with ⟨a, k, _ | x⟩
      · rw [hq] at ht
        exact ih (fun y hy => hu y (List.mem_cons_of_mem _ hy)) a.leave ht
      · rw [hq] at ht; exact ht
  exact (hg (Harness.start fs) ⟨by simp [Harness.start], by simp [Harness.start, TimerSafe]⟩).1

/-! ## C218: setup, support files, teardown -/

/-- What is done in a test that is not cut short: files, then setup, then the program, then teardown, then the report. -/
def wholeTest (t : Test) (e : Ending) (v : Verdict) : List SuiteAct :=
  [.loaded, .wrote] ++ (if t.setup.isSome then [.setup] else []) ++ [.ended e] ++
    (if t.teardown.isSome then [.teardown] else []) ++ [.summary, .said v]

theorem andThen_stop {a : Part} {f : Harness → Part} (h : (a.andThen f).2.2 = none) :
    a.2.2 = none ∧ (f a.1).2.2 = none ∧ (a.andThen f).1 = (f a.1).1 ∧ (a.andThen f).2.1 = a.2.1 ++ (f a.1).2.1 := by
  obtain ⟨s, l, e⟩ := a
  cases e with
  | some x => cases h
  | none => exact ⟨rfl, h, rfl, rfl⟩

theorem gap_stop (s : Harness) (b : Bool) : (s.gap b).2.1 = [] ∧ (s.gap b).1.files = s.files ∧
    (s.gap b).1.proc.net.scen.pending = s.proc.net.scen.pending := by
  unfold Harness.gap
  split
  · exact ⟨rfl, rfl, (fire_state s.proc).2.2.2.1⟩
  · exact ⟨rfl, rfl, rfl⟩

theorem step_stop {s : Harness} {e : Option PyErr} {l : List SuiteAct} (h : (s.step e l).2.2 = none) :
    s.step e l = (s, l, none) ∧ e = none := by
  cases e with
  | some x => cases h
  | none => exact ⟨rfl, rfl⟩

theorem hook_stop {s : Harness} {f : Option (Option PyErr)} {a : SuiteAct} (h : (s.hook f a).2.2 = none) :
    s.hook f a = (s, if f.isSome then [a] else [], none) := by
  cases f with
  | none => rfl
  | some e => exact (step_stop h).1

theorem verdict_pending {s s' : Scenario} (h : s.pending = s'.pending) (e : Option PyErr) : verdict s e = verdict s' e := by
  unfold verdict Scenario.failedTest
  rw [h]

theorem prepare_whole {s : Harness} {t : Test} {c : Course} (h : (s.prepare t c).2.2 = none) :
    (s.prepare t c).2.1 = [.loaded, .wrote] ++ (if t.setup.isSome then [.setup] else []) ∧
      (s.prepare t c).1.files = writeFiles s.files t.files := by
  unfold Harness.prepare at h ⊢
  obtain ⟨h1, h2, h3, h4⟩ := andThen_stop h
  obtain ⟨i1, i2, i3, i4⟩ := andThen_stop h1
  obtain ⟨j1, j2, j3, j4⟩ := andThen_stop i1
  obtain ⟨k1, k2, k3, k4⟩ := andThen_stop j2
  obtain ⟨l1, l2, l3, l4⟩ := andThen_stop i2
  obtain ⟨m1, m2, m3, m4⟩ := andThen_stop h2
  have e1 := step_stop k1
  have e2 := step_stop l2
  have e3 := hook_stop m2
  rw [h3, h4, i4, j4, k4, l4, m3, m4, e1.1, e2.1, e3, (gap_stop _ _).1, (gap_stop _ _).1, (gap_stop _ _).1]
  refine ⟨by simp, ?_⟩
  simp only
  rw [(gap_stop _ _).2.1, i3, l3, e2.1]
  simp only
  rw [(gap_stop _ _).2.1, j3, k3, e1.1]
  simp only [Harness.begin]
  rw [(gap_stop _ _).2.1]

theorem report_whole {s : Harness} {nh : Bool} {t : Test} {c : Course} {e : Option PyErr} (h : (s.report nh t c e).2.2 = none) :
    (s.report nh t c e).2.1 = (if t.teardown.isSome then [.teardown] else []) ++ [.summary, .said (verdict s.proc.net.scen e)] ∧
      (s.report nh t c e).1.proc.net.scen.pending = s.proc.net.scen.pending ∧ (s.report nh t c e).1.files = s.files ∧
      (nh = true → verdict s.proc.net.scen e = .allPassed) := by
  unfold Harness.report at h ⊢
  obtain ⟨h1, h2, h3, h4⟩ := andThen_stop h
  obtain ⟨i1, i2, i3, i4⟩ := andThen_stop h1
  obtain ⟨j1, j2, j3, j4⟩ := andThen_stop i1
  obtain ⟨k1, k2, k3, k4⟩ := andThen_stop i2
  have e1 := hook_stop j2
  have e2 := step_stop k2
  have hp : ∀ x : Harness, x = Prod.fst (Part.andThen (Part.andThen (s.gap (c.gaps .teardown)) fun s => s.hook t.teardown .teardown)
      fun s => (s.gap (c.gaps .summary)).andThen fun s => s.step (c.print s.proc.net.scen) [.summary]) →
      x.proc.net.scen.pending = s.proc.net.scen.pending ∧ x.files = s.files := by
    rintro x rfl
    rw [i3, k3, e2.1]
    simp only
    rw [(gap_stop _ _).2.2, (gap_stop _ _).2.1, j3, e1]
    simp only
    rw [(gap_stop _ _).2.2, (gap_stop _ _).2.1]
    exact ⟨rfl, rfl⟩
  obtain ⟨p1, p2⟩ := hp _ rfl
  rw [h3, h4, i4, j4, k4, e1, e2.1, (gap_stop _ _).1, (gap_stop _ _).1]
  unfold Harness.tell at h2 ⊢
  refine ⟨?_, p1, p2, ?_⟩
  · simp only [verdict_pending p1, List.nil_append]
    simp
  · intro hn
    rw [verdict_pending p1] at h2
    cases hv : verdict s.proc.net.scen e <;> rw [hv] at h2 <;> first | rfl | (exfalso; simp [hn] at h2)

theorem finish_whole {s : Harness} {nh : Bool} {t : Test} {c : Course} {e : Option PyErr} (h : (s.finish nh t c e).2.2 = none) :
    (s.finish nh t c e).2.1 = (if t.teardown.isSome then [.teardown] else []) ++ [.summary, .said (verdict s.proc.net.scen e)] ∧
      (s.finish nh t c e).1.proc.net.scen.pending = s.proc.net.scen.pending ∧ (s.finish nh t c e).1.files = s.files ∧
      (nh = true → verdict s.proc.net.scen e = .allPassed) := by
  unfold Harness.finish at h ⊢
  obtain ⟨h1, h2, h3, h4⟩ := andThen_stop h
  obtain ⟨r1, r2, r3, r4⟩ := report_whole h1
  obtain ⟨g1, g2, g3⟩ := gap_stop (s.report nh t c e).1 (c.gaps .after)
  rw [h3, h4, g1, g2, g3]
  exact ⟨by rw [r1]; simp, r2, r3, r4⟩

/-- **C218**, partial: whatever the program does, and whenever the alarm arrives, a test that is not cut short writes the
scenario's files, calls `setup`, runs the program, calls `teardown` and prints the report, each once and in this order; what
it says is the verdict on the expectations that are left when the program has ended; the files are then as the scenario has
them, and all other files as they were.  Missing: tests that are cut short (`suite_exit_violated`,
`suite_teardown_violated`). -/
theorem test_whole_partial (s s' : Harness) (nh : Bool) (t : Test) (c : Course) (a : List SuiteAct)
    (h : s.test nh t c = (s', a, none)) (hu : t.files.Uniq) :
    ∃ e, a = wholeTest t e (verdict s'.proc.net.scen e.error) ∧ e ≠ .exits ∧
      ∀ name, s'.files.get? name = match t.files.get? name with
        | some text => some text
        | none => s.files.get? name := by
  have hw : ∀ (l fs : Dict (List Char) (List Char)), l.Uniq → ∀ name, (writeFiles fs l).get? name = match l.get? name with
      | some text => some text
      | none => fs.get? name := by
    intro l
    induction l with
    | nil => intro fs _ name; rfl
    | cons x l ih =>
      intro fs hl name
      obtain ⟨k, v⟩ := x
      have hl' : Dict.Uniq l := (List.nodup_cons.mp hl).2
      have hk : k ∉ Dict.keys l := (List.nodup_cons.mp hl).1
      simp only [writeFiles]
      rw [ih _ hl', Dict.get?_cons, Dict.get?_set]
      by_cases hkn : k = name
      · subst hkn
        rw [(Dict.get?_eq_none l k).mpr hk]
        simp
      · simp [hkn]
  have hn : (s.test nh t c).2.2 = none := by rw [h]
  have e1 : (s.test nh t c).1 = s' := by rw [h]
  have e2 : (s.test nh t c).2.1 = a := by rw [h]
  unfold Harness.test at hn e1 e2
  obtain ⟨h1, h2, h3, h4⟩ := andThen_stop hn
  rw [h3] at e1
  rw [h4] at e2
  obtain ⟨p1, p2⟩ := prepare_whole h1
  rw [p1] at e2
  generalize (s.prepare t c).1 = z at h2 e1 e2 p2
  unfold Harness.user at h2 e1 e2
  have hfin : ∀ (p : Proc) (e : Ending),
      (Harness.finish nh t c e.error { z with proc := p }).2.2 = none →
      (Harness.finish nh t c e.error { z with proc := p }).1 = s' →
      ([SuiteAct.loaded, SuiteAct.wrote] ++ if t.setup.isSome = true then [SuiteAct.setup] else []) ++
        ([SuiteAct.ended e] ++ (Harness.finish nh t c e.error { z with proc := p }).2.1) = a → e ≠ .exits →
      ∃ e, a = wholeTest t e (verdict s'.proc.net.scen e.error) ∧ e ≠ .exits ∧
        ∀ name, s'.files.get? name = match t.files.get? name with
          | some text => some text
          | none => s.files.get? name := by
    intro p e f1 f2 f3 f4
    obtain ⟨g1, g2, g3, _⟩ := finish_whole f1
    refine ⟨e, ?_, f4, ?_⟩
    · rw [← f3, g1, ← f2, verdict_pending g2]
      simp [wholeTest]
    · intro name
      rw [← f2, g3, p2]
      exact hw _ _ hu name
  rcases hpl : z.proc.play c.prog c.turns [] with ⟨p, _ | e⟩
  · rw [hpl] at h2; cases h2
  · rw [hpl] at h2 e1 e2
    cases e with
    | exits => cases h2
    | returned => exact hfin p .returned h2 e1 e2 (by simp)
    | raised x => exact hfin p (.raised x) h2 e1 e2 (by simp)

example : ∃ s' a, (Harness.start [("a".toList, "old".toList), ("b".toList, "kept".toList)]).test false
    { sendTest with files := [("a".toList, "new".toList)] } { prog := oneCall, turns := [false, false] } = (s', a, none) ∧
    a = wholeTest sendTest .returned .aTestFailed ∧ s'.files.get? "a".toList = some "new".toList :=
  ⟨_, _, rfl, by decide +kernel, by decide +kernel⟩

/-- A program that calls `sys.exit()`, for every scenario and however it got there: `teardown` is not called, there is no
summary and no verdict, and the scenarios that remain are not run. -/
theorem suite_exit_violated (s : Harness) (nh : Bool) (t : Test) (c : Course) (l : List (Test × Course)) (z : Harness)
    (a : List SuiteAct) (p : Proc) (hp : s.prepare t c = (z, a, none))
    (he : z.proc.play c.prog c.turns [] = (p, some .exits)) :
    (s.run nh ((t, c) :: l)).2 = ([a], some .exits) ∧ SuiteAct.teardown ∉ a ∧ SuiteAct.summary ∉ a := by
  have hw := (prepare_whole (s := s) (t := t) (c := c) (by rw [hp])).1
  rw [hp] at hw
  simp only at hw
  have ht : s.test nh t c = ({ z with proc := p }, a ++ [], some .exits) := by
    unfold Harness.test
    rw [hp]
    simp only [Part.andThen, Harness.user, he]
  unfold Harness.run
  rw [ht, hw]
  refine ⟨by simp, ?_, ?_⟩ <;> cases t.setup <;> simp

example : ∃ z a p, (Harness.start []).prepare sendTest { prog := fun _ => .stop .exits, turns := [false] } = (z, a, none) ∧
    z.proc.play (fun _ => .stop .exits) [false] [] = (p, some .exits) := ⟨_, _, _, rfl, rfl⟩

/-- With `--nohandle` the first scenario that fails is the last one run: whatever comes after it, if all went well until
the verdict. -/
theorem suite_nohandle (s s' : Harness) (t : Test) (c : Course) (l : List (Test × Course)) (a : List SuiteAct)
    (h : s.test false t c = (s', a, none)) (e : Ending) (v : Verdict) (ha : a = wholeTest t e v) :
    ∃ s'' m x, s.run true ((t, c) :: l) = (s'', a :: m, x) ∧
      (v ≠ .allPassed → m = [] ∧ x = some (.raised .generic)) ∧
      (v = .allPassed → s.test true t c = (s', a, none)) := by
  have key : (s.test true t c).2 = (a, if v = .allPassed then none else some (.raised .generic)) ∧
      (v = .allPassed → (s.test true t c).1 = s') := by
    have hn : (s.test false t c).2.2 = none := by rw [h]
    have e1 : (s.test false t c).1 = s' := by rw [h]
    have e2 : (s.test false t c).2.1 = a := by rw [h]
    unfold Harness.test at hn e1 e2 ⊢
    obtain ⟨h1, h2, h3, h4⟩ := andThen_stop hn
    rw [h3] at e1
    rw [h4] at e2
    obtain ⟨p1, p2⟩ := prepare_whole h1
    rcases hz : s.prepare t c with ⟨z, b, q⟩
    rw [hz] at h1 h2 e1 e2 p1
    cases h1
    simp only [Part.andThen] at h2 e1 e2 p1 ⊢
    have hrep : ∀ (w : Harness) (err : Option PyErr), (w.report false t c err).2.2 = none →
        w.report true t c err = ((w.report false t c err).1, (w.report false t c err).2.1,
          if verdict w.proc.net.scen err = .allPassed then none else some (.raised .generic)) := by
      intro w err hf
      have hp := (report_whole hf).2.1
      unfold Harness.report at hf hp ⊢
      obtain ⟨i1, i2, i3, i4⟩ := andThen_stop hf
      rw [i3] at hp
      generalize ((((w.gap (c.gaps .teardown)).andThen fun s => s.hook t.teardown .teardown).andThen fun s =>
        (s.gap (c.gaps .summary)).andThen fun s => s.step (c.print s.proc.net.scen) [.summary])) = A at i1 hp ⊢
      obtain ⟨y, b, q⟩ := A
      cases i1
      simp only [Part.andThen, Harness.tell] at hp ⊢
      rw [verdict_pending hp]
      cases verdict w.proc.net.scen err <;> rfl
    have hfin : ∀ (w : Harness) (err : Option PyErr), (w.finish false t c err).2.2 = none →
        (w.finish true t c err).2 = ((w.finish false t c err).2.1,
          if verdict w.proc.net.scen err = .allPassed then none else some (.raised .generic)) ∧
        (verdict w.proc.net.scen err = .allPassed → (w.finish true t c err).1 = (w.finish false t c err).1) := by
      intro w err hf
      unfold Harness.finish at hf ⊢
      obtain ⟨i1, i2, i3, i4⟩ := andThen_stop hf
      rw [hrep w err i1, i3, i4]
      by_cases hv : verdict w.proc.net.scen err = .allPassed
      · simp only [hv, if_true, Part.andThen]
        exact ⟨by rw [i2], fun _ => trivial⟩
      · simp only [hv, if_false, Part.andThen]
        exact ⟨by rw [(gap_stop _ _).1]; simp, False.elim⟩
    have hdone : ∀ (w : Harness) (k : List SuiteAct), (Harness.finish false t c (endedWith k) w).2.2 = none →
        (Harness.finish false t c (endedWith k) w).1 = s' →
        b ++ (k ++ (Harness.finish false t c (endedWith k) w).2.1) = a →
        (∃ en, k = [.ended en]) →
        (b ++ (k ++ (Harness.finish true t c (endedWith k) w).2.1), (Harness.finish true t c (endedWith k) w).2.2) =
          (a, if v = .allPassed then none else some (.raised .generic)) ∧
        (v = .allPassed → (Harness.finish true t c (endedWith k) w).1 = s') := by
      rintro w k f1 f2 f3 ⟨en, rfl⟩
      obtain ⟨q1, q2⟩ := hfin w _ f1
      rw [q1]
      simp only
      rw [f3]
      have g := (finish_whole f1).1
      rw [g, p1, ha] at f3
      have hv : verdict w.proc.net.scen (endedWith [.ended en]) = v := by
        simp only [wholeTest] at f3
        cases hts : t.setup.isSome <;> cases htd : t.teardown.isSome <;> simp [hts, htd] at f3 <;> exact f3.2
      rw [hv] at q2 ⊢
      exact ⟨rfl, fun h => (q2 h).trans f2⟩
    unfold Harness.user at h2 e1 e2 ⊢
    rcases hpl : z.proc.play c.prog c.turns [] with ⟨p, _ | en⟩
    · rw [hpl] at h2; cases h2
    · rw [hpl] at h2 e1 e2
      cases en with
      | exits => cases h2
      | returned => exact hdone { z with proc := p } [.ended .returned] h2 e1 e2 ⟨_, rfl⟩
      | raised x => exact hdone { z with proc := p } [.ended (.raised x)] h2 e1 e2 ⟨_, rfl⟩
  obtain ⟨k1, k2⟩ := key
  unfold Harness.run
  rcases ht : s.test true t c with ⟨y, b, q⟩
  rw [ht] at k1 k2
  simp only [Prod.mk.injEq] at k1
  obtain ⟨rfl, rfl⟩ := k1
  by_cases hv : v = .allPassed
  · rw [if_pos hv]
    exact ⟨_, _, _, rfl, fun h => absurd hv h, fun h => by rw [← k2 h]⟩
  · rw [if_neg hv]
    exact ⟨_, _, _, rfl, fun _ => ⟨rfl, rfl⟩, fun h => absurd h hv⟩

/-- Files of a scenario stay when it is over: the next one finds them. -/
theorem suite_files_violated : ∃ s' a, (Harness.start []).run false
    [({ waitTest with files := [("a".toList, "mine".toList)] }, { prog := oneCall, turns := [false, false] }),
     (waitTest, { prog := oneCall, turns := [false, false] })] = (s', a, none) ∧
    s'.files.get? "a".toList = some "mine".toList := ⟨_, _, rfl, by decide +kernel⟩

end SY.Props
