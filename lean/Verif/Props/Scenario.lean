import Verif.Scenario
import Verif.Props.Matcher
import Verif.Props.NetBase

/-!
# Properties of test scenarios

C50 (expectations are consumed in order), C51 (output expectations on several ports), C52 (saving
scenarios), C105 (the timer for outputs), C106 (compiled scenario files), C107 (scenario interfaces).
-/

namespace SY.Props

open SY

/-! ## C50: expectations are consumed in order -/

/-- What a program under test does, and the alarm. -/
inductive TestOp
  | recv
  | send (port : SendPort) (p : Packet)
  | alarm

/-- One step; exceptions are caught and ignored. -/
def testStep (n : TestNet) : TestOp → TestNet
  | .recv => n.recv.1
  | .send port p => (n.send port p).1
  | .alarm => { n with scen := n.scen.alarmFires.1 }

/-- The titles of expectations: description and position in the scenario. -/
def titles (l : List Entry) : List (List Char × Nat) := l.map (fun x => (x.descr, x.ts))

theorem titles_setLast (l : List Entry) (e : Event) : titles (setLast l e) = titles l := by
  fun_induction setLast l e <;> simp_all [titles]

theorem titles_setFirst (l : List Entry) (e : Event) : titles (setFirst l e) = titles l := by
  cases l <;> simp [titles, setFirst]

theorem armNext_lists (s : Scenario) : s.armNext.pending = s.pending ∧ s.armNext.completed = s.completed ∧
    s.armNext.ifaces = s.ifaces := by
  unfold Scenario.armNext Scenario.setTimer
  split
  · exact ⟨rfl, rfl, rfl⟩
  · split <;> exact ⟨rfl, rfl, rfl⟩

theorem testpass_lists {s : Scenario} {x : Entry} {xs : List Entry} (h : s.pending = x :: xs) :
    s.testpass.1.pending = xs ∧ s.testpass.1.completed = s.completed ++ [x] ∧
      s.testpass.1.ifaces = s.ifaces := by
  simp only [Scenario.testpass, h]
  exact armNext_lists _

/-- An operation completes the expectations at the front of the pending list, in order, and does
nothing else to the two lists. -/
def Consumes (a b : Scenario) : Prop :=
  ∃ l, titles a.pending = l ++ titles b.pending ∧ titles b.completed = titles a.completed ++ l

theorem Consumes.refl (a : Scenario) : Consumes a a := ⟨[], by simp, by simp⟩

theorem Consumes.trans {a b c : Scenario} (h : Consumes a b) (h' : Consumes b c) : Consumes a c := by
  obtain ⟨l, h1, h2⟩ := h
  obtain ⟨l', h3, h4⟩ := h'
  exact ⟨l ++ l', by rw [h1, h3, List.append_assoc], by rw [h4, h2, List.append_assoc]⟩

theorem recv_consumes (n : TestNet) : Consumes n.scen n.recv.1.scen := by
  unfold TestNet.recv Scenario.next
  rcases hp : n.scen.pending with _ | ⟨x, xs⟩
  · exact Consumes.refl _
  · simp only
    split
    · obtain ⟨h1, h2, _⟩ := testpass_lists hp
      refine ⟨[(x.descr, x.ts)], ?_, ?_⟩
      · simp only [h1, hp, titles, List.map_cons, List.singleton_append]
      · simp only [titles_setLast, h2]
        simp [titles]
    · exact Consumes.refl _

theorem setFirst_consumes (s : Scenario) (e : Event) :
    Consumes s { s with pending := setFirst s.pending e } :=
  ⟨[], by simp [titles_setFirst], by simp⟩

theorem afterMatch_consumes (n : TestNet) (r : Res MatchRes) : Consumes n.scen (n.afterMatch r).1.scen := by
  unfold TestNet.afterMatch
  split
  · exact Consumes.refl _
  · rcases hp : n.scen.pending with _ | ⟨x, xs⟩
    · refine ⟨[], ?_, ?_⟩
      · simp [Scenario.testpass, hp, Scenario.cancelTimer, titles]
      · simp [Scenario.testpass, hp, Scenario.cancelTimer]
    · obtain ⟨h1, h2, _⟩ := testpass_lists hp
      exact ⟨[(x.descr, x.ts)], by simp [h1, hp, titles], by simp [h2, titles]⟩
  · exact Consumes.refl _
  · exact Consumes.refl _

theorem send_consumes (n : TestNet) (port : SendPort) (p : Packet) :
    Consumes n.scen (n.send port p).1.scen := by
  unfold TestNet.send
  split
  · exact Consumes.refl _
  · split
    · exact Consumes.refl _
    · unfold TestNet.sendOn
      split
      · exact Consumes.refl _
      · exact (setFirst_consumes n.scen _).trans (afterMatch_consumes { n with scen := _ } _)

/-- Whatever the program does, with exceptions or without, the completed expectations followed by
the pending ones are those of the scenario, in their order: nothing is skipped, repeated or taken
back. -/
theorem scenario_in_order (n : TestNet) (ops : List TestOp) :
    ∃ l, titles n.scen.pending = l ++ titles (ops.foldl testStep n).scen.pending ∧
      titles (ops.foldl testStep n).scen.completed = titles n.scen.completed ++ l := by
  suffices h : Consumes n.scen (ops.foldl testStep n).scen from h
  induction ops generalizing n with
  | nil => exact Consumes.refl _
  | cons op ops ih =>
    refine Consumes.trans ?_ (ih (testStep n op))
    cases op with
    | recv => exact recv_consumes n
    | send port p => exact send_consumes n port p
    | alarm => exact ⟨[], by simp [testStep, Scenario.alarmFires], by simp [testStep, Scenario.alarmFires]⟩

/-- Each step completes at most one expectation. -/
theorem scenario_one_at_a_time (n : TestNet) (op : TestOp) :
    (testStep n op).scen.completed.length ≤ n.scen.completed.length + 1 := by
  have hl : ∀ l e, (setLast l e).length = l.length := by
    intro l e; fun_induction setLast l e <;> simp_all
  have ht : ∀ s : Scenario, s.testpass.1.completed.length ≤ s.completed.length + 1 := by
    intro s
    rcases hp : s.pending with _ | ⟨x, xs⟩
    · simp [Scenario.testpass, hp, Scenario.cancelTimer]
    · simp [(testpass_lists hp).2.1]
  cases op with
  | recv =>
    simp only [testStep, TestNet.recv]
    split
    · simp
    · split
      · simp only [hl]; exact ht _
      · simp
  | send port p =>
    simp only [testStep, TestNet.send]
    split
    · simp
    · split
      · simp
      · simp only [TestNet.sendOn]
        split
        · simp
        · simp only [TestNet.afterMatch]
          split
          · simp
          · exact ht { n.scen with pending := _ }
          · simp
          · simp
  | alarm => simp [testStep, Scenario.alarmFires]

/-- The counts of the summary add up to the number of expectations. -/
theorem scenario_summary (s : Scenario) :
    s.summary.1 + s.summary.2.1 + s.summary.2.2 = s.completed.length + s.pending.length := by
  simp only [Scenario.summary]
  omega

/-- What a program does, as long as nothing but `NoPackets` is raised. -/
inductive Act
  | recv
  | send (dev : List Char) (p : Packet)

/-- One call.  The program handles `NoPackets`. -/
def perform (n : TestNet) : Act → TestNet × Option PyErr
  | .recv =>
    match n.recv with
    | (n', .ok _) => (n', none)
    | (n', .error .noPackets) => (n', none)
    | (n', .error e) => (n', some e)
  | .send dev p => ((n.send (.name dev) p).1, (n.send (.name dev) p).2.2)

/-- A program that makes these calls, lets every exception but `NoPackets` escape, and returns after
the last call. -/
def program (n : TestNet) : List Act → TestNet × Option PyErr
  | [] => (n, none)
  | a :: as =>
    match perform n a with
    | (n', none) => program n' as
    | (n', some e) => (n', some e)

/-- What the test harness reports about that program. -/
def report (n : TestNet) (as : List Act) : Verdict :=
  verdict (program n as).1.scen (program n as).2

/-- The matcher accepts the packet; `matcher_accepts` says what that means. -/
def Admits (m : Matcher) (p : Packet) : Prop := (m.matchPkt p).2.2 = .ok true

/-- The packets are what the output expectation asks for: one for each port, in any order, each
accepted by the matcher for its port. -/
def Covers (w : Dict (List Char) Matcher) (l : List (List Char × Packet)) : Prop :=
  (l.map Prod.fst).Perm w.keys ∧ ∀ x ∈ l, ∃ m, w.get? x.1 = some m ∧ Admits m x.2

/-- The calls are those that the expectations ask for, in this order. -/
inductive Meets : List Event → List Act → Prop
  | done : Meets [] []
  | timeout (t : Int) (es : List Event) (as : List Act) : Meets es as →
      Meets (.timeout t :: es) (.recv :: as)
  | input (dev : List Char) (p : Packet) (f : Option Cls) (cs : List Copy) (es : List Event) (as : List Act) :
      Meets es as → Meets (.input dev p f cs :: es) (.recv :: as)
  | output (w : Dict (List Char) Matcher) (s : Dict (List Char) Sent) (l : List (List Char × Packet))
      (es : List Event) (as : List Act) : Covers w l → Meets es as →
      Meets (.output w s :: es) (l.map (fun x => Act.send x.1 x.2) ++ as)

/-- The event can be used in a test: the packet to be received can be serialised and parsed again,
nothing is to be copied into it, and the port is one of the scenario; a packet to be sent is expected, each port once. -/
def Usable (ifaces : Dict (List Char) Iface) : Event → Prop
  | .timeout _ => True
  | .input dev p f cs => cs = [] ∧ dev ∈ ifaces.keys ∧ ∃ p' b q, p.toBytes = (p', .ok b) ∧ Packet.parse b f = .ok q
  | .output w _ => w ≠ [] ∧ w.Uniq

/-- No predicate raises `Shutdown` for one of the packets sent. -/
def NoShutdown (es : List Event) (as : List Act) : Prop :=
  ∀ d p, Act.send d p ∈ as → ∀ w s, Event.output w s ∈ es → ∀ x ∈ w, (x.2.matchPkt p).2.2 ≠ .error .shutdown

theorem keys_erase (d : Dict (List Char) Matcher) (k : List Char) :
    (d.erase k).keys = d.keys.erase k := by
  induction d with
  | nil => rfl
  | cons x d ih =>
    obtain ⟨a, b⟩ := x
    simp only [Dict.erase, Dict.keys, List.map_cons, List.erase_cons, beq_iff_eq]
    split
    · rfl
    · simp only [Dict.keys] at ih; simp [ih]

theorem covers_send {w : Dict (List Char) Matcher} {d : List Char} {m : Matcher} (hu : w.Uniq)
    (hm : w.get? d = some m) (p : Packet) (l : List (List Char × Packet)) :
    Covers w ((d, p) :: l) ↔ Admits m p ∧ Covers (w.erase d) l := by
  have hd : d ∈ w.keys := (Dict.mem_keys w d).mpr ⟨m, hm⟩
  constructor
  · rintro ⟨h1, h2⟩
    simp only [List.map_cons] at h1
    have hn : (d :: l.map Prod.fst).Nodup := h1.symm.nodup hu
    refine ⟨?_, ?_, ?_⟩
    · obtain ⟨m', h3, h4⟩ := h2 (d, p) (by simp)
      rw [hm] at h3; cases h3; exact h4
    · rw [keys_erase]
      simpa using h1.erase d
    · intro x hx
      obtain ⟨m', h3, h4⟩ := h2 x (by simp [hx])
      refine ⟨m', ?_, h4⟩
      rw [Dict.get?_erase hu]
      have : d ≠ x.1 := fun e => (List.nodup_cons.mp hn).1 (e ▸ List.mem_map_of_mem hx)
      simp [this, h3]
  · rintro ⟨h1, h2, h3⟩
    rw [keys_erase] at h2
    refine ⟨?_, ?_⟩
    · exact (h2.cons d).trans (List.perm_cons_erase hd).symm
    · intro x hx
      rcases List.mem_cons.mp hx with rfl | hx
      · exact ⟨m, hm, h1⟩
      · obtain ⟨m', h4, h5⟩ := h3 x hx
        refine ⟨m', ?_, h5⟩
        rw [Dict.get?_erase hu] at h4
        split at h4
        · cases h4
        · exact h4

theorem covers_nil {l : List (List Char × Packet)} (h : Covers [] l) : l = [] := by
  have := h.1.length_eq
  simp only [List.length_map, Dict.keys, List.map_nil, List.length_nil] at this
  exact List.length_eq_zero_iff.mp this

theorem nil_covers {w : Dict (List Char) Matcher} (h : Covers w []) : w = [] := by
  have := h.1.length_eq
  simp only [Dict.keys, List.map_nil, List.length_nil, List.length_map] at this
  exact List.length_eq_zero_iff.mp this.symm

theorem meets_output_ne {w : Dict (List Char) Matcher} {s : Dict (List Char) Sent} {es : List Event}
    {k : List Act} (hw : w ≠ []) (h : Meets (.output w s :: es) k) :
    ∃ d p k' m, k = .send d p :: k' ∧ w.get? d = some m := by
  cases h with
  | output _ _ l _ as hc _ =>
    cases l with
    | nil => exact absurd (nil_covers hc) hw
    | cons x l =>
      obtain ⟨m, hm, _⟩ := hc.2 x (by simp)
      exact ⟨x.1, x.2, _, m, rfl, hm⟩

theorem meets_send {w : Dict (List Char) Matcher} {d : List Char} {m : Matcher} (hu : w.Uniq)
    (hm : w.get? d = some m) (s s' : Dict (List Char) Sent) (es : List Event) (p : Packet) (k : List Act) :
    Meets (.output w s :: es) (.send d p :: k) ↔
      Admits m p ∧ (if w.erase d = [] then Meets es k else Meets (.output (w.erase d) s' :: es) k) := by
  have hw : w ≠ [] := by intro h; rw [h] at hm; cases hm
  constructor
  · intro h
    generalize hE : Event.output w s :: es = E at h
    generalize hK : Act.send d p :: k = K at h
    cases h with
    | done => cases hE
    | timeout => cases hE
    | input => cases hE
    | output w' s2 l es2 as hc hr =>
      cases hE
      cases l with
      | nil => exact absurd (nil_covers hc) hw
      | cons x l =>
        obtain ⟨xd, xp⟩ := x
        simp only [List.map_cons, List.cons_append, List.cons.injEq, Act.send.injEq] at hK
        obtain ⟨⟨rfl, rfl⟩, rfl⟩ := hK
        obtain ⟨h1, h2⟩ := (covers_send hu hm p l).mp hc
        refine ⟨h1, ?_⟩
        split
        · rename_i he
          rw [he] at h2
          rw [covers_nil h2]
          exact hr
        · exact .output _ _ _ _ _ h2 hr
  · rintro ⟨h1, h2⟩
    split at h2
    · rename_i he
      have hc : Covers w [(d, p)] := (covers_send hu hm p []).mpr ⟨h1, by rw [he]; exact ⟨.refl _, by simp⟩⟩
      exact .output w s [(d, p)] es k hc h2
    · generalize hE : Event.output (w.erase d) s' :: es = E at h2
      cases h2 with
      | done => cases hE
      | timeout => cases hE
      | input => cases hE
      | output w' s2 l es2 as hc hr =>
        cases hE
        exact .output w s ((d, p) :: l) es as ((covers_send hu hm p l).mpr ⟨h1, hc⟩) hr

/-- The expectations are met by the calls, or by the calls before a `recv_packet`, which then raises
`Shutdown`. -/
def MetBy (es : List Event) (as : List Act) : Prop :=
  ∃ k r, as = k ++ r ∧ Meets es k ∧ (r = [] ∨ ∃ r', r = .recv :: r')

theorem metBy_recv {e : Event} (he : e.isOutput = false) (es : List Event) (as : List Act) :
    MetBy (e :: es) (.recv :: as) ↔ MetBy es as := by
  constructor
  · rintro ⟨k, r, h1, h2, h3⟩
    cases h2 with
    | timeout t _ k' h => cases h1; exact ⟨k', r, rfl, h, h3⟩
    | input dev p f cs _ k' h => cases h1; exact ⟨k', r, rfl, h, h3⟩
    | output => cases he
  · rintro ⟨k, r, h1, h2, h3⟩
    refine ⟨.recv :: k, r, by rw [h1]; rfl, ?_, h3⟩
    cases e with
    | timeout t => exact .timeout t _ _ h2
    | input dev p f cs => exact .input dev p f cs _ _ h2
    | output => cases he

theorem metBy_send {w : Dict (List Char) Matcher} {d : List Char} {m : Matcher} (hu : w.Uniq)
    (hm : w.get? d = some m) (s s' : Dict (List Char) Sent) (es : List Event) (p : Packet) (as : List Act) :
    MetBy (.output w s :: es) (.send d p :: as) ↔
      Admits m p ∧ (if w.erase d = [] then MetBy es as else MetBy (.output (w.erase d) s' :: es) as) := by
  have hw : w ≠ [] := by intro h; rw [h] at hm; cases hm
  constructor
  · rintro ⟨k, r, h1, h2, h3⟩
    obtain ⟨d', p', k', m', rfl, _⟩ := meets_output_ne hw h2
    simp only [List.cons_append, List.cons.injEq, Act.send.injEq] at h1
    obtain ⟨⟨rfl, rfl⟩, rfl⟩ := h1
    obtain ⟨h4, h5⟩ := (meets_send hu hm s s' es p k').mp h2
    refine ⟨h4, ?_⟩
    split at h5
    · rename_i he; rw [if_pos he]; exact ⟨k', r, rfl, h5, h3⟩
    · rename_i he; rw [if_neg he]; exact ⟨k', r, rfl, h5, h3⟩
  · rintro ⟨h1, h2⟩
    split at h2
    · rename_i he
      obtain ⟨k, r, rfl, h4, h5⟩ := h2
      exact ⟨.send d p :: k, r, rfl, (meets_send hu hm s s' es p k).mpr ⟨h1, by rw [if_pos he]; exact h4⟩, h5⟩
    · rename_i he
      obtain ⟨k, r, rfl, h4, h5⟩ := h2
      exact ⟨.send d p :: k, r, rfl, (meets_send hu hm s s' es p k).mpr ⟨h1, by rw [if_neg he]; exact h4⟩, h5⟩

theorem recv_input {n : TestNet} {x : Entry} {xs : List Entry} (hp : n.scen.pending = x :: xs)
    (ho : x.event.isOutput = false) (hu : Usable n.scen.ifaces x.event) :
    (perform n .recv).2 = none ∧ (perform n .recv).1.scen.pending = xs ∧
      (perform n .recv).1.scen.ifaces = n.scen.ifaces := by
  obtain ⟨h1, h2, h3⟩ := testpass_lists hp
  rcases hx : x.event with t | ⟨dev, p, f, cs⟩ | ⟨w, s⟩
  · simp [perform, TestNet.recv, Scenario.next, hp, hx, Event.matchInput, Event.generate, h1, h3]
  · rw [hx] at hu
    obtain ⟨rfl, hd, p', b, q, hb, hq⟩ := hu
    simp [perform, TestNet.recv, Scenario.next, hp, hx, Event.matchInput, Event.generate, h1, h3, hb, hq,
      deliverOn, applyCopies, hd]
  · rw [hx] at ho; cases ho

theorem verdict_error {s : Scenario} {e : PyErr} (h : e ≠ .shutdown) : verdict s (some e) ≠ .allPassed := by
  unfold verdict
  split
  · rename_i h'; cases h'; exact absurd rfl h
  · split <;> simp
  · simp
  · rename_i h'; cases h'

theorem usable_erase {ifaces : Dict (List Char) Iface} {w : Dict (List Char) Matcher}
    {s s' : Dict (List Char) Sent} {d : List Char} (h : Usable ifaces (.output w s)) (hw : w.erase d ≠ []) :
    Usable ifaces (.output (w.erase d) s') := by
  exact ⟨hw, Dict.uniq_erase h.2 d⟩

theorem mem_erase {w : Dict (List Char) Matcher} {d : List Char} {x : List Char × Matcher} (h : x ∈ w.erase d) :
    x ∈ w := by
  induction w with
  | nil => cases h
  | cons y w ih =>
    obtain ⟨a, b⟩ := y
    simp only [Dict.erase] at h
    split at h
    · simp [h]
    · rcases List.mem_cons.mp h with rfl | h
      · simp
      · simp [ih h]

theorem noShutdown_tail {es : List Event} {a : Act} {as : List Act} (h : NoShutdown es (a :: as)) : NoShutdown es as :=
  fun d p hm w s hw x hx => h d p (by simp [hm]) w s hw x hx

theorem noShutdown_next {e : Event} {es : List Event} {as : List Act} (h : NoShutdown (e :: es) as) : NoShutdown es as :=
  fun d p hm w s hw x hx => h d p hm w s (by simp [hw]) x hx

theorem noShutdown_erase {w : Dict (List Char) Matcher} {s s' : Dict (List Char) Sent} {d : List Char} {es : List Event}
    {as : List Act} (h : NoShutdown (.output w s :: es) as) : NoShutdown (.output (w.erase d) s' :: es) as := by
  intro d' p hm w' s2 hw x hx
  rcases List.mem_cons.mp hw with hw | hw
  · cases hw
    exact h d' p hm w s (by simp) x (mem_erase hx)
  · exact h d' p hm w' s2 (by simp [hw]) x hx

/-- The harness reports that all tests passed exactly if the calls of the program are those that the
expectations ask for, in this order, until the program returns or asks for one more packet; this is
for programs that let exceptions other than `NoPackets` escape. -/
theorem scenario_reports_partial (n : TestNet) (as : List Act)
    (hu : ∀ x ∈ n.scen.pending, Usable n.scen.ifaces x.event) (hs : NoShutdown (n.scen.pending.map (·.event)) as) :
    report n as = .allPassed ↔ MetBy (n.scen.pending.map (·.event)) as := by
  induction as generalizing n with
  | nil =>
    simp only [report, program, verdict, Scenario.failedTest]
    have hc : n.scen.pending = [] ∨ ∃ x xs, n.scen.pending = x :: xs := by
      cases n.scen.pending <;> simp
    rcases hc with hp | ⟨x, xs, hp⟩
    · simp only [hp, List.head?_nil, Option.isSome_none, Bool.false_eq_true, if_false, List.map_nil, true_iff]
      exact ⟨[], [], rfl, .done, .inl rfl⟩
    · simp only [hp, List.head?_cons, Option.isSome_some, if_true, reduceCtorEq, List.map_cons, false_iff]
      rintro ⟨k, r, h1, h2, _⟩
      obtain ⟨rfl, rfl⟩ := List.append_eq_nil_iff.mp h1.symm
      have hx := hu x (by rw [hp]; simp)
      rcases he : x.event with t | ⟨dev, p, f, cs⟩ | ⟨w, s⟩
      · rw [he] at h2; cases h2
      · rw [he] at h2; cases h2
      · rw [he] at h2 hx
        obtain ⟨_, _, _, _, h, _⟩ := meets_output_ne hx.1 h2
        cases h
  | cons a as ih =>
    rcases hp : n.scen.pending with _ | ⟨x, xs⟩
    · cases a with
      | recv =>
        have : report n (.recv :: as) = .allPassed := by
          simp [report, program, perform, TestNet.recv, Scenario.next, hp, verdict]
        simp only [this, true_iff, List.map_nil]
        exact ⟨[], .recv :: as, rfl, .done, .inr ⟨as, rfl⟩⟩
      | send d p =>
        have : report n (.send d p :: as) = .somethingUnexpected := by
          simp [report, program, perform, TestNet.send, Scenario.done, hp, verdict, Scenario.failedTest]
        simp only [this, reduceCtorEq, List.map_nil, false_iff]
        rintro ⟨k, r, h1, h2, h3⟩
        cases h2
        rcases h3 with rfl | ⟨r', rfl⟩ <;> cases h1
    · have hx := hu x (by rw [hp]; simp)
      cases a with
      | recv =>
        cases ho : x.event.isOutput with
        | false =>
          obtain ⟨h1, h2, h3⟩ := recv_input hp ho hx
          have hr : report n (.recv :: as) = report (perform n .recv).1 as := by
            unfold report
            rw [program]
            rcases hpf : perform n .recv with ⟨n', e⟩
            rw [hpf] at h1
            simp only at h1
            subst h1
            rfl
          rw [hr, ih _ (by rw [h2, h3]; intro y hy; exact hu y (by rw [hp]; simp [hy]))
            (by rw [h2]; exact noShutdown_next (by rw [hp] at hs; exact noShutdown_tail hs)), h2, List.map_cons, metBy_recv ho]
        | true =>
          have : report n (.recv :: as) = .aTestFailed := by
            rcases he : x.event with t | ⟨dev, p, f, cs⟩ | ⟨w, s⟩
            · rw [he] at ho; cases ho
            · rw [he] at ho; cases ho
            · simp [report, program, perform, TestNet.recv, Scenario.next, hp, he, Event.matchInput, verdict,
                Scenario.failedTest]
          simp only [this, reduceCtorEq, List.map_cons, false_iff]
          rintro ⟨k, r, h1, h2, h3⟩
          rcases he : x.event with t | ⟨dev, p, f, cs⟩ | ⟨w, s⟩
          · rw [he] at ho; cases ho
          · rw [he] at ho; cases ho
          · rw [he] at hx h2
            obtain ⟨d', p', k', _, rfl, _⟩ := meets_output_ne hx.1 h2
            cases h1
      | send d p =>
        rcases he : x.event with t | ⟨dev, q, f⟩ | ⟨w, s⟩
        · have : report n (.send d p :: as) = .aTestFailed := by
            simp [report, program, perform, TestNet.send, Scenario.done, hp, verdict, Scenario.failedTest,
              TestNet.port, TestNet.sendOn, Scenario.next, he, Event.matchOutput, TestNet.afterMatch, setFirst]
          simp only [this, reduceCtorEq, List.map_cons, he, false_iff]
          rintro ⟨k, r, h1, h2, h3⟩
          cases h2
          cases h1
        · have : report n (.send d p :: as) = .aTestFailed := by
            simp [report, program, perform, TestNet.send, Scenario.done, hp, verdict, Scenario.failedTest,
              TestNet.port, TestNet.sendOn, Scenario.next, he, Event.matchOutput, TestNet.afterMatch, setFirst]
          simp only [this, reduceCtorEq, List.map_cons, he, false_iff]
          rintro ⟨k, r, h1, h2, h3⟩
          cases h2
          cases h1
        · rw [he] at hx
          obtain ⟨hw, huq⟩ := id hx
          rw [hp, List.map_cons, he] at hs
          rcases hm : w.get? d with _ | m
          · have : report n (.send d p :: as) = .aTestFailed := by
              simp [report, program, perform, TestNet.send, Scenario.done, hp, verdict, Scenario.failedTest,
                TestNet.port, TestNet.sendOn, Scenario.next, he, Event.matchOutput, TestNet.afterMatch, setFirst, hm]
            simp only [this, reduceCtorEq, List.map_cons, he, false_iff]
            rintro ⟨k, r, h1, h2, h3⟩
            obtain ⟨d', p', k', m', rfl, h⟩ := meets_output_ne hw h2
            cases h1
            rw [hm] at h; cases h
          · rcases hmm : m.matchPkt p with ⟨m', p', r⟩
            simp only [List.map_cons, he]
            rw [metBy_send huq hm s (s.set d (.pkt p')) (xs.map (·.event)) p as]
            have hns := hs d p (by simp) w s (by simp) (d, m) (Dict.mem_of_get? hm)
            simp only [Admits, hmm] at hns ⊢
            rcases r with e | b
            · have hne : e ≠ .shutdown := fun h => hns (by rw [h])
              have : report n (.send d p :: as) ≠ .allPassed := by
                simp only [report, program, perform, TestNet.send, Scenario.done, hp, TestNet.port, TestNet.sendOn,
                  Scenario.next, he, Event.matchOutput, hm, hmm, TestNet.afterMatch, List.isEmpty_cons,
                  Bool.false_eq_true, if_false]
                exact verdict_error hne
              simp [this]
            · cases b with
              | false =>
                have : report n (.send d p :: as) ≠ .allPassed := by
                  simp only [report, program, perform, TestNet.send, Scenario.done, hp, TestNet.port, TestNet.sendOn,
                    Scenario.next, he, Event.matchOutput, hm, hmm, TestNet.afterMatch, List.isEmpty_cons,
                    Bool.false_eq_true, if_false]
                  exact verdict_error (by simp)
                simp [this]
              | true =>
                simp only [true_and]
                by_cases hz : w.erase d = []
                · rw [if_pos hz]
                  have hpf : ∃ n', perform n (.send d p) = (n', none) ∧ n'.scen.pending = xs ∧
                      n'.scen.ifaces = n.scen.ifaces := by
                    simp only [perform, TestNet.send, Scenario.done, hp, TestNet.port, TestNet.sendOn,
                      Scenario.next, he, Event.matchOutput, hm, hmm, TestNet.afterMatch, List.isEmpty_cons,
                      Bool.false_eq_true, if_false, hz, if_true, setFirst]
                    obtain ⟨h1, _, h3⟩ := testpass_lists (s := { n.scen with pending := { x with
                      event := Event.output [] (s.set d (.pkt p')) } :: xs }) rfl
                    exact ⟨_, rfl, h1, h3⟩
                  obtain ⟨n', hpf, h1, h2⟩ := hpf
                  have hr : report n (.send d p :: as) = report n' as := by
                    unfold report; rw [program, hpf]
                  rw [hr, ih n' (by rw [h1, h2]; intro y hy; exact hu y (by rw [hp]; simp [hy]))
                    (by rw [h1]; exact noShutdown_next (noShutdown_tail hs)), h1]
                · rw [if_neg hz]
                  have hpf : ∃ n', perform n (.send d p) = (n', none) ∧ n'.scen.pending =
                      { x with event := Event.output (w.erase d) (s.set d (.pkt p')) } :: xs ∧
                      n'.scen.ifaces = n.scen.ifaces := by
                    simp only [perform, TestNet.send, Scenario.done, hp, TestNet.port, TestNet.sendOn,
                      Scenario.next, he, Event.matchOutput, hm, hmm, TestNet.afterMatch, List.isEmpty_cons,
                      Bool.false_eq_true, if_false, hz, setFirst]
                    exact ⟨_, rfl, rfl, rfl⟩
                  obtain ⟨n', hpf, h1, h2⟩ := hpf
                  have hr : report n (.send d p :: as) = report n' as := by
                    unfold report; rw [program, hpf]
                  rw [hr, ih n' ?_ (by rw [h1]; exact noShutdown_erase (noShutdown_tail hs)), h1]
                  · rfl
                  · rw [h1, h2]
                    intro y hy
                    rcases List.mem_cons.mp hy with rfl | hy
                    · exact usable_erase hx hz
                    · exact hu y (by rw [hp]; simp [hy])

/-- The output expectation of the example. -/
def exOut : Event :=
  match Event.mkOutput [("eth1".toList, exPacket), ("eth2".toList, exOtherPort)] false true [] [] with
  | .ok e => e
  | .error _ => .timeout 0

/-- A packet arrives on `eth0`, then two packets are expected on two ports, then `recv_packet` times
out. -/
def exScen : Scenario :=
  { ifaces := [("eth0".toList, exIf "eth0" 0 1), ("eth1".toList, exIf "eth1" 1 2), ("eth2".toList, exIf "eth2" 2 3)]
    pending := [⟨Event.mkInput "eth0".toList exPacket, "in".toList, 0⟩, ⟨exOut, "out".toList, 1⟩,
      ⟨.timeout 1, "wait".toList, 2⟩]
    nextTs := 3 }

example : report { scen := exScen } [.recv, .send "eth2".toList exOtherPort, .send "eth1".toList exPacket, .recv] =
      .allPassed ∧
    report { scen := exScen } [.recv, .send "eth1".toList exPacket, .send "eth2".toList exOtherPort, .recv, .recv] =
      .allPassed ∧
    report { scen := exScen } [.recv, .send "eth1".toList exOtherPort] = .aTestFailed ∧
    report { scen := exScen } [.recv, .send "eth1".toList exPacket, .recv] = .aTestFailed := by decide +kernel

theorem exOut_eq : ∃ m1 m2, exOut = .output [("eth1".toList, m1), ("eth2".toList, m2)] [] ∧
    m1.first = some .eth ∧ m2.first = some .eth ∧ m1.ref = exPacket ∧ m2.ref = exOtherPort ∧
    ∀ p ∈ [exPacket, exOtherPort], (m1.matchPkt p).2.2 ≠ .error .shutdown ∧ (m2.matchPkt p).2.2 ≠ .error .shutdown := by
  have h : ∀ p, (∃ m, Matcher.new p true [] [] = .ok m) → ∃ m, Matcher.new p true [] [] = .ok m ∧ m.ref = p := by
    rintro p ⟨m, hm⟩
    refine ⟨m, hm, ?_⟩
    unfold Matcher.new at hm
    obtain ⟨d, hd, hm⟩ := bind_eq_ok.mp hm
    obtain ⟨n, _, hm⟩ := bind_eq_ok.mp hm
    cases hm
    rfl
  have k1 : ∃ m, Matcher.new exPacket true [] [] = .ok m ∧ decide (m.first = some .eth ∧
      (m.matchPkt exPacket).2.2 ≠ .error .shutdown ∧ (m.matchPkt exOtherPort).2.2 ≠ .error .shutdown) = true :=
    Except.of_test (by decide +kernel)
  have k2 : ∃ m, Matcher.new exOtherPort true [] [] = .ok m ∧ decide (m.first = some .eth ∧
      (m.matchPkt exPacket).2.2 ≠ .error .shutdown ∧ (m.matchPkt exOtherPort).2.2 ≠ .error .shutdown) = true :=
    Except.of_test (by decide +kernel)
  obtain ⟨m1, h1, g1⟩ := k1
  obtain ⟨m2, h2, g2⟩ := k2
  obtain ⟨m1', h1', e1⟩ := h _ ⟨m1, h1⟩
  obtain ⟨m2', h2', e2⟩ := h _ ⟨m2, h2⟩
  rw [h1] at h1'
  rw [h2] at h2'
  cases h1'
  cases h2'
  obtain ⟨f1, f2, f3⟩ := of_decide_eq_true g1
  obtain ⟨f4, f5, f6⟩ := of_decide_eq_true g2
  refine ⟨m1, m2, ?_, f1, f4, e1, e2, ?_⟩
  · simp only [exOut, Event.mkOutput, mkWaiting, h1, h2, bind_ok]
    rfl
  · intro p hp
    simp only [List.mem_cons, List.not_mem_nil, or_false] at hp
    rcases hp with rfl | rfl
    · exact ⟨f2, f5⟩
    · exact ⟨f3, f6⟩

theorem exScen_usable : (∀ x ∈ exScen.pending, Usable exScen.ifaces x.event) ∧
    NoShutdown (exScen.pending.map (·.event)) [.recv, .send "eth2".toList exOtherPort, .send "eth1".toList exPacket,
      .recv] := by
  obtain ⟨m1, m2, he, _, _, _, _, hs⟩ := exOut_eq
  constructor
  · intro x hx
    simp only [exScen, he, List.mem_cons, List.not_mem_nil, or_false] at hx
    rcases hx with rfl | rfl | rfl
    · refine ⟨rfl, by decide, ?_⟩
      have h : ∃ b, exPacket.toBytes.2 = .ok b ∧ (Packet.parse b (some .eth)).isOk = true :=
        Except.of_test (by decide +kernel)
      obtain ⟨b, h1, h2⟩ := h
      rcases hq : Packet.parse b (some .eth) with e | q
      · rw [hq] at h2; cases h2
      · exact ⟨exPacket.toBytes.1, b, q, Prod.ext rfl h1, hq⟩
    · refine ⟨by simp, ?_⟩
      show ["eth1".toList, "eth2".toList].Nodup
      decide
    · trivial
  · intro d p hm w s hw x hx
    have hp : p ∈ [exPacket, exOtherPort] := by
      simp only [List.mem_cons, reduceCtorEq, Act.send.injEq, List.not_mem_nil, or_false, false_or] at hm
      rcases hm with ⟨_, rfl⟩ | ⟨_, rfl⟩ <;> simp
    simp only [exScen, he, List.map_cons, List.map_nil, List.mem_cons, Event.mkInput, reduceCtorEq, List.not_mem_nil,
      or_false, false_or, Event.output.injEq] at hw
    obtain ⟨rfl, rfl⟩ := hw
    simp only [List.mem_cons, List.not_mem_nil, or_false] at hx
    rcases hx with rfl | rfl
    · exact (hs p hp).1
    · exact (hs p hp).2

/-- A scenario with one expectation, the timeout of `recv_packet`. -/
def exWait : TestNet := { scen := Scenario.expect {} (.timeout 1) "wait".toList }

/-- The harness also reports success if the program raises `Shutdown` itself, with expectations that
have not been met. -/
theorem scenario_shutdown_violated : ∃ n : TestNet, n.scen.done = false ∧
    (∀ x ∈ n.scen.pending, Usable n.scen.ifaces x.event) ∧ ¬ MetBy (n.scen.pending.map (·.event)) [] ∧
    verdict n.scen (some .shutdown) = .allPassed := by
  refine ⟨exWait, rfl, ?_, ?_, rfl⟩
  · intro x hx
    simp only [exWait, Scenario.expect, List.nil_append, List.mem_singleton] at hx
    subst hx
    exact trivial
  · rintro ⟨k, r, h1, h2, h3⟩
    obtain ⟨rfl, rfl⟩ := List.append_eq_nil_iff.mp h1.symm
    simp only [exWait, Scenario.expect, List.nil_append, List.map_cons, List.map_nil] at h2
    cases h2

/-- A program that catches the failure and goes on is reported to have passed, though it has called
`send_packet` where it should not. -/
theorem scenario_swallowed_violated : ∃ (n : TestNet) (dev : List Char) (p : Packet),
    (perform n (.send dev p)).2 = some .testFailure ∧
    (perform (perform n (.send dev p)).1 .recv).2 = none ∧
    verdict (perform (perform n (.send dev p)).1 .recv).1.scen none = .allPassed ∧
    ¬ MetBy (n.scen.pending.map (·.event)) [.send dev p, .recv] := by
  refine ⟨exWait, "eth0".toList, exPacket, rfl, rfl, rfl, ?_⟩
  rintro ⟨k, r, h1, h2, h3⟩
  simp only [exWait, Scenario.expect, List.nil_append, List.map_cons, List.map_nil] at h2
  cases h2
  cases h1

/-! ## C51: output expectations on several ports -/

/-- The answers of an event to a sequence of packets sent. -/
def feed (e : Event) : List (List Char × Packet) → List (Res MatchRes)
  | [] => []
  | x :: l => (e.matchOutput x.1 x.2).2.2 :: feed (e.matchOutput x.1 x.2).1 l

theorem feed_output (w : Dict (List Char) Matcher) (s : Dict (List Char) Sent) (d : List Char) (p : Packet)
    (m : Matcher) (hm : w.get? d = some m) (ha : Admits m p) :
    (Event.matchOutput (.output w s) d p).1 = .output (w.erase d) (s.set d (.pkt (m.matchPkt p).2.1)) ∧
    (Event.matchOutput (.output w s) d p).2.2 = .ok (if w.erase d = [] then .success else .part) := by
  rcases hmm : m.matchPkt p with ⟨m', p', r⟩
  simp only [Admits, hmm] at ha
  subst ha
  simp [Event.matchOutput, hm, hmm]

/-- The event answers "partial" to all packets but the last and "success" to the last exactly if the
packets are the expected ones in any order: one for each port, each accepted by the matcher for its
port. -/
theorem output_any_order (w : Dict (List Char) Matcher) (s : Dict (List Char) Sent) (hu : w.Uniq) (hw : w ≠ [])
    (l : List (List Char × Packet)) :
    feed (.output w s) l = List.replicate (l.length - 1) (.ok .part) ++ [.ok .success] ↔ Covers w l := by
  induction l generalizing w s with
  | nil =>
    constructor
    · simp [feed]
    · exact fun h => absurd (nil_covers h) hw
  | cons x l ih =>
    obtain ⟨d, p⟩ := x
    rcases hm : w.get? d with _ | m
    · constructor
      · intro h
        have : (Event.matchOutput (.output w s) d p).2.2 = .error .testFailure := by
          simp only [Event.matchOutput, hm]
        rw [feed, this] at h
        have := congrArg List.head? h
        cases l with
        | nil => simp at this
        | cons y l => simp [List.replicate_succ] at this
      · rintro ⟨_, h⟩
        obtain ⟨m, h, _⟩ := h (d, p) (by simp)
        rw [hm] at h; cases h
    · rw [covers_send hu hm]
      by_cases ha : Admits m p
      · obtain ⟨h1, h2⟩ := feed_output w s d p m hm ha
        rw [feed, h1, h2]
        simp only [ha, true_and, List.length_cons, Nat.add_sub_cancel]
        by_cases hz : w.erase d = []
        · rw [if_pos hz, hz]
          cases l with
          | nil => simp [feed]; exact ⟨.refl _, by simp⟩
          | cons y l =>
            simp only [List.length_cons, List.replicate_succ, List.cons_append, List.cons.injEq, Except.ok.injEq,
              reduceCtorEq, false_and, false_iff]
            exact fun h => absurd (covers_nil h) (by simp)
        · rw [if_neg hz, ← ih _ (s.set d (.pkt (m.matchPkt p).2.1)) (Dict.uniq_erase hu d) hz]
          cases l with
          | nil => simp [feed]
          | cons y l =>
            simp only [List.length_cons, List.replicate_succ, List.cons_append, Nat.add_sub_cancel, List.cons.injEq,
              true_and]
      · simp only [ha, false_and, iff_false]
        intro h
        rw [feed] at h
        have hh := congrArg List.head? h
        have hok : ∃ v, (Event.matchOutput (.output w s) d p).2.2 = .ok v := by
          cases l with
          | nil => simp at hh; exact ⟨_, hh⟩
          | cons y l => simp [List.replicate_succ] at hh; exact ⟨_, hh⟩
        obtain ⟨v, hv⟩ := hok
        apply ha
        simp only [Event.matchOutput, hm] at hv
        rcases hmm : m.matchPkt p with ⟨m', p', r⟩
        rw [hmm] at hv
        rcases r with e | b
        · cases hv
        · cases b with
          | false => cases hv
          | true => simp [Admits, hmm]

example : feed exOut [("eth2".toList, exOtherPort), ("eth1".toList, exPacket)] = [.ok .part, .ok .success] ∧
    feed exOut [("eth1".toList, exPacket), ("eth1".toList, exPacket)] = [.ok .part, .error .testFailure] := by
  decide +kernel

/-- A packet on a port that is not expected, or on which the expected packet has already been sent,
is refused and changes nothing. -/
theorem output_refuses_port (w : Dict (List Char) Matcher) (s : Dict (List Char) Sent) (d : List Char) (p : Packet) :
    (d ∉ w.keys → Event.matchOutput (.output w s) d p = (.output w s, p, .error .testFailure)) ∧
    (∀ m q, w.Uniq → w.get? d = some m → Admits m q →
      ∃ e, (Event.matchOutput (.output w s) d q).1 = e ∧
        e.matchOutput d p = (e, p, .error .testFailure)) := by
  have h : ∀ (w : Dict (List Char) Matcher) (s : Dict (List Char) Sent), d ∉ w.keys →
      Event.matchOutput (.output w s) d p = (.output w s, p, .error .testFailure) := by
    intro w s hd
    simp only [Event.matchOutput, (Dict.get?_eq_none w d).mpr hd]
  refine ⟨h w s, fun m q hu hm ha => ⟨_, rfl, ?_⟩⟩
  rw [(feed_output w s d q m hm ha).1]
  apply h
  rw [← Dict.get?_eq_none, Dict.get?_erase hu]
  simp

/-- A packet that is not accepted on its port is refused; the same packets are expected as before. -/
theorem output_refuses_packet (w : Dict (List Char) Matcher) (s : Dict (List Char) Sent) (d : List Char) (p : Packet)
    (m : Matcher) (hm : w.get? d = some m) (h : (m.matchPkt p).2.2 = .ok false) :
    ∃ w', (Event.matchOutput (.output w s) d p).1 = .output w' s ∧ w'.keys = w.keys ∧
      (∀ d', d' ≠ d → w'.get? d' = w.get? d') ∧ w'.get? d = some (m.matchPkt p).1 ∧
      (Event.matchOutput (.output w s) d p).2.2 = .error .testFailure := by
  rcases hmm : m.matchPkt p with ⟨m', p', r⟩
  rw [hmm] at h
  simp only at h
  subst h
  simp only [Event.matchOutput, hm, hmm]
  refine ⟨w.set d m', by simp, ?_, ?_, ?_, by simp⟩
  · rw [Dict.keys_set, if_pos ((Dict.mem_keys w d).mpr ⟨m, hm⟩)]
  · intro d' hd
    rw [Dict.get?_set, if_neg (Ne.symm hd)]
  · rw [Dict.get?_set, if_pos rfl]

theorem mkWaiting_spec {exact : Bool} {wild : List (Cls × HdrAttr)} {preds : List (Packet → Res Bool)}
    {args : List (List Char × Packet)} {d w : Dict (List Char) Matcher} (hd : d.Uniq)
    (h : mkWaiting exact wild preds d args = .ok w) :
    w.Uniq ∧ (∀ k, k ∈ w.keys ↔ k ∈ d.keys ∨ k ∈ args.map Prod.fst) ∧
    ((∀ k ∈ d.keys, k ∉ args.map Prod.fst) → (args.map Prod.fst).Nodup →
      w.keys = d.keys ++ args.map Prod.fst ∧ (∀ k ∈ d.keys, w.get? k = d.get? k) ∧
        ∀ x ∈ args, ∃ m, w.get? x.1 = some m ∧ Matcher.new x.2 exact wild preds = .ok m) := by
  induction args generalizing d with
  | nil => cases h; exact ⟨hd, by simp, by simp⟩
  | cons x args ih =>
    obtain ⟨dev, p⟩ := x
    simp only [mkWaiting] at h
    obtain ⟨m, hm, h'⟩ := bind_eq_ok.mp h
    obtain ⟨h1, h2, h3⟩ := ih (Dict.uniq_set hd dev m) h'
    have hk : ∀ k, k ∈ (d.set dev m).keys ↔ k ∈ d.keys ∨ k = dev := by
      intro k
      rw [Dict.keys_set]
      split
      · rename_i hin
        exact ⟨.inl, fun h => h.elim id (fun e => e ▸ hin)⟩
      · simp
    refine ⟨h1, ?_, ?_⟩
    · intro k
      rw [h2, hk]
      simp only [List.map_cons, List.mem_cons]
      grind
    · intro hdis hn
      simp only [List.map_cons, List.nodup_cons] at hn
      simp only [List.map_cons, List.mem_cons] at hdis
      have hnd : dev ∉ d.keys := fun hh => hdis dev hh (.inl rfl)
      obtain ⟨g1, g2, g3⟩ := h3 (by
        intro k hkk
        rcases (hk k).mp hkk with hh | rfl
        · exact fun hx => hdis k hh (.inr hx)
        · exact hn.1) hn.2
      refine ⟨?_, ?_, ?_⟩
      · rw [g1, Dict.keys_set, if_neg hnd]; simp
      · intro k hkk
        rw [g2 k ((hk k).mpr (.inl hkk)), Dict.get?_set, if_neg]
        rintro rfl; exact hnd hkk
      · intro y hy
        rcases List.mem_cons.mp hy with rfl | hy
        · refine ⟨m, ?_, hm⟩
          rw [g2 dev ((hk dev).mpr (.inr rfl)), Dict.get?_set, if_pos rfl]
        · exact g3 y hy

/-- An output expectation made from pairs of ports and packets with different ports expects exactly
these packets on these ports, each compared with the given options. -/
theorem output_new_partial (args : List (List Char × Packet)) (odd exact : Bool) (wild : List (Cls × HdrAttr))
    (preds : List (Packet → Res Bool)) (e : Event) (h : Event.mkOutput args odd exact wild preds = .ok e)
    (hn : (args.map Prod.fst).Nodup) :
    ∃ w, e = .output w [] ∧ w ≠ [] ∧ w.Uniq ∧ w.keys = args.map Prod.fst ∧
      ∀ x ∈ args, ∃ m, w.get? x.1 = some m ∧ Matcher.new x.2 exact wild preds = .ok m := by
  unfold Event.mkOutput at h
  split at h
  · cases h
  · rename_i h0
    split at h
    · cases h
    · rename_i h1
      obtain ⟨w, hw, h'⟩ := bind_eq_ok.mp h
      cases h'
      obtain ⟨g1, _, g3⟩ := mkWaiting_spec (by simp [Dict.Uniq, Dict.keys]) hw
      obtain ⟨k1, _, k3⟩ := g3 (by simp [Dict.keys]) hn
      refine ⟨w, rfl, ?_, g1, by simpa [Dict.keys] using k1, k3⟩
      rintro rfl
      simp only [Dict.keys, List.map_nil, List.nil_append, List.nil_eq, List.map_eq_nil_iff] at k1
      exact h0 ⟨k1, by simpa using h1⟩

/-- No pairs, or an argument without its partner, are refused. -/
theorem output_new_refuses (args : List (List Char × Packet)) (odd exact : Bool) (wild : List (Cls × HdrAttr))
    (preds : List (Packet → Res Bool)) (h : args = [] ∨ odd = true) :
    Event.mkOutput args odd exact wild preds = .error .valueError := by
  unfold Event.mkOutput
  rcases h with rfl | rfl
  · cases odd <;> simp
  · simp

/-- With two packets for the same port only the second one is expected: the first is refused, and one
packet is enough. -/
theorem output_same_port_violated : ∃ (p q : Packet) (e : Event),
    Event.mkOutput [("eth0".toList, p), ("eth0".toList, q)] false true [] [] = .ok e ∧
    (e.matchOutput "eth0".toList p).2.2 = .error .testFailure ∧
    (e.matchOutput "eth0".toList q).2.2 = .ok .success := by
  have h : ∃ e, Event.mkOutput [("eth0".toList, exPacket), ("eth0".toList, exOtherPort)] false true [] [] = .ok e ∧
      decide ((e.matchOutput "eth0".toList exPacket).2.2 = .error .testFailure ∧
        (e.matchOutput "eth0".toList exOtherPort).2.2 = .ok .success) = true :=
    Except.of_test (by decide +kernel)
  obtain ⟨e, h1, h2⟩ := h
  exact ⟨exPacket, exOtherPort, e, h1, of_decide_eq_true h2⟩

/-! ## C52: saving scenarios -/

/-- Two lists of the same length whose members are related one by one. -/
inductive Zipped {α β : Type} (R : α → β → Prop) : List α → List β → Prop
  | nil : Zipped R [] []
  | cons {x : α} {y : β} {l : List α} {l' : List β} : R x y → Zipped R l l' → Zipped R (x :: l) (y :: l')

/-- The two matchers give the same answer for every packet (and do the same to it). -/
def SameMatcher (m m' : Matcher) : Prop := ∀ p, (m'.matchPkt p).2 = (m.matchPkt p).2

/-- Two expectations that a program cannot tell apart: the same packet is delivered on the same port;
packets are expected on the same ports, in the same order, by matchers with the same answers. -/
def SameEvent : Event → Event → Prop
  | .timeout t, .timeout t' => t = t'
  | .input d p f cs, .input d' p' f' cs' => d = d' ∧ cs = cs' ∧
      ∀ ts ifaces l, (Event.generate (.input d p f cs) ts ifaces l).2 = (Event.generate (.input d' p' f' cs') ts ifaces l).2
  | .output w s, .output w' s' => Zipped (fun x y => x.1 = y.1 ∧ SameMatcher x.2 y.2) w w' ∧ s.keys = s'.keys
  | _, _ => False

/-- What can be saved: packets that the round-trip theorem covers, and sent packets that parse as
Ethernet frames. -/
def Savable : Event → Prop
  | .timeout _ => True
  | .input _ p f _ => ∃ c p' b, f = some c ∧ Stack c p ∧ p.toBytes = (p', .ok b)
  | .output w s =>
    (∀ x ∈ w, ∃ c r b, x.2.first = some c ∧ Stack c x.2.ref ∧ x.2.ref.toBytes = (r, .ok b)) ∧
    ∀ x ∈ s, ∃ p p' b q, x.2 = .pkt p ∧ p.toBytes = (p', .ok b) ∧ Packet.parse b (some .eth) = .ok q

theorem waiting_restore {w : Dict (List Char) Matcher}
    (h : ∀ x ∈ w, ∃ c r b, x.2.first = some c ∧ Stack c x.2.ref ∧ x.2.ref.toBytes = (r, .ok b)) :
    ∃ sv w', saveWaiting w = .ok sv ∧ restoreWaiting sv = .ok w' ∧
      Zipped (fun x y => x.1 = y.1 ∧ SameMatcher x.2 y.2) w w' := by
  induction w with
  | nil => exact ⟨[], [], rfl, rfl, .nil⟩
  | cons x w ih =>
    obtain ⟨d, m⟩ := x
    obtain ⟨c, r, b, h1, h2, h3⟩ := h (d, m) (by simp)
    obtain ⟨s, m', g1, g2, g3⟩ := matcher_restore_partial m c h2 h1 r b h3
    obtain ⟨sv, w', k1, k2, k3⟩ := ih (fun x hx => h x (by simp [hx]))
    exact ⟨(d, s) :: sv, (d, m') :: w', by simp only [saveWaiting, g1, k1, bind_ok],
      by simp only [restoreWaiting, g2, k2, bind_ok], .cons ⟨rfl, g3⟩ k3⟩

theorem sent_restore {s : Dict (List Char) Sent}
    (h : ∀ x ∈ s, ∃ p p' b q, x.2 = .pkt p ∧ p.toBytes = (p', .ok b) ∧ Packet.parse b (some .eth) = .ok q) :
    ∃ sv s', (saveSent s).2 = .ok sv ∧ restoreSent sv = .ok s' ∧ s'.keys = s.keys := by
  induction s with
  | nil => exact ⟨[], [], rfl, rfl, rfl⟩
  | cons x s ih =>
    obtain ⟨d, v⟩ := x
    obtain ⟨p, p', b, q, h1, h2, h3⟩ := h (d, v) (by simp)
    simp only at h1
    subst h1
    obtain ⟨sv, s', k1, k2, k3⟩ := ih (fun x hx => h x (by simp [hx]))
    refine ⟨(d, b) :: sv, (d, .pkt q) :: s', by simp only [saveSent, h2, k1, bind_ok],
      by simp only [restoreSent, h3, k2, bind_ok], ?_⟩
    simp only [Dict.keys, List.map_cons] at k3 ⊢
    rw [k3]

theorem event_restore {e : Event} (h : Savable e) :
    ∃ sv e', e.save.2 = .ok sv ∧ sv.restore = .ok e' ∧ SameEvent e e' := by
  cases e with
  | timeout t => exact ⟨.timeout t, .timeout t, rfl, rfl, rfl⟩
  | input d p f cs =>
    obtain ⟨c, p', b, rfl, hs, hb⟩ := h
    obtain ⟨q, h1, _, _, h4⟩ := packet_roundtrip_partial c p p' b hs hb
    refine ⟨.input d b (some c) cs, .input d q (some c) cs, by simp only [Event.save, hb], by
      simp only [SavedEvent.restore, h1, bind_ok], rfl, rfl, fun ts ifaces l => ?_⟩
    rcases hq : q.toBytes with ⟨q', r⟩
    rw [hq] at h4
    simp only at h4
    subst h4
    simp only [Event.generate, hb, h1, hq]
  | output w s =>
    obtain ⟨h1, h2⟩ := h
    obtain ⟨sv, w', k1, k2, k3⟩ := waiting_restore h1
    obtain ⟨bs, s', g1, g2, g3⟩ := sent_restore h2
    exact ⟨.output sv bs, .output w' s', by simp only [Event.save, g1, k1, bind_ok],
      by simp only [SavedEvent.restore, k2, g2, bind_ok], k3, g3.symm⟩

theorem entries_restore {l : List Entry} (h : ∀ x ∈ l, Savable x.event) :
    ∃ sv l', (saveEntries l).2 = .ok sv ∧ restoreEntries sv = .ok l' ∧
      Zipped (fun x y => x.descr = y.descr ∧ x.ts = y.ts ∧ SameEvent x.event y.event) l l' := by
  induction l with
  | nil => exact ⟨[], [], rfl, rfl, .nil⟩
  | cons x l ih =>
    obtain ⟨s, e', h1, h2, h3⟩ := event_restore (h x (by simp))
    obtain ⟨sv, l', k1, k2, k3⟩ := ih (fun y hy => h y (by simp [hy]))
    refine ⟨⟨s, x.descr, x.ts⟩ :: sv, ⟨e', x.descr, x.ts⟩ :: l', ?_, by
      simp only [restoreEntries, h2, k2, bind_ok], .cons ⟨rfl, rfl, h3⟩ k3⟩
    rcases hx : x.event.save with ⟨e1, r⟩
    rw [hx] at h1
    simp only at h1
    subst h1
    simp only [saveEntries, hx, k1, bind_ok]

/-- Saving a scenario of which nothing has been completed yet and restoring it gives a scenario with
the same interfaces and time limit and the same expectations in the same order. -/
theorem scenario_restore_partial (s : Scenario) (hc : s.completed = []) (h : ∀ x ∈ s.pending, Savable x.event) :
    ∃ sv s', s.save.2 = .ok sv ∧ sv.restore = .ok s' ∧ s'.ifaces = s.ifaces ∧ s'.timeout = s.timeout ∧
      s'.nextTs = s.nextTs ∧ s'.completed = [] ∧
      Zipped (fun x y => x.descr = y.descr ∧ x.ts = y.ts ∧ SameEvent x.event y.event)
        s.pending s'.pending := by
  obtain ⟨sv, l', h1, h2, h3⟩ := entries_restore h
  exact ⟨⟨s.ifaces, sv, s.nextTs, s.timeout⟩,
    { ifaces := s.ifaces, pending := l', nextTs := s.nextTs, timeout := s.timeout }, by simp only [Scenario.save, hc, List.append_nil, h1, bind_ok],
    by simp only [SavedScenario.restore, h2, bind_ok], rfl, rfl, rfl, rfl, h3⟩

example : exScen.completed = [] ∧ ∀ x ∈ exScen.pending, Savable x.event := by
  obtain ⟨m1, m2, he, h1, h2, h3, h4, _⟩ := exOut_eq
  obtain ⟨p', b, hb, _⟩ := exPacket_ok
  have hs : Stack .eth exPacket := by
    refine ⟨rfl, ⟨by decide, by decide⟩, rfl, ⟨by decide, rfl⟩, rfl, by show UDP.WF _; decide, .inr ⟨?_, 104, [105], rfl⟩⟩
    intro h; rcases h with h | h | h <;> cases h
  have ho : Stack .eth exOtherPort := by
    refine ⟨rfl, ⟨by decide, by decide⟩, rfl, ⟨by decide, rfl⟩, rfl, by show UDP.WF _; decide, .inr ⟨?_, 104, [105], rfl⟩⟩
    intro h; rcases h with h | h | h <;> cases h
  have k : ∃ b, exOtherPort.toBytes.2 = .ok b ∧ true = true := Except.of_test (by decide +kernel)
  obtain ⟨b', hb', _⟩ := k
  refine ⟨rfl, ?_⟩
  intro x hx
  simp only [exScen, he, List.mem_cons, List.not_mem_nil, or_false] at hx
  rcases hx with rfl | rfl | rfl
  · exact ⟨.eth, p', b, rfl, hs, hb⟩
  · refine ⟨?_, by simp⟩
    intro y hy
    simp only [List.mem_cons, List.not_mem_nil, or_false] at hy
    rcases hy with rfl | rfl
    · exact ⟨.eth, p', b, h1, by rw [h3]; exact hs, by rw [h3]; exact hb⟩
    · exact ⟨.eth, exOtherPort.toBytes.1, b', h2, by rw [h4]; exact ho, by rw [h4]; exact Prod.ext rfl hb'⟩
  · trivial

/-- Saving in the middle of a run puts the expectations that have been met behind those that have
not, and restoring expects all of them again. -/
theorem scenario_restore_violated : ∃ (n : TestNet) (sv : SavedScenario) (s' : Scenario),
    n.scen.completed = [] ∧ n.recv.1.scen.save.2 = .ok sv ∧ sv.restore = .ok s' ∧
    titles n.scen.pending = [("a".toList, 0), ("b".toList, 1)] ∧
    titles n.recv.1.scen.completed = [("a".toList, 0)] ∧
    titles s'.pending = [("b".toList, 1), ("a".toList, 0)] := by
  let n : TestNet := { scen := (Scenario.expect {} (.timeout 1) "a".toList).expect (.timeout 2) "b".toList }
  exact ⟨n, ⟨[], [⟨.timeout 2, "b".toList, 1⟩, ⟨.timeout 1, "a".toList, 0⟩], 2, 60⟩,
    { pending := [⟨.timeout 2, "b".toList, 1⟩, ⟨.timeout 1, "a".toList, 0⟩], nextTs := 2 },
    rfl, rfl, rfl, rfl, rfl, rfl⟩

/-- Saving a scenario while an output expectation is half met damages the scenario itself: the
packets sent so far become byte strings, and it cannot be saved again. -/
theorem scenario_save_damage_violated (s : Scenario) (x : Entry) (xs : List Entry) (w : Dict (List Char) Matcher)
    (d : List Char) (p p' : Packet) (b : Bytes) (sent : Dict (List Char) Sent) (hp : s.pending = x :: xs)
    (hx : x.event = .output w ((d, .pkt p) :: sent)) (hb : p.toBytes = (p', .ok b)) :
    (∃ y ys w' sent', s.save.1.pending = y :: ys ∧ y.event = .output w' ((d, .raw b) :: sent')) ∧
      s.save.1.save.2 = .error .attributeError := by
  have he : ∃ sent' r, x.event.save = (.output w ((d, .raw b) :: sent'), r) := by
    rw [hx]
    simp only [Event.save, saveSent, hb]
    exact ⟨_, _, rfl⟩
  obtain ⟨sent', r, he⟩ := he
  have hs : ∃ ys, s.save.1.pending = { x with event := .output w ((d, .raw b) :: sent') } :: ys := by
    simp only [Scenario.save, hp, List.cons_append, saveEntries, he]
    cases r <;> exact ⟨_, rfl⟩
  obtain ⟨ys, hs⟩ := hs
  refine ⟨⟨_, _, _, _, hs, rfl⟩, ?_⟩
  generalize s.save.1 = t at hs
  simp only [Scenario.save, hs, List.cons_append, saveEntries, Event.save, saveSent, bind_error]

theorem same_covers {w w' : Dict (List Char) Matcher}
    (h : Zipped (fun x y => x.1 = y.1 ∧ SameMatcher x.2 y.2) w w') (l : List (List Char × Packet)) :
    Covers w l ↔ Covers w' l := by
  have hk : w'.keys = w.keys := by
    induction h with
    | nil => rfl
    | cons h _ ih => simp only [Dict.keys, List.map_cons] at ih ⊢; rw [h.1, ih]
  have hg : ∀ d p, (∃ m, w.get? d = some m ∧ Admits m p) ↔ ∃ m, w'.get? d = some m ∧ Admits m p := by
    intro d p
    clear hk
    induction h with
    | nil => simp
    | @cons x y _ _ h _ ih =>
      obtain ⟨a, m⟩ := x
      obtain ⟨a', m'⟩ := y
      obtain ⟨rfl, h2⟩ := h
      simp only [Dict.get?_cons]
      simp only at h2
      split
      · simp [Admits, h2 p]
      · exact ih
  simp only [Covers, hk, hg]

theorem same_meets {es es' : List Event} (h : Zipped SameEvent es es') (as : List Act) :
    Meets es as ↔ Meets es' as := by
  induction h generalizing as with
  | nil => exact Iff.rfl
  | @cons e e' es es' h _ ih =>
    rcases e with t | ⟨d, p, f, cs⟩ | ⟨w, s⟩ <;> rcases e' with t' | ⟨d', p', f', cs'⟩ | ⟨w', s'⟩ <;>
      simp only [SameEvent] at h
    · constructor
      · intro hm; cases hm with | timeout _ _ _ hm => exact .timeout _ _ _ ((ih _).mp hm)
      · intro hm; cases hm with | timeout _ _ _ hm => exact .timeout _ _ _ ((ih _).mpr hm)
    · constructor
      · intro hm; cases hm with | input _ _ _ _ _ _ hm => exact .input _ _ _ _ _ _ ((ih _).mp hm)
      · intro hm; cases hm with | input _ _ _ _ _ _ hm => exact .input _ _ _ _ _ _ ((ih _).mpr hm)
    · constructor
      · intro hm
        cases hm with
        | output _ _ l _ as hc hm => exact .output _ _ _ _ _ ((same_covers h.1 l).mp hc) ((ih _).mp hm)
      · intro hm
        cases hm with
        | output _ _ l _ as hc hm => exact .output _ _ _ _ _ ((same_covers h.1 l).mpr hc) ((ih _).mpr hm)

theorem generate_usable {d : List Char} {p : Packet} {f : Option Cls} {cs : List Copy} {ifaces : Dict (List Char) Iface}
    (h : Usable ifaces (.input d p f cs)) : ∃ r, (Event.generate (.input d p f cs) 0 ifaces none).2 = .ok r := by
  obtain ⟨rfl, hd, p', b, q, h1, h2⟩ := h
  simp only [Event.generate, h1, h2, deliverOn, if_pos hd, applyCopies]
  exact ⟨_, rfl⟩

theorem usable_same {ifaces : Dict (List Char) Iface} {e e' : Event} (h : SameEvent e e') (hu : Usable ifaces e) :
    Usable ifaces e' := by
  rcases e with t | ⟨d, p, f, cs⟩ | ⟨w, s⟩ <;> rcases e' with t' | ⟨d', p', f', cs'⟩ | ⟨w', s'⟩ <;>
    simp only [SameEvent] at h
  · trivial
  · obtain ⟨r, hr⟩ := generate_usable hu
    obtain ⟨rfl, rfl, h2⟩ := h
    rw [h2 0 ifaces none] at hr
    refine ⟨hu.1, hu.2.1, ?_⟩
    rcases hb : p'.toBytes with ⟨p2, b⟩
    simp only [Event.generate, hb] at hr
    rcases b with e | b
    · cases hr
    · simp only at hr
      rcases hq : Packet.parse b f' with e | q
      · rw [hq] at hr; cases hr
      · exact ⟨p2, b, q, rfl, hq⟩
  · obtain ⟨h1, _⟩ := h
    obtain ⟨u1, u2⟩ := hu
    have hk : w'.keys = w.keys := by
      clear u1 u2
      induction h1 with
      | nil => rfl
      | cons h _ ih => simp only [Dict.keys, List.map_cons] at ih ⊢; rw [h.1, ih]
    refine ⟨?_, by simp only [Dict.Uniq, hk]; exact u2⟩
    rintro rfl
    cases h1
    exact u1 rfl

theorem noShutdown_same {es es' : List Event} (h : Zipped SameEvent es es') {as : List Act} (hs : NoShutdown es as) :
    NoShutdown es' as := by
  intro d p hm w' s' hw x hx
  have : ∃ w s, Event.output w s ∈ es ∧ ∃ y ∈ w, SameMatcher y.2 x.2 := by
    clear hs
    induction h with
    | nil => cases hw
    | @cons e e' _ _ h _ ih =>
      rcases List.mem_cons.mp hw with rfl | hw
      · rcases e with t | ⟨d, p, f⟩ | ⟨w, s⟩ <;> simp only [SameEvent] at h
        refine ⟨w, s, by simp, ?_⟩
        have h1 := h.1
        clear h hm hw ih
        induction h1 with
        | nil => cases hx
        | @cons y y' _ _ h _ ih =>
          rcases List.mem_cons.mp hx with rfl | hx
          · exact ⟨y, by simp, h.2⟩
          · obtain ⟨z, h1, h2⟩ := ih hx
            exact ⟨z, by simp [h1], h2⟩
      · obtain ⟨w, s, h1, h2⟩ := ih hw
        exact ⟨w, s, by simp [h1], h2⟩
  obtain ⟨w, s, h1, y, h2, h3⟩ := this
  rw [h3 p]
  exact hs d p hm w s h1 y h2

theorem zipped_events {l l' : List Entry}
    (h : Zipped (fun x y => x.descr = y.descr ∧ x.ts = y.ts ∧ SameEvent x.event y.event) l l') :
    Zipped SameEvent (l.map (·.event)) (l'.map (·.event)) ∧
      ∀ y ∈ l', ∃ x ∈ l, SameEvent x.event y.event := by
  induction h with
  | nil => exact ⟨.nil, by simp⟩
  | @cons x y l l' h _ ih =>
    refine ⟨.cons h.2.2 ih.1, fun z hz => ?_⟩
    rcases List.mem_cons.mp hz with rfl | hz
    · exact ⟨x, by simp, h.2.2⟩
    · obtain ⟨x', h1, h2⟩ := ih.2 z hz
      exact ⟨x', by simp [h1], h2⟩

/-- A scenario that has been saved before a run and restored passes and fails the same programs. -/
theorem scenario_restore_reports_partial (s : Scenario) (hc : s.completed = []) (h : ∀ x ∈ s.pending, Savable x.event)
    (hu : ∀ x ∈ s.pending, Usable s.ifaces x.event) :
    ∃ sv s', s.save.2 = .ok sv ∧ sv.restore = .ok s' ∧
      ∀ as, NoShutdown (s.pending.map (·.event)) as →
        (report { scen := s' } as = .allPassed ↔ report { scen := s } as = .allPassed) := by
  obtain ⟨sv, s', h1, h2, h3, _, _, _, h7⟩ := scenario_restore_partial s hc h
  obtain ⟨g1, g2⟩ := zipped_events h7
  refine ⟨sv, s', h1, h2, fun as hs => ?_⟩
  rw [scenario_reports_partial { scen := s } as hu hs, scenario_reports_partial]
  · have : ∀ k, Meets (s'.pending.map (·.event)) k ↔ Meets (s.pending.map (·.event)) k :=
      fun k => (same_meets g1 k).symm
    simp only [MetBy, this]
  · intro y hy
    obtain ⟨x, hx, hxy⟩ := g2 y hy
    simp only [h3]
    exact usable_same hxy (hu x hx)
  · exact noShutdown_same g1 hs

/-! ## C105: the time limit for outputs -/

/-- The next expectation is an output. -/
def WaitsForOutput (s : Scenario) : Prop := ∃ x xs, s.pending = x :: xs ∧ x.event.isOutput = true

theorem armNext_timer (s : Scenario) (h : s.timer = false) :
    s.armNext.timer = true ↔ WaitsForOutput s := by
  unfold Scenario.armNext WaitsForOutput
  rcases hp : s.pending with _ | ⟨x, xs⟩
  · simp [h]
  · simp only
    split
    · rename_i ho
      simp only [Scenario.setTimer, true_iff]
      exact ⟨x, xs, rfl, ho⟩
    · rename_i ho
      simp only [h, Bool.false_eq_true, List.cons.injEq, false_iff]
      rintro ⟨_, _, ⟨rfl, rfl⟩, ho'⟩
      exact ho ho'

theorem armNext_alarm (s : Scenario) (h : s.timer = false) (ha : s.alarm = none) :
    s.armNext.alarm = (if s.armNext.timer = true ∧ s.timeout ≠ 0 then some s.timeout else none) ∧
      s.armNext.timeout = s.timeout := by
  unfold Scenario.armNext
  rcases hp : s.pending with _ | ⟨x, xs⟩
  · simp [h, ha]
  · simp only
    split
    · simp only [Scenario.setTimer, true_and]
      split <;> simp_all
    · simp [h, ha]

/-- The timer is on exactly while an output is expected after something has been completed. -/
def TimerOk (s : Scenario) : Prop :=
  (s.timer = true ↔ s.completed ≠ [] ∧ WaitsForOutput s) ∧ (s.alarm ≠ none → s.timer = true)

theorem testpass_timer {s : Scenario} {x : Entry} {xs : List Entry} (h : s.pending = x :: xs) :
    TimerOk s.testpass.1 := by
  obtain ⟨h1, h2, _⟩ := testpass_lists h
  have ht : s.testpass.1.timer = true ↔ WaitsForOutput s.testpass.1 := by
    simp only [Scenario.testpass, h]
    rw [armNext_timer _ rfl]
    simp only [WaitsForOutput, (armNext_lists _).1]
  refine ⟨?_, ?_⟩
  · rw [ht, h2]; simp
  · simp only [Scenario.testpass, h]
    rw [(armNext_alarm _ rfl rfl).1]
    split
    · rename_i hh; exact fun _ => hh.1
    · simp

theorem matchOutput_isOutput (e : Event) (d : List Char) (p : Packet) :
    (e.matchOutput d p).1.isOutput = e.isOutput := by
  unfold Event.matchOutput
  split
  · rfl
  · rfl
  · split
    · rfl
    · simp only
      split <;> rfl

theorem waits_setFirst {s : Scenario} {x : Entry} {xs : List Entry} (h : s.pending = x :: xs) (e : Event)
    (he : e.isOutput = x.event.isOutput) :
    WaitsForOutput { s with pending := setFirst s.pending e } ↔ WaitsForOutput s := by
  simp only [WaitsForOutput, h, setFirst]
  constructor
  · rintro ⟨_, _, hh, ho⟩
    cases hh
    exact ⟨x, xs, rfl, by rw [← he]; exact ho⟩
  · rintro ⟨_, _, hh, ho⟩
    cases hh
    exact ⟨_, _, rfl, by rw [he]; exact ho⟩

theorem setLast_ne {l : List Entry} {e : Event} : setLast l e ≠ [] ↔ l ≠ [] := by
  fun_cases setLast l e <;> simp

theorem testStep_timer (n : TestNet) (op : TestOp) (h : TimerOk n.scen) : TimerOk (testStep n op).scen := by
  cases op with
  | recv =>
    simp only [testStep, TestNet.recv, Scenario.next]
    rcases hp : n.scen.pending with _ | ⟨x, xs⟩
    · exact h
    · simp only
      split
      · obtain ⟨h1, h2⟩ := testpass_timer hp
        refine ⟨?_, h2⟩
        simp only [setLast_ne]
        exact h1
      · exact h
  | send port p =>
    simp only [testStep, TestNet.send]
    split
    · exact h
    · split
      · exact h
      · simp only [TestNet.sendOn, Scenario.next]
        rcases hp : n.scen.pending with _ | ⟨x, xs⟩
        · exact h
        · rename_i dev _
          have hset : TimerOk { n.scen with pending := setFirst n.scen.pending (x.event.matchOutput dev p).1 } := by
            refine ⟨?_, h.2⟩
            rw [waits_setFirst hp _ (matchOutput_isOutput _ _ _)]
            exact h.1
          rw [hp] at hset
          simp only [TestNet.afterMatch]
          split
          · exact hset
          · exact testpass_timer (x := { x with event := (x.event.matchOutput dev p).1 }) rfl
          · exact hset
          · exact hset
  | alarm => exact ⟨h.1, by simp [testStep, Scenario.alarmFires]⟩

/-- Whatever a program does with a new scenario: the alarm makes a test fail exactly while an output is
expected and at least one expectation has been met before; and no alarm has been requested
otherwise. -/
theorem output_timer_partial (s : Scenario) (hc : s.completed = []) (ht : s.timer = false) (ha : s.alarm = none)
    (ops : List TestOp) (t : Scenario) (h : (ops.foldl testStep { scen := s }).scen = t) :
    (t.alarmFires.2 = some .testFailure ↔ t.completed ≠ [] ∧ WaitsForOutput t) ∧
      (t.alarm ≠ none → t.completed ≠ [] ∧ WaitsForOutput t) := by
  have hi : ∀ (ops : List TestOp) (n : TestNet), TimerOk n.scen → TimerOk (ops.foldl testStep n).scen := by
    intro ops
    induction ops with
    | nil => exact fun _ h => h
    | cons op ops ih => exact fun n h => ih _ (testStep_timer n op h)
  have hk : TimerOk t := by
    rw [← h]
    exact hi ops _ ⟨by simp [hc, ht], by simp [ha]⟩
  refine ⟨?_, fun hh => hk.1.mp (hk.2 hh)⟩
  rw [← hk.1]
  simp only [Scenario.alarmFires]
  split <;> simp_all

/-- When an expectation is met and an output is expected next, the alarm is requested after the
scenario's time limit; any earlier request is withdrawn. -/
theorem output_alarm (s : Scenario) (x : Entry) (xs : List Entry) (h : s.pending = x :: xs) :
    (WaitsForOutput s.testpass.1 → s.timeout ≠ 0 → s.testpass.1.alarm = some s.timeout) ∧
      (¬ WaitsForOutput s.testpass.1 → s.testpass.1.alarm = none) := by
  have ht : s.testpass.1.timer = true ↔ WaitsForOutput s.testpass.1 := by
    rw [(testpass_timer h).1, (testpass_lists h).2.1]; simp
  rw [← ht]
  simp only [Scenario.testpass, h]
  rw [(armNext_alarm _ rfl rfl).1]
  constructor
  · intro h1 h2
    exact if_pos ⟨h1, h2⟩
  · intro h1
    exact if_neg (fun hh => h1 hh.1)

/-- A scenario that starts with an output expects it without any time limit. -/
theorem output_timer_violated : ∃ s : Scenario, s = Scenario.expect {} (.output [("eth0".toList,
      ⟨true, exPacket, [], [], none⟩)] []) "send".toList ∧ WaitsForOutput s ∧ s.alarm = none ∧
    s.alarmFires.2 = none := ⟨_, rfl, ⟨_, _, rfl, rfl⟩, rfl, rfl⟩

/-! ## C106: compiled scenario files -/

/-- A compiled file opens, and what is opened is what was compiled: the file is accepted exactly if
it is the digest of its contents followed by the contents. -/
theorem sealed_file (sha512 : Bytes → Bytes) (h64 : ∀ b, (sha512 b).length = 64) (raw b : Bytes) :
    openFile sha512 raw = .ok b ↔ raw = sealFile sha512 b := by
  unfold openFile sealFile
  constructor
  · intro h
    split at h
    · cases h
    · rename_i hh
      cases h
      rw [Decidable.not_not.mp hh, List.take_append_drop]
  · rintro rfl
    rw [List.drop_append_of_le_length (by rw [h64]; omega), List.take_append_of_le_length (by rw [h64]; omega),
      List.drop_of_length_le (by rw [h64]; omega), List.take_of_length_le (by rw [h64]; omega)]
    simp

/-- `foo.py` is compiled to `foo.srpy`, if the name `foo` does not end in one of the characters of
`.py`. -/
theorem compiled_name_partial (stem : List Char) (c : Char) (h : c ∉ ".py".toList) :
    compiledName (stem ++ [c] ++ ".py".toList) none = stem ++ [c] ++ ".srpy".toList := by
  have h' : ∀ l : List Char, rstripChars ".py".toList (stem ++ [c] ++ l) =
      if (l.reverse.dropWhile (fun c => decide (c ∈ ".py".toList))) = [] then stem ++ [c]
      else stem ++ [c] ++ (l.reverse.dropWhile (fun c => decide (c ∈ ".py".toList))).reverse := by
    intro l
    unfold rstripChars
    rw [List.reverse_append, List.dropWhile_append]
    split
    · rename_i he
      rw [List.isEmpty_iff] at he
      rw [if_pos he, List.reverse_append, List.reverse_singleton, List.singleton_append, List.dropWhile_cons_of_neg (by simpa using h)]
      simp
    · rename_i he
      rw [List.isEmpty_iff] at he
      rw [if_neg he]
      simp
  simp only [compiledName]
  rw [h']
  rw [if_pos (by decide)]

/-- Other names lose more than the suffix. -/
theorem compiled_name_violated :
    compiledName "happy.py".toList none = "ha.srpy".toList ∧
    compiledName "copy.py".toList none = compiledName "co.py".toList none := by decide

/-! ## C107: numbers of scenario interfaces -/

/-- A sequence of `add_interface` calls without explicit numbers. -/
def addAll (s : Scenario) : List (List Char × EthArg × List IPIfArg) → Res Scenario
  | [] => .ok s
  | x :: l => s.addInterface x.1 x.2.1 x.2.2 none >>= fun s' => addAll s' l

theorem assignAll_num {i j : Iface} {l : List IPIfArg} (h : assignAll i l = .ok j) :
    j.ifnum = i.ifnum ∧ j.name = i.name ∧ j.ethaddr = i.ethaddr := by
  induction l generalizing i with
  | nil => cases h; exact ⟨rfl, rfl, rfl⟩
  | cons a l ih =>
    simp only [assignAll, Iface.assignIp] at h
    rcases ha : assignedIp a with e | x
    · rw [ha] at h; cases h
    · rw [ha] at h
      obtain ⟨h1, h2, h3⟩ := ih h
      have : (i.addIp x).ifnum = i.ifnum ∧ (i.addIp x).name = i.name ∧ (i.addIp x).ethaddr = i.ethaddr := by
        unfold Iface.addIp; split <;> exact ⟨rfl, rfl, rfl⟩
      exact ⟨h1.trans this.1, h2.trans this.2.1, h3.trans this.2.2⟩

theorem scenarioIface_spec {s s' : Scenario} {name : List Char} {mac : EthArg} {ips : List IPIfArg} {num : Option Int}
    (h : s.addInterface name mac ips num = .ok s') :
    ∃ i, s' = { s with ifaces := s.ifaces.set name i } ∧ i.name = name ∧ i.ifnum = num.getD s.ifaces.length ∧
      ifaceEth mac = .ok i.ethaddr := by
  unfold Scenario.addInterface at h
  obtain ⟨r, hr, h'⟩ := bind_eq_ok.mp h
  obtain ⟨i, hi, h''⟩ := bind_eq_ok.mp h'
  cases h''
  unfold Iface.new at hr
  obtain ⟨a, ha, rfl⟩ := map_eq_ok.mp hr
  obtain ⟨h1, h2, h3⟩ := assignAll_num hi
  exact ⟨i, rfl, h2, h1, by rw [h3]; exact ha⟩

theorem set_new {ν : Type} {d : Dict (List Char) ν} {k : List Char} {v : ν} (h : k ∉ d.keys) :
    d.set k v = d ++ [(k, v)] := by
  induction d with
  | nil => rfl
  | cons x d ih =>
    obtain ⟨a, b⟩ := x
    simp only [Dict.keys, List.map_cons, List.mem_cons, not_or] at h
    simp only [Dict.set, if_neg (Ne.symm h.1), ih h.2, List.cons_append]

theorem addAll_spec {s t : Scenario} {l : List (List Char × EthArg × List IPIfArg)} (h : addAll s l = .ok t)
    (hn : (s.ifaces.keys ++ l.map (·.1)).Nodup) :
    ∃ r, t.ifaces = s.ifaces ++ r ∧ r.map (·.1) = l.map (·.1) ∧
      ∀ (k : Nat) (x : List Char × Iface), r[k]? = some x → x.2.name = x.1 ∧ x.2.ifnum = (s.ifaces.length : Int) + k := by
  induction l generalizing s with
  | nil => cases h; exact ⟨[], by simp, rfl, by simp⟩
  | cons x l ih =>
    simp only [addAll] at h
    obtain ⟨s1, h1, h2⟩ := bind_eq_ok.mp h
    obtain ⟨i, rfl, hi1, hi2, _⟩ := scenarioIface_spec h1
    have hx : x.1 ∉ s.ifaces.keys := by
      intro hh
      rw [List.nodup_append] at hn
      exact hn.2.2 _ hh _ (by simp) rfl
    have hset : s.ifaces.set x.1 i = s.ifaces ++ [(x.1, i)] := set_new hx
    obtain ⟨r, g1, g2, g3⟩ := ih h2 (by
      simp only [hset, Dict.keys, List.map_append, List.map_cons, List.map_nil]
      simpa [Dict.keys] using hn)
    refine ⟨(x.1, i) :: r, by simp [g1, hset], by simp [g2], ?_⟩
    intro k y hy
    cases k with
    | zero =>
      simp only [List.getElem?_cons_zero, Option.some.injEq] at hy
      subst hy
      exact ⟨hi1, by simpa using hi2⟩
    | succ k =>
      simp only [List.getElem?_cons_succ] at hy
      obtain ⟨k1, k2⟩ := g3 k y hy
      refine ⟨k1, ?_⟩
      rw [k2]
      simp only [hset, List.length_append, List.length_singleton]
      omega

/-- Interfaces with different names added without explicit numbers are numbered from 0 in the order in
which they are added, and sending on a number sends on the interface with that number. -/
theorem scenario_numbers_partial (l : List (List Char × EthArg × List IPIfArg)) (t : Scenario) (h : addAll {} l = .ok t)
    (hn : (l.map (·.1)).Nodup) (k : Nat) (x : List Char × EthArg × List IPIfArg) (hk : l[k]? = some x) :
    (∃ i, t.ifaces.get? x.1 = some i ∧ i.name = x.1 ∧ i.ifnum = k) ∧
      TestNet.port { scen := t } (.num k) = .ok x.1 := by
  obtain ⟨r, h1, h2, h3⟩ := addAll_spec h (by simpa [Dict.keys] using hn)
  simp only [List.nil_append] at h1
  have hlen : r.length = l.length := by
    have := congrArg List.length h2; simpa using this
  have hkl : k < l.length := by
    rcases Nat.lt_or_ge k l.length with h | h
    · exact h
    · rw [List.getElem?_eq_none h] at hk; cases hk
  obtain ⟨y, hy⟩ : ∃ y, r[k]? = some y := ⟨_, List.getElem?_eq_getElem (by omega)⟩
  have hyx : y.1 = x.1 := by
    have := congrArg (fun z => z[k]?) h2
    simp only [List.getElem?_map, hy, hk, Option.map_some, Option.some.injEq] at this
    exact this
  obtain ⟨g1, g2⟩ := h3 k y hy
  simp only [List.length_nil] at g2
  have hu : t.ifaces.Uniq := by
    rw [h1]; simp only [Dict.Uniq, Dict.keys]; rw [show Prod.fst = (fun x : List Char × Iface => x.1) from rfl, h2]; exact hn
  have hmem : (x.1, y.2) ∈ t.ifaces := by
    rw [h1, ← hyx]; exact List.mem_of_getElem? hy
  refine ⟨⟨y.2, Dict.get?_of_mem hu hmem, by rw [g1, hyx], by rw [g2]; simp⟩, ?_⟩
  have hf : t.ifaces.find? (fun z => z.2.ifnum = (k : Int)) = some y := by
    rw [h1, List.find?_eq_some_iff_getElem]
    refine ⟨by rw [g2]; simp, k, by omega, ?_, ?_⟩
    · exact Option.some.inj ((List.getElem?_eq_getElem (by omega)).symm.trans hy)
    · intro j hj
      have := (h3 j r[j] (List.getElem?_eq_getElem (by omega))).2
      simp only [List.length_nil] at this
      simp only [this, Bool.not_eq_true', decide_eq_false_iff_not]
      omega
  simp only [TestNet.port, hf, hyx]

/-- If an interface is added again, the next one gets its number: sending on the number reaches only
one of the two. -/
theorem scenario_numbers_violated : ∃ t i j,
    addAll {} [("a".toList, .none, []), ("b".toList, .none, []), ("a".toList, .none, []), ("c".toList, .none, [])] =
      .ok t ∧ t.ifaces.get? "a".toList = some i ∧ t.ifaces.get? "c".toList = some j ∧ i.ifnum = j.ifnum ∧
      TestNet.port { scen := t } (.num j.ifnum) = .ok "a".toList := by
  have h : ∃ t, addAll {} [("a".toList, .none, []), ("b".toList, .none, []), ("a".toList, .none, []),
      ("c".toList, .none, [])] = .ok t ∧
      decide (t.ifaces.get? "a".toList = some ⟨"a".toList, ⟨[0, 0, 0, 0, 0, 0]⟩, [], 2, .unknown⟩ ∧
        t.ifaces.get? "c".toList = some ⟨"c".toList, ⟨[0, 0, 0, 0, 0, 0]⟩, [], 2, .unknown⟩ ∧
        TestNet.port { scen := t } (.num 2) = .ok "a".toList) = true :=
    Except.of_test (by decide +kernel)
  obtain ⟨t, h1, h2⟩ := h
  obtain ⟨h3, h4, h5⟩ := of_decide_eq_true h2
  exact ⟨t, _, _, h1, h3, h4, rfl, h5⟩

/-! ## Details of the above -/

/-- **C50**: asking a scenario for its next expectation gives the first that is not completed; a
finished scenario raises a test failure. -/
theorem scenario_next (s : Scenario) :
    (s.done = true ↔ s.next = .error .testFailure) ∧ ∀ x, s.failedTest = some x → s.next = .ok x.event := by
  unfold Scenario.done Scenario.next Scenario.failedTest
  cases s.pending with
  | nil => simp
  | cons y ys => simp

/-- **C50**: the program receives, from an input expectation on an interface of the scenario, the packet
of the expectation as parsed from its bytes, with the name of the interface and the time of the network;
on any other interface the test fails. -/
theorem scenario_delivers (n : TestNet) (x : Entry) (xs : List Entry) (dev : List Char) (p p' q : Packet) (f : Option Cls)
    (b : Bytes) (hp : n.scen.pending = x :: xs) (hx : x.event = .input dev p f []) (hb : p.toBytes = (p', .ok b))
    (hq : Packet.parse b f = .ok q) :
    (dev ∈ n.scen.ifaces.keys → n.recv.2 = .ok ⟨n.ts, dev, q⟩) ∧
      (dev ∉ n.scen.ifaces.keys → n.recv.2 = .error .testFailure) := by
  obtain ⟨h1, h2, h3⟩ := testpass_lists hp
  constructor <;> intro hd <;>
    simp [TestNet.recv, Scenario.next, hp, hx, Event.matchInput, Event.generate, h3, hb, hq, deliverOn, applyCopies, hd]

/-- **C50**, partial: if the packet of the expectation is a stack of storable headers, the packet received
equals it and has the same bytes. -/
theorem scenario_delivers_same_partial (n : TestNet) (x : Entry) (xs : List Entry) (dev : List Char) (h : Hdr)
    (rest p' : Packet) (b : Bytes) (hp : n.scen.pending = x :: xs) (hx : x.event = .mkInput dev (.hdr h :: rest))
    (hs : Stack h.cls (.hdr h :: rest)) (hb : Packet.toBytes (.hdr h :: rest) = (p', .ok b))
    (hd : dev ∈ n.scen.ifaces.keys) :
    ∃ q, n.recv.2 = .ok ⟨n.ts, dev, q⟩ ∧ q.eq (.hdr h :: rest) = .ok true ∧ q.toBytes.2 = .ok b := by
  obtain ⟨q, h1, _, h3, h4⟩ := packet_roundtrip_partial h.cls _ p' b hs hb
  exact ⟨q, (scenario_delivers n x xs dev _ p' q (some h.cls) b hp hx hb h1).1 hd, h3, h4⟩

/-- **C52**: an input expectation made by the constructor can be saved if its packet round-trips. -/
theorem input_savable (dev : List Char) (h : Hdr) (rest p' : Packet) (b : Bytes)
    (hs : Stack h.cls (.hdr h :: rest)) (hb : Packet.toBytes (.hdr h :: rest) = (p', .ok b)) :
    Savable (.mkInput dev (.hdr h :: rest)) := ⟨h.cls, p', b, rfl, hs, hb⟩

/-- A case of the last four: the UDP packet of C39. -/
example : Stack .eth exPacket ∧ ∃ p' b, exPacket.toBytes = (p', .ok b) := by
  obtain ⟨p', b, hb, _⟩ := exPacket_ok
  refine ⟨⟨rfl, ⟨by decide, by decide⟩, rfl, ⟨by decide, rfl⟩, rfl, by show UDP.WF _; decide, .inr ⟨?_, 104, [105], rfl⟩⟩,
    p', b, hb⟩
  intro h; rcases h with h | h | h <;> cases h

end SY.Props
