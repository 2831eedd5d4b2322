import Verif.Serve
import Verif.Props.Scenario
import Verif.Props.Live
import Verif.Props.Ethernet

/-! # C197 (programs under test), C198 (the hubs and the hub tests) -/

namespace SY.Props

open SY

/-! ## C197: what a program that reacts to packets must do to pass -/

/-- A reactive program, seen from outside: what it sends, and on which ports, when a packet arrives; or the
exception that escapes from it. -/
abbrev Reaction (σ : Type) := σ → List Char → Packet → Res (σ × List (List Char × Packet))

/-- The handler makes the sends of the reaction one after the other, and goes on if none of them raises. -/
def makeSends : List (List Char × Packet) → TestNet → TestNet × Res Unit
  | [], n => (n, .ok ())
  | x :: l, n =>
    match n.send (.name x.1) x.2 with
    | (n', _, some e) => (n', .error e)
    | (n', _, none) => makeSends l n'

/-- The program with this reaction. -/
def reactive {σ : Type} (P : Reaction σ) : Handler σ := fun st dev p n =>
  match P st dev p with
  | .error e => (n, .error e)
  | .ok (st', outs) => ((makeSends outs n).1, (makeSends outs n).2 >>= fun _ => .ok st')

/-- The packet that an input expectation delivers. -/
def arrives (p : Packet) (f : Option Cls) : Option Packet :=
  match p.toBytes with
  | (_, .ok b) => (Packet.parse b f).toOption
  | _ => none

/-- The calls that the program makes if it is given the packets of the expectations one after the other, up to
the point where an exception escapes from it. -/
def calls {σ : Type} (P : Reaction σ) : σ → List Event → List Act × Option PyErr
  | _, [] => ([], none)
  | st, .timeout _ :: es => (.recv :: (calls P st es).1, (calls P st es).2)
  | st, .output _ _ :: es => calls P st es
  | st, .input dev p f _ :: es =>
    match arrives p f with
    | none => ([.recv], none)
    | some q =>
      match P st dev q with
      | .error e => ([.recv], some e)
      | .ok (st', outs) =>
        (.recv :: (outs.map (fun x => Act.send x.1 x.2) ++ (calls P st' es).1), (calls P st' es).2)

/-- The handler does what the reaction says, for the packets that the expectations deliver. -/
def Does {σ : Type} (h : Handler σ) (P : Reaction σ) (es : List Event) : Prop :=
  ∀ dev p f cs q, Event.input dev p f cs ∈ es → arrives p f = some q →
    ∀ st n, h st dev q n = reactive P st dev q n

theorem does_self {σ : Type} (P : Reaction σ) (es : List Event) : Does (reactive P) P es :=
  fun _ _ _ _ _ _ _ _ _ => rfl

/-- The events of the expectations that are left. -/
def eventsOf (n : TestNet) : List Event := n.scen.pending.map (·.event)

theorem recv_timeout {n : TestNet} {t : Int} {es : List Event} (h : eventsOf n = .timeout t :: es) :
    ∃ n', n.recv = (n', .error .noPackets) ∧ eventsOf n' = es ∧ n'.scen.ifaces = n.scen.ifaces := by
  unfold eventsOf at h
  obtain ⟨x, xs, hp, hx, hxs⟩ := List.map_eq_cons_iff.mp h
  obtain ⟨h1, h2, h3⟩ := testpass_lists hp
  refine ⟨{ n with scen := { n.scen.testpass.1 with completed := setLast n.scen.testpass.1.completed (.timeout t) } },
    ?_, ?_, h3⟩
  · simp only [TestNet.recv, Scenario.next, hp, hx, Event.matchInput, Event.generate]
  · simp only [eventsOf, h1, hxs]

theorem recv_packet {n : TestNet} {dev : List Char} {p : Packet} {f : Option Cls} {cs : List Copy} {es : List Event}
    (h : eventsOf n = .input dev p f cs :: es) (hu : Usable n.scen.ifaces (.input dev p f cs)) :
    ∃ n' r q, n.recv = (n', .ok r) ∧ r.dev = dev ∧ r.pkt = q ∧ arrives p f = some q ∧ eventsOf n' = es ∧
      n'.scen.ifaces = n.scen.ifaces := by
  unfold eventsOf at h
  obtain ⟨x, xs, hp, hx, hxs⟩ := List.map_eq_cons_iff.mp h
  obtain ⟨h1, h2, h3⟩ := testpass_lists hp
  obtain ⟨rfl, hd, p', b, q, hb, hq⟩ := hu
  refine ⟨{ n with scen := { n.scen.testpass.1 with completed := setLast n.scen.testpass.1.completed (.input dev q f []) } },
    ⟨n.ts, dev, q⟩, q, ?_, rfl, rfl, ?_, ?_, h3⟩
  · simp only [TestNet.recv, Scenario.next, hp, hx, Event.matchInput, Event.generate, hb, hq, deliverOn, h3, hd, if_true,
      applyCopies]
  · simp only [arrives, hb, hq, Except.toOption]
  · simp only [eventsOf, h1, hxs]

theorem recv_output {n : TestNet} {w : Dict (List Char) Matcher} {s : Dict (List Char) Sent} {es : List Event}
    (h : eventsOf n = .output w s :: es) : n.recv = (n, .error .testFailure) := by
  unfold eventsOf at h
  obtain ⟨x, xs, hp, hx, hxs⟩ := List.map_eq_cons_iff.mp h
  simp only [TestNet.recv, Scenario.next, hp, hx, Event.matchInput]

theorem recv_done {n : TestNet} (h : eventsOf n = []) : n.recv = (n, .error .shutdown) := by
  have hp : n.scen.pending = [] := by simpa [eventsOf] using h
  simp only [TestNet.recv, Scenario.next, hp]

/-- The network after the first pending event has been changed. -/
def swapEvent (n : TestNet) (e : Event) : TestNet :=
  { n with scen := { n.scen with pending := setFirst n.scen.pending e } }

/-- One send either makes progress on the output expectation that is next, or the calls do not meet the
expectations. -/
theorem send_step (n : TestNet) (d : List Char) (p : Packet) (hu : ∀ e ∈ eventsOf n, Usable n.scen.ifaces e) :
    ((n.send (.name d) p).2.2 = none ∧ (n.send (.name d) p).1.scen.ifaces = n.scen.ifaces ∧
      (eventsOf (n.send (.name d) p).1).length ≤ (eventsOf n).length ∧
      (∀ as, Meets (eventsOf n) (.send d p :: as) ↔ Meets (eventsOf (n.send (.name d) p).1) as) ∧
      (∀ e ∈ eventsOf (n.send (.name d) p).1, Usable n.scen.ifaces e) ∧
      (∀ as, NoShutdown (eventsOf n) as → NoShutdown (eventsOf (n.send (.name d) p).1) as) ∧
      (∀ (σ : Type) (P : Reaction σ) (st : σ), calls P st (eventsOf (n.send (.name d) p).1) = calls P st (eventsOf n)) ∧
      (∀ dev q f cs, Event.input dev q f cs ∈ eventsOf (n.send (.name d) p).1 → Event.input dev q f cs ∈ eventsOf n)) ∨
    (∃ e, (n.send (.name d) p).2.2 = some e ∧ (NoShutdown (eventsOf n) [.send d p] → e ≠ .shutdown) ∧
      ∀ as, ¬ Meets (eventsOf n) (.send d p :: as)) := by
  have hc : n.scen.pending = [] ∨ ∃ x xs, n.scen.pending = x :: xs := by
    cases n.scen.pending <;> simp
  rcases hc with hp | ⟨x, xs, hp⟩
  · refine .inr ⟨.testFailure, by simp [TestNet.send, Scenario.done, hp], by simp, fun as h => ?_⟩
    simp only [eventsOf, hp, List.map_nil] at h
    cases h
  · have hE : eventsOf n = x.event :: xs.map (·.event) := by simp [eventsOf, hp]
    rw [hE] at hu ⊢
    rcases hx : x.event with t | ⟨dev, q, f, cs⟩ | ⟨w, s⟩
    · refine .inr ⟨.testFailure, by simp [TestNet.send, Scenario.done, hp, TestNet.port, TestNet.sendOn, Scenario.next,
        hx, Event.matchOutput, TestNet.afterMatch], by simp, fun as h => ?_⟩
      cases h
    · refine .inr ⟨.testFailure, by simp [TestNet.send, Scenario.done, hp, TestNet.port, TestNet.sendOn, Scenario.next,
        hx, Event.matchOutput, TestNet.afterMatch], by simp, fun as h => ?_⟩
      cases h
    · rw [hx] at hu
      have hu0 := hu (.output w s) (by simp)
      cases hm : w.get? d with
      | none =>
        refine .inr ⟨.testFailure, by simp [TestNet.send, Scenario.done, hp, TestNet.port, TestNet.sendOn, Scenario.next,
          hx, Event.matchOutput, TestNet.afterMatch, hm], by simp, fun as h => ?_⟩
        obtain ⟨d', p', k', m', h1, h2⟩ := meets_output_ne hu0.1 h
        cases h1
        rw [hm] at h2; cases h2
      | some m =>
        have hmem : (d, m) ∈ w := (Dict.mem_of_get? hm)
        have hsend : n.send (.name d) p = (
            (TestNet.afterMatch (swapEvent n ((Event.output w s).matchOutput d p).1) ((Event.output w s).matchOutput d p).2.2).1,
            ((Event.output w s).matchOutput d p).2.1,
            (TestNet.afterMatch (swapEvent n ((Event.output w s).matchOutput d p).1) ((Event.output w s).matchOutput d p).2.2).2) := by
          simp only [TestNet.send, Scenario.done, hp, List.isEmpty_cons, Bool.false_eq_true, if_false, TestNet.port,
            TestNet.sendOn, Scenario.next, hx, swapEvent]
        rcases hr : m.matchPkt p with ⟨m', p', r⟩
        rcases r with e | b
        · refine .inr ⟨e, ?_, ?_, fun as h => ?_⟩
          · rw [hsend]; simp [Event.matchOutput, hm, hr, TestNet.afterMatch]
          · intro hs he
            have hns := hs d p (by simp) w s (by simp) _ hmem
            rw [hr] at hns; exact hns (by rw [he])
          · have := ((meets_send hu0.2 hm s s _ p as).mp h).1
            simp [Admits, hr] at this
        · cases b with
          | false =>
            refine .inr ⟨.testFailure, ?_, by simp, fun as h => ?_⟩
            · rw [hsend]; simp [Event.matchOutput, hm, hr, TestNet.afterMatch]
            · have := ((meets_send hu0.2 hm s s _ p as).mp h).1
              simp [Admits, hr] at this
          | true =>
            refine .inl ?_
            have had : Admits m p := by simp [Admits, hr]
            have hmo : (Event.output w s).matchOutput d p = (.output (w.erase d) (s.set d (.pkt p')), p',
                .ok (if w.erase d = [] then .success else .part)) := by
              simp only [Event.matchOutput, hm, hr]
            by_cases hw : w.erase d = []
            · have hev : n.send (.name d) p = (
                  ⟨(swapEvent n (.output (w.erase d) (s.set d (.pkt p')))).scen.testpass.1, n.ts + 1⟩, p', none) := by
                rw [hsend, hmo]
                simp only [hw, if_true, TestNet.afterMatch, swapEvent]
              obtain ⟨t1, t2, t3⟩ := testpass_lists 
                (s := (swapEvent n (.output (w.erase d) (s.set d (.pkt p')))).scen)
                (x := ⟨.output (w.erase d) (s.set d (.pkt p')), x.descr, x.ts⟩) (xs := xs) (by simp [swapEvent, hp, setFirst])
              rw [hev]
              refine ⟨rfl, t3, ?_, ?_, ?_, ?_, ?_, ?_⟩
              · simp only [eventsOf, t1, List.length_map, List.length_cons]; omega
              · intro as
                rw [meets_send hu0.2 hm s s _ p as, if_pos hw]
                simp only [eventsOf, t1, had, true_and]
              · intro e he
                simp only [eventsOf, t1] at he
                exact hu e (by simp only [List.mem_cons]; exact .inr he)
              · intro as h
                simp only [eventsOf, t1]
                exact noShutdown_next h
              · intro σ P st
                simp only [eventsOf, t1, calls]
              · intro dev q f cs he
                simp only [eventsOf, t1] at he
                simp only [List.mem_cons]; exact .inr he
            · have hev : n.send (.name d) p = 
                  (⟨(swapEvent n (.output (w.erase d) (s.set d (.pkt p')))).scen, n.ts + 1⟩, p', none) := by
                rw [hsend, hmo]
                simp only [hw, if_false, TestNet.afterMatch, swapEvent]
              rw [hev]
              simp only [eventsOf, swapEvent, hp, setFirst, List.map_cons]
              refine ⟨trivial, trivial, by simp, ?_, ?_, ?_, ?_, ?_⟩
              · intro as
                rw [meets_send hu0.2 hm s (s.set d (.pkt p')) _ p as, if_neg hw]
                simp only [had, true_and]
              · intro e he
                rcases List.mem_cons.mp he with rfl | he
                · exact usable_erase hu0 hw
                · exact hu e (by simp only [List.mem_cons]; exact .inr he)
              · intro as h
                exact noShutdown_erase h
              · intro σ P st
                simp only [calls]
              · intro dev q f cs he
                rcases List.mem_cons.mp he with he | he
                · cases he
                · exact List.mem_cons_of_mem _ he

theorem sends_step (l : List (List Char × Packet)) (n : TestNet) (hu : ∀ e ∈ eventsOf n, Usable n.scen.ifaces e) :
    ((makeSends l n).2 = .ok () ∧ (makeSends l n).1.scen.ifaces = n.scen.ifaces ∧
      (eventsOf (makeSends l n).1).length ≤ (eventsOf n).length ∧
      (∀ as, Meets (eventsOf n) (l.map (fun x => Act.send x.1 x.2) ++ as) ↔ Meets (eventsOf (makeSends l n).1) as) ∧
      (∀ e ∈ eventsOf (makeSends l n).1, Usable n.scen.ifaces e) ∧
      (∀ as, NoShutdown (eventsOf n) as → NoShutdown (eventsOf (makeSends l n).1) as) ∧
      (∀ (σ : Type) (P : Reaction σ) (st : σ), calls P st (eventsOf (makeSends l n).1) = calls P st (eventsOf n)) ∧
      (∀ dev q f cs, Event.input dev q f cs ∈ eventsOf (makeSends l n).1 → Event.input dev q f cs ∈ eventsOf n)) ∨
    (∃ e, (makeSends l n).2 = .error e ∧
      (NoShutdown (eventsOf n) (l.map fun x => Act.send x.1 x.2) → e ≠ .shutdown) ∧
      ∀ as, ¬ Meets (eventsOf n) (l.map (fun x => Act.send x.1 x.2) ++ as)) := by
  induction l generalizing n with
  | nil => exact .inl ⟨rfl, rfl, Nat.le_refl _, fun as => Iff.rfl, hu, fun as h => h, fun _ _ _ => rfl, fun _ _ _ _ h => h⟩
  | cons x l ih =>
    obtain ⟨d, p⟩ := x
    have h0 := send_step n d p hu
    rcases hr : n.send (.name d) p with ⟨n1, p1, r1⟩
    rw [hr] at h0
    rcases h0 with ⟨a1, a2, a3, a4, a5, a6, a7, a8⟩ | ⟨e, e1, e2, e3⟩
    · dsimp only at a1 a2 a3 a4 a5 a6 a7 a8
      subst a1
      have hms : makeSends ((d, p) :: l) n = makeSends l n1 := by simp only [makeSends, hr]
      rw [hms]
      rw [← a2] at a5
      rcases ih n1 a5 with ⟨b1, b2, b3, b4, b5, b6, b7, b8⟩ | ⟨e, e1, e2, e3⟩
      · refine .inl ⟨b1, b2.trans a2, Nat.le_trans b3 a3, fun as => ?_, ?_, fun as h => b6 as (a6 as h), ?_, ?_⟩
        · rw [List.map_cons, List.cons_append, a4, b4]
        · rw [← a2]; exact b5
        · intro σ P st; rw [b7, a7]
        · intro dev q f cs h; exact a8 _ _ _ _ (b8 _ _ _ _ h)
      · refine .inr ⟨e, e1, fun hs => e2 (a6 _ (noShutdown_tail hs)), fun as => ?_⟩
        rw [List.map_cons, List.cons_append, a4]
        exact e3 as
    · dsimp only at e1
      subst e1
      exact .inr ⟨e, by simp only [makeSends, hr],
        fun hs => e2 (fun d' p' hm => hs d' p' (by simp only [List.mem_singleton] at hm; simp [hm])), fun as => e3 _⟩

theorem calls_first {σ : Type} (P : Reaction σ) (st : σ) (es : List Event) :
    (calls P st es).1 = [] ∨ ∃ as, (calls P st es).1 = .recv :: as := by
  induction es generalizing st with
  | nil => exact .inl rfl
  | cons e es ih =>
    cases e with
    | timeout t => exact .inr ⟨_, rfl⟩
    | output w s => exact ih st
    | input dev p f cs =>
      simp only [calls]
      split
      · exact .inr ⟨_, rfl⟩
      · split <;> exact .inr ⟨_, rfl⟩

theorem noShutdown_append {es : List Event} {as bs : List Act} :
    NoShutdown es (as ++ bs) ↔ NoShutdown es as ∧ NoShutdown es bs := by
  constructor
  · intro h
    exact ⟨fun d p hm => h d p (by simp [hm]), fun d p hm => h d p (by simp [hm])⟩
  · rintro ⟨h1, h2⟩ d p hm
    rcases List.mem_append.mp hm with hm | hm
    · exact h1 d p hm
    · exact h2 d p hm

theorem serve_reports {σ : Type} (h : Handler σ) (P : Reaction σ) (k : Nat) (st : σ) (n : TestNet)
    (hk : (eventsOf n).length < k) (hd : Does h P (eventsOf n))
    (hu : ∀ e ∈ eventsOf n, Usable n.scen.ifaces e) :
    ((calls P st (eventsOf n)).2 = none → Meets (eventsOf n) (calls P st (eventsOf n)).1 →
      verdict (serve h k st n).1.scen (serve h k st n).2 = .allPassed) ∧
    (NoShutdown (eventsOf n) (calls P st (eventsOf n)).1 → (calls P st (eventsOf n)).2 ≠ some .shutdown →
      verdict (serve h k st n).1.scen (serve h k st n).2 = .allPassed →
      (calls P st (eventsOf n)).2 = none ∧ Meets (eventsOf n) (calls P st (eventsOf n)).1) ∧
    ∀ k', k ≤ k' → serve h k' st n = serve h k st n := by
  induction k generalizing st n with
  | zero => omega
  | succ k ih =>
    have hk0 : ∀ k', k + 1 ≤ k' → ∃ k2, k' = k2 + 1 ∧ k ≤ k2 := fun k' hk' => ⟨k' - 1, by omega, by omega⟩
    rcases hE : eventsOf n with _ | ⟨e, es⟩
    · have hp : n.scen.pending = [] := by simpa [eventsOf] using hE
      simp only [serve, recv_done hE, verdict, Scenario.failedTest, hp, calls]
      refine ⟨by simp, by simp [Meets.done], fun k' hk' => ?_⟩
      obtain ⟨k2, rfl, _⟩ := hk0 k' hk'
      simp only [serve, recv_done hE]
    · rw [hE] at hk hd hu
      have hue := hu e (by simp)
      have hut : ∀ e ∈ es, Usable n.scen.ifaces e := fun e he => hu e (by simp [he])
      have hdt : Does h P es := fun dev p f cs q hm => hd dev p f cs q (by simp [hm])
      simp only [List.length_cons] at hk
      rcases e with t | ⟨dev, p, f, cs⟩ | ⟨w, s⟩
      · obtain ⟨n', h1, h2, h3⟩ := recv_timeout hE
        have hi := ih st n' (by rw [h2]; omega) (by rw [h2]; exact hdt) (by rw [h2, h3]; exact hut)
        rw [h2] at hi
        simp only [serve, h1, calls]
        refine ⟨fun g1 g2 => ?_, fun hs hx hv => ?_, fun k' hk' => ?_⟩
        · cases g2 with | timeout _ _ _ g => exact hi.1 g1 g
        · obtain ⟨g1, g2⟩ := hi.2.1 (noShutdown_next (noShutdown_tail hs)) hx hv
          exact ⟨g1, .timeout t _ _ g2⟩
        · obtain ⟨k2, rfl, hk2⟩ := hk0 k' hk'
          simp only [serve, h1]; exact hi.2.2 _ hk2
      · obtain ⟨n', r, q, h1, rfl, rfl, h4, h5, h6⟩ := recv_packet hE hue
        have hdo := hd r.dev p f cs r.pkt (by simp) h4 st n'
        simp only [serve, h1, hdo, reactive, calls, h4]
        rcases hP : P st r.dev r.pkt with e | ⟨st', outs⟩
        · refine ⟨fun g _ => (nomatch g), fun _ hx hv => absurd hv (verdict_error fun he => hx (by rw [he])), fun k' hk' => ?_⟩
          obtain ⟨k2, rfl, hk2⟩ := hk0 k' hk'
          simp only [serve, h1, hdo, reactive, hP]
        · rw [← h5, ← h6] at hut
          rw [← h5] at hdt
          have hrec : ∀ (as : List Act), Meets (.input r.dev p f cs :: es) (.recv :: as) ↔ Meets es as := by
            intro as
            constructor
            · intro g; cases g with | input _ _ _ _ _ _ g => exact g
            · intro g; exact .input _ _ _ _ _ _ g
          rcases sends_step outs n' hut with ⟨b1, b2, b3, b4, b5, b6, b7, b8⟩ | ⟨e, e1, e2, e3⟩
          · have hi := ih st' (makeSends outs n').1 (by rw [h5] at b3; omega)
              (fun dev p f cs q hm => hdt dev p f cs q (b8 _ _ _ _ hm)) (by rw [b2]; exact b5)
            rw [b7, h5] at hi
            simp only [b1, bind_ok, hrec]
            simp only [← b4, h5] at hi
            rw [h5] at b6
            refine ⟨hi.1, fun hs hx hv => ?_, fun k' hk' => ?_⟩
            · exact hi.2.1 (b6 _ (noShutdown_append.mp (noShutdown_next (noShutdown_tail hs))).2) hx hv
            · obtain ⟨k2, rfl, hk2⟩ := hk0 k' hk'
              simp only [serve, h1, hdo, reactive, hP, b1, bind_ok]; exact hi.2.2 _ hk2
          · simp only [e1, bind_error, hrec]
            rw [h5] at e2 e3
            refine ⟨fun _ g => absurd g (e3 _), fun hs hx hv => ?_, fun k' hk' => ?_⟩
            · exact absurd hv (verdict_error (e2 (noShutdown_append.mp (noShutdown_next (noShutdown_tail hs))).1))
            · obtain ⟨k2, rfl, hk2⟩ := hk0 k' hk'
              simp only [serve, h1, hdo, reactive, hP, e1, bind_error]
      · simp only [serve, recv_output hE]
        refine ⟨fun _ g => ?_, fun _ _ hv => absurd hv (verdict_error (by simp)), fun k' hk' => ?_⟩
        · obtain ⟨d', p', k', m', g1, -⟩ := meets_output_ne hue.1 g
          rcases calls_first P st es with g2 | ⟨as, g2⟩ <;> simp only [calls, g2] at g1 <;> cases g1
        · obtain ⟨k2, rfl, hk2⟩ := hk0 k' hk'
          simp only [serve, recv_output hE]

/-- **C197**: a program that reacts to packets passes a test exactly if no exception escapes from it and its calls
are what the expectations ask for: every packet expected to arrive is received, and what the program sends in
answer to it is what is expected to be sent before the next packet arrives, each packet accepted on its port. -/
theorem program_reports {σ : Type} (h : Handler σ) (P : Reaction σ) (st : σ) (n : TestNet)
    (hd : Does h P (eventsOf n)) (hu : ∀ e ∈ eventsOf n, Usable n.scen.ifaces e)
    (hs : NoShutdown (eventsOf n) (calls P st (eventsOf n)).1) (hx : (calls P st (eventsOf n)).2 ≠ some .shutdown) :
    testProgram h st n = .allPassed ↔
      (calls P st (eventsOf n)).2 = none ∧ Meets (eventsOf n) (calls P st (eventsOf n)).1 := by
  have h0 := serve_reports h P (n.scen.pending.length + 1) st n (by simp [eventsOf]) hd hu
  exact ⟨h0.2.1 hs hx, fun g => h0.1 g.1 g.2⟩

/-- **C197**: a program whose calls meet the expectations passes, whatever the matchers do with other packets. -/
theorem program_passes {σ : Type} (h : Handler σ) (P : Reaction σ) (st : σ) (n : TestNet)
    (hd : Does h P (eventsOf n)) (hu : ∀ e ∈ eventsOf n, Usable n.scen.ifaces e)
    (hx : (calls P st (eventsOf n)).2 = none) (hm : Meets (eventsOf n) (calls P st (eventsOf n)).1) :
    testProgram h st n = .allPassed :=
  (serve_reports h P (n.scen.pending.length + 1) st n (by simp [eventsOf]) hd hu).1 hx hm

/-- **C197**: the test ends: the program's loop makes at most one round more than there are expectations. -/
theorem serve_ends {σ : Type} (h : Handler σ) (P : Reaction σ) (st : σ) (n : TestNet)
    (hd : Does h P (eventsOf n)) (hu : ∀ e ∈ eventsOf n, Usable n.scen.ifaces e) (k : Nat)
    (hk : n.scen.pending.length + 1 ≤ k) : serve h k st n = serve h (n.scen.pending.length + 1) st n :=
  (serve_reports h P (n.scen.pending.length + 1) st n (by simp [eventsOf]) hd hu).2.2 k hk

/-! ## C198: the hubs and the hub tests -/

theorem match_done (m : Matcher) {p p' : Packet} {b : Bytes} (h : p.toBytes = (p', .ok b)) :
    m.matchPkt p = m.matchPkt p' ∧ (m.matchPkt p).2.1 = p' := by
  have h' := packet_idempotent p p' b h
  unfold Matcher.matchPkt
  rw [h, h']
  refine ⟨rfl, ?_⟩
  dsimp only
  split <;> rfl

/-- Sending a packet whose computed fields are already complete has the same effect. -/
theorem send_done (n : TestNet) (d : List Char) {p p' : Packet} {b : Bytes} (h : p.toBytes = (p', .ok b)) :
    (n.send (.name d) p).1 = (n.send (.name d) p').1 ∧ (n.send (.name d) p).2.2 = (n.send (.name d) p').2.2 ∧
      ((n.send (.name d) p).2.2 = none → (n.send (.name d) p).2.1 = p' ∧ (n.send (.name d) p').2.1 = p') := by
  simp only [TestNet.send]
  split
  · exact ⟨rfl, rfl, fun h => nomatch h⟩
  · simp only [TestNet.port, TestNet.sendOn]
    cases hn : n.scen.next with
    | error x => exact ⟨rfl, rfl, fun h => nomatch h⟩
    | ok ev =>
      cases ev with
      | timeout t => exact ⟨rfl, rfl, fun h => nomatch h⟩
      | input dev q f cs => exact ⟨rfl, rfl, fun h => nomatch h⟩
      | output w s =>
        simp only [Event.matchOutput]
        cases hm : w.get? d with
        | none => exact ⟨rfl, rfl, fun h => nomatch h⟩
        | some m =>
          obtain ⟨e1, e2⟩ := match_done m h
          have e3 : (m.matchPkt p').2.1 = p' := by rw [← e1]; exact e2
          dsimp only
          rw [e1]
          refine ⟨rfl, rfl, fun _ => ?_⟩
          rcases hr : m.matchPkt p' with ⟨m', p2, r⟩
          rw [hr] at e3
          dsimp only at e3
          subst e3
          cases r with
          | error x => exact ⟨rfl, rfl⟩
          | ok b => cases b <;> exact ⟨rfl, rfl⟩

/-- Sending one packet object to several ports is sending that packet to each of them. -/
theorem flood_sends (ds : List (List Char)) {p p' : Packet} {b : Bytes} (h : p.toBytes = (p', .ok b)) (n : TestNet) :
    floodTest ds p n = makeSends (ds.map fun d => (d, p)) n ∧ floodTest ds p' n = makeSends (ds.map fun d => (d, p)) n := by
  induction ds generalizing n with
  | nil => exact ⟨rfl, rfl⟩
  | cons d ds ih =>
    obtain ⟨s1, s2, s3⟩ := send_done n d h
    simp only [floodTest, makeSends, List.map_cons]
    rcases hr : n.send (.name d) p with ⟨n1, p1, r1⟩
    rcases hr' : n.send (.name d) p' with ⟨n2, p2, r2⟩
    rw [hr, hr'] at s1 s2 s3
    dsimp only at s1 s2 s3
    subst s1 s2
    cases r1 with
    | some e => exact ⟨rfl, rfl⟩
    | none =>
      obtain ⟨rfl, rfl⟩ := s3 rfl
      exact ⟨(ih n1).2, (ih n1).2⟩

/-- The ports on which a hub with these interfaces sends a packet received on the device: all others, unless the
packet is not an Ethernet packet or is addressed to the hub. -/
def floodPorts (ifs : List Iface) (dev : List Char) (p : Packet) : List (List Char) :=
  match ethDst p with
  | none => []
  | some a => if ∃ i ∈ ifs, i.ethaddr = a then [] else (ifs.map Iface.name).filter fun d => decide (d ≠ dev)

/-- What a hub does. -/
def hubReaction (ifs : List Iface) : Reaction Unit := fun _ dev p =>
  .ok ((), (floodPorts ifs dev p).map fun d => (d, p))

theorem targets_ports (ifs : List Iface) (dev : List Char) (p : Packet) (hd : ∀ a, ethDst p = some a → a.raw ≠ [])
    (hp : PrintablePkt p) : ∃ is, hubTargets ifs dev p = .ok is ∧ is.map Iface.name = floodPorts ifs dev p := by
  obtain ⟨t, ht⟩ := (packet_str_partial p).1.mpr hp
  rcases getHeader_eth p with ⟨h, h1, h2⟩ | ⟨h1, h2⟩
  · have hne := hd _ h2
    simp only [hubTargets, ht, h1, macIn_spec _ hne, bind_ok, decide_eq_true_eq, h2, floodPorts]
    by_cases hm : h.dst ∈ ifs.map Iface.ethaddr
    · have hm' := List.mem_map.mp hm
      rw [if_pos hm, if_pos hm']
      exact ⟨[], rfl, rfl⟩
    · have hm' : ¬ ∃ i ∈ ifs, i.ethaddr = h.dst := fun h' => hm (List.mem_map.mpr h')
      rw [if_neg hm, if_neg hm']
      refine ⟨_, rfl, ?_⟩
      rw [List.filter_map]
      congr 1
      apply List.filter_congr
      intro i _
      simp only [Function.comp_apply, decide_eq_decide]
      exact ⟨fun h => h.symm, fun h => h.symm⟩
  · refine ⟨[], by simp only [hubTargets, ht, h1, bind_ok], ?_⟩
    simp only [floodPorts, h2, List.map_nil]

/-- The hub does what a hub does with every packet that can be printed and serialised. -/
theorem hub_handler (ifs : List Iface) (dev : List Char) (p p' : Packet) (b : Bytes)
    (hd : ∀ a, ethDst p = some a → a.raw ≠ []) (hp : PrintablePkt p) (hb : p.toBytes = (p', .ok b)) (n : TestNet) :
    hubHandler ifs () dev p n = reactive (hubReaction ifs) () dev p n := by
  obtain ⟨is, h1, h2⟩ := targets_ports ifs dev p hd hp
  simp only [hubHandler, h1, h2, reactive, hubReaction, (flood_sends _ hb n).1]
  rcases makeSends ((floodPorts ifs dev p).map fun d => (d, p)) n with ⟨n', r⟩
  cases r <;> rfl

/-- The expectations of a hub test with these frames (a device and a packet each), as in examples/hubtests.py: each
frame arrives, and then is expected on the other ports, given in any order; or nothing is expected to happen. -/
inductive HubTests (ifs : List Iface) (exact : Bool) (wild : List (Cls × HdrAttr)) :
    List (List Char × Packet) → List Event → Prop
  | nil : HubTests ifs exact wild [] []
  | flood (dev : List Char) (p : Packet) (fs : List (List Char × Packet)) (es : List Event)
      (args : List (List Char × Packet)) (e : Event) :
      args.Perm ((floodPorts ifs dev p).map fun d => (d, p)) → Event.mkOutput args false exact wild [] = .ok e →
      HubTests ifs exact wild fs es → HubTests ifs exact wild ((dev, p) :: fs) (.mkInput dev p :: e :: es)
  | quiet (dev : List Char) (p : Packet) (fs : List (List Char × Packet)) (es : List Event) (t : Int) :
      floodPorts ifs dev p = [] → HubTests ifs exact wild fs es →
      HubTests ifs exact wild ((dev, p) :: fs) (.mkInput dev p :: .timeout t :: es)

/-- The packet is accepted where `p` is expected. -/
def Accepted (exact : Bool) (wild : List (Cls × HdrAttr)) (p x : Packet) : Prop :=
  ∃ p' b r b', x.toBytes = (p', .ok b) ∧ p.toBytes = (r, .ok b') ∧ LooksLike exact wild r p'

/-- The program answers every frame by sending, on each port on which a hub sends it and on no other, one packet
that is accepted as this frame. -/
def Floods (ifs : List Iface) (exact : Bool) (wild : List (Cls × HdrAttr)) {σ : Type} (P : Reaction σ) :
    σ → List (List Char × Packet) → Prop
  | _, [] => True
  | st, (dev, p) :: fs => ∃ q st' outs, arrives p (some .eth) = some q ∧ P st dev q = .ok (st', outs) ∧
      (outs.map Prod.fst).Perm (floodPorts ifs dev p) ∧ (∀ x ∈ outs, Accepted exact wild p x.2) ∧
      Floods ifs exact wild P st' fs

/-- A frame that can be used in a test: it arrives on an interface of the scenario; its headers announce one
another, beginning with an Ethernet header; and it can be serialised. -/
def GoodFrame (ifaces : Dict (List Char) Iface) (f : List Char × Packet) : Prop :=
  f.1 ∈ ifaces.keys ∧ Stack .eth f.2 ∧ ∃ p' b, f.2.toBytes = (p', .ok b)

theorem stack_first {p : Packet} (h : Stack .eth p) : ∃ k rest, p = .hdr (.eth k) :: rest := by
  cases p with
  | nil => cases h
  | cons x rest =>
    cases x with
    | hdr k =>
      obtain ⟨h1, _, _⟩ := h
      cases k with
      | eth k => exact ⟨k, rest, rfl⟩
      | _ => cases h1
    | _ => cases h

theorem frame_arrives {ifaces : Dict (List Char) Iface} {dev : List Char} {p : Packet} (h : GoodFrame ifaces (dev, p)) :
    Event.mkInput dev p = .input dev p (some .eth) [] ∧ Usable ifaces (Event.mkInput dev p) ∧
      ∃ r b q q', p.toBytes = (r, .ok b) ∧ arrives p (some .eth) = some q ∧ q.toBytes = (q', .ok b) ∧
        q.map unsumItem = r.map unsumItem ∧ q'.map unsumItem = r.map unsumItem := by
  obtain ⟨hd, hs, r, b, hb⟩ := h
  dsimp only at hd hs hb
  obtain ⟨k, rest, hk⟩ := stack_first hs
  have he : Event.mkInput dev p = .input dev p (some .eth) [] := by rw [hk]; rfl
  obtain ⟨q, hq1, hq2, _, _⟩ := packet_roundtrip_partial .eth p r b hs hb
  obtain ⟨bs, hf, rfl⟩ := toBytes_inv hb
  have hidem := finish_idem hf
  have hctx : SameCtx p q := by
    have h1 : SameCtx p r := finish_sameCtx hf []
    obtain ⟨i4, i6⟩ := unsum_ctx hq2
    exact h1.trans ⟨by rw [i4], by rw [i6]⟩
  obtain ⟨q', hq', hu⟩ := unsum_finish' hq2 hidem
  rw [finish_ctx hctx] at hq'
  have ht := toBytes_of_finish hq'
  refine ⟨he, ?_, r, _, q, q', hb, ?_, ht, hq2, hu⟩
  · rw [he]; exact ⟨rfl, hd, r, _, q, hb, hq1⟩
  · simp only [arrives, hb, hq1, Except.toOption]

theorem hubtests_first {ifs : List Iface} {exact : Bool} {wild : List (Cls × HdrAttr)} {fs : List (List Char × Packet)}
    {es : List Event} (h : HubTests ifs exact wild fs es) (as : List Act) (hm : Meets es as) :
    as = [] ∨ ∃ as', as = .recv :: as' := by
  cases h with
  | nil => cases hm; exact .inl rfl
  | flood dev p fs es args e _ _ _ =>
    simp only [Event.mkInput] at hm
    cases hm; exact .inr ⟨_, rfl⟩
  | quiet dev p fs es t _ _ =>
    simp only [Event.mkInput] at hm
    cases hm; exact .inr ⟨_, rfl⟩

/-- A list of sends in front of something that does not start with a send can be read in one way only. -/
theorem sends_split {l l' : List (List Char × Packet)} {as as' : List Act}
    (h : l.map (fun x => Act.send x.1 x.2) ++ as = l'.map (fun x => Act.send x.1 x.2) ++ as')
    (ha : as = [] ∨ ∃ r, as = .recv :: r) (ha' : as' = [] ∨ ∃ r, as' = .recv :: r) : l = l' ∧ as = as' := by
  induction l generalizing l' with
  | nil =>
    cases l' with
    | nil => exact ⟨rfl, h⟩
    | cons x l' =>
      simp only [List.map_nil, List.nil_append, List.map_cons, List.cons_append] at h
      rcases ha with rfl | ⟨r, rfl⟩ <;> cases h
  | cons x l ih =>
    cases l' with
    | nil =>
      simp only [List.map_nil, List.nil_append, List.map_cons, List.cons_append] at h
      rcases ha' with rfl | ⟨r, rfl⟩ <;> cases h
    | cons x' l' =>
      simp only [List.map_cons, List.cons_append, List.cons.injEq, Act.send.injEq] at h
      obtain ⟨⟨h1, h2⟩, h3⟩ := h
      obtain ⟨rfl, rfl⟩ := ih h3
      exact ⟨by rw [show x = x' from Prod.ext h1 h2], rfl⟩

theorem floodPorts_nodup (ifs : List Iface) (dev : List Char) (p : Packet) (hn : (ifs.map Iface.name).Nodup) :
    (floodPorts ifs dev p).Nodup := by
  unfold floodPorts
  split
  · exact List.nodup_nil
  · split
    · exact List.nodup_nil
    · exact hn.filter _

theorem hubtests_floods {ifs : List Iface} {exact : Bool} {wild : List (Cls × HdrAttr)} {fs : List (List Char × Packet)}
    {es : List Event} (h : HubTests ifs exact wild fs es) (hn : (ifs.map Iface.name).Nodup)
    {ifaces : Dict (List Char) Iface} (hg : ∀ f ∈ fs, GoodFrame ifaces f) {σ : Type} (P : Reaction σ) (st : σ) :
    ((calls P st es).2 = none ∧ Meets es (calls P st es).1) ↔ Floods ifs exact wild P st fs := by
  induction h generalizing st with
  | nil => simp [calls, Floods, Meets.done]
  | flood dev p fs es args e ha he ht ih =>
    obtain ⟨h1, _, r, b, q, q', hb, h2, _, _, _⟩ := frame_arrives (hg (dev, p) (by simp))
    have hi := ih (fun f hf => hg f (by simp [hf]))
    have hk : (args.map Prod.fst).Perm (floodPorts ifs dev p) := by
      have := ha.map Prod.fst
      simpa [List.map_map, Function.comp_def] using this
    obtain ⟨w, rfl, hw, hu, hkeys, hms⟩ := output_new_partial args false exact wild [] e he
      (hk.nodup_iff.mpr (floodPorts_nodup ifs dev p hn))
    have hcov : ∀ outs : List (List Char × Packet), Covers w outs ↔
        (outs.map Prod.fst).Perm (floodPorts ifs dev p) ∧ ∀ x ∈ outs, Accepted exact wild p x.2 := by
      intro outs
      have hget : ∀ d ∈ args.map Prod.fst, ∃ m, w.get? d = some m ∧ Matcher.new p exact wild [] = .ok m := by
        intro d hd
        obtain ⟨y, hy, rfl⟩ := List.mem_map.mp hd
        obtain ⟨m, hm1, hm2⟩ := hms y hy
        have : y.2 = p := by
          obtain ⟨_, _, he⟩ := List.mem_map.mp (ha.mem_iff.mp hy)
          rw [← he]
        exact ⟨m, hm1, by rw [← this]; exact hm2⟩
      have hacc : ∀ m x, Matcher.new p exact wild [] = .ok m → (Admits m x ↔ Accepted exact wild p x) := by
        intro m x hm
        unfold Admits Accepted
        rw [matcher_accepts p exact wild [] m hm x]
        simp
      constructor
      · rintro ⟨c1, c2⟩
        rw [hkeys] at c1
        refine ⟨c1.trans hk, fun x hx => ?_⟩
        obtain ⟨m, hm1, hm2⟩ := c2 x hx
        obtain ⟨m', hm3, hm4⟩ := hget x.1 (c1.mem_iff.mp (List.mem_map_of_mem hx))
        rw [hm1] at hm3; cases hm3
        exact (hacc m x.2 hm4).mp hm2
      · rintro ⟨c1, c2⟩
        have c1' := c1.trans hk.symm
        refine ⟨by rw [hkeys]; exact c1', fun x hx => ?_⟩
        obtain ⟨m', hm3, hm4⟩ := hget x.1 (c1'.mem_iff.mp (List.mem_map_of_mem hx))
        exact ⟨m', hm3, (hacc m' x.2 hm4).mpr (c2 x hx)⟩
    rw [h1]
    simp only [calls, h2, Floods, Option.some.injEq]
    rcases hP : P st dev q with e | ⟨st', outs⟩
    · simp only [reduceCtorEq, false_and, false_iff]
      rintro ⟨q2, st2, outs2, rfl, g, _⟩
      rw [hP] at g; cases g
    · constructor
      · rintro ⟨g1, g2⟩
        cases g2 with
        | input _ _ _ _ _ _ g2 =>
          generalize hK : outs.map (fun x => Act.send x.1 x.2) ++ (calls P st' es).1 = K at g2
          cases g2 with
          | output _ _ l _ as2 hc hm =>
            obtain ⟨rfl, rfl⟩ := sends_split hK (calls_first P st' es) (hubtests_first ht _ hm)
            obtain ⟨c1, c2⟩ := (hcov _).mp hc
            exact ⟨q, st', outs, rfl, hP, c1, c2, (hi st').mp ⟨g1, hm⟩⟩
      · rintro ⟨q2, st2, outs2, rfl, g, c1, c2, c3⟩
        rw [hP] at g; cases g
        obtain ⟨g1, g2⟩ := (hi st').mpr c3
        exact ⟨g1, .input _ _ _ _ _ _ (.output w [] outs _ _ ((hcov outs).mpr ⟨c1, c2⟩) g2)⟩
  | quiet dev p fs es t hq ht ih =>
    obtain ⟨h1, _, r, b, q, q', hb, h2, _, _, _⟩ := frame_arrives (hg (dev, p) (by simp))
    have hi := ih (fun f hf => hg f (by simp [hf]))
    rw [h1]
    simp only [calls, h2, Floods, Option.some.injEq, hq]
    rcases hP : P st dev q with e | ⟨st', outs⟩
    · simp only [reduceCtorEq, false_and, false_iff]
      rintro ⟨q2, st2, outs2, rfl, g, _⟩
      rw [hP] at g; cases g
    · constructor
      · rintro ⟨g1, g2⟩
        cases g2 with
        | input _ _ _ _ _ _ g2 =>
          cases outs with
          | cons x outs => cases g2
          | nil =>
            cases g2 with
            | timeout _ _ _ hm => exact ⟨q, st', [], rfl, hP, .refl _, by simp, (hi st').mp ⟨g1, hm⟩⟩
      · rintro ⟨q2, st2, outs2, rfl, g, c1, c2, c3⟩
        rw [hP] at g; cases g
        have : outs = [] := List.map_eq_nil_iff.mp c1.eq_nil
        subst this
        obtain ⟨g1, g2⟩ := (hi st').mpr c3
        exact ⟨g1, .input _ _ _ _ _ _ (.timeout t _ _ g2)⟩

/-! ### The packet that arrives -/

theorem unsum_eth {x y : Item} (h : unsumItem x = unsumItem y) (k : Ethernet) : x = .hdr (.eth k) ↔ y = .hdr (.eth k) := by
  cases x with
  | hdr a =>
    cases y with
    | hdr c => cases a <;> cases c <;> simp_all [unsumItem, unsum]
    | _ => simp [unsumItem] at h
  | _ => cases y <;> simp_all [unsumItem]

theorem ethDst_unsum {p q : Packet} (h : q.map unsumItem = p.map unsumItem) : ethDst q = ethDst p := by
  induction q generalizing p with
  | nil => cases p with
    | nil => rfl
    | cons y p => simp at h
  | cons x q ih =>
    cases p with
    | nil => simp at h
    | cons y p =>
      simp only [List.map_cons, List.cons.injEq] at h
      have hi := ih h.2
      unfold ethDst at hi ⊢
      have he := unsum_eth h.1
      cases x with
      | hdr a =>
        cases a with
        | eth k => rw [(he k).mp rfl]; rfl
        | _ =>
          cases y with
          | hdr c => cases c <;> first | exact hi | simp [unsumItem, unsum] at h
          | _ => exact hi
      | _ =>
        cases y with
        | hdr c => cases c <;> first | exact hi | simp [unsumItem] at h
        | _ => exact hi

theorem ethDst_finish {ctx : Packet} {tail : Bytes} {p p' : Packet} {bs : List Bytes}
    (h : finish ctx tail p = .ok (p', bs)) : ethDst p' = ethDst p := by
  induction p generalizing p' bs with
  | nil => cases h; rfl
  | cons x p ih =>
    simp only [finish] at h
    obtain ⟨r, hr, h⟩ := bind_eq_ok.mp h
    obtain ⟨x', hx, h⟩ := bind_eq_ok.mp h
    obtain ⟨b, hb, h⟩ := bind_eq_ok.mp h
    cases h
    have hi := ih hr
    cases x with
    | hdr k =>
      simp only [Item.pre] at hx
      obtain ⟨k', hk, rfl⟩ := map_eq_ok.mp hx
      have hc := (Hdr.pre_keys hk).1
      unfold ethDst at hi ⊢
      cases k with
      | eth k => cases hk; rfl
      | _ => cases k' <;> first | exact hi | cases hc
    | _ => cases hx

theorem printable_unsum {p q : Packet} (h : q.map unsumItem = p.map unsumItem) (hp : PrintablePkt p) : PrintablePkt q := by
  intro k hk
  have : unsumItem (.hdr k) ∈ p.map unsumItem := h ▸ List.mem_map_of_mem hk
  obtain ⟨y, hy, he⟩ := List.mem_map.mp this
  cases y with
  | hdr c =>
    have := hp c hy
    cases k <;> cases c <;> simp_all [unsumItem, unsum, Printable]
  | _ => simp [unsumItem] at he

theorem printable_finish {ctx : Packet} {tail : Bytes} {p p' : Packet} {bs : List Bytes}
    (h : finish ctx tail p = .ok (p', bs)) (hp : PrintablePkt p) : PrintablePkt p' := by
  induction p generalizing p' bs with
  | nil => cases h; exact hp
  | cons x p ih =>
    simp only [finish] at h
    obtain ⟨r, hr, h⟩ := bind_eq_ok.mp h
    obtain ⟨x', hx, h⟩ := bind_eq_ok.mp h
    obtain ⟨b, hb, h⟩ := bind_eq_ok.mp h
    cases h
    have hi := ih hr (fun k hk => hp k (by simp [hk]))
    cases x with
    | hdr k =>
      simp only [Item.pre] at hx
      obtain ⟨k', hk, rfl⟩ := map_eq_ok.mp hx
      have h0 := hp k (by simp)
      intro j hj
      rcases List.mem_cons.mp hj with hj | hj
      · cases hj
        cases k with
        | ip4 a => obtain ⟨_, _, rfl⟩ := map_eq_ok.mp hk; trivial
        | ip6 a => cases hk; trivial
        | udp a => obtain ⟨_, _, rfl⟩ := map_eq_ok.mp hk; trivial
        | tcp a => obtain ⟨_, _, rfl⟩ := map_eq_ok.mp hk; trivial
        | icmp6 a =>
          obtain ⟨m, hm, rfl⟩ := map_eq_ok.mp hk
          unfold icmp6PreSerialize at hm
          split at hm
          · cases hm
          · obtain ⟨c, _, hm⟩ := bind_eq_ok.mp hm
            cases hm
            exact h0
        | _ => cases hk; exact h0
      · exact hi j hj
    | _ => cases hx

theorem looksLike_unsum {exact : Bool} {wild : List (Cls × HdrAttr)} {r x y : Packet}
    (h : x.map unsumItem = y.map unsumItem) (hl : LooksLike exact wild r x) : LooksLike exact wild r y := by
  induction r generalizing x y with
  | nil =>
    cases x with
    | nil => cases y with
      | nil => exact hl
      | cons => simp at h
    | cons => simp [LooksLike] at hl
  | cons k r ih =>
    cases x with
    | nil => cases k <;> simp [LooksLike] at hl
    | cons x xs =>
      cases y with
      | nil => simp at h
      | cons y ys =>
        simp only [List.map_cons, List.cons.injEq] at h
        cases k with
        | hdr k =>
          cases x with
          | hdr x =>
            cases y with
            | hdr y =>
              obtain ⟨l1, l2, l3⟩ := hl
              have hc : x.cls = y.cls := by
                have := congrArg Item.klass h.1
                rw [klass_unsum, klass_unsum] at this
                simpa [Item.klass] using this
              have hg : ∀ a, x.getattr a = y.getattr a := by
                intro a
                have := congrArg (Item.getattr · a) h.1
                rw [getattr_unsum, getattr_unsum] at this
                exact this
              refine ⟨l1.trans hc, fun a ha => ?_, ih h.2 l3⟩
              have := l2 a ha
              unfold Agree at this ⊢
              rw [hg] at this
              exact this
            | _ => simp [unsumItem] at h
          | _ => simp [LooksLike] at hl
        | _ => simp [LooksLike] at hl

/-- What is known about the packet that arrives when a frame is delivered. -/
theorem frame_facts {ifaces : Dict (List Char) Iface} {dev : List Char} {p : Packet} (h : GoodFrame ifaces (dev, p))
    (exact : Bool) (wild : List (Cls × HdrAttr)) :
    ∃ q q' b, arrives p (some .eth) = some q ∧ q.toBytes = (q', .ok b) ∧ ethDst q = ethDst p ∧
      (PrintablePkt p → PrintablePkt q) ∧ Accepted exact wild p q := by
  obtain ⟨_, _, r, b, q, q', hb, h2, h3, h4, h5⟩ := frame_arrives h
  obtain ⟨bs, hf, _⟩ := toBytes_inv hb
  refine ⟨q, q', b, h2, h3, ?_, ?_, ?_⟩
  · rw [ethDst_unsum h4, ethDst_finish hf]
  · exact fun hp => printable_unsum h4 (printable_finish hf hp)
  · exact ⟨q', b, r, b, h3, hb, looksLike_unsum h5.symm (looksLike_self hf exact wild)⟩

/-! ### Comparisons do not raise `Shutdown` -/

/-- Not `Shutdown`. -/
def NotShut {α : Type} (r : Res α) : Prop := r ≠ .error .shutdown

theorem notShut_bind {α β : Type} {r : Res α} {f : α → Res β} (h : NotShut r) (hf : ∀ a, r = .ok a → NotShut (f a)) :
    NotShut (r >>= f) := by
  cases r with
  | error e => intro he; exact h (by rw [bind_error] at he; cases he; rfl)
  | ok a => rw [bind_ok]; exact hf a rfl

theorem notShut_ok {α : Type} (a : α) : NotShut (.ok a : Res α) := by intro h; cases h

theorem notShut_getattr {x : Hdr} {b : Bytes} (hb : x.toBytes = .ok b) (a : HdrAttr) : NotShut (x.getattr a) := by
  by_cases ha : a ∈ fieldsOf x.cls
  · obtain ⟨u, hu⟩ := getattr_ok hb a ha
    rw [hu]; exact notShut_ok u
  · have : x.attrs.lookup a = none := by
      rw [← attrs_names] at ha
      rw [List.lookup_eq_none_iff]
      intro p hp
      simp only [bne_iff_ne, ne_eq]
      intro e
      exact ha (e ▸ List.mem_map_of_mem hp)
    unfold Hdr.getattr
    rw [this]
    intro h; cases h

theorem notShut_optsEq (a b : List IPOpt) : NotShut (optsEq a b) := by
  unfold optsEq
  split
  · exact notShut_ok _
  · rename_i h
    clear h
    induction a generalizing b with
    | nil => cases b <;> exact notShut_ok _
    | cons x a ih =>
      cases b with
      | nil => exact notShut_ok _
      | cons y b =>
        simp only [optsEqLoop]
        refine notShut_bind ?_ (fun r _ => ?_)
        · cases x <;> cases y <;> simp only [IPOpt.eq] <;> (try split) <;> intro h <;> cases h
        · split
          · exact ih b
          · exact notShut_ok _

theorem notShut_eq (u v : AVal) : NotShut (u.eq v) := by
  cases u <;> cases v <;> simp only [AVal.eq] <;> first
    | exact notShut_ok _
    | exact notShut_optsEq _ _
    | (rename_i d e; cases d <;> cases e <;> simp only [ICMPData.eq] <;> (try split) <;> intro h <;> cases h)
    | (rename_i d e; cases d <;> cases e <;> simp only [ICMPv6Data.eq] <;> (try split) <;> intro h <;> cases h)

theorem notShut_str (v : AVal) : NotShut v.str := by
  cases v with
  | data6 d => cases d <;> simp only [AVal.str, ICMPv6Data.str] <;> intro h <;> cases h
  | proto o => cases o <;> exact notShut_ok _
  | _ => exact notShut_ok _

theorem finish_wires {ctx : Packet} {tail : Bytes} {p p' : Packet} {bs : List Bytes}
    (h : finish ctx tail p = .ok (p', bs)) : ∀ it ∈ p', ∃ x b, it = .hdr x ∧ x.toBytes = .ok b := by
  induction p generalizing p' bs with
  | nil => cases h; simp
  | cons x p ih =>
    simp only [finish] at h
    obtain ⟨r, hr, h⟩ := bind_eq_ok.mp h
    obtain ⟨x', hx, h⟩ := bind_eq_ok.mp h
    obtain ⟨b, hb, h⟩ := bind_eq_ok.mp h
    cases h
    intro it hit
    rcases List.mem_cons.mp hit with rfl | hit
    · cases it with
      | hdr k => exact ⟨k, b, rfl, hb⟩
      | _ => cases hb
    · exact ih hr it hit

theorem notShut_compare (d : Dict Klass (List HdrAttr)) (r p : Packet)
    (hr : ∀ it ∈ r, ∃ x b, it = .hdr x ∧ x.toBytes = .ok b) (hp : ∀ it ∈ p, ∃ x b, it = .hdr x ∧ x.toBytes = .ok b) :
    NotShut (compareHeaders d r p) := by
  induction r generalizing p with
  | nil => exact notShut_ok _
  | cons x r ih =>
    cases p with
    | nil => exact notShut_ok _
    | cons y p =>
      simp only [compareHeaders]
      obtain ⟨x, b, rfl, hb⟩ := hr x (by simp)
      obtain ⟨y, c, rfl, hc⟩ := hp y (by simp)
      refine notShut_bind ?_ (fun _ _ => notShut_bind (ih p (fun it h => hr it (by simp [h])) (fun it h => hp it (by simp [h])))
        (fun _ _ => notShut_ok _))
      generalize (d.get? (Item.hdr x).klass).getD [] = l
      induction l with
      | nil => exact notShut_ok _
      | cons a l ihl =>
        simp only [compareAttrs, Item.getattr]
        refine notShut_bind (notShut_getattr hb a) fun u _ => notShut_bind (notShut_getattr hc a) fun v _ =>
          notShut_bind (notShut_eq u v) fun e _ => notShut_bind ?_ fun _ _ => notShut_bind ihl fun _ _ => notShut_ok _
        unfold shown
        split
        · exact notShut_ok _
        · exact notShut_bind (notShut_str v) fun _ _ => notShut_bind (notShut_str u) fun _ _ => notShut_ok _

/-- Comparing two packets that can be serialised, without predicates, does not raise `Shutdown`. -/
theorem match_notShut {m : Matcher} (hm : m.preds = []) {p p' r : Packet} {b b' : Bytes} (hp : p.toBytes = (p', .ok b))
    (hr : m.ref.toBytes = (r, .ok b')) : (m.matchPkt p).2.2 ≠ .error .shutdown := by
  simp only [Matcher.matchPkt, hp, hr]
  obtain ⟨_, hf, _⟩ := toBytes_inv hp
  obtain ⟨_, hf', _⟩ := toBytes_inv hr
  show NotShut (Matcher.verdict _ _)
  unfold Matcher.verdict
  refine notShut_bind ?_ fun _ _ => ?_
  · unfold Matcher.compare
    split
    · exact notShut_compare _ _ _ (finish_wires hf') (finish_wires hf)
    · exact notShut_ok _
  · simp only [hm, evalPreds, bind_ok]; exact notShut_ok _

theorem hubtests_matchers {ifs : List Iface} {exact : Bool} {wild : List (Cls × HdrAttr)} {fs : List (List Char × Packet)}
    {es : List Event} (h : HubTests ifs exact wild fs es) (hn : (ifs.map Iface.name).Nodup)
    {ifaces : Dict (List Char) Iface} (hg : ∀ f ∈ fs, GoodFrame ifaces f) :
    (∀ e ∈ es, Usable ifaces e) ∧
    (∀ w s, Event.output w s ∈ es → ∀ x ∈ w, x.2.preds = [] ∧ ∃ r b, x.2.ref.toBytes = (r, .ok b)) ∧
    (∀ dev p f cs, Event.input dev p f cs ∈ es → (dev, p) ∈ fs ∧ f = some .eth) := by
  induction h with
  | nil => simp
  | flood dev p fs es args e ha he ht ih =>
    obtain ⟨i1, i2, i3⟩ := ih (fun f hf => hg f (by simp [hf]))
    have hgf := hg (dev, p) (by simp)
    obtain ⟨h1, h2, r, b, _, _, hb, _⟩ := frame_arrives hgf
    have hk : (args.map Prod.fst).Perm (floodPorts ifs dev p) := by
      have := ha.map Prod.fst
      simpa [List.map_map, Function.comp_def] using this
    obtain ⟨w, rfl, hw, hu, hkeys, hms⟩ := output_new_partial args false exact wild [] e he
      (hk.nodup_iff.mpr (floodPorts_nodup ifs dev p hn))
    refine ⟨?_, ?_, ?_⟩
    · intro e he
      rcases List.mem_cons.mp he with rfl | he
      · exact h2
      · rcases List.mem_cons.mp he with rfl | he
        · exact ⟨hw, hu⟩
        · exact i1 e he
    · intro w' s' he x hx
      rw [h1] at he
      rcases List.mem_cons.mp he with he | he
      · cases he
      · rcases List.mem_cons.mp he with he | he
        · cases he
          have hxk : x.1 ∈ args.map Prod.fst := by rw [← hkeys]; exact List.mem_map_of_mem hx
          obtain ⟨y, hy, hyx⟩ := List.mem_map.mp hxk
          obtain ⟨m, hm1, hm2⟩ := hms y hy
          have hy2 : y.2 = p := by
            obtain ⟨_, _, he⟩ := List.mem_map.mp (ha.mem_iff.mp hy)
            rw [← he]
          have hg := Dict.get?_of_mem hu (k := x.1) (v := x.2) hx
          rw [← hyx, hm1] at hg
          cases hg
          unfold Matcher.new at hm2
          obtain ⟨d, _, hm2⟩ := bind_eq_ok.mp hm2
          obtain ⟨n, _, hm2⟩ := bind_eq_ok.mp hm2
          have hm2 := Except.ok.inj hm2
          rw [← hm2, hy2]
          exact ⟨rfl, r, b, hb⟩
        · exact i2 w' s' he x hx
    · intro dev' p' f' cs' he
      rw [h1] at he
      rcases List.mem_cons.mp he with he | he
      · cases he; exact ⟨by simp, rfl⟩
      · rcases List.mem_cons.mp he with he | he
        · cases he
        · obtain ⟨a, b⟩ := i3 _ _ _ _ he
          exact ⟨by simp [a], b⟩
  | quiet dev p fs es t hq ht ih =>
    obtain ⟨i1, i2, i3⟩ := ih (fun f hf => hg f (by simp [hf]))
    have hgf := hg (dev, p) (by simp)
    obtain ⟨h1, h2, r, b, _, _, hb, _⟩ := frame_arrives hgf
    refine ⟨?_, ?_, ?_⟩
    · intro e he
      rcases List.mem_cons.mp he with rfl | he
      · exact h2
      · rcases List.mem_cons.mp he with rfl | he
        · trivial
        · exact i1 e he
    · intro w' s' he x hx
      rw [h1] at he
      rcases List.mem_cons.mp he with he | he
      · cases he
      · rcases List.mem_cons.mp he with he | he
        · cases he
        · exact i2 w' s' he x hx
    · intro dev' p' f' cs' he
      rw [h1] at he
      rcases List.mem_cons.mp he with he | he
      · cases he; exact ⟨by simp, rfl⟩
      · rcases List.mem_cons.mp he with he | he
        · cases he
        · obtain ⟨a, b⟩ := i3 _ _ _ _ he
          exact ⟨by simp [a], b⟩

/-- The program sends only packets that can be serialised, and lets no `Shutdown` escape, whatever frame it gets. -/
def Sensible {σ : Type} (P : Reaction σ) (fs : List (List Char × Packet)) : Prop :=
  ∀ st dev p q, (dev, p) ∈ fs → arrives p (some .eth) = some q →
    match P st dev q with
    | .error e => e ≠ .shutdown
    | .ok (_, outs) => ∀ x ∈ outs, ∃ x' b, x.2.toBytes = (x', .ok b)

theorem sensible_calls {σ : Type} (P : Reaction σ) (fs : List (List Char × Packet)) (hP : Sensible P fs) (es : List Event)
    (hes : ∀ dev p f cs, Event.input dev p f cs ∈ es → (dev, p) ∈ fs ∧ f = some .eth) (st : σ) :
    (calls P st es).2 ≠ some .shutdown ∧
      ∀ d x, Act.send d x ∈ (calls P st es).1 → ∃ x' b, x.toBytes = (x', .ok b) := by
  induction es generalizing st with
  | nil => simp [calls]
  | cons e es ih =>
    have ih := ih (fun dev p f cs h => hes dev p f cs (by simp [h]))
    cases e with
    | timeout t =>
      simp only [calls]
      refine ⟨(ih st).1, fun d x hx => ?_⟩
      simp only [List.mem_cons, reduceCtorEq, false_or] at hx
      exact (ih st).2 d x hx
    | output w s => exact ih st
    | input dev p f cs =>
      obtain ⟨hm, rfl⟩ := hes dev p f cs (by simp)
      simp only [calls]
      cases ha : arrives p (some .eth) with
      | none => simp
      | some q =>
        have h0 := hP st dev p q hm ha
        rcases hr : P st dev q with e | ⟨st', outs⟩
        · rw [hr] at h0
          simp only [hr]
          exact ⟨fun h => h0 (Option.some.inj h), by simp⟩
        · rw [hr] at h0
          simp only [hr]
          refine ⟨(ih st').1, fun d x hx => ?_⟩
          simp only [List.mem_cons, reduceCtorEq, false_or, List.mem_append, List.mem_map, Act.send.injEq] at hx
          rcases hx with ⟨y, hy, rfl, rfl⟩ | hx
          · exact h0 y hy
          · exact (ih st').2 d x hx

/-- **C198**: a program passes a hub test exactly if it answers every frame by sending it on each of the ports on
which a hub sends it, and on no other. -/
theorem hub_tests_exact {ifs : List Iface} {exact : Bool} {wild : List (Cls × HdrAttr)}
    {fs : List (List Char × Packet)} (n : TestNet) (ht : HubTests ifs exact wild fs (eventsOf n))
    (hn : (ifs.map Iface.name).Nodup) (hg : ∀ f ∈ fs, GoodFrame n.scen.ifaces f)
    {σ : Type} (h : Handler σ) (P : Reaction σ) (st : σ) (hd : Does h P (eventsOf n)) (hP : Sensible P fs) :
    testProgram h st n = .allPassed ↔ Floods ifs exact wild P st fs := by
  obtain ⟨h1, h2, h3⟩ := hubtests_matchers ht hn hg
  obtain ⟨c1, c2⟩ := sensible_calls P fs hP (eventsOf n) h3 st
  rw [program_reports h P st n hd h1 ?_ c1, hubtests_floods ht hn hg]
  intro d x hx w s hw y hy
  obtain ⟨x', b, hb⟩ := c2 d x hx
  obtain ⟨p1, r, b', hr⟩ := h2 w s hw y hy
  exact match_notShut p1 hb hr

/-- The frame's source address. -/
def ethSrc (p : Packet) : Option EthAddr :=
  p.findSome? fun it => match it with
    | .hdr (.eth h) => some h.src
    | _ => none

theorem ethDst_len {p : Packet} (h : Stack .eth p) : ∀ a, ethDst p = some a → a.raw ≠ [] := by
  obtain ⟨k, rest, rfl⟩ := stack_first h
  intro a ha
  simp only [ethDst, List.findSome?_cons] at ha
  cases ha
  obtain ⟨_, ⟨hw, _⟩, _⟩ := h
  have : k.dst.raw.length = 6 := hw.1
  intro he
  rw [he] at this
  cases this

theorem hub_does {ifs : List Iface} {exact : Bool} {wild : List (Cls × HdrAttr)}
    {fs : List (List Char × Packet)} {es : List Event} {ifaces : Dict (List Char) Iface} (ht : HubTests ifs exact wild fs es)
    (hn : (ifs.map Iface.name).Nodup) (hg : ∀ f ∈ fs, GoodFrame ifaces f) (hp : ∀ f ∈ fs, PrintablePkt f.2) :
    Does (hubHandler ifs) (hubReaction ifs) es ∧ Sensible (hubReaction ifs) fs ∧
      Floods ifs exact wild (hubReaction ifs) () fs := by
  obtain ⟨h1, h2, h3⟩ := hubtests_matchers ht hn hg
  refine ⟨?_, ?_, ?_⟩
  · intro dev p f cs q hm ha st n
    obtain ⟨hf, rfl⟩ := h3 dev p f cs hm
    obtain ⟨q', x, b, e1, e2, e3, e4, _⟩ := frame_facts (hg _ hf) exact wild
    rw [ha] at e1; cases e1
    exact hub_handler ifs dev q x b (by rw [e3]; exact ethDst_len (hg _ hf).2.1) (e4 (hp _ hf)) e2 n
  · intro st dev p q hf ha
    obtain ⟨q', x, b, e1, e2, e3, e4, _⟩ := frame_facts (hg _ hf) exact wild
    rw [ha] at e1; cases e1
    simp only [hubReaction]
    intro y hy
    obtain ⟨d, _, rfl⟩ := List.mem_map.mp hy
    exact ⟨x, b, e2⟩
  · clear h1 h2 h3 ht
    induction fs with
    | nil => trivial
    | cons f fs ih =>
      obtain ⟨dev, p⟩ := f
      obtain ⟨q, x, b, e1, e2, e3, e4, e5⟩ := frame_facts (hg (dev, p) (by simp)) exact wild
      have hfp : floodPorts ifs dev q = floodPorts ifs dev p := by unfold floodPorts; rw [e3]
      refine ⟨q, (), _, e1, rfl, ?_, ?_, ih (fun f hf => hg f (by simp [hf])) (fun f hf => hp f (by simp [hf]))⟩
      · rw [hfp]; simp [List.map_map, Function.comp_def]
      · intro y hy
        obtain ⟨d, _, rfl⟩ := List.mem_map.mp hy
        exact e5

/-- **C198**: the hub of examples/myhub.py passes every hub test whose frames can be printed. -/
theorem hub_passes_tests {ifs : List Iface} {exact : Bool} {wild : List (Cls × HdrAttr)}
    {fs : List (List Char × Packet)} (n : TestNet) (ht : HubTests ifs exact wild fs (eventsOf n))
    (hn : (ifs.map Iface.name).Nodup) (hg : ∀ f ∈ fs, GoodFrame n.scen.ifaces f) (hp : ∀ f ∈ fs, PrintablePkt f.2) :
    testProgram (hubHandler ifs) () n = .allPassed := by
  obtain ⟨h1, h2, h3⟩ := hub_does ht hn hg hp
  exact (hub_tests_exact n ht hn hg _ _ () h1 h2).mpr h3

/-! ### Other hubs -/

/-- What the hub of documentation/code/fullhub.py does: it does not look at the destination. -/
def plainReaction (ifs : List Iface) : Reaction Unit := fun _ dev p =>
  .ok ((), ((ifs.map Iface.name).filter fun d => decide (d ≠ dev)).map fun d => (d, p))

theorem plain_handler (ifs : List Iface) (dev : List Char) (p p' : Packet) (b : Bytes) (hb : p.toBytes = (p', .ok b))
    (n : TestNet) : plainHubHandler ifs () dev p n = reactive (plainReaction ifs) () dev p n := by
  have : (ifs.filter fun i => decide (i.name ≠ dev)).map Iface.name = (ifs.map Iface.name).filter fun d => decide (d ≠ dev) := by
    rw [List.filter_map]; rfl
  simp only [plainHubHandler, this, reactive, plainReaction, (flood_sends _ hb n).1]
  generalize makeSends _ n = z
  obtain ⟨n', r⟩ := z
  cases r <;> rfl

/-- **C198**: the hub that sends everything to all other ports passes exactly the hub tests in which no frame is
addressed to the hub (or the hub has no other port). -/
theorem plain_hub_tests {ifs : List Iface} {exact : Bool} {wild : List (Cls × HdrAttr)}
    {fs : List (List Char × Packet)} (n : TestNet) (ht : HubTests ifs exact wild fs (eventsOf n))
    (hn : (ifs.map Iface.name).Nodup) (hg : ∀ f ∈ fs, GoodFrame n.scen.ifaces f) :
    testProgram (plainHubHandler ifs) () n = .allPassed ↔
      ∀ f ∈ fs, (∃ i ∈ ifs, ethDst f.2 = some i.ethaddr) → ∀ i ∈ ifs, i.name = f.1 := by
  obtain ⟨h1, h2, h3⟩ := hubtests_matchers ht hn hg
  rw [hub_tests_exact n ht hn hg (plainHubHandler ifs) (plainReaction ifs) ()]
  · clear h1 h2 h3 ht
    have key : ∀ dev p, GoodFrame n.scen.ifaces (dev, p) →
        (((ifs.map Iface.name).filter fun d => decide (d ≠ dev)).Perm (floodPorts ifs dev p) ↔
          ((∃ i ∈ ifs, ethDst p = some i.ethaddr) → ∀ i ∈ ifs, i.name = dev)) := by
      intro dev p hgf
      obtain ⟨k, rest, hk⟩ := stack_first hgf.2.1
      have he : ethDst p = some k.dst := by dsimp only at hk; rw [hk]; rfl
      simp only [floodPorts, he, Option.some.injEq]
      by_cases hc : ∃ i ∈ ifs, i.ethaddr = k.dst
      · have hc' : ∃ i ∈ ifs, k.dst = i.ethaddr := by obtain ⟨i, hi, e⟩ := hc; exact ⟨i, hi, e.symm⟩
        rw [if_pos hc]
        simp only [hc', forall_const, List.perm_nil, List.filter_eq_nil_iff, List.mem_map, decide_eq_true_eq, ne_eq,
          Decidable.not_not, forall_exists_index, and_imp, forall_apply_eq_imp_iff₂]
      · have hc' : ¬ ∃ i ∈ ifs, k.dst = i.ethaddr := fun ⟨i, hi, e⟩ => hc ⟨i, hi, e.symm⟩
        rw [if_neg hc]
        simp [hc']
    induction fs with
    | nil => simp [Floods]
    | cons f fs ih =>
      obtain ⟨dev, p⟩ := f
      obtain ⟨q, x, b, e1, e2, e3, e4, e5⟩ := frame_facts (hg (dev, p) (by simp)) exact wild
      have ih := ih (fun f hf => hg f (by simp [hf]))
      simp only [List.mem_cons, forall_eq_or_imp]
      refine Iff.trans ?_ (and_congr (key dev p (hg (dev, p) (by simp))) ih)
      simp only [Floods, plainReaction, e1, Option.some.injEq, Except.ok.injEq, Prod.mk.injEq, true_and]
      constructor
      · rintro ⟨q2, st2, outs2, rfl, ⟨⟩, c1, c2, c3⟩
        exact ⟨by simpa [List.map_map, Function.comp_def] using c1, c3⟩
      · rintro ⟨c1, c2⟩
        refine ⟨q, (), _, rfl, rfl, by simpa [List.map_map, Function.comp_def] using c1, ?_, c2⟩
        intro y hy
        obtain ⟨d, _, rfl⟩ := List.mem_map.mp hy
        exact e5
  · intro dev p f cs q hm ha st n
    obtain ⟨hf, rfl⟩ := h3 dev p f cs hm
    obtain ⟨q', x, b, e1, e2, e3, e4, _⟩ := frame_facts (hg _ hf) exact wild
    rw [ha] at e1; cases e1
    exact plain_handler ifs dev q x b e2 n
  · intro st dev p q hf ha
    obtain ⟨q', x, b, e1, e2, e3, e4, _⟩ := frame_facts (hg _ hf) exact wild
    rw [ha] at e1; cases e1
    simp only [plainReaction]
    intro y hy
    obtain ⟨d, _, rfl⟩ := List.mem_map.mp hy
    exact ⟨x, b, e2⟩

/-- What the hub of documentation/code/baaadhub.py does. -/
def sheepReaction (ifs : List Iface) : Reaction Unit := fun _ dev p =>
  .ok ((), (floodPorts ifs dev p).map fun d => (d, setEthSrc sheep p))

theorem setEthSrc_finish {a : EthAddr} {ctx : Packet} {tail : Bytes} {p p' : Packet} {bs : List Bytes}
    (h : finish ctx tail (setEthSrc a p) = .ok (p', bs)) : setEthSrc a p' = p' := by
  induction p generalizing p' bs with
  | nil => cases h; rfl
  | cons x p ih =>
    have other : (∀ k, x ≠ .hdr (.eth k)) → setEthSrc a (x :: p) = x :: setEthSrc a p := by
      intro hx
      cases x with
      | hdr k =>
        cases k with
        | eth k => exact absurd rfl (hx k)
        | _ => rfl
      | _ => rfl
    have go : (∀ k, x ≠ .hdr (.eth k)) → setEthSrc a p' = p' := by
      intro hx
      rw [other hx] at h
      simp only [finish] at h
      obtain ⟨r, hr, h⟩ := bind_eq_ok.mp h
      obtain ⟨x', hx', h⟩ := bind_eq_ok.mp h
      obtain ⟨b, hb, h⟩ := bind_eq_ok.mp h
      cases h
      have hi := ih hr
      cases x with
      | hdr k =>
        simp only [Item.pre] at hx'
        obtain ⟨k', hk, rfl⟩ := map_eq_ok.mp hx'
        have hc := (Hdr.pre_keys hk).1
        cases k with
        | eth k => exact absurd rfl (hx k)
        | _ => cases k' <;> first | (simp only [setEthSrc]; rw [hi]) | cases hc
      | _ => cases hx'
    cases x with
    | hdr k =>
      cases k with
      | eth k =>
        simp only [setEthSrc, finish] at h
        obtain ⟨r, hr, h⟩ := bind_eq_ok.mp h
        obtain ⟨x', hx', h⟩ := bind_eq_ok.mp h
        obtain ⟨b, hb, h⟩ := bind_eq_ok.mp h
        cases h
        cases hx'
        rfl
      | _ => exact go (fun k hk => nomatch hk)
    | _ => exact go (fun k hk => nomatch hk)

theorem setEthSrc_twice (a : EthAddr) (p : Packet) : setEthSrc a (setEthSrc a p) = setEthSrc a p := by
  induction p with
  | nil => rfl
  | cons x p ih =>
    cases x with
    | hdr k => cases k <;> first | rfl | (simp only [setEthSrc]; rw [ih])
    | _ => simp only [setEthSrc]; rw [ih]

theorem sheep_sends (ds : List (List Char)) {p p' : Packet} {b : Bytes} (h : (setEthSrc sheep p).toBytes = (p', .ok b))
    (n : TestNet) : sheepFlood ds p n = makeSends (ds.map fun d => (d, setEthSrc sheep p)) n := by
  have hp' : setEthSrc sheep p' = p' := by
    obtain ⟨bs, hf, _⟩ := toBytes_inv h
    exact setEthSrc_finish hf
  have gen : ∀ ds n q, setEthSrc sheep q = setEthSrc sheep p ∨ setEthSrc sheep q = p' →
      sheepFlood ds q n = floodTest ds (setEthSrc sheep p) n ∧ sheepFlood ds q n = floodTest ds p' n := by
    intro ds
    induction ds with
    | nil => intro n q _; exact ⟨rfl, rfl⟩
    | cons d ds ih =>
      intro n q hq
      have hff := (flood_sends (d :: ds) h n)
      have hfe : floodTest (d :: ds) (setEthSrc sheep p) n = floodTest (d :: ds) p' n := hff.1.trans hff.2.symm
      obtain ⟨s1, s2, s3⟩ := send_done n d h
      rcases hq with hq | hq
      · refine (fun z => ⟨z, z.trans hfe⟩) ?_
        simp only [sheepFlood, floodTest, hq]
        rcases hr : n.send (.name d) (setEthSrc sheep p) with ⟨n1, p1, r1⟩
        rw [hr] at s3
        cases r1 with
        | some e => rfl
        | none =>
          obtain ⟨e, _⟩ := s3 rfl
          dsimp only at e
          subst e
          exact (ih n1 p1 (.inr hp')).2
      · refine (fun z => ⟨z.trans hfe.symm, z⟩) ?_
        simp only [sheepFlood, floodTest, hq]
        rcases hr : n.send (.name d) p' with ⟨n1, p1, r1⟩
        rw [hr] at s2 s3
        dsimp only at s2
        cases r1 with
        | some e => rfl
        | none =>
          obtain ⟨_, e⟩ := s3 s2
          dsimp only at e
          subst e
          exact (ih n1 p1 (.inr hp')).2
  rw [(gen ds n p (.inl rfl)).1, (flood_sends ds h n).1]

theorem frame_head {ifaces : Dict (List Char) Iface} {dev : List Char} {p : Packet} (h : GoodFrame ifaces (dev, p)) :
    ∃ k rest r q rest', p = .hdr (.eth k) :: rest ∧ p.toBytes.1 = .hdr (.eth k) :: r ∧
      arrives p (some .eth) = some q ∧ q = .hdr (.eth k) :: rest' ∧
      ∃ x b, (setEthSrc sheep q).toBytes = (.hdr (.eth { k with src := sheep }) :: x, .ok b) := by
  obtain ⟨_, _, r, b, q, q', hb, h2, h3, h4, h5⟩ := frame_arrives h
  obtain ⟨k, rest, rfl⟩ := stack_first h.2.1
  obtain ⟨bs, hf, _⟩ := toBytes_inv hb
  have eth_first : ∀ {ctx : Packet} {k : Ethernet} {l l' : Packet} {bs : List Bytes}, finish ctx [] (.hdr (.eth k) :: l) = .ok (l', bs) →
      ∃ l'' bs', l' = .hdr (.eth k) :: l'' ∧ finish ctx [] l = .ok (l'', bs') := by
    intro ctx k l l' bs hf
    simp only [finish] at hf
    obtain ⟨z, hz, hf⟩ := bind_eq_ok.mp hf
    obtain ⟨x', hx', hf⟩ := bind_eq_ok.mp hf
    obtain ⟨c, hc, hf⟩ := bind_eq_ok.mp hf
    cases hf
    cases hx'
    exact ⟨z.1, z.2, rfl, hz⟩
  obtain ⟨r', _, rfl, _⟩ := eth_first hf
  obtain ⟨z, hz⟩ : ∃ rest', q = .hdr (.eth k) :: rest' := by
    cases q with
    | nil => simp at h4
    | cons y q =>
      simp only [List.map_cons, List.cons.injEq] at h4
      rw [(unsum_eth h4.1 k).mpr rfl]
      exact ⟨q, rfl⟩
  subst hz
  obtain ⟨bs2, hf2, _⟩ := toBytes_inv h3
  obtain ⟨l2, bs3, _, hf3⟩ := eth_first hf2
  obtain ⟨_, ⟨hw0, ht⟩, _⟩ := h.2.1
  have hw : (⟨k.dst, sheep, k.ethertype⟩ : Ethernet).WF := ⟨hw0.1, rfl, hw0.2.2⟩
  obtain ⟨c, hc⟩ : ∃ c, (Hdr.eth ⟨k.dst, sheep, k.ethertype⟩).toBytes = .ok c := by
    obtain ⟨c, hc, _⟩ := ethernet_roundtrip _ hw ht []
    exact ⟨c, hc⟩
  refine ⟨k, rest, r', _, z, rfl, by rw [hb], h2, rfl, l2, (c :: bs3).flatten, ?_⟩
  apply toBytes_of_finish
  have hctx : SameCtx (setEthSrc sheep (.hdr (.eth k) :: z)) (.hdr (.eth k) :: z) := ⟨rfl, rfl⟩
  rw [finish_ctx hctx]
  simp only [setEthSrc, finish, hf3, bind_ok, Item.pre, Hdr.pre, map_ok, Item.toBytes, hc]

theorem looksLike_src {exact : Bool} {wild : List (Cls × HdrAttr)} {j k : Ethernet} {r x : Packet}
    (hw : (Cls.eth, HdrAttr.src) ∉ wild) (h : LooksLike exact wild (.hdr (.eth j) :: r) (.hdr (.eth k) :: x)) :
    j.src = k.src := by
  obtain ⟨_, h2, _⟩ := h
  have hc : Compared exact wild .eth .src := ⟨by cases exact <;> decide, hw⟩
  obtain ⟨u, v, e1, e2, e3⟩ := h2 .src hc
  have e1' : (Except.ok (AVal.eth j.src) : Res AVal) = .ok u := e1
  have e2' : (Except.ok (AVal.eth k.src) : Res AVal) = .ok v := e2
  cases e1'
  cases e2'
  have := of_decide_eq_true (Except.ok.inj e3)
  exact AVal.eth.inj this

/-- **C198**: the hub that overwrites the source address fails every hub test in which some frame from another
address is to be forwarded, unless the tests leave the source address out of the comparison. -/
theorem sheep_hub_fails {ifs : List Iface} {exact : Bool} {wild : List (Cls × HdrAttr)}
    {fs : List (List Char × Packet)} (n : TestNet) (ht : HubTests ifs exact wild fs (eventsOf n))
    (hn : (ifs.map Iface.name).Nodup) (hg : ∀ f ∈ fs, GoodFrame n.scen.ifaces f) (hp : ∀ f ∈ fs, PrintablePkt f.2)
    (hw : (Cls.eth, HdrAttr.src) ∉ wild) (f : List Char × Packet) (hf : f ∈ fs) (hfl : floodPorts ifs f.1 f.2 ≠ [])
    (hsrc : ethSrc f.2 ≠ some sheep) : testProgram (sheepHubHandler ifs) () n ≠ .allPassed := by
  obtain ⟨h1, h2, h3⟩ := hubtests_matchers ht hn hg
  have hd : Does (sheepHubHandler ifs) (sheepReaction ifs) (eventsOf n) := by
    intro dev p f cs q hm ha st n
    obtain ⟨hf, rfl⟩ := h3 dev p f cs hm
    obtain ⟨q', x, b, e1, e2, e3, e4, _⟩ := frame_facts (hg _ hf) exact wild
    obtain ⟨k, rest, r, q2, rest', g1, g2, g3, g4, y, c, g5⟩ := frame_head (hg _ hf)
    rw [ha] at e1 g3; cases e1; cases g3
    obtain ⟨is, t1, t2⟩ := targets_ports ifs dev q (by rw [e3]; exact ethDst_len (hg _ hf).2.1) (e4 (hp _ hf))
    simp only [sheepHubHandler, t1, t2, reactive, sheepReaction, sheep_sends _ g5 n]
    generalize makeSends _ n = z
    obtain ⟨n', r⟩ := z
    cases r <;> rfl
  have hs : Sensible (sheepReaction ifs) fs := by
    intro st dev p q hf ha
    obtain ⟨k, rest, r, q2, rest', g1, g2, g3, g4, y, c, g5⟩ := frame_head (hg _ hf)
    rw [ha] at g3; cases g3
    simp only [sheepReaction]
    intro z hz
    obtain ⟨d, _, rfl⟩ := List.mem_map.mp hz
    exact ⟨_, c, g5⟩
  rw [ne_eq, hub_tests_exact n ht hn hg _ _ () hd hs]
  clear hd hs h1 h2 h3 ht
  induction fs with
  | nil => cases hf
  | cons g fs ih =>
    obtain ⟨dev, p⟩ := g
    rintro ⟨q, st', outs, a1, a2, a3, a4, a5⟩
    rcases List.mem_cons.mp hf with rfl | hf
    · obtain ⟨k, rest, r, q2, rest', g1, g2, g3, g4, y, c, g5⟩ := frame_head (hg _ hf)
      rw [a1] at g3; cases g3
      simp only [sheepReaction] at a2
      cases a2
      obtain ⟨q3, _, _, b1, _, b3, _⟩ := frame_facts (hg (dev, p) (by simp)) exact wild
      rw [a1] at b1; cases b1
      have hfp : floodPorts ifs dev q = floodPorts ifs dev p := by unfold floodPorts; rw [b3]
      obtain ⟨d, ds, hds⟩ : ∃ d ds, floodPorts ifs dev p = d :: ds := by
        cases h : floodPorts ifs dev p with
        | nil => exact absurd h hfl
        | cons d ds => exact ⟨d, ds, rfl⟩
      have hacc := a4 (d, setEthSrc sheep q) (by rw [hfp, hds]; simp)
      obtain ⟨x', bx, rr, br, c1, c2, c3⟩ := hacc
      dsimp only at c1
      rw [g5] at c1
      cases c1
      rw [c2] at g2
      dsimp only at g2
      rw [g2] at c3
      have := looksLike_src hw c3
      apply hsrc
      dsimp only at g1 ⊢
      rw [g1]
      simp only [ethSrc, List.findSome?_cons, this]
    · exact ih (fun f h => hg f (by simp [h])) (fun f h => hp f (by simp [h])) hf a5

/-! ### A case of these theorems -/

/-- The interfaces of the example. -/
def exHubIfs : List Iface := [exIf "eth0" 1 1, exIf "eth1" 2 2, exIf "eth2" 3 3]

/-- A frame addressed to the hub. -/
def exToHub : Packet :=
  exPacket.map fun
    | .hdr (.eth h) => .hdr (.eth { h with dst := ⟨[0, 0, 0, 0, 0, 3]⟩ })
    | x => x

/-- The frames of the example: one to be forwarded, and one for the hub itself. -/
def exFrames : List (List Char × Packet) := [("eth1".toList, exPacket), ("eth2".toList, exToHub)]

/-- The output expectation for the first frame. -/
def exHubOut : Event :=
  match Event.mkOutput [("eth2".toList, exPacket), ("eth0".toList, exPacket)] false true [] [] with
  | .ok e => e
  | .error _ => .timeout 0

/-- The test scenario of the example, as examples/hubtests.py builds it. -/
def exHubNet : TestNet :=
  { scen :=
      { ifaces := exHubIfs.map fun i => (i.name, i)
        pending := [⟨.mkInput "eth1".toList exPacket, [], 0⟩, ⟨exHubOut, [], 1⟩, ⟨.mkInput "eth2".toList exToHub, [], 2⟩,
          ⟨.timeout 1, [], 3⟩]
        nextTs := 4 } }

theorem exHub_ok : HubTests exHubIfs true [] exFrames (eventsOf exHubNet) ∧ (exHubIfs.map Iface.name).Nodup ∧
    (∀ f ∈ exFrames, GoodFrame exHubNet.scen.ifaces f) ∧ (∀ f ∈ exFrames, PrintablePkt f.2) := by
  have ho : Event.mkOutput [("eth2".toList, exPacket), ("eth0".toList, exPacket)] false true [] [] = .ok exHubOut := by
    obtain ⟨e, he, _⟩ := Except.of_test (r := Event.mkOutput [("eth2".toList, exPacket), ("eth0".toList, exPacket)] false true [] [])
      (p := fun _ => true) (by decide +kernel)
    unfold exHubOut
    rw [he]
  refine ⟨?_, by decide +kernel, ?_, ?_⟩
  · refine .flood "eth1".toList exPacket _ _ [("eth2".toList, exPacket), ("eth0".toList, exPacket)] exHubOut ?_ ho ?_
    · have : (floodPorts exHubIfs "eth1".toList exPacket) = ["eth0".toList, "eth2".toList] := by decide +kernel
      rw [this]
      exact .swap _ _ _
    · exact .quiet "eth2".toList exToHub _ _ 1 (by decide +kernel) .nil
  · intro f hf
    simp only [exFrames, List.mem_cons, List.not_mem_nil, or_false] at hf
    rcases hf with rfl | rfl
    · refine ⟨by decide +kernel, ?_, ?_⟩
      · refine ⟨rfl, ⟨by decide, by decide⟩, rfl, ⟨by decide, rfl⟩, rfl, by show UDP.WF _; decide, .inr ⟨?_, 104, [105], rfl⟩⟩
        intro h; rcases h with h | h | h <;> cases h
      · obtain ⟨p', b, h, _⟩ := exPacket_ok
        exact ⟨p', b, h⟩
    · refine ⟨by decide +kernel, ?_, ?_⟩
      · refine ⟨rfl, ⟨by decide, by decide⟩, rfl, ⟨by decide, rfl⟩, rfl, by show UDP.WF _; decide, .inr ⟨?_, 104, [105], rfl⟩⟩
        intro h; rcases h with h | h | h <;> cases h
      · obtain ⟨b, hb, _⟩ := Except.of_test (r := exToHub.toBytes.2) (p := fun _ => true) (by decide +kernel)
        exact ⟨exToHub.toBytes.1, b, Prod.ext rfl hb⟩
  · intro f hf h hh
    simp only [exFrames, List.mem_cons, List.not_mem_nil, or_false] at hf
    rcases hf with rfl | rfl <;>
      simp only [exToHub, exPacket, List.map_cons, List.map_nil, List.mem_cons, Item.hdr.injEq, List.not_mem_nil, or_false] at hh <;>
      rcases hh with rfl | rfl | rfl | rfl <;> trivial

example : HubTests exHubIfs true [] exFrames (eventsOf exHubNet) ∧ (exHubIfs.map Iface.name).Nodup ∧
    (∀ f ∈ exFrames, GoodFrame exHubNet.scen.ifaces f) ∧ (∀ f ∈ exFrames, PrintablePkt f.2) ∧
    Does (hubHandler exHubIfs) (hubReaction exHubIfs) (eventsOf exHubNet) ∧ Sensible (hubReaction exHubIfs) exFrames :=
  let ⟨a, b, c, d⟩ := exHub_ok
  let ⟨e, f, _⟩ := hub_does a b c d
  ⟨a, b, c, d, e, f⟩

example : testProgram (hubHandler exHubIfs) () exHubNet = .allPassed ∧
    testProgram (plainHubHandler exHubIfs) () exHubNet = .aTestFailed ∧
    testProgram (sheepHubHandler exHubIfs) () exHubNet = .aTestFailed := by decide +kernel

example : floodPorts exHubIfs "eth1".toList exPacket ≠ [] ∧ ethSrc exPacket ≠ some sheep := by decide +kernel
