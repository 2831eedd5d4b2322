import Verif.Skeletons
import Verif.Props.Serve

/-! # C222: tests of forwarding, and the programs that exercises begin with -/

namespace SY.Props

open SY

/-! ## Tests of forwarding -/

/-- The ports on which a frame is wanted that arrives on a device, given the frames that arrived before it, the latest
first. -/
abbrev Wants := List (List Char × Packet) → List Char → Packet → List (List Char)

/-- The expectations of a test with these frames (a device and a packet each), after those in `hist`: each frame
arrives, and then is expected on the ports on which it is wanted, given in any order; or nothing is expected to happen,
which may be said or left out. -/
inductive ForwardTests (F : Wants) (exact : Bool) (wild : List (Cls × HdrAttr)) :
    List (List Char × Packet) → List (List Char × Packet) → List Event → Prop
  | nil (hist : List (List Char × Packet)) : ForwardTests F exact wild hist [] []
  | sent (hist : List (List Char × Packet)) (dev : List Char) (p : Packet) (fs : List (List Char × Packet)) (es : List Event)
      (args : List (List Char × Packet)) (e : Event) :
      args.Perm ((F hist dev p).map fun d => (d, p)) → Event.mkOutput args false exact wild [] = .ok e →
      ForwardTests F exact wild ((dev, p) :: hist) fs es →
      ForwardTests F exact wild hist ((dev, p) :: fs) (.mkInput dev p :: e :: es)
  | quiet (hist : List (List Char × Packet)) (dev : List Char) (p : Packet) (fs : List (List Char × Packet)) (es : List Event)
      (t : Int) :
      F hist dev p = [] → ForwardTests F exact wild ((dev, p) :: hist) fs es →
      ForwardTests F exact wild hist ((dev, p) :: fs) (.mkInput dev p :: .timeout t :: es)
  | silent (hist : List (List Char × Packet)) (dev : List Char) (p : Packet) (fs : List (List Char × Packet)) (es : List Event) :
      F hist dev p = [] → ForwardTests F exact wild ((dev, p) :: hist) fs es →
      ForwardTests F exact wild hist ((dev, p) :: fs) (.mkInput dev p :: es)

/-- The program answers every frame by sending, on each port on which it is wanted and on no other, one packet that is
accepted as this frame. -/
def Forwards (F : Wants) (exact : Bool) (wild : List (Cls × HdrAttr)) {σ : Type} (P : Reaction σ) :
    List (List Char × Packet) → σ → List (List Char × Packet) → Prop
  | _, _, [] => True
  | hist, st, (dev, p) :: fs => ∃ q st' outs, arrives p (some .eth) = some q ∧ P st dev q = .ok (st', outs) ∧
      (outs.map Prod.fst).Perm (F hist dev p) ∧ (∀ x ∈ outs, Accepted exact wild p x.2) ∧
      Forwards F exact wild P ((dev, p) :: hist) st' fs

theorem forward_first {F : Wants} {exact : Bool} {wild : List (Cls × HdrAttr)} {hist fs : List (List Char × Packet)}
    {es : List Event} (h : ForwardTests F exact wild hist fs es) (as : List Act) (hm : Meets es as) :
    as = [] ∨ ∃ as', as = .recv :: as' := by
  cases h with
  | nil hist => cases hm; exact .inl rfl
  | sent hist dev p fs es args e _ _ _ =>
    simp only [Event.mkInput] at hm
    cases hm; exact .inr ⟨_, rfl⟩
  | quiet hist dev p fs es t _ _ =>
    simp only [Event.mkInput] at hm
    cases hm; exact .inr ⟨_, rfl⟩
  | silent hist dev p fs es _ _ =>
    simp only [Event.mkInput] at hm
    cases hm; exact .inr ⟨_, rfl⟩

theorem forward_floods {F : Wants} {exact : Bool} {wild : List (Cls × HdrAttr)} {hist fs : List (List Char × Packet)}
    {es : List Event} (h : ForwardTests F exact wild hist fs es) (hn : ∀ hist dev p, (F hist dev p).Nodup)
    {ifaces : Dict (List Char) Iface} (hg : ∀ f ∈ fs, GoodFrame ifaces f) {σ : Type} (P : Reaction σ) (st : σ) :
    ((calls P st es).2 = none ∧ Meets es (calls P st es).1) ↔ Forwards F exact wild P hist st fs := by
  induction h generalizing st with
  | nil hist => simp [calls, Forwards, Meets.done]
  | sent hist dev p fs es args e ha he ht ih =>
    obtain ⟨h1, _, r, b, q, q', hb, h2, _, _, _⟩ := frame_arrives (hg (dev, p) (by simp))
    have hi := ih (fun f hf => hg f (by simp [hf]))
    have hk : (args.map Prod.fst).Perm (F hist dev p) := by
      have := ha.map Prod.fst
      simpa [List.map_map, Function.comp_def] using this
    obtain ⟨w, rfl, hw, hu, hkeys, hms⟩ := output_new_partial args false exact wild [] e he
      (hk.nodup_iff.mpr (hn hist dev p))
    have hcov : ∀ outs : List (List Char × Packet), Covers w outs ↔
        (outs.map Prod.fst).Perm (F hist dev p) ∧ ∀ x ∈ outs, Accepted exact wild p x.2 := by
      intro outs
      have hget : ∀ d ∈ args.map Prod.fst, ∃ m, w.get? d = some m ∧ Matcher.new p exact wild [] = .ok m := by
        intro d hd
        obtain ⟨y, hy, rfl⟩ := List.mem_map.mp hd
        obtain ⟨m, hm1, hm2⟩ := hms y hy
        have : y.2 = p := by
          obtain ⟨_, _, he⟩ := List.mem_map.mp (ha.mem_iff.mp hy)
          rw [← he]
        exact ⟨m, hm1, by rw [← this]; exact hm2⟩
      have hacc : ∀ m x, Matcher.new p exact wild [] = .ok m → (Admits m x ↔ Accepted exact wild p x) := by
        intro m x hm
        unfold Admits Accepted
        rw [matcher_accepts p exact wild [] m hm x]
        simp
      constructor
      · rintro ⟨c1, c2⟩
        rw [hkeys] at c1
        refine ⟨c1.trans hk, fun x hx => ?_⟩
        obtain ⟨m, hm1, hm2⟩ := c2 x hx
        obtain ⟨m', hm3, hm4⟩ := hget x.1 (c1.mem_iff.mp (List.mem_map_of_mem hx))
        rw [hm1] at hm3; cases hm3
        exact (hacc m x.2 hm4).mp hm2
      · rintro ⟨c1, c2⟩
        have c1' := c1.trans hk.symm
        refine ⟨by rw [hkeys]; exact c1', fun x hx => ?_⟩
        obtain ⟨m', hm3, hm4⟩ := hget x.1 (c1'.mem_iff.mp (List.mem_map_of_mem hx))
        exact ⟨m', hm3, (hacc m' x.2 hm4).mpr (c2 x hx)⟩
    rw [h1]
    simp only [calls, h2, Forwards, Option.some.injEq]
    rcases hP : P st dev q with e | ⟨st', outs⟩
    · simp only [reduceCtorEq, false_and, false_iff]
      rintro ⟨q2, st2, outs2, rfl, g, _⟩
      rw [hP] at g; cases g
    · constructor
      · rintro ⟨g1, g2⟩
        cases g2 with
        | input _ _ _ _ _ _ g2 =>
          generalize hK : outs.map (fun x => Act.send x.1 x.2) ++ (calls P st' es).1 = K at g2
          cases g2 with
          | output _ _ l _ as2 hc hm =>
            obtain ⟨rfl, rfl⟩ := sends_split hK (calls_first P st' es) (forward_first ht _ hm)
            obtain ⟨c1, c2⟩ := (hcov _).mp hc
            exact ⟨q, st', outs, rfl, hP, c1, c2, (hi st').mp ⟨g1, hm⟩⟩
      · rintro ⟨q2, st2, outs2, rfl, g, c1, c2, c3⟩
        rw [hP] at g; cases g
        obtain ⟨g1, g2⟩ := (hi st').mpr c3
        exact ⟨g1, .input _ _ _ _ _ _ (.output w [] outs _ _ ((hcov outs).mpr ⟨c1, c2⟩) g2)⟩
  | quiet hist dev p fs es t hq ht ih =>
    obtain ⟨h1, _, r, b, q, q', hb, h2, _, _, _⟩ := frame_arrives (hg (dev, p) (by simp))
    have hi := ih (fun f hf => hg f (by simp [hf]))
    rw [h1]
    simp only [calls, h2, Forwards, Option.some.injEq, hq]
    rcases hP : P st dev q with e | ⟨st', outs⟩
    · simp only [reduceCtorEq, false_and, false_iff]
      rintro ⟨q2, st2, outs2, rfl, g, _⟩
      rw [hP] at g; cases g
    · constructor
      · rintro ⟨g1, g2⟩
        cases g2 with
        | input _ _ _ _ _ _ g2 =>
          cases outs with
          | cons x outs => cases g2
          | nil =>
            cases g2 with
            | timeout _ _ _ hm => exact ⟨q, st', [], rfl, hP, .refl _, by simp, (hi st').mp ⟨g1, hm⟩⟩
      · rintro ⟨q2, st2, outs2, rfl, g, c1, c2, c3⟩
        rw [hP] at g; cases g
        have : outs = [] := List.map_eq_nil_iff.mp c1.eq_nil
        subst this
        obtain ⟨g1, g2⟩ := (hi st').mpr c3
        exact ⟨g1, .input _ _ _ _ _ _ (.timeout t _ _ g2)⟩
  | silent hist dev p fs es hq ht ih =>
    obtain ⟨h1, _, r, b, q, q', hb, h2, _, _, _⟩ := frame_arrives (hg (dev, p) (by simp))
    have hi := ih (fun f hf => hg f (by simp [hf]))
    rw [h1]
    simp only [calls, h2, Forwards, Option.some.injEq, hq]
    rcases hP : P st dev q with e | ⟨st', outs⟩
    · simp only [reduceCtorEq, false_and, false_iff]
      rintro ⟨q2, st2, outs2, rfl, g, _⟩
      rw [hP] at g; cases g
    · constructor
      · rintro ⟨g1, g2⟩
        cases g2 with
        | input _ _ _ _ _ _ g2 =>
          have hs := sends_split (l := outs) (l' := []) (as := (calls P st' es).1)
            (as' := outs.map (fun x => Act.send x.1 x.2) ++ (calls P st' es).1)
            (by simp) (calls_first P st' es) (forward_first ht _ g2)
          obtain ⟨rfl, _⟩ := hs
          exact ⟨q, st', [], rfl, hP, .refl _, by simp, (hi st').mp ⟨g1, g2⟩⟩
      · rintro ⟨q2, st2, outs2, rfl, g, c1, c2, c3⟩
        rw [hP] at g; cases g
        have : outs = [] := List.map_eq_nil_iff.mp c1.eq_nil
        subst this
        obtain ⟨g1, g2⟩ := (hi st').mpr c3
        exact ⟨g1, .input _ _ _ _ _ _ g2⟩

theorem forward_matchers {F : Wants} {exact : Bool} {wild : List (Cls × HdrAttr)} {hist fs : List (List Char × Packet)}
    {es : List Event} (h : ForwardTests F exact wild hist fs es) (hn : ∀ hist dev p, (F hist dev p).Nodup)
    {ifaces : Dict (List Char) Iface} (hg : ∀ f ∈ fs, GoodFrame ifaces f) :
    (∀ e ∈ es, Usable ifaces e) ∧
    (∀ w s, Event.output w s ∈ es → ∀ x ∈ w, x.2.preds = [] ∧ ∃ r b, x.2.ref.toBytes = (r, .ok b)) ∧
    (∀ dev p f cs, Event.input dev p f cs ∈ es → (dev, p) ∈ fs ∧ f = some .eth) := by
  induction h with
  | nil hist => simp
  | sent hist dev p fs es args e ha he ht ih =>
    obtain ⟨i1, i2, i3⟩ := ih (fun f hf => hg f (by simp [hf]))
    have hgf := hg (dev, p) (by simp)
    obtain ⟨h1, h2, r, b, _, _, hb, _⟩ := frame_arrives hgf
    have hk : (args.map Prod.fst).Perm (F hist dev p) := by
      have := ha.map Prod.fst
      simpa [List.map_map, Function.comp_def] using this
    obtain ⟨w, rfl, hw, hu, hkeys, hms⟩ := output_new_partial args false exact wild [] e he
      (hk.nodup_iff.mpr (hn hist dev p))
    refine ⟨?_, ?_, ?_⟩
    · intro e he
      rcases List.mem_cons.mp he with rfl | he
      · exact h2
      · rcases List.mem_cons.mp he with rfl | he
        · exact ⟨hw, hu⟩
        · exact i1 e he
    · intro w' s' he x hx
      rw [h1] at he
      rcases List.mem_cons.mp he with he | he
      · cases he
      · rcases List.mem_cons.mp he with he | he
        · cases he
          have hxk : x.1 ∈ args.map Prod.fst := by rw [← hkeys]; exact List.mem_map_of_mem hx
          obtain ⟨y, hy, hyx⟩ := List.mem_map.mp hxk
          obtain ⟨m, hm1, hm2⟩ := hms y hy
          have hy2 : y.2 = p := by
            obtain ⟨_, _, he⟩ := List.mem_map.mp (ha.mem_iff.mp hy)
            rw [← he]
          have hg := Dict.get?_of_mem hu (k := x.1) (v := x.2) hx
          rw [← hyx, hm1] at hg
          cases hg
          unfold Matcher.new at hm2
          obtain ⟨d, _, hm2⟩ := bind_eq_ok.mp hm2
          obtain ⟨n, _, hm2⟩ := bind_eq_ok.mp hm2
          have hm2 := Except.ok.inj hm2
          rw [← hm2, hy2]
          exact ⟨rfl, r, b, hb⟩
        · exact i2 w' s' he x hx
    · intro dev' p' f' cs' he
      rw [h1] at he
      rcases List.mem_cons.mp he with he | he
      · cases he; exact ⟨by simp, rfl⟩
      · rcases List.mem_cons.mp he with he | he
        · cases he
        · obtain ⟨a, b⟩ := i3 _ _ _ _ he
          exact ⟨by simp [a], b⟩
  | quiet hist dev p fs es t hq ht ih =>
    obtain ⟨i1, i2, i3⟩ := ih (fun f hf => hg f (by simp [hf]))
    have hgf := hg (dev, p) (by simp)
    obtain ⟨h1, h2, r, b, _, _, hb, _⟩ := frame_arrives hgf
    refine ⟨?_, ?_, ?_⟩
    · intro e he
      rcases List.mem_cons.mp he with rfl | he
      · exact h2
      · rcases List.mem_cons.mp he with rfl | he
        · trivial
        · exact i1 e he
    · intro w' s' he x hx
      rw [h1] at he
      rcases List.mem_cons.mp he with he | he
      · cases he
      · rcases List.mem_cons.mp he with he | he
        · cases he
        · exact i2 w' s' he x hx
    · intro dev' p' f' cs' he
      rw [h1] at he
      rcases List.mem_cons.mp he with he | he
      · cases he; exact ⟨by simp, rfl⟩
      · rcases List.mem_cons.mp he with he | he
        · cases he
        · obtain ⟨a, b⟩ := i3 _ _ _ _ he
          exact ⟨by simp [a], b⟩
  | silent hist dev p fs es hq ht ih =>
    obtain ⟨i1, i2, i3⟩ := ih (fun f hf => hg f (by simp [hf]))
    have hgf := hg (dev, p) (by simp)
    obtain ⟨h1, h2, r, b, _, _, hb, _⟩ := frame_arrives hgf
    refine ⟨?_, ?_, ?_⟩
    · intro e he
      rcases List.mem_cons.mp he with rfl | he
      · exact h2
      · exact i1 e he
    · intro w' s' he x hx
      rw [h1] at he
      rcases List.mem_cons.mp he with he | he
      · cases he
      · exact i2 w' s' he x hx
    · intro dev' p' f' cs' he
      rw [h1] at he
      rcases List.mem_cons.mp he with he | he
      · cases he; exact ⟨by simp, rfl⟩
      · obtain ⟨a, b⟩ := i3 _ _ _ _ he
        exact ⟨by simp [a], b⟩

/-- **C222**: a program passes a test that expects frames to be forwarded unchanged, whatever the rule by which the ports
are determined, exactly if it sends every frame on each of the ports on which it is wanted, and on no other. -/
theorem forward_tests_exact {F : Wants} {exact : Bool} {wild : List (Cls × HdrAttr)}
    {fs : List (List Char × Packet)} (n : TestNet) (ht : ForwardTests F exact wild [] fs (eventsOf n))
    (hn : ∀ hist dev p, (F hist dev p).Nodup) (hg : ∀ f ∈ fs, GoodFrame n.scen.ifaces f)
    {σ : Type} (h : Handler σ) (P : Reaction σ) (st : σ) (hd : Does h P (eventsOf n)) (hP : Sensible P fs) :
    testProgram h st n = .allPassed ↔ Forwards F exact wild P [] st fs := by
  obtain ⟨h1, h2, h3⟩ := forward_matchers ht hn hg
  obtain ⟨c1, c2⟩ := sensible_calls P fs hP (eventsOf n) h3 st
  rw [program_reports h P st n hd h1 ?_ c1, forward_floods ht hn hg]
  intro d x hx w s hw y hy
  obtain ⟨x', b, hb⟩ := c2 d x hx
  obtain ⟨p1, r, b', hr⟩ := h2 w s hw y hy
  exact match_notShut p1 hb hr

/-! ## Programs without memory that send on what they receive -/

/-- Every frame is wanted on the ports that `G` says. -/
def AsWanted (F : Wants) (G : List Char → Packet → List (List Char)) :
    List (List Char × Packet) → List (List Char × Packet) → Prop
  | _, [] => True
  | hist, (dev, p) :: fs => (G dev p).Perm (F hist dev p) ∧ AsWanted F G ((dev, p) :: hist) fs

/-- The program that sends what it receives on the ports that `G` says. -/
def resends (G : List Char → Packet → List (List Char)) : Reaction Unit := fun _ dev p =>
  .ok ((), (G dev p).map fun d => (d, p))

/-- **C222**: a program that sends what it receives on ports determined by the frame, which may depend on all that does not
change on the way, passes a test of forwarding exactly if these are the ports on which the frame is wanted. -/
theorem resends_tests_at {F : Wants} {G : List Char → Packet → List (List Char)} {exact : Bool} {wild : List (Cls × HdrAttr)}
    {fs : List (List Char × Packet)} (n : TestNet) (ht : ForwardTests F exact wild [] fs (eventsOf n))
    (hn : ∀ hist dev p, (F hist dev p).Nodup) (hg : ∀ f ∈ fs, GoodFrame n.scen.ifaces f)
    (hG : ∀ dev p q, (dev, p) ∈ fs → arrives p (some .eth) = some q → G dev q = G dev p) (h : Handler Unit)
    (hh : ∀ dev p, (dev, p) ∈ fs → ∀ q q' b, ethDst q = ethDst p → (PrintablePkt p → PrintablePkt q) → (Stack .eth p) →
      arrives p (some .eth) = some q → q.toBytes = (q', .ok b) → ∀ n, h () dev q n = reactive (resends G) () dev q n) :
    testProgram h () n = .allPassed ↔ AsWanted F G [] fs := by
  obtain ⟨h1, h2, h3⟩ := forward_matchers ht hn hg
  rw [forward_tests_exact n ht hn hg h (resends G) ()]
  · clear h1 h2 h3 ht hh
    generalize ([] : List (List Char × Packet)) = hist
    induction fs generalizing hist with
    | nil => exact Iff.rfl
    | cons f fs ih =>
      obtain ⟨dev, p⟩ := f
      obtain ⟨q, x, b, e1, e2, e3, e4, e5⟩ := frame_facts (hg (dev, p) (by simp)) exact wild
      have hi := ih (fun f hf => hg f (by simp [hf])) (fun dev p q hm => hG dev p q (by simp [hm])) ((dev, p) :: hist)
      have hm : ((G dev q).map fun d => (d, q)).map Prod.fst = G dev p := by
        simp [List.map_map, Function.comp_def, hG dev p q (by simp) e1]
      simp only [Forwards, AsWanted]
      constructor
      · rintro ⟨q', st', outs, g1, g2, g3, _, g5⟩
        rw [e1] at g1; cases g1
        cases g2
        rw [hm] at g3
        exact ⟨g3, hi.mp g5⟩
      · rintro ⟨g1, g2⟩
        refine ⟨q, (), _, e1, rfl, by rw [hm]; exact g1, ?_, hi.mpr g2⟩
        intro y hy
        obtain ⟨d, _, rfl⟩ := List.mem_map.mp hy
        exact e5
  · intro dev p f cs q hm ha st n'
    obtain ⟨hf, rfl⟩ := h3 dev p f cs hm
    obtain ⟨q', x, b, e1, e2, e3, e4, _⟩ := frame_facts (hg _ hf) exact wild
    rw [ha] at e1; cases e1
    exact hh dev p hf q x b e3 e4 (hg _ hf).2.1 ha e2 n'
  · intro st dev p q hf ha
    obtain ⟨q', x, b, e1, e2, e3, e4, _⟩ := frame_facts (hg _ hf) exact wild
    rw [ha] at e1; cases e1
    simp only [resends]
    intro y hy
    obtain ⟨d, _, rfl⟩ := List.mem_map.mp hy
    exact ⟨x, b, e2⟩

theorem resends_tests {F : Wants} {G : List Char → Packet → List (List Char)} {exact : Bool} {wild : List (Cls × HdrAttr)}
    {fs : List (List Char × Packet)} (n : TestNet) (ht : ForwardTests F exact wild [] fs (eventsOf n))
    (hn : ∀ hist dev p, (F hist dev p).Nodup) (hg : ∀ f ∈ fs, GoodFrame n.scen.ifaces f)
    (hG : ∀ dev p q, ethDst q = ethDst p → G dev q = G dev p) (h : Handler Unit)
    (hh : ∀ dev p, (dev, p) ∈ fs → ∀ q q' b, ethDst q = ethDst p → (PrintablePkt p → PrintablePkt q) → (Stack .eth p) →
      arrives p (some .eth) = some q → q.toBytes = (q', .ok b) → ∀ n, h () dev q n = reactive (resends G) () dev q n) :
    testProgram h () n = .allPassed ↔ AsWanted F G [] fs := by
  refine resends_tests_at n ht hn hg (fun dev p q hm ha => hG dev p q ?_) h hh
  obtain ⟨q', x, b, e1, _, e3, _, _⟩ := frame_facts (hg _ hm) exact wild
  rw [ha] at e1; cases e1
  exact e3

/-! ## The program the switch exercise begins with -/

theorem valIn_eth (a : EthAddr) (l : List EthAddr) : valIn (.eth a) l = macIn a l := by
  induction l with
  | nil => rfl
  | cons b l ih => simp only [valIn, macIn, PyVal.ethArg, ih]

theorem printed_flood (ds : List (List Char)) {p p' : Packet} {b : Bytes} (h : p.toBytes = (p', .ok b)) (hp : PrintablePkt p)
    (n : TestNet) : printedFlood ds p n = floodTest ds p n := by
  induction ds generalizing p p' n with
  | nil => rfl
  | cons d ds ih =>
    obtain ⟨t, ht⟩ := (packet_str_partial p).1.mpr hp
    simp only [printedFlood, floodTest, ht]
    have hd := (send_done n d h).2.2
    rcases hs : n.send (.name d) p with ⟨n', p2, e⟩
    cases e with
    | some e => rfl
    | none =>
      rw [hs] at hd
      have : p2 = p' := (hd rfl).1
      subst this
      obtain ⟨bs, hf, _⟩ := toBytes_inv h
      exact ih (packet_idempotent p p2 b h) (printable_finish hf hp) n'

theorem switch_reacts (ifs : List Iface) (dev : List Char) {k : Ethernet} {rest p' : Packet} {b : Bytes}
    (hk : k.dst.raw ≠ []) (hp : PrintablePkt (.hdr (.eth k) :: rest)) (hb : Packet.toBytes (.hdr (.eth k) :: rest) = (p', .ok b))
    (n : TestNet) :
    switchHandler ifs () dev (.hdr (.eth k) :: rest) n = reactive (resends (floodPorts ifs)) () dev (.hdr (.eth k) :: rest) n := by
  obtain ⟨t, ht⟩ := (packet_str_partial _).1.mpr hp
  have h0 : firstDst (.hdr (.eth k) :: rest) = .ok (.eth k.dst) := by
    simp [firstDst, Packet.getItem, Packet.checkIdx, listIndex, Hdr.getattr]
    rfl
  have hd : ethDst (.hdr (.eth k) :: rest) = some k.dst := rfl
  simp only [switchHandler, ht, bind_ok, h0, valIn_eth, macIn_spec _ hk, reactive, resends, floodPorts, hd]
  by_cases hm : k.dst ∈ ifs.map Iface.ethaddr
  · have hm' := List.mem_map.mp hm
    simp only [hm, decide_true, if_pos hm', List.map_nil, makeSends, bind_ok]
  · have hm' : ¬ ∃ i ∈ ifs, i.ethaddr = k.dst := fun h' => hm (List.mem_map.mpr h')
    simp only [hm, decide_false, if_neg hm']
    have hl : (ifs.filter fun i => decide (dev ≠ i.name)).map Iface.name = (ifs.map Iface.name).filter fun d => decide (d ≠ dev) := by
      rw [List.filter_map]
      congr 1
      apply List.filter_congr
      intro i _
      simp only [Function.comp_apply, decide_eq_decide]
      exact ⟨fun h => h.symm, fun h => h.symm⟩
    rw [hl, printed_flood _ hb hp, (flood_sends _ hb n).1]
    generalize makeSends _ n = z
    obtain ⟨n', r⟩ := z
    cases r <;> rfl

/-- **C222**: the program with which the switch exercise begins passes a test of forwarding exactly if the test wants
every frame where a hub sends it: on all other ports, or nowhere if it is for the switch itself. -/
theorem switch_tests {F : Wants} {ifs : List Iface} {exact : Bool} {wild : List (Cls × HdrAttr)}
    {fs : List (List Char × Packet)} (n : TestNet) (ht : ForwardTests F exact wild [] fs (eventsOf n))
    (hn : ∀ hist dev p, (F hist dev p).Nodup) (hg : ∀ f ∈ fs, GoodFrame n.scen.ifaces f) (hp : ∀ f ∈ fs, PrintablePkt f.2) :
    testProgram (switchHandler ifs) () n = .allPassed ↔ AsWanted F (floodPorts ifs) [] fs := by
  refine resends_tests n ht hn hg (fun dev p q he => by unfold floodPorts; rw [he]) _ ?_
  intro dev p hf q q' b hd hpp hs ha hb n'
  obtain ⟨k, rest, r, q2, rest', _, _, h2, rfl, _⟩ := frame_head (hg _ hf)
  rw [ha] at h2; cases h2
  refine switch_reacts ifs dev ?_ (hpp (hp _ hf)) hb n'
  exact ethDst_len hs _ (hd.symm.trans rfl)

theorem asWanted_at {F : Wants} {G : List Char → Packet → List (List Char)} {dev : List Char} {p : Packet}
    {m : List (List Char × Packet)} (l hist : List (List Char × Packet)) (h : AsWanted F G hist (l ++ (dev, p) :: m)) :
    (G dev p).Perm (F (l.reverse ++ hist) dev p) := by
  induction l generalizing hist with
  | nil => exact h.1
  | cons f l ih =>
    have := ih _ h.2
    rw [List.reverse_cons, List.append_assoc]
    exact this

theorem hub_forward {ifs : List Iface} {exact : Bool} {wild : List (Cls × HdrAttr)} {fs : List (List Char × Packet)}
    {es : List Event} (h : HubTests ifs exact wild fs es) (hist : List (List Char × Packet)) :
    ForwardTests (fun _ => floodPorts ifs) exact wild hist fs es := by
  induction h generalizing hist with
  | nil => exact .nil _
  | flood dev p fs es args e ha he _ ih => exact .sent _ dev p fs es args e ha he (ih _)
  | quiet dev p fs es t hq _ ih => exact .quiet _ dev p fs es t hq (ih _)

/-- **C222**: the program with which the switch exercise begins passes every test of a hub. -/
theorem switch_passes_hub {ifs : List Iface} {exact : Bool} {wild : List (Cls × HdrAttr)} {fs : List (List Char × Packet)}
    (n : TestNet) (ht : HubTests ifs exact wild fs (eventsOf n)) (hn : (ifs.map Iface.name).Nodup)
    (hg : ∀ f ∈ fs, GoodFrame n.scen.ifaces f) (hp : ∀ f ∈ fs, PrintablePkt f.2) :
    testProgram (switchHandler ifs) () n = .allPassed := by
  rw [switch_tests n (hub_forward ht []) (fun _ dev p => floodPorts_nodup ifs dev p hn) hg hp]
  generalize ([] : List (List Char × Packet)) = hist
  clear ht hg hp
  induction fs generalizing hist with
  | nil => trivial
  | cons f fs ih => exact ⟨.refl _, ih _⟩

/-- The device on which the latest frame from this address arrived. -/
def lastSeen (a : EthAddr) (hist : List (List Char × Packet)) : Option (List Char) :=
  hist.findSome? fun f => if ethSrc f.2 = some a then some f.1 else none

/-- What learning_switch.rst 9-20 asks for: a frame to a host that has been heard of goes to the port where it was heard last
(nothing is said of a frame that came from there), if it is neither for the switch itself nor for all. -/
def Learning (ifs : List Iface) (F : Wants) : Prop :=
  ∀ hist dev p a d, ethDst p = some a → (∀ i ∈ ifs, i.ethaddr ≠ a) → a ≠ EthAddr.broadcast → ethSrc p ≠ some a →
    lastSeen a hist = some d → d ≠ dev → F hist dev p = [d]

/-- **C222**: the program with which the switch exercise begins fails every test of a learning switch in which a frame is
sent to a host that has been heard of, if there is a third port. -/
theorem switch_not_learning {F : Wants} {ifs : List Iface} {exact : Bool} {wild : List (Cls × HdrAttr)}
    {l m : List (List Char × Packet)} {dev d : List Char} {p : Packet} {a : EthAddr} (n : TestNet) (hF : Learning ifs F)
    (ht : ForwardTests F exact wild [] (l ++ (dev, p) :: m) (eventsOf n))
    (hn : ∀ hist dev p, (F hist dev p).Nodup) (hg : ∀ f ∈ l ++ (dev, p) :: m, GoodFrame n.scen.ifaces f)
    (hp : ∀ f ∈ l ++ (dev, p) :: m, PrintablePkt f.2)
    (ha : ethDst p = some a) (ho : ∀ i ∈ ifs, i.ethaddr ≠ a) (hb : a ≠ EthAddr.broadcast) (hs : ethSrc p ≠ some a)
    (hl : lastSeen a l.reverse = some d) (hd : d ≠ dev) (h3 : ∃ i ∈ ifs, i.name ≠ dev ∧ i.name ≠ d) :
    testProgram (switchHandler ifs) () n ≠ .allPassed := by
  rw [ne_eq, switch_tests n ht hn hg hp]
  intro h
  have := asWanted_at l [] h
  rw [List.append_nil, hF _ dev p a d ha ho hb hs hl hd] at this
  obtain ⟨i, hi, h4, h5⟩ := h3
  have hm : i.name ∈ floodPorts ifs dev p := by
    simp only [floodPorts, ha]
    rw [if_neg (by rintro ⟨j, hj, e⟩; exact ho j hj e)]
    simp only [List.mem_filter, List.mem_map, decide_eq_true_eq]
    exact ⟨⟨i, hi, rfl⟩, h4⟩
  exact h5 (List.mem_singleton.mp (this.mem_iff.mp hm))

/-- **C222**: that program can deal with Ethernet frames only: a packet that begins with an IP, TCP or UDP header ends it,
as does an empty one. -/
theorem switch_other_first {ifs : List Iface} (hi : ifs ≠ []) (dev : List Char) (p : Packet) (hp : PrintablePkt p) (n : TestNet)
    (h : Hdr) (rest : Packet) (hh : p = .hdr h :: rest) (hc : h.cls ∈ [Cls.ip4, .ip6, .udp, .tcp]) :
    switchHandler ifs () dev p n = (n, .error .runtimeError) := by
  subst hh
  obtain ⟨t, ht⟩ := (packet_str_partial _).1.mpr hp
  obtain ⟨v, hv, he⟩ : ∃ v, firstDst (.hdr h :: rest) = .ok v ∧ PyVal.ethArg (some v) = .other := by
    cases h <;> first
      | (exfalso; simp [Hdr.cls] at hc; done)
      | (refine ⟨_, by simp [firstDst, Packet.getItem, Packet.checkIdx, listIndex, Hdr.getattr]; rfl, rfl⟩)
  obtain ⟨i, is, rfl⟩ := List.exists_cons_of_ne_nil hi
  simp only [switchHandler, ht, bind_ok, hv, List.map_cons, valIn, he]
  rfl

theorem switch_empty (ifs : List Iface) (dev : List Char) (n : TestNet) :
    switchHandler ifs () dev [] n = (n, .error .indexError) := by rfl

/-! ## Programs that answer, and programs that only listen -/

/-- **C222**: the program of the documentation that sends packets back passes a test of forwarding exactly if every frame is
wanted on the port it arrived on, and nowhere else. -/
theorem echo_tests {F : Wants} {exact : Bool} {wild : List (Cls × HdrAttr)}
    {fs : List (List Char × Packet)} (n : TestNet) (ht : ForwardTests F exact wild [] fs (eventsOf n))
    (hn : ∀ hist dev p, (F hist dev p).Nodup) (hg : ∀ f ∈ fs, GoodFrame n.scen.ifaces f) (hp : ∀ f ∈ fs, PrintablePkt f.2) :
    testProgram echoHandler () n = .allPassed ↔ AsWanted F (fun dev _ => [dev]) [] fs := by
  refine resends_tests n ht hn hg (fun _ _ _ _ => rfl) _ ?_
  intro dev p hf q q' b hd hpp hs ha hb n'
  obtain ⟨t, ht⟩ := (packet_str_partial q).1.mpr (hpp (hp _ hf))
  simp only [echoHandler, ht, reactive, resends, List.map_cons, List.map_nil, makeSends]
  rcases n'.send (.name dev) q with ⟨n2, p2, e⟩
  cases e <;> rfl

/-- What a program that never sends does. -/
def listens : Reaction Unit := fun _ _ _ => .ok ((), [])

theorem listens_calls (es : List Event) : (calls listens () es).2 = none ∧ ∀ a ∈ (calls listens () es).1, a = .recv := by
  induction es with
  | nil => simp [calls]
  | cons e es ih =>
    cases e with
    | timeout t => simpa [calls] using ih
    | output w s => exact ih
    | input dev p f cs =>
      simp only [calls]
      cases arrives p f with
      | none => simp
      | some q => simpa [listens] using ih

/-- **C222**: the program with which the router exercise begins passes a test exactly if the test expects nothing to be sent. -/
theorem router_tests (n : TestNet) (hu : ∀ e ∈ eventsOf n, Usable n.scen.ifaces e)
    (hp : ∀ dev p f cs q, Event.input dev p f cs ∈ eventsOf n → arrives p f = some q → PrintablePkt q) :
    testProgram routerHandler () n = .allPassed ↔ ∀ w s, Event.output w s ∉ eventsOf n := by
  have hc := listens_calls (eventsOf n)
  rw [program_reports routerHandler listens () n]
  · simp only [hc.1, true_and]
    generalize eventsOf n = es at *
    induction es with
    | nil => simp [calls, Meets.done]
    | cons e es ih =>
      have hi := ih (fun e he => hu e (by simp [he])) (fun dev p f cs q h => hp dev p f cs q (by simp [h])) (listens_calls es)
      have hue := hu e (by simp)
      cases e with
      | timeout t =>
        simp only [calls, List.mem_cons, reduceCtorEq, false_or]
        exact Iff.trans ⟨fun h => by cases h with | timeout _ _ _ h => exact h, fun h => .timeout t _ _ h⟩ hi
      | input dev p f cs =>
        obtain ⟨_, _, p', b, q, hb, hq⟩ := hue
        have ha : arrives p f = some q := by simp only [arrives, hb, hq, Except.toOption]
        simp only [calls, ha, listens, List.map_nil, List.nil_append, List.mem_cons, reduceCtorEq, false_or]
        exact Iff.trans ⟨fun h => by cases h with | input _ _ _ _ _ _ h => exact h, fun h => .input dev p f cs _ _ h⟩ hi
      | output w s =>
        constructor
        · intro h
          obtain ⟨d', p', k', m', g1, -⟩ := meets_output_ne hue.1 h
          have := hc.2 (.send d' p') (by rw [g1]; simp)
          cases this
        · intro h
          exact absurd (List.mem_cons_self) (h w s)
  · intro dev p f cs q hm ha st n'
    obtain ⟨t, ht⟩ := (packet_str_partial q).1.mpr (hp dev p f cs q hm ha)
    simp only [routerHandler, ht, reactive, listens, makeSends, bind_ok]
  · exact hu
  · intro d x hx
    cases hc.2 _ hx
  · rw [hc.1]; simp

/-! ## The program the firewall exercise begins with -/

theorem foldl_set_other {l : List (List Char × List Char)} {k : List Char} (h : k ∉ l.map Prod.fst) (d : Dict (List Char) (List Char)) :
    Dict.get? (l.foldl (fun d x => Dict.set d x.1 x.2) d) k = Dict.get? d k := by
  induction l generalizing d with
  | nil => rfl
  | cons x l ih =>
    simp only [List.map_cons, List.mem_cons, not_or] at h
    rw [List.foldl_cons, ih h.2, Dict.get?_set, if_neg (fun e => h.1 e.symm)]

theorem foldl_set_get {l : List (List Char × List Char)} (h : (l.map Prod.fst).Nodup) (d : Dict (List Char) (List Char)) :
    ∀ x ∈ l, Dict.get? (l.foldl (fun d x => Dict.set d x.1 x.2) d) x.1 = some x.2 := by
  induction l generalizing d with
  | nil => simp
  | cons y l ih =>
    simp only [List.map_cons, List.nodup_cons] at h
    intro x hx
    rcases List.mem_cons.mp hx with rfl | hx
    · rw [List.foldl_cons, foldl_set_other h.1, Dict.get?_set, if_pos rfl]
    · exact ih h.2 _ x hx

/-- **C222**: the program with which the firewall exercise begins pairs the first port with the last, the second with the
last but one, and so on; a port in the middle with itself. -/
theorem firewall_pairs {names : List (List Char)} (h : names.Nodup) :
    (∀ i (hi : i < names.length), (portPair names).get? names[i] = some (names[names.length - 1 - i]'(by omega))) ∧
    (∀ d ∉ names, (portPair names).get? d = none) := by
  have hm : (names.zip names.reverse).map Prod.fst = names := by
    rw [List.map_fst_zip]; simp
  constructor
  · intro i hi
    have := foldl_set_get (l := names.zip names.reverse) (by rw [hm]; exact h) [] (names[i], names[names.length - 1 - i]'(by omega)) ?_
    · exact this
    · rw [List.mem_iff_getElem]
      exact ⟨i, by simp [hi], by simp⟩
  · intro d hd
    exact (foldl_set_other (l := names.zip names.reverse) (by rw [hm]; exact hd) []).trans rfl

/-- **C222**: with exactly two ports, the program with which the firewall exercise begins passes a test of forwarding
exactly if every frame is wanted on the other port, and nowhere else. -/
theorem firewall_tests {F : Wants} {ifs : List Iface} {a b : List Char} {exact : Bool} {wild : List (Cls × HdrAttr)}
    {fs : List (List Char × Packet)} (n : TestNet) (ht : ForwardTests F exact wild [] fs (eventsOf n))
    (hn : ∀ hist dev p, (F hist dev p).Nodup) (hg : ∀ f ∈ fs, GoodFrame n.scen.ifaces f)
    (hi : ifs.map Iface.name = [a, b]) (hab : a ≠ b) (hf : ∀ f ∈ fs, f.1 = a ∨ f.1 = b) :
    testProgram (firewallHandler ifs) () n = .allPassed ↔ AsWanted F (fun dev _ => [if dev = a then b else a]) [] fs := by
  refine resends_tests n ht hn hg (fun _ _ _ _ => rfl) _ ?_
  intro dev p hm q q' bs _ _ _ _ _ n'
  have hd : (portPair (ifs.map Iface.name)).get? dev = some (if dev = a then b else a) := by
    rw [hi]
    have h2 := (firewall_pairs (names := [a, b]) (by simp [hab])).1
    rcases hf _ hm with h | h
    · have h : dev = a := h
      subst h
      rw [if_pos rfl]
      exact h2 0 (by simp)
    · have h : dev = b := h
      subst h
      rw [if_neg (fun e => hab e.symm)]
      exact h2 1 (by simp)
  simp only [firewallHandler, hd, reactive, resends, List.map_cons, List.map_nil, makeSends]
  rcases n'.send (.name (if dev = a then b else a)) q with ⟨n2, p2, e⟩
  cases e <;> rfl

/-! ## A case of these theorems -/

/-- What a learning switch is wanted to do. -/
def exLearn (ifs : List Iface) : Wants := fun hist dev p =>
  match ethDst p with
  | none => []
  | some a =>
    match lastSeen a hist with
    | none => floodPorts ifs dev p
    | some d =>
      if (∃ i ∈ ifs, i.ethaddr = a) ∨ a = EthAddr.broadcast ∨ ethSrc p = some a ∨ d = dev then floodPorts ifs dev p else [d]

theorem exLearn_ok : Learning exHubIfs (exLearn exHubIfs) ∧ ∀ hist dev p, (exLearn exHubIfs hist dev p).Nodup := by
  have hf : ∀ dev p, (floodPorts exHubIfs dev p).Nodup := by
    intro dev p
    unfold floodPorts
    have hn : (exHubIfs.map Iface.name).Nodup := exHub_ok.2.1
    cases ethDst p with
    | none => simp
    | some a =>
      dsimp only
      split
      · simp
      · exact hn.filter _
  constructor
  · intro hist dev p a d h1 h2 h3 h4 h5 h6
    simp only [exLearn, h1, h5]
    rw [if_neg]
    rintro (⟨i, hi, e⟩ | e | e | e)
    · exact h2 i hi e
    · exact h3 e
    · exact h4 e
    · exact h6 e
  · intro hist dev p
    unfold exLearn
    cases ethDst p with
    | none => simp
    | some a =>
      dsimp only
      cases lastSeen a hist with
      | none => exact hf dev p
      | some d =>
        dsimp only
        split
        · exact hf dev p
        · simp

/-- A frame to the host that sent the frame of the other example. -/
def exBack : Packet :=
  exPacket.map fun
    | .hdr (.eth h) => .hdr (.eth { h with src := h.dst, dst := h.src })
    | x => x

/-- The output expectation for it. -/
def exBackOut : Event :=
  match Event.mkOutput [("eth1".toList, exBack)] false true [] [] with
  | .ok e => e
  | .error _ => .timeout 0

/-- The frames: the second is to the host that sent the first. -/
def exLearnFrames : List (List Char × Packet) := [("eth1".toList, exPacket), ("eth0".toList, exBack)]

/-- The test scenario. -/
def exLearnNet : TestNet :=
  { scen :=
      { ifaces := exHubIfs.map fun i => (i.name, i)
        pending := [⟨.mkInput "eth1".toList exPacket, [], 0⟩, ⟨exHubOut, [], 1⟩, ⟨.mkInput "eth0".toList exBack, [], 2⟩,
          ⟨exBackOut, [], 3⟩]
        nextTs := 4 } }

theorem exLearnNet_ok : ForwardTests (exLearn exHubIfs) true [] [] exLearnFrames (eventsOf exLearnNet) ∧
    (∀ f ∈ exLearnFrames, GoodFrame exLearnNet.scen.ifaces f) ∧ (∀ f ∈ exLearnFrames, PrintablePkt f.2) := by
  have ho : Event.mkOutput [("eth2".toList, exPacket), ("eth0".toList, exPacket)] false true [] [] = .ok exHubOut := by
    obtain ⟨e, he, _⟩ := Except.of_test (r := Event.mkOutput [("eth2".toList, exPacket), ("eth0".toList, exPacket)] false true [] [])
      (p := fun _ => true) (by decide +kernel)
    unfold exHubOut
    rw [he]
  have ho' : Event.mkOutput [("eth1".toList, exBack)] false true [] [] = .ok exBackOut := by
    obtain ⟨e, he, _⟩ := Except.of_test (r := Event.mkOutput [("eth1".toList, exBack)] false true [] [])
      (p := fun _ => true) (by decide +kernel)
    unfold exBackOut
    rw [he]
  refine ⟨?_, ?_, ?_⟩
  · refine .sent _ "eth1".toList exPacket _ _ [("eth2".toList, exPacket), ("eth0".toList, exPacket)] exHubOut ?_ ho ?_
    · have : exLearn exHubIfs [] "eth1".toList exPacket = ["eth0".toList, "eth2".toList] := by decide +kernel
      rw [this]
      exact .swap _ _ _
    · refine .sent _ "eth0".toList exBack _ _ [("eth1".toList, exBack)] exBackOut ?_ ho' (.nil _)
      have : exLearn exHubIfs [("eth1".toList, exPacket)] "eth0".toList exBack = ["eth1".toList] := by decide +kernel
      rw [this]
      exact .refl _
  · intro f hf
    simp only [exLearnFrames, List.mem_cons, List.not_mem_nil, or_false] at hf
    rcases hf with rfl | rfl
    · exact exHub_ok.2.2.1 _ (by simp [exFrames])
    · refine ⟨by decide +kernel, ?_, ?_⟩
      · refine ⟨rfl, ⟨by decide, by decide⟩, rfl, ⟨by decide, rfl⟩, rfl, by show UDP.WF _; decide, .inr ⟨?_, 104, [105], rfl⟩⟩
        intro h; rcases h with h | h | h <;> cases h
      · obtain ⟨b, hb, _⟩ := Except.of_test (r := exBack.toBytes.2) (p := fun _ => true) (by decide +kernel)
        exact ⟨exBack.toBytes.1, b, Prod.ext rfl hb⟩
  · intro f hf h hh
    simp only [exLearnFrames, List.mem_cons, List.not_mem_nil, or_false] at hf
    rcases hf with rfl | rfl <;>
      simp only [exBack, exPacket, List.map_cons, List.map_nil, List.mem_cons, Item.hdr.injEq, List.not_mem_nil, or_false] at hh <;>
      rcases hh with rfl | rfl | rfl | rfl <;> trivial

example : testProgram (switchHandler exHubIfs) () exLearnNet ≠ .allPassed :=
  switch_not_learning (l := [("eth1".toList, exPacket)]) (m := []) (a := (ethSrc exPacket).getD EthAddr.broadcast)
    exLearnNet exLearn_ok.1 exLearnNet_ok.1 exLearn_ok.2 exLearnNet_ok.2.1 exLearnNet_ok.2.2
    (by decide +kernel) (by decide +kernel) (by decide +kernel) (by decide +kernel) (d := "eth1".toList) (by decide +kernel)
    (by decide +kernel) (by decide +kernel)

example : testProgram (switchHandler exHubIfs) () exHubNet = .allPassed :=
  let ⟨a, b, c, d⟩ := exHub_ok
  switch_passes_hub exHubNet a b c d

/-- A test of a bridge. -/
def exBridgeNet : TestNet :=
  { scen :=
      { ifaces := [("eth0".toList, exIf "eth0" 1 1), ("eth1".toList, exIf "eth1" 2 2)]
        pending := [⟨.mkInput "eth0".toList exBack, [], 0⟩, ⟨exBackOut, [], 1⟩]
        nextTs := 2 } }

example : testProgram (firewallHandler [exIf "eth0" 1 1, exIf "eth1" 2 2]) () exBridgeNet = .allPassed ∧
    testProgram (firewallHandler [exIf "eth0" 1 1, exIf "eth1" 2 2, exIf "eth2" 3 3]) () exBridgeNet = .aTestFailed := by
  decide +kernel

example : ForwardTests (fun _ dev _ => [if dev = "eth0".toList then "eth1".toList else "eth0".toList]) true [] []
      [("eth0".toList, exBack)] (eventsOf exBridgeNet) ∧
    GoodFrame exBridgeNet.scen.ifaces ("eth0".toList, exBack) := by
  have ho' : Event.mkOutput [("eth1".toList, exBack)] false true [] [] = .ok exBackOut := by
    obtain ⟨e, he, _⟩ := Except.of_test (r := Event.mkOutput [("eth1".toList, exBack)] false true [] [])
      (p := fun _ => true) (by decide +kernel)
    unfold exBackOut
    rw [he]
  refine ⟨.sent _ "eth0".toList exBack _ _ [("eth1".toList, exBack)] exBackOut ?_ ho' (.nil _), by decide +kernel,
    (exLearnNet_ok.2.1 _ (by simp [exLearnFrames])).2⟩
  simp

example : testProgram echoHandler () exLearnNet ≠ .allPassed := by
  rw [ne_eq, echo_tests exLearnNet exLearnNet_ok.1 exLearn_ok.2 exLearnNet_ok.2.1 exLearnNet_ok.2.2]
  intro h
  exact absurd (h.1.length_eq) (by decide +kernel)

example : (∀ e ∈ eventsOf exLearnNet, Usable exLearnNet.scen.ifaces e) :=
  (forward_matchers exLearnNet_ok.1 exLearn_ok.2 exLearnNet_ok.2.1).1

end SY.Props
