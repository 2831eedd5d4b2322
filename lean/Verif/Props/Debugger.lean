import Verif.Props.Suite

/-! # `debugger()` and the time limit of expected outputs (C221) -/

namespace SY.Props

/-- A timeout has hit the program after it called `debugger()`. -/
def LateAfterDebugger (h : List Seen) : Prop := ∃ a b, h = a ++ Seen.debugged :: b ∧ Seen.late ∈ b

theorem fire_debug {s : Proc} (h : s.debug = true) : s.fire.2 = false := by
  unfold Proc.fire
  split
  · rfl
  · rw [if_pos h]

theorem late_snoc {h : List Seen} {x : Seen} (hx : x ≠ .late) (hn : ¬ LateAfterDebugger h) : ¬ LateAfterDebugger (h ++ [x]) := by
  rintro ⟨a, b, e, hb⟩
  rcases List.eq_nil_or_concat b with rfl | ⟨b', y, rfl⟩
  · cases hb
  · have e' : h ++ [x] = (a ++ Seen.debugged :: b') ++ [y] := by rw [e]; simp
    obtain ⟨e1, e2⟩ := List.append_inj' e' rfl
    refine hn ⟨a, b', e1, ?_⟩
    rw [List.concat_eq_append] at hb
    rcases List.mem_append.mp hb with hb | hb
    · exact hb
    · simp only [List.mem_singleton] at hb e2
      exact absurd ((List.cons.inj e2).1.trans hb.symm) hx

/-- One turn of a program that has called `debugger()` if its history says so. -/
theorem turn_debug (s : Proc) (prog : Tested) (b : Bool) (h : List Seen) (hd : Seen.debugged ∈ h → s.debug = true)
    (hn : ¬ LateAfterDebugger h) :
    (Seen.debugged ∈ (s.turn prog b h).2.1 → (s.turn prog b h).1.debug = true) ∧ ¬ LateAfterDebugger (s.turn prog b h).2.1 ∧
      (s.debug = true → (s.turn prog b h).1.debug = true ∧ (Seen.late ∈ (s.turn prog b h).2.1 → Seen.late ∈ h)) := by
  unfold Proc.turn
  split
  · rw [(fire_state s).2.2.1]
    by_cases hs : s.debug = true
    · rw [fire_debug hs]
      exact ⟨fun _ => hs, hn, fun _ => ⟨hs, id⟩⟩
    · have hm : Seen.debugged ∉ h := fun hh => hs (hd hh)
      refine ⟨fun hh => ?_, ?_, fun hh => absurd hh hs⟩
      · exfalso
        split at hh
        · simp only [List.mem_append, List.mem_singleton, reduceCtorEq, or_false] at hh
          exact hm hh
        · exact hm hh
      · rintro ⟨a, c, e, _⟩
        have hh : Seen.debugged ∈ (if s.fire.2 = true then h ++ [Seen.late] else h) := by simp only at e; rw [e]; simp
        split at hh
        · simp only [List.mem_append, List.mem_singleton, reduceCtorEq, or_false] at hh
          exact hm hh
        · exact hm hh
  · split
    · rw [after_debug]
      exact ⟨fun hh => hd (by simpa using hh), late_snoc (by simp) hn, fun hs => ⟨hs, by simp⟩⟩
    · rw [after_debug]
      exact ⟨fun hh => hd (by simpa using hh), late_snoc (by simp) hn, fun hs => ⟨hs, by simp⟩⟩
    · exact ⟨fun _ => rfl, late_snoc (by simp) hn, fun _ => ⟨rfl, by simp⟩⟩
    · exact ⟨fun hh => hd (by simpa using hh), late_snoc (by simp) hn, fun hs => ⟨hs, by simp⟩⟩
    · exact ⟨hd, hn, fun hs => ⟨hs, id⟩⟩

theorem turn_agree {prog prog' : Tested} {h : List Seen} (e : prog h = prog' h) (s : Proc) (b : Bool) :
    s.turn prog b h = s.turn prog' b h := by
  unfold Proc.turn
  rw [e]

/-- **C221**, partial: a program that has called `debugger()` is never again interrupted by the time limit of an expected
output, whatever it does and whenever alarms arrive: programs that differ only in how they react to a timeout after a call
of `debugger()` behave alike.  Missing: that the limits work again when the debugger has been left
(`debugger_forever_violated`), and the debugger the harness starts itself (`pdb_interrupted_violated`). -/
theorem debugger_undisturbed_partial (s : Proc) (prog prog' : Tested) (bs : List Bool)
    (hp : ∀ h, ¬ LateAfterDebugger h → prog h = prog' h) : s.play prog bs [] = s.play prog' bs [] := by
  have hg : ∀ (bs : List Bool) (s : Proc) (h : List Seen), (Seen.debugged ∈ h → s.debug = true) → ¬ LateAfterDebugger h →
      s.play prog bs h = s.play prog' bs h := by
    intro bs
    induction bs with
    | nil => exact fun _ _ _ _ => rfl
    | cons b bs ih =>
      intro s h hd hn
      unfold Proc.play
      obtain ⟨t1, t2, _⟩ := turn_debug s prog b h hd hn
      rw [← turn_agree (hp h hn) s b]
      rcases hq : s.turn prog b h with ⟨a, k, _ | e⟩
      · rw [hq] at t1 t2; exact ih a k t1 t2
      · rfl
  exact hg bs s [] (by simp) (by rintro ⟨a, b, e, _⟩; simp at e)

/-- In a process in which `debugger()` was called before, no timeout reaches a program at all. -/
theorem debugger_no_timeouts (s : Proc) (hs : s.debug = true) (prog prog' : Tested) (bs : List Bool)
    (hp : ∀ h, Seen.late ∉ h → prog h = prog' h) : s.play prog bs [] = s.play prog' bs [] := by
  have hg : ∀ (bs : List Bool) (s : Proc) (h : List Seen), s.debug = true → Seen.late ∉ h →
      s.play prog bs h = s.play prog' bs h := by
    intro bs
    induction bs with
    | nil => exact fun _ _ _ _ => rfl
    | cons b bs ih =>
      intro s h hd hn
      unfold Proc.play
      obtain ⟨_, _, t3⟩ := turn_debug s prog b h (fun _ => hd) (by
        rintro ⟨x, y, e, hb⟩; exact hn (by rw [e]; simp [hb]))
      have t3 := t3 hd
      rw [← turn_agree (hp h hn) s b]
      rcases hq : s.turn prog b h with ⟨a, k, _ | e⟩
      · rw [hq] at t3; exact ih a k t3.1 (fun hh => hn (t3.2 hh))
      · rfl
  exact hg bs s [] hs (by simp)

/-! ## The flag stays -/

theorem play_debug {s : Proc} (hs : s.debug = true) (prog : Tested) (bs : List Bool) (h : List Seen) :
    (s.play prog bs h).1.debug = true := by
  induction bs generalizing s h with
  | nil => exact hs
  | cons b bs ih =>
    have ht : (s.turn prog b h).1.debug = true := by
      unfold Proc.turn
      split
      · rw [(fire_state s).2.2.1]; exact hs
      · split
        · rw [after_debug]; exact hs
        · rw [after_debug]; exact hs
        · rfl
        · exact hs
        · exact hs
    unfold Proc.play
    rcases hq : s.turn prog b h with ⟨a, k, _ | e⟩
    · rw [hq] at ht; exact ih ht k
    · rw [hq] at ht; exact ht

/-- The parts of a run that keep the flag and are ended by nothing but the program. -/
def DebugPart (a : Part) : Prop := a.1.proc.debug = true ∧ (a.2.2 = none ∨ a.2.2 = some .running ∨ a.2.2 = some .exits)

theorem andThen_debug {a : Part} {f : Harness → Part} (ha : DebugPart a)
    (hf : ∀ s : Harness, s.proc.debug = true → DebugPart (f s)) : DebugPart (a.andThen f) := by
  obtain ⟨s, l, _ | x⟩ := a
  · exact hf s ha.1
  · exact ha

theorem gap_debug {s : Harness} (hs : s.proc.debug = true) (b : Bool) : DebugPart (s.gap b) := by
  unfold Harness.gap
  split
  · exact ⟨by rw [(fire_state s.proc).2.2.1]; exact hs, .inl (by rw [fire_debug hs]; rfl)⟩
  · exact ⟨hs, .inl rfl⟩

/-- Nothing but the program and the alarm can end this test: loading, writing, `setup`, `teardown` and printing do not
raise. -/
def SoundTest (y : Test × Course) : Prop :=
  y.2.load = none ∧ y.2.files = none ∧ (∀ e, y.1.setup ≠ some (some e)) ∧ (∀ e, y.1.teardown ≠ some (some e)) ∧
    ∀ s, y.2.print s = none

theorem hook_debug {s : Harness} (hs : s.proc.debug = true) {f : Option (Option PyErr)} (hf : ∀ e, f ≠ some (some e)) (a : SuiteAct) :
    DebugPart (s.hook f a) := by
  rcases f with _ | _ | e
  · exact ⟨hs, .inl rfl⟩
  · exact ⟨hs, .inl rfl⟩
  · exact absurd rfl (hf e)

theorem test_debug {s : Harness} (hs : s.proc.debug = true) {t : Test} {c : Course} (hy : SoundTest (t, c)) :
    DebugPart (s.test false t c) := by
  obtain ⟨y1, y2, y3, y4, y5⟩ := hy
  simp only at y1 y2 y3 y4 y5
  unfold Harness.test Harness.prepare
  refine andThen_debug (andThen_debug (andThen_debug (andThen_debug (gap_debug hs _) fun s hs => ?_) fun s hs =>
    andThen_debug (gap_debug hs _) fun s hs => ?_) fun s hs => andThen_debug (gap_debug hs _) fun s hs => hook_debug hs y3 _)
    fun s hs => ?_
  · rw [y1]; exact ⟨hs, .inl rfl⟩
  · rw [y2]; exact ⟨hs, .inl rfl⟩
  · have hp := play_debug hs c.prog c.turns []
    have hf : ∀ (z : Harness) (e : Option PyErr), z.proc.debug = true → DebugPart (z.finish false t c e) := by
      intro z e hz
      unfold Harness.finish Harness.report
      refine andThen_debug (andThen_debug (andThen_debug (andThen_debug (gap_debug hz _) fun s hs => hook_debug hs y4 _)
        fun s hs => andThen_debug (gap_debug hs _) fun s hs => ?_) fun s hs => ?_) fun s hs => gap_debug hs _
      · rw [y5]; exact ⟨hs, .inl rfl⟩
      · exact ⟨hs, .inl rfl⟩
    unfold Harness.user
    rcases hq : s.proc.play c.prog c.turns [] with ⟨p, _ | e⟩
    · rw [hq] at hp; exact ⟨hp, .inr (.inl rfl)⟩
    · rw [hq] at hp
      cases e with
      | exits => exact ⟨hp, .inr (.inr rfl)⟩
      | returned => exact hf { s with proc := p } none hp
      | raised x => exact hf { s with proc := p } (some x) hp

/-- In a process in which `debugger()` was called before, alarms do not end the harness either: whatever programs do and
whenever alarms arrive, all tests are run unless a program does not end or calls `sys.exit()`. -/
theorem debugger_all_run (l : List (Test × Course)) (hl : ∀ y ∈ l, SoundTest y) (s : Harness) (hs : s.proc.debug = true) :
    (s.run false l).2.2 = some .running ∨ (s.run false l).2.2 = some .exits ∨
      ((s.run false l).2.2 = none ∧ (s.run false l).2.1.length = l.length) := by
  induction l generalizing s with
  | nil => exact .inr (.inr ⟨rfl, rfl⟩)
  | cons y l ih =>
    obtain ⟨t, c⟩ := y
    have hd := test_debug hs (hl (t, c) (by simp))
    unfold Harness.run
    rcases hq : s.test false t c with ⟨a, k, _ | x⟩
    · rw [hq] at hd
      rcases ih (fun y hy => hl y (List.mem_cons_of_mem _ hy)) a.leave hd.1 with h | h | ⟨h, h'⟩
      · exact .inl h
      · exact .inr (.inl h)
      · exact .inr (.inr ⟨h, by simp only [List.length_cons, h']⟩)
    · rw [hq] at hd
      rcases hd.2 with h | h | h
      · cases h
      · exact .inl h
      · exact .inr (.inl h)

/-! ## Examples -/

/-- A program that looks at its state in the debugger, asks for one packet and returns. -/
def debugging : Tested := fun h =>
  match h with
  | [] => .debug
  | [_] => .recv
  | _ => .stop .returned

/-- A program that asks for one packet and then never does anything more, until it is interrupted. -/
def sleeper : Tested := fun h =>
  match h with
  | [] => .recv
  | [_] => .wait
  | _ :: _ :: r =>
    match r.getLast? with
    | some .late => .stop (.raised .testFailure)
    | _ => .wait

/-- Like `sleeper`, but it does not end when it is interrupted. -/
def deafSleeper : Tested := fun h =>
  match h with
  | [] => .recv
  | _ => .wait

example : ∀ h, Seen.late ∉ h → sleeper h = deafSleeper h := by
  intro h hn
  match h with
  | [] => rfl
  | [_] => rfl
  | _ :: _ :: r =>
    simp only [sleeper, deafSleeper]
    split
    · rename_i hl
      exact absurd (List.mem_of_getLast? hl) (fun hm => hn (by simp [hm]))
    · rfl

example : ((Harness.start []).run false [(waitTest, { prog := debugging, turns := [false, false, false] })]).1.proc.debug = true ∧
    SoundTest (waitTest, { prog := debugging, turns := [false, false, false] }) :=
  ⟨by decide +kernel, rfl, rfl, by simp [waitTest], by simp [waitTest], fun _ => rfl⟩

theorem deaf_runs (s : Proc) (bs : List Bool) (h : List Seen) : (s.play deafSleeper bs h).2 = none := by
  induction bs generalizing s h with
  | nil => rfl
  | cons b bs ih =>
    have ht : (s.turn deafSleeper b h).2.2 = none := by
      unfold Proc.turn
      split
      · rfl
      · unfold deafSleeper
        cases h <;> rfl
    unfold Proc.play
    rcases hq : s.turn deafSleeper b h with ⟨a, k, e⟩
    rw [hq] at ht
    cases ht
    exact ih a k

theorem sleeper_runs (s : Proc) (hs : s.debug = true) (bs : List Bool) : (s.play sleeper bs []).2 = none := by
  rw [debugger_no_timeouts s hs sleeper deafSleeper bs ?_]
  · exact deaf_runs s bs []
  · intro h hn
    match h with
    | [] => rfl
    | [_] => rfl
    | _ :: _ :: r =>
      simp only [sleeper, deafSleeper]
      split
      · rename_i hl
        exact absurd (List.mem_of_getLast? hl) (fun hm => hn (by simp [hm]))
      · rfl

/-- The limits never work again: a program called `debugger()` in a scenario that passed; in the next scenario the program
does not send what is expected, and however long one waits and whenever alarms arrive, the run does not end.  Without the
first scenario it is ended by the alarm and fails. -/
theorem debugger_forever_violated :
    (∀ turns, ((Harness.start []).run false [(waitTest, { prog := debugging, turns := [false, false, false] }),
      (sendTest, { prog := sleeper, turns := turns })]).2.2 = some .running) ∧
    ((Harness.start []).run false [(waitTest, { prog := debugging, turns := [false, false, false] })]).2 =
      ([[.loaded, .wrote, .ended .returned, .summary, .said .allPassed]], none) ∧
    ((Harness.start []).run false [(sendTest, { prog := sleeper, turns := [false, false, true, false] })]).2 =
      ([[.loaded, .wrote, .setup, .ended (.raised .testFailure), .teardown, .summary, .said .aTestFailed]], none) := by
  refine ⟨fun turns => ?_, by decide +kernel, by decide +kernel⟩
  have hd : ∀ s : Harness, s.proc.debug = true →
      (s.run false [(sendTest, { prog := sleeper, turns := turns })]).2.2 = some .running := by
    intro s hs
    rw [(run_single false sendTest { prog := sleeper, turns := turns } s).2.1]
    have hprep : ∀ z : Harness, z = (s.prepare sendTest { prog := sleeper, turns := turns }).1 → z.proc.debug = true := by
      rintro z rfl
      unfold Harness.prepare
      simp only [Harness.gap, Bool.false_and, Bool.false_eq_true, if_false, Part.andThen, Harness.step, Harness.begin,
        Harness.hook, sendTest]
      exact hs
    have hnone : (s.prepare sendTest { prog := sleeper, turns := turns }).2.2 = none := by
      unfold Harness.prepare
      simp [Harness.gap, Part.andThen, Harness.step, Harness.begin, Harness.hook, sendTest]
    unfold Harness.test
    rcases hq : s.prepare sendTest { prog := sleeper, turns := turns } with ⟨z, k, e⟩
    rw [hq] at hnone
    cases hnone
    have hz := hprep z (by rw [hq])
    have hr := sleeper_runs z.proc hz turns
    simp only [Part.andThen, Harness.user]
    rcases hp : z.proc.play sleeper turns [] with ⟨p, e⟩
    rw [hp] at hr
    cases hr
    rfl
  have hrun : ∀ (s : Harness) (x y : Test × Course), (s.test false x.1 x.2).2.2 = none →
      (s.run false [x, y]).2.2 = ((s.test false x.1 x.2).1.leave.run false [y]).2.2 := by
    intro s x y hn
    conv => lhs; unfold Harness.run
    rcases hq : s.test false x.1 x.2 with ⟨a, k, e⟩
    rw [hq] at hn
    cases hn
    rfl
  rw [hrun _ _ _ (by decide +kernel)]
  exact hd _ (by decide +kernel)

/-- A program that asks for one packet and then fails. -/
def failing : Tested := fun h =>
  match h with
  | [] => .recv
  | _ => .stop (.raised .valueError)

/-- The debugger that the harness itself starts for a program that raised an exception does not set the flag: an alarm that
is still pending arrives while the user is in it and ends the harness; the scenarios that remain are not run. -/
theorem pdb_interrupted_violated : ∃ v, v ≠ .allPassed ∧
    ((Harness.start []).run false [(sendTest, { prog := failing, turns := [false, false], gaps := fun g => g == .after }),
      (waitTest, { prog := oneCall, turns := [false, false] })]).2 =
      ([[.loaded, .wrote, .setup, .ended (.raised .valueError), .teardown, .summary, .said v]], some (.raised .testFailure)) :=
  ⟨verdict sendTest.scen (some .valueError), by decide +kernel, by decide +kernel⟩

end SY.Props
