import Verif.PdbFrame

/-! # C223: where the debugger opens after a failure -/

namespace SY.Props

open SY

theorem textIn_iff (sub s : List Char) : textIn sub s = true ↔ sub <:+: s := by
  induction s with
  | nil =>
    cases sub with
    | nil => simp [textIn]
    | cons c cs => simp [textIn]
  | cons c cs ih =>
    simp only [textIn, Bool.or_eq_true, ih, List.isPrefixOf_iff_prefix]
    rw [List.infix_cons_iff]

/-- The code of this frame is in one of the two files of the harness that the search passes over. -/
def OfHarness (f : TbFrame) : Prop :=
  "switchyard/llnettest.py".toList <:+: f.code ∨ "switchyard/lib/testing.py".toList <:+: f.code

theorem sys_iff (f : TbFrame) : f.sys = true ↔ OfHarness f := by
  simp only [TbFrame.sys, Bool.or_eq_true, textIn_iff, OfHarness]

theorem tbScan_append (l r : List TbFrame) (u h : Nat) : tbScan (l ++ r) u h = tbScan r (tbScan l u h).1 (tbScan l u h).2 := by
  induction l generalizing u h with
  | nil => rfl
  | cons f l ih => exact ih _ _

theorem tbScan_height (l : List TbFrame) (u h : Nat) : (tbScan l u h).2 = h + l.length := by
  induction l generalizing u h with
  | nil => rfl
  | cons f l ih => simp only [tbScan, ih, List.length_cons]; omega

theorem tbScan_sys (l : List TbFrame) (hl : ∀ f ∈ l, OfHarness f) (u h : Nat) : (tbScan l u h).1 = u := by
  induction l generalizing u h with
  | nil => rfl
  | cons f l ih =>
    have := (sys_iff f).mpr (hl f (by simp))
    simp only [tbScan, this, if_true]
    exact ih (fun f hf => hl f (by simp [hf])) _ _

theorem pdbUps_sub (n cur : Nat) : pdbUps n cur = cur - n := by
  induction n generalizing cur with
  | zero => rfl
  | succ n ih =>
    simp only [pdbUps, ih, pdbUp]
    split <;> omega

/-- **C223**: the debugger opens in the newest frame that is not in one of the two files. -/
theorem debugger_opens (l r : List TbFrame) (f : TbFrame) (hf : ¬ OfHarness f) (hr : ∀ g ∈ r, OfHarness g) :
    prepareDebugger (l ++ f :: r) = some f := by
  have hs : f.sys = false := by
    cases h : f.sys with
    | false => rfl
    | true => exact absurd ((sys_iff f).mp h) hf
  unfold prepareDebugger
  rw [tbScan_append, pdbUps_sub, tbScan_height]
  simp only [tbScan, hs, Bool.false_eq_true, if_false]
  rw [tbScan_sys r hr, tbScan_height]
  simp only [List.length_append, List.length_cons, Nat.zero_add]
  rw [show l.length + (r.length + 1) - 1 - (l.length + (r.length + 1) - (l.length + 1)) = l.length by omega]
  simp

/-- **C223**: if there is no such frame, it opens in the oldest one. -/
theorem debugger_opens_oldest (f : TbFrame) (r : List TbFrame) (hr : ∀ g ∈ f :: r, OfHarness g) :
    prepareDebugger (f :: r) = some f := by
  unfold prepareDebugger
  rw [pdbUps_sub, tbScan_sys _ hr, tbScan_height]
  simp only [List.length_cons, Nat.zero_add]
  rw [show r.length + 1 - 1 - (r.length + 1 - 0) = 0 by omega]
  rfl

/-- **C223**, as far as it holds: a test that fails in a call of `recv_packet` or `send_packet`, and an exception that the
program raises itself, open the debugger in the frame of the user's program that did it. -/
theorem debugger_in_program_partial (User : TbFrame → Prop) (hu : ∀ f, User f → ¬ OfHarness f) (l r : List TbFrame)
    (f : TbFrame) (hf : User f) (hr : ∀ g ∈ r, OfHarness g) :
    ∃ g, prepareDebugger (l ++ f :: r) = some g ∧ User g :=
  ⟨f, debugger_opens l r f (hu f hf) hr, hf⟩

/-- **C223** fails for exceptions that are raised in any other file of the library: the debugger opens there, whatever
user code has called it. -/
theorem debugger_in_library_violated (l : List TbFrame) (g : TbFrame) (hg : ¬ OfHarness g) :
    prepareDebugger (l ++ [g]) = some g :=
  debugger_opens l [] g hg (by simp)

/-- The frames of a program that asks a packet for a header by an index out of range. -/
def exTb : List TbFrame :=
  [⟨"run_tests".toList, "7f00".toList, "/opt/switchyard/llnettest.py".toList, 141⟩,
   ⟨"_start_usercode".toList, "7f10".toList, "/opt/switchyard/llnetbase.py".toList, 12⟩,
   ⟨"main".toList, "7f20".toList, "/home/me/hub.py".toList, 3⟩,
   ⟨"__getitem__".toList, "7f30".toList, "/opt/switchyard/lib/packet/packet.py".toList, 190⟩]

/-- The frames of the failure of a test. -/
def exTbFail : List TbFrame :=
  exTb.take 3 ++ [⟨"recv_packet".toList, "7f40".toList, "/opt/switchyard/llnettest.py".toList, 60⟩]

example : prepareDebugger exTb = exTb[3]? ∧ prepareDebugger exTbFail = exTb[2]? := by decide +kernel

theorem harness_dec (f : TbFrame) (h : f.sys = false) : ¬ OfHarness f := fun k => by
  rw [(sys_iff f).mpr k] at h; cases h

example : ¬ OfHarness ⟨"main".toList, "7f20".toList, "/home/me/hub.py".toList, 3⟩ ∧
    OfHarness ⟨"recv_packet".toList, "7f40".toList, "/opt/switchyard/llnettest.py".toList, 60⟩ :=
  ⟨harness_dec _ (by decide +kernel), (sys_iff _).mp (by decide +kernel)⟩

end SY.Props
