import Verif.SimApi
import Verif.Props.NetBase

/-! # Property C211: a simulated node answers like any other network object -/

namespace SY.Props
open SY

variable {α : Type}

/-- What is added to a node when the simulation is set up. -/
abbrev Egress := Name × Iface × EgressPipe

/-- A node after the given interfaces have been added to it. -/
def simBuilt (es : List Egress) : SimNet α := es.foldl (fun s e => s.addEgress e.1 e.2.1 e.2.2) .new

/-- The interface added last under a name. -/
def lastUnder (name : Name) (es : List Egress) : Option Iface :=
  (es.reverse.find? fun e => decide (e.1 = name)).map fun e => e.2.1

/-- Names find the interface that was added last under them, and `KeyError` is raised for others. -/
theorem sim_by_name (es : List Egress) (name : Name) :
    (simBuilt es : SimNet α).answer (.byName name) =
      match lastUnder name es with
      | some i => .ok (.iface i)
      | none => .error .keyError := by
  have key : ∀ s : SimNet α, (es.foldl (fun s e => s.addEgress e.1 e.2.1 e.2.2) s).node.ifs.get? name =
      (lastUnder name es).or (s.node.ifs.get? name) := by
    induction es with
    | nil => exact fun s => rfl
    | cons e es ih =>
      intro s
      rw [List.foldl_cons, ih]
      simp only [SimNet.addEgress, NodeExec.addEgress, Dict.get?_set, lastUnder, List.reverse_cons, List.find?_append]
      cases es.reverse.find? fun e => decide (e.1 = name) with
      | some x => rfl
      | none =>
        by_cases h : e.1 = name
        · simp [h]
        · simp [h]
  have key := key .new
  rw [show (SimNet.new : SimNet α).node.ifs.get? name = none from rfl, Option.or_none] at key
  change (simBuilt es : SimNet α).node.ifs.get? name = _ at key
  simp only [SimNet.answer, key]
  cases lastUnder name es <;> rfl

/-- **C211**, partial: a node with the same interfaces as another network object answers questions for all interfaces
and for interfaces by name alike.  Missing: the other questions, see below. -/
theorem sim_answers_partial (s : SimNet α) (n : NetBase) (test : Bool) (h : n.devinfo = s.node.ifs) :
    s.answer .interfaces = n.answer test .interfaces ∧
    ∀ name, s.answer (.byName name) = n.answer test (.byName name) := by
  refine ⟨?_, ?_⟩
  · simp only [SimNet.answer, NetBase.answer, SimNet.interfaces, NetBase.interfaces, h]
  · intro name
    simp only [SimNet.answer, NetBase.answer, NetBase.byName, h]
    cases s.node.ifs.get? name <;> rfl

/-- The network object of the examples and a node with the same interfaces. -/
def exSim : SimNet Nat :=
  simBuilt [("eth0".toList, exIf "eth0" 1 1, ⟨"b".toList, .delay (some (0, 1)), .cap (some 8), "eth1".toList⟩),
    ("eth1".toList, exIf "eth1" 2 2, ⟨"c".toList, .delay (some (0, 1)), .cap (some 8), "eth0".toList⟩)]

example : (runNet ⟨none, [], []⟩ [.up (exIf "eth0" 1 1), .up (exIf "eth1" 2 2)]).devinfo = exSim.node.ifs ∧
    exSim.node.ifs.length = 2 := by decide +kernel

/-- **C211 is false** of lookups by address and of `testmode`: whatever the interfaces of the node are, a lookup by
address gives `None`, both where another network object with these interfaces gives an interface and where it raises
`KeyError`, and `testmode` raises. -/
theorem sim_answers_violated (s : SimNet α) (n : NetBase) (test : Bool) :
    (∀ v, s.answer (.byIp v) = .ok .none ∧ n.answer test (.byIp v) ≠ .ok .none) ∧
    (∀ v, s.answer (.byMac v) = .ok .none ∧ n.answer test (.byMac v) ≠ .ok .none) ∧
    s.answer .testmode = .error .runtimeError ∧ n.answer test .testmode = .ok (.bool test) := by
  refine ⟨fun v => ⟨rfl, ?_⟩, fun v => ⟨rfl, ?_⟩, rfl, rfl⟩
  · simp only [NetBase.answer]
    intro h
    obtain ⟨i, _, h2⟩ := bind_eq_ok.mp h
    cases h2
  · simp only [NetBase.answer]
    intro h
    obtain ⟨i, _, h2⟩ := bind_eq_ok.mp h
    cases h2

/-- The case of an interface that is there: it owns the address and is not given. -/
theorem sim_lookup_violated (s : SimNet α) (v : IPArg) (a : IPAddr) (hv : ipAddress v = .ok a)
    (h : ∃ i ∈ s.interfaces, ∃ p, (⟨a, p⟩ : IPIface) ∈ i.ips) :
    s.answer (.byIp v) = .ok .none ∧
      ∃ i, (⟨none, s.node.ifs, []⟩ : NetBase).answer true (.byIp v) = .ok (.iface i) ∧ i ∈ s.interfaces := by
  refine ⟨rfl, ?_⟩
  obtain ⟨i, hi⟩ := (interface_by_ipaddr_iff ⟨none, s.node.ifs, []⟩ v a hv).2.1 h
  refine ⟨i, ?_, ((interface_by_ipaddr_iff ⟨none, s.node.ifs, []⟩ v a hv).1 i hi).1⟩
  simp only [NetBase.answer, hi]; rfl

example : ipAddress (.int 2) = .ok (.v4 2) ∧ ∃ i ∈ exSim.interfaces, ∃ p, (⟨.v4 2, p⟩ : IPIface) ∈ i.ips :=
  ⟨by decide +kernel, exIf "eth1" 2 2, by decide +kernel, 24, by decide +kernel⟩

/-- What can happen to the interfaces of a node. -/
def _root_.SY.SimNet.apply (s : SimNet α) : NetOp → SimNet α
  | .callback c => s.setCallback c
  | .up i => (s.intfUp i).1
  | .down name => s.intfDown name

theorem sim_notify_none {n : NetBase} (h : n.callback = none) (i : Iface) (u : Bool) : n.notify i u = n := by
  unfold NetBase.notify; rw [h]

theorem sim_quiet {n : NetBase} (hc : n.callback = none) (hn : n.notes = []) (i : Iface) (name : Name) :
    ((n.intfUp i).1.callback = none ∧ (n.intfUp i).1.notes = []) ∧
    ((n.intfDown name).callback = none ∧ (n.intfDown name).notes = []) := by
  refine ⟨?_, ?_⟩
  · unfold NetBase.intfUp
    split
    · exact ⟨hc, hn⟩
    · rw [sim_notify_none (n := { n with devinfo := n.devinfo.set i.name i }) hc]; exact ⟨hc, hn⟩
  · unfold NetBase.intfDown
    split
    · rw [sim_notify_none hc]; exact ⟨hc, hn⟩
    · exact ⟨hc, hn⟩

/-- **C211 is false** of interfaces that come and go: whatever is done, the callback a program has set is never called
and the answers of the node never change. -/
theorem sim_callback_violated (es : List Egress) (ops : List NetOp) :
    (ops.foldl SimNet.apply (simBuilt es : SimNet α)).base.notes = [] ∧
    ∀ q, (ops.foldl SimNet.apply (simBuilt es : SimNet α)).answer q = (simBuilt es : SimNet α).answer q := by
  have h0 : (simBuilt es : SimNet α).base.callback = none ∧ (simBuilt es : SimNet α).base.notes = [] := by
    suffices ∀ s : SimNet α, (es.foldl (fun s e => s.addEgress e.1 e.2.1 e.2.2) s).base = s.base by
      unfold simBuilt; rw [this]; exact ⟨rfl, rfl⟩
    induction es with
    | nil => exact fun s => rfl
    | cons e es ih => exact fun s => ih _
  suffices ∀ s : SimNet α, s.base.callback = none → s.base.notes = [] →
      (ops.foldl SimNet.apply s).base.notes = [] ∧ (ops.foldl SimNet.apply s).node = s.node by
    obtain ⟨h1, h2⟩ := this _ h0.1 h0.2
    refine ⟨h1, fun q => ?_⟩
    cases q <;> simp only [SimNet.answer, SimNet.interfaces, h2]
  induction ops with
  | nil => exact fun s _ h => ⟨h, rfl⟩
  | cons o ops ih =>
    intro s hc hn
    have step : (s.apply o).base.callback = none ∧ (s.apply o).base.notes = [] ∧ (s.apply o).node = s.node := by
      cases o with
      | callback c => exact ⟨hc, hn, rfl⟩
      | up i => exact ⟨(sim_quiet hc hn i []).1.1, (sim_quiet hc hn i []).1.2, rfl⟩
      | down name => exact ⟨(sim_quiet hc hn (exIf "" 0 0) name).2.1, (sim_quiet hc hn (exIf "" 0 0) name).2.2, rfl⟩
    obtain ⟨h1, h2⟩ := ih (s.apply o) step.1 step.2.1
    exact ⟨h1, by rw [List.foldl_cons, h2, step.2.2]⟩

/-- Where another network object calls it. -/
example : (runNet ⟨none, [], []⟩ [.callback (some 7), .up (exIf "eth0" 1 1)]).notes = [⟨7, exIf "eth0" 1 1, true⟩] := by
  decide +kernel

/-- **C211 is false** of the ways to name an interface to send on: only names are understood.  Sending on an interface
object or number of the node raises and sends nothing. -/
theorem sim_send_violated (s : SimNet α) (p : α) :
    (∀ i, (s.send (.intf i) p).1 = s ∧ (s.send (.intf i) p).2 ≠ none) ∧
    (∀ k, (s.send (.num k) p).1 = s ∧ (s.send (.num k) p).2 ≠ none) := by
  refine ⟨fun i => ⟨rfl, ?_⟩, fun k => ⟨rfl, ?_⟩⟩ <;>
  · simp only [SimNet.send]
    intro h
    cases h

/-- Where another network object finds the interface. -/
example : (∃ i, sendTarget (runNet ⟨none, [], []⟩ [.up (exIf "eth0" 1 1)]) (.num 1) = .ok (i, "eth0".toList)) :=
  ⟨exIf "eth0" 1 1, rfl⟩

end SY.Props
