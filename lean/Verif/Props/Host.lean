import Verif.Host
import Verif.Props.Firewall

/-!
# Properties of the class `Firewall` and of coloured output: C189-C192
-/

namespace SY.Props

open SY

/-! ## C189: the host is left as it was, however the program ends -/

theorem runCmd_spawns {env : HostEnv} (hs : ∀ n, env.spawns n = true) (h : FwHost) (f : FwHost → FwHost) :
    runCmd env h f = ({ f h with ran := h.ran + 1 }, .ok ()) := by
  unfold runCmd
  rw [if_pos (hs _)]

theorem runCmds_spawns {env : HostEnv} (hs : ∀ n, env.spawns n = true) (cs : List FwCmd) (h : FwHost) :
    ∃ n, runCmds env h cs = ({ h with machine := h.machine.execAll env.fw cs, ran := n }, .ok ()) := by
  induction cs generalizing h with
  | nil => exact ⟨h.ran, rfl⟩
  | cons c cs ih =>
    simp only [runCmds, andThen, runCmd_spawns hs]
    exact ih _

theorem saveArpRun_spawns {env : HostEnv} (hs : ∀ n, env.spawns n = true) (is : List String) (h : FwHost)
    (saved : Dict String Int) (bad : List String) :
    ∃ n, saveArpRun env h saved bad is =
      ({ h with machine := (saveArp env.fw h.machine saved bad is).1, ran := n },
        .ok (saveArp env.fw h.machine saved bad is).2) := by
  induction is generalizing h saved bad with
  | nil => exact ⟨h.ran, rfl⟩
  | cons i is ih =>
    simp only [saveArpRun, andThen, runCmd_spawns hs, id, saveArp]
    split
    · exact ih _ _ _
    · exact ih _ _ _

theorem restoreArpRun_spawns {env : HostEnv} (hs : ∀ n, env.spawns n = true) (saved : Dict String Int) (is : List String)
    (h : FwHost) :
    ∃ n, restoreArpRun env saved h is = ({ h with machine := restoreArp env.fw saved h.machine is, ran := n }, .ok ()) := by
  induction is generalizing h with
  | nil => exact ⟨h.ran, rfl⟩
  | cons i is ih =>
    simp only [restoreArpRun, restoreArp]
    cases saved.get? i with
    | some n =>
      simp only [andThen, runCmd_spawns hs]
      exact ih _
    | none => exact ih _

theorem addCmds_spawns {env : HostEnv} (hs : ∀ n, env.spawns n = true) (cs : List FwCmd) (fw : LinuxFirewall) (h : FwHost) :
    ∃ n, addCmds env fw h cs =
      (({ h with machine := h.machine.execAll env.fw cs, ran := n }, { fw with rulecmds := fw.rulecmds ++ cs }), none) := by
  induction cs generalizing fw h with
  | nil => exact ⟨h.ran, by simp [addCmds, Machine.execAll]⟩
  | cons c cs ih =>
    simp only [addCmds, runCmd_spawns hs]
    obtain ⟨n, hn⟩ := ih { fw with rulecmds := fw.rulecmds ++ [c] }
      { h.onMachine (h.machine.exec env.fw c) with ran := h.ran + 1 }
    refine ⟨n, ?_⟩
    rw [hn]
    simp [FwHost.onMachine, Machine.execAll]

/-- Creating the firewall when processes can be started: as in the model without processes. -/
theorem linuxNew_spawns {env : HostEnv} (hs : ∀ n, env.spawns n = true) (h : FwHost) (is : List String)
    (rules : List (List Char)) :
    ∃ n, linuxNew env h is rules =
      match LinuxFirewall.new env.fw h.machine is rules with
      | .ok x => ({ h with machine := x.1, ran := n }, .ok x.2)
      | .error e => ({ h with ran := n }, .error e) := by
  simp only [linuxNew, andThen, runCmd_spawns hs, linuxRules, LinuxFirewall.new, id]
  cases parseRules is rules with
  | error e => exact ⟨h.ran + 1, rfl⟩
  | ok cmds =>
    simp only [bind_ok]
    by_cases ha : rules.contains "all".toList = true
    · simp only [if_pos ha]
      obtain ⟨n, hn⟩ := saveArpRun_spawns hs is { h with ran := h.ran + 1 } [] []
      exact ⟨n, by rw [hn]⟩
    · simp only [if_neg ha]
      exact ⟨h.ran + 1, rfl⟩

theorem addAll_spawns {env : HostEnv} (hs : ∀ n, env.spawns n = true) (rs : List (List Char)) (fw : LinuxFirewall)
    (h : FwHost) :
    ∃ n, Firewall.addAll env ⟨h, some (some (.linux fw))⟩ rs =
      ⟨{ h with machine := (addRules env.fw fw h.machine rs).1, ran := n },
        some (some (.linux (addRules env.fw fw h.machine rs).2))⟩ := by
  induction rs generalizing fw h with
  | nil => exact ⟨h.ran, rfl⟩
  | cons r rs ih =>
    simp only [Firewall.addAll, Firewall.addRule, Delegate.addRule, addRules, LinuxFirewall.addRule]
    cases parseRule fw.intf r with
    | error e => exact ih _ _
    | ok cmds =>
      obtain ⟨n, hn⟩ := addCmds_spawns hs cmds fw h
      simp only [hn]
      exact ih _ _

theorem unblock_spawns {env : HostEnv} (hs : ∀ n, env.spawns n = true) (fw : LinuxFirewall) (h : FwHost) :
    ∃ n, (Delegate.linux fw).unblock env h = ({ h with machine := fw.unblock env.fw h.machine, ran := n }, .ok ()) := by
  obtain ⟨n, hn⟩ := runCmds_spawns hs [.flush, .flushRaw] h
  simp only [Delegate.unblock, andThen, hn, linuxRestore, runCmd_spawns hs]
  exact restoreArpRun_spawns hs fw.arpignore fw.intf _

/-- On Linux, for every host, set of devices, list of rules, rules added by sockets while the program runs, and however
the program ends (with a value or with an exception): if the commands can be started then after the `with` statement the
packet filter and the `arp_ignore` settings are what they were before, and the program ends the way it ended itself.  If
the rules cannot be understood the program is not run and `ValueError` is raised. -/
theorem session_restores_partial {α : Type} (env : HostEnv) (hs : ∀ n, env.spawns n = true) (verbose : Bool)
    (interfaces : List String) (hn : interfaces.Nodup) (rules added : List (List Char)) (r : Res α) (h : FwHost) :
    let x := withFirewall env .linux verbose interfaces rules added r ⟨h, none⟩
    x.1.host.machine.tables = h.machine.tables ∧ (∀ i, x.1.host.machine.arpIgnore i = h.machine.arpIgnore i) ∧
    (x.2 = r ∨ x.2 = .error .valueError) ∧
    ((∃ cmds, parseRules interfaces rules = .ok cmds) → x.2 = r) := by
  obtain ⟨n, hnew⟩ := linuxNew_spawns hs h interfaces rules
  cases hx : LinuxFirewall.new env.fw h.machine interfaces rules with
  | error e =>
    rw [hx] at hnew
    have he := firewall_new_raises _ _ _ _ _ hx
    subst he
    have e1 : withFirewall env .linux verbose interfaces rules added r ⟨h, none⟩ =
        (⟨{ h with ran := n }, some none⟩, .error .valueError) := by
      simp [withFirewall, Firewall.new, makeDelegate, andThen, hnew, delegateOf]
    rw [e1]
    refine ⟨rfl, fun _ => rfl, .inr rfl, ?_⟩
    rintro ⟨cmds, hc⟩
    unfold LinuxFirewall.new at hx
    rw [hc] at hx
    simp only [bind_ok] at hx
    split at hx <;> cases hx
  | ok y =>
    rw [hx] at hnew
    obtain ⟨m1, fw⟩ := y
    simp only at hnew
    -- entering
    obtain ⟨n1, h1⟩ := runCmds_spawns hs fw.rulecmds { h with machine := m1, ran := n }
    have hent : ∃ n2, Firewall.enter env verbose (.linux fw) { h with machine := m1, ran := n } =
        ({ h with machine := fw.block env.fw m1, ran := n2 }, .ok ()) := by
      simp only [Firewall.enter, Delegate.block, h1, andThen]
      cases verbose with
      | true => exact ⟨n1 + 1, by simp [Delegate.showRules, runCmd_spawns hs, LinuxFirewall.block]⟩
      | false => exact ⟨n1, rfl⟩
    obtain ⟨n2, h2⟩ := hent
    obtain ⟨n3, h3⟩ := addAll_spawns hs added fw { h with machine := fw.block env.fw m1, ran := n2 }
    obtain ⟨n4, h4⟩ := unblock_spawns hs (addRules env.fw fw (fw.block env.fw m1) added).2
      { h with machine := (addRules env.fw fw (fw.block env.fw m1) added).1, ran := n3 }
    have e1 : withFirewall env .linux verbose interfaces rules added r ⟨h, none⟩ =
        (⟨⟨(addRules env.fw fw (fw.block env.fw m1) added).2.unblock env.fw
              (addRules env.fw fw (fw.block env.fw m1) added).1, h.anchor, h.refs, n4⟩,
          some (some (.linux (addRules env.fw fw (fw.block env.fw m1) added).2))⟩, r) := by
      simp only [withFirewall, Firewall.new, makeDelegate, andThen, hnew, delegateOf, Option.isSome_none,
        Bool.false_eq_true, if_false, map_ok, Firewall.entered, h2, Firewall.body, h3, h4, bind_ok]
    rw [e1]
    have hses : fwSession env.fw h.machine interfaces rules added =
        .ok ((addRules env.fw fw (fw.block env.fw m1) added).2.unblock env.fw
              (addRules env.fw fw (fw.block env.fw m1) added).1) := by
      simp only [fwSession, hx]
      rfl
    obtain ⟨a, b⟩ := firewall_restores env.fw h.machine interfaces hn rules added _ hses
    exact ⟨a, b, .inl rfl, fun _ => rfl⟩

/-- An environment in which everything can be started. -/
def hostEnv : HostEnv := ⟨fwEnv, fun _ => true, some 7⟩

/-- A host with rules of its own. -/
def fwHost : FwHost := ⟨fwMachine, [.all "en1"], [3], 0⟩

/-- A program that raises an exception after a socket added a rule: twelve commands are run. -/
example : (withFirewall (α := Nat) hostEnv .linux true ["eth0", "eth0.5"] ["all".toList] ["udp:53".toList]
      (.error .keyError) ⟨fwHost, none⟩).2 = .error .keyError ∧
    (withFirewall (α := Nat) hostEnv .linux true ["eth0", "eth0.5"] ["all".toList] ["udp:53".toList]
      (.error .keyError) ⟨fwHost, none⟩).1.host.ran = 14 := by
  decide +kernel

/-- On macOS the reference to pf is given back, and the anchor is empty afterwards. -/
theorem mac_session {α : Type} (env : HostEnv) (hs : ∀ n, env.spawns n = true) (verbose : Bool)
    (interfaces : List String) (rules added : List (List Char)) (r : Res α) (h : FwHost) (t : Nat) (ht : env.token = some t)
    (rs : List PfRule) (hr : macParseRules interfaces rules = .ok rs) :
    let x := withFirewall env .darwin verbose interfaces rules added r ⟨h, none⟩
    x.1.host.anchor = [] ∧ x.1.host.refs = h.refs ∧ x.1.host.machine.tables = h.machine.tables ∧ x.2 = r := by
  have key : ∀ (added : List (List Char)) (fw : MacFirewall) (h : FwHost),
      ∃ n a rules, Firewall.addAll env ⟨h, some (some (.mac fw))⟩ added =
        ⟨{ h with anchor := a, ran := n }, some (some (.mac { fw with rules := rules }))⟩ := by
    intro added
    induction added with
    | nil => intro fw h; exact ⟨h.ran, h.anchor, fw.rules, rfl⟩
    | cons q qs ih =>
      intro fw h
      simp only [Firewall.addAll, Firewall.addRule, Delegate.addRule]
      cases macParseRule fw.interfaces q with
      | error e => exact ih _ _
      | ok rs =>
        simp only [runCmd_spawns hs]
        exact ih _ _
  have hent : ∃ n, Firewall.enter env verbose (.mac ⟨interfaces, rs, t⟩) { h with refs := t :: h.refs, ran := h.ran + 1 } =
      ({ h with refs := t :: h.refs, anchor := rs, ran := n }, .ok ()) := by
    simp only [Firewall.enter, Delegate.block, runCmd_spawns hs, andThen]
    cases verbose with
    | true => exact ⟨_, by simp only [if_true, Delegate.showRules, runCmd_spawns hs, id]; rfl⟩
    | false => exact ⟨_, rfl⟩
  obtain ⟨n2, h2⟩ := hent
  obtain ⟨n3, a3, r3, h3⟩ := key added ⟨interfaces, rs, t⟩ { h with refs := t :: h.refs, anchor := rs, ran := n2 }
  have e1 : withFirewall env .darwin verbose interfaces rules added r ⟨h, none⟩ =
      (⟨{ h with anchor := [], ran := n3 + 1 + 1 }, some (some (.mac ⟨interfaces, r3, t⟩))⟩, r) := by
    simp only [withFirewall, Firewall.new, makeDelegate, macNew, hr, macEnable, ht, andThen, runCmd_spawns hs, delegateOf,
      Option.isSome_none, Bool.false_eq_true, if_false, map_ok, Firewall.entered, h2, Firewall.body, h3,
      Delegate.unblock, List.erase_cons_head, bind_ok]
  simp only [e1]
  exact ⟨trivial, trivial, trivial, trivial⟩

example : macParseRules ["en0"] ["udp".toList, "all".toList] = .ok [.proto "en0" .udp none, .all "en0"] := by
  decide +kernel

/-- In test mode the host is not touched, and the program ends the way it ends itself if the rules can be
understood. -/
theorem test_session {α : Type} (env : HostEnv) (verbose : Bool) (interfaces : List String)
    (rules added : List (List Char)) (r : Res α) (h : FwHost) :
    let x := withFirewall env .test verbose interfaces rules added r ⟨h, none⟩
    x.1.host = h ∧ (∀ rs, testNew [] rules = .ok rs → x.2 = r) := by
  have key : ∀ (added : List (List Char)) (rs : List TestRule),
      ∃ rs', Firewall.addAll env ⟨h, some (some (.test rs))⟩ added = ⟨h, some (some (.test rs'))⟩ := by
    intro added
    induction added with
    | nil => intro rs; exact ⟨rs, rfl⟩
    | cons q qs ih =>
      intro rs
      simp only [Firewall.addAll, Firewall.addRule, Delegate.addRule]
      cases testAddRule rs q <;> exact ih _
  cases hr : testNew [] rules with
  | error e =>
    simp only [withFirewall, Firewall.new, makeDelegate, hr, Option.isSome_none, Bool.false_eq_true, if_false]
    exact ⟨rfl, fun rs h => nomatch h⟩
  | ok rs =>
    obtain ⟨rs', h3⟩ := key added rs
    have h2 : Firewall.enter env verbose (.test rs) h = (h, .ok ()) := by
      cases verbose <;> rfl
    simp only [withFirewall, Firewall.new, makeDelegate, hr, Option.isSome_none, Bool.false_eq_true, if_false, map_ok,
      delegateOf, Firewall.entered, h2, Firewall.body, h3, Delegate.unblock, bind_ok]
    exact ⟨trivial, fun _ _ => trivial⟩

/-- False of the code: if one command cannot be started while the rules are being installed, `AttributeError` is raised
from `__enter__`, so `__exit__` is never called: the packet filter has been emptied and stays empty. -/
theorem session_restores_violated {α : Type} (env : HostEnv) (h : FwHost) (interfaces : List String) (r : Res α)
    (verbose : Bool) (hs : ∀ n, env.spawns n = true ↔ n ≠ h.ran + 2) :
    let x := withFirewall env .linux verbose interfaces [] [] r ⟨h, none⟩
    x.2 = .error .attributeError ∧ x.1.host.machine.tables.filter = [] := by
  have s0 : env.spawns h.ran = true := (hs _).mpr (by omega)
  have s1 : env.spawns (h.ran + 1) = true := (hs _).mpr (by omega)
  have s2 : env.spawns (h.ran + 1 + 1) = false := by
    have := hs (h.ran + 1 + 1)
    simpa using this
  have hc : (([] : List (List Char)).contains "all".toList) = false := rfl
  simp only [withFirewall, Firewall.new, makeDelegate, linuxNew, linuxRules, parseRules, runCmd, andThen, hc, s0, s1, s2,
    Bool.false_eq_true, if_false, if_true, id, Option.isSome_none, delegateOf, Firewall.entered, Firewall.enter,
    Delegate.block, runCmds, List.append_nil, FwHost.onMachine, Machine.exec, map_ok]
  exact ⟨trivial, trivial⟩

/-- A host that cannot start its third process. -/
example : (withFirewall (α := Nat) ⟨fwEnv, fun n => n ≠ 2, none⟩ .linux false ["eth0"] [] [] (.ok 1) ⟨fwHost, none⟩).1.host.machine.tables
      = ⟨[], [.other "-A PREROUTING -j CT"], ["-t nat -P OUTPUT ACCEPT"]⟩ ∧
    fwHost.machine.tables.filter = ["-A INPUT -j ACCEPT"] := by
  decide +kernel

/-- False of the code on macOS: rules that were in the anchor before are gone. -/
theorem mac_anchor_violated : ∃ (h : FwHost), h.anchor ≠ [] ∧
    (withFirewall (α := Unit) hostEnv .darwin false ["en0"] ["udp".toList] [] (.ok ()) ⟨h, none⟩).1.host.anchor = [] :=
  ⟨fwHost, by decide +kernel, by decide +kernel⟩

/-! ## C190: one firewall at a time -/

/-- While there is one, another one is refused, and the host is not touched. -/
theorem firewall_once {α : Type} (env : HostEnv) (p : Platform) (verbose : Bool) (interfaces : List String)
    (rules added : List (List Char)) (r : Res α) (w : FwWorld) (h : w.inst ≠ none) :
    withFirewall env p verbose interfaces rules added r w = (w, .error .generic) := by
  have hi : w.inst.isSome = true := by
    cases hw : w.inst with
    | none => exact absurd hw h
    | some d => rfl
  simp only [withFirewall, Firewall.new, hi, if_true]

/-- A platform without an implementation is refused, and the host is not touched. -/
theorem firewall_platform {α : Type} (env : HostEnv) (verbose : Bool) (interfaces : List String)
    (rules added : List (List Char)) (r : Res α) (h : FwHost) :
    withFirewall env .other verbose interfaces rules added r ⟨h, none⟩ = (⟨h, some none⟩, .error .generic) := by
  simp only [withFirewall, Firewall.new, makeDelegate, Option.isSome_none, Bool.false_eq_true, if_false]
  rfl

/-- Without a firewall no rule can be added: `AttributeError`, and the host is not touched. -/
theorem add_rule_without (env : HostEnv) (w : FwWorld) (r : List Char) (h : ∀ d, w.inst ≠ some (some d)) :
    Firewall.addRule env w r = (w, some .attributeError) := by
  unfold Firewall.addRule
  split
  · rename_i d hd
    exact absurd hd (h d)
  · rfl

/-- False of the code: after an attempt, also one that failed (because the rules could not be understood or for any
other reason), no firewall can be made any more, whatever the rules. -/
theorem firewall_retry_violated {α : Type} (env : HostEnv) (p : Platform) (verbose : Bool) (interfaces : List String)
    (rules : List (List Char)) (h : FwHost) :
    ∀ (q : Platform) (is : List String) (rs added : List (List Char)) (r : Res α),
      withFirewall env q verbose is rs added r (Firewall.new env p interfaces rules ⟨h, none⟩).1 =
        ((Firewall.new env p interfaces rules ⟨h, none⟩).1, .error .generic) := by
  intro q is rs added r
  apply firewall_once
  simp only [Firewall.new, Option.isSome_none, Bool.false_eq_true, if_false]
  exact fun h => nomatch h

example : (Firewall.new hostEnv .linux ["eth0"] ["mpxyz".toList] ⟨fwHost, none⟩).2 = .error .valueError := by
  decide +kernel

theorem addAll_inst (env : HostEnv) (rs : List (List Char)) (w : FwWorld) (h : w.inst ≠ none) :
    (Firewall.addAll env w rs).inst ≠ none := by
  induction rs generalizing w with
  | nil => exact h
  | cons r rs ih =>
    apply ih
    unfold Firewall.addRule
    split
    · exact fun h => nomatch h
    · exact h

theorem withFirewall_inst {α : Type} (env : HostEnv) (p : Platform) (verbose : Bool) (interfaces : List String)
    (rules added : List (List Char)) (r : Res α) (w : FwWorld) :
    (withFirewall env p verbose interfaces rules added r w).1.inst ≠ none := by
  have hnew : (Firewall.new env p interfaces rules w).1.inst ≠ none := by
    unfold Firewall.new
    split
    · rename_i hi
      intro h
      rw [h] at hi
      cases hi
    · exact fun h => nomatch h
  unfold withFirewall
  split
  · exact hnew
  · split
    · unfold Firewall.entered
      split
      · exact fun h => nomatch h
      · unfold Firewall.body
        split
        · exact fun h => nomatch h
        · exact addAll_inst _ _ _ (fun h => nomatch h)
    · exact hnew

/-- False of the code: nor can one be made after the first one was left, although it is no longer in force. -/
theorem firewall_again_violated {α : Type} (env : HostEnv) (p : Platform) (verbose : Bool) (interfaces : List String)
    (rules added : List (List Char)) (r s : Res α) (w : FwWorld) :
    let x := withFirewall env p verbose interfaces rules added r w
    withFirewall env p verbose interfaces rules added s x.1 = (x.1, .error .generic) :=
  firewall_once env p verbose interfaces rules added s _ (withFirewall_inst env p verbose interfaces rules added r w)

/-! ## C191: text printed in a colour is shown in this colour, and no other text is -/

/-- What a terminal shows: pieces of text with their colours, beginning in colour `c`. -/
def display (c : Option Color) : List TermOut → List (List Char × Option Color)
  | [] => []
  | .text s :: l => (s, c) :: display c l
  | .color d :: l => display (some d) l
  | .reset :: l => display none l

/-- The colour a terminal is in after this output. -/
def colorAfter (c : Option Color) : List TermOut → Option Color
  | [] => c
  | .text _ :: l => colorAfter c l
  | .color d :: l => colorAfter (some d) l
  | .reset :: l => colorAfter none l

theorem display_append (a b : List TermOut) (c : Option Color) :
    display c (a ++ b) = display c a ++ display (colorAfter c a) b := by
  induction a generalizing c with
  | nil => rfl
  | cons x a ih => cases x <;> simp [display, colorAfter, ih]

theorem colorAfter_append (a b : List TermOut) (c : Option Color) :
    colorAfter c (a ++ b) = colorAfter (colorAfter c a) b := by
  induction a generalizing c with
  | nil => rfl
  | cons x a ih => cases x <;> simp [colorAfter, ih]

/-- What a program is expected to show; a newline follows each coloured block. -/
def _root_.SY.TermProg.wanted (p : TermProg) (c : Option Color) : List (List Char × Option Color) :=
  match p with
  | .print s => [(s, c)]
  | .inColor d b => b.wanted (some d) ++ [(['\n'], none)]
  | .seq p q => p.wanted c ++ q.wanted c
  | .raise _ => []
  | .catches p => p.wanted c

/-- No colours. -/
def _root_.SY.TermProg.plain : TermProg → Bool
  | .print _ => true
  | .inColor _ _ => false
  | .seq p q => p.plain && q.plain
  | .raise _ => true
  | .catches p => p.plain

/-- No exceptions, and no colours inside coloured blocks. -/
def _root_.SY.TermProg.flat : TermProg → Bool
  | .print _ => true
  | .inColor _ b => b.plain && b.flat
  | .seq p q => p.flat && q.flat
  | .raise _ => false
  | .catches p => p.flat

theorem run_plain (p : TermProg) (hp : p.plain = true) (hf : p.flat = true) (t : Term) (c : Option Color) :
    ∃ o, p.run t = ({ t with out := t.out ++ o }, none) ∧ display c o = p.wanted c ∧ colorAfter c o = c := by
  induction p generalizing t with
  | print s => exact ⟨[.text s], rfl, rfl, rfl⟩
  | inColor d b _ => cases hp
  | seq p q ihp ihq =>
    simp only [TermProg.plain, TermProg.flat, Bool.and_eq_true] at hp hf
    obtain ⟨o1, h1, d1, c1⟩ := ihp hp.1 hf.1 t
    obtain ⟨o2, h2, d2, c2⟩ := ihq hp.2 hf.2 { t with out := t.out ++ o1 }
    refine ⟨o1 ++ o2, ?_, ?_, ?_⟩
    · simp only [TermProg.run, h1, h2, List.append_assoc]
    · rw [display_append, c1, d1, d2]; rfl
    · rw [colorAfter_append, c1, c2]
  | raise e => cases hf
  | catches p ih =>
    obtain ⟨o, h1, d1, c1⟩ := ih hp hf t
    exact ⟨o, by simp only [TermProg.run, h1], d1, c1⟩

/-- For every program without exceptions and without coloured blocks in coloured blocks, with colours switched on:
everything is shown in the colour of the block it is printed in, and the terminal is back to normal at the end. -/
theorem colors_shown_partial (p : TermProg) (hf : p.flat = true) (t : Term) (hc : t.noColor = false) :
    ∃ o, p.run t = ({ t with out := t.out ++ o }, none) ∧ display none o = p.wanted none ∧ colorAfter none o = none := by
  induction p generalizing t with
  | print s => exact ⟨[.text s], rfl, rfl, rfl⟩
  | inColor d b _ =>
    simp only [TermProg.flat, Bool.and_eq_true] at hf
    obtain ⟨o, h1, d1, c1⟩ := run_plain b hf.1 hf.2 (t.select d) (some d)
    refine ⟨.color d :: o ++ [.reset, .text ['\n']], ?_, ?_, ?_⟩
    · simp only [TermProg.run]
      rw [h1]
      simp [Term.leave, Term.reset, Term.select, hc]
    · simp only [List.cons_append, display]
      rw [display_append, d1]
      rfl
    · simp only [List.cons_append, colorAfter]
      rw [colorAfter_append]
      rfl
  | seq p q ihp ihq =>
    simp only [TermProg.flat, Bool.and_eq_true] at hf
    obtain ⟨o1, h1, d1, c1⟩ := ihp hf.1 t hc
    obtain ⟨o2, h2, d2, c2⟩ := ihq hf.2 { t with out := t.out ++ o1 } hc
    refine ⟨o1 ++ o2, ?_, ?_, ?_⟩
    · simp only [TermProg.run, h1, h2, List.append_assoc]
    · rw [display_append, c1, d1, d2]; rfl
    · rw [colorAfter_append, c1, c2]
  | raise e => cases hf
  | catches p ih =>
    obtain ⟨o, h1, d1, c1⟩ := ih hf t hc
    exact ⟨o, by simp only [TermProg.run, h1], d1, c1⟩

/-- A message in red between two others. -/
def redMessage : TermProg := .seq (.print "a".toList) (.seq (.inColor .red (.print "b".toList)) (.print "c".toList))

example : redMessage.flat = true ∧ redMessage.wanted none =
    [("a".toList, none), ("b".toList, some .red), (['\n'], none), ("c".toList, none)] := by decide +kernel

/-- A coloured block that ends normally always leaves the terminal in its normal colour, whatever happened in it. -/
theorem color_block_ends (c : Color) (b : TermProg) (t t' : Term) (h : (TermProg.inColor c b).run t = (t', none))
    (start : Option Color) : colorAfter start t'.out = none := by
  simp only [TermProg.run, Term.leave] at h
  split at h
  · cases h
    simp only [Term.reset]
    rw [colorAfter_append]
    rfl
  · cases h

/-- False of the code: an exception in a coloured block leaves the colour on, for everything that is printed after it
was caught. -/
theorem color_exception_violated (c : Color) (s : List Char) (e : PyErr) (t : Term) (hc : t.noColor = false) :
    ((TermProg.seq (.catches (.inColor c (.raise e))) (.print s)).run t) =
      ({ t with out := t.out ++ [.color c, .text s] }, none) ∧
    display none [.color c, .text s] = [(s, some c)] ∧
    (TermProg.seq (.catches (.inColor c (.raise e))) (.print s)).wanted none = [(['\n'], none), (s, none)] := by
  refine ⟨?_, rfl, rfl⟩
  simp [TermProg.run, Term.leave, Term.select, hc]

/-- False of the code: after a coloured block inside another the rest of the outer one is not in its colour. -/
theorem color_nested_violated (c d : Color) (s u : List Char) (t : Term) (hc : t.noColor = false) :
    ∃ o, (TermProg.inColor c (.seq (.inColor d (.print s)) (.print u))).run t = ({ t with out := t.out ++ o }, none) ∧
      (u, none) ∈ display none o := by
  refine ⟨[.color c, .color d, .text s, .reset, .text ['\n'], .text u, .reset, .text ['\n']], ?_, ?_⟩
  · simp [TermProg.run, Term.leave, Term.select, Term.reset, hc]
  · simp [display]

/-! ## C192: output without colours -/

theorem run_noColor (p : TermProg) (t : Term) (hc : t.noColor = true) :
    ∃ o, (p.run t).1 = { t with out := t.out ++ o } ∧ ∀ c, .color c ∉ o := by
  induction p generalizing t with
  | print s => exact ⟨[.text s], rfl, by simp⟩
  | inColor d b ih =>
    have hsel : t.select d = t := by simp [Term.select, hc]
    obtain ⟨o, h1, h2⟩ := ih t hc
    simp only [TermProg.run, hsel, Term.leave]
    split
    · exact ⟨o ++ [.reset, .text ['\n']], by simp only [Term.reset, h1, List.append_assoc], by simpa using h2⟩
    · exact ⟨o, h1, h2⟩
  | seq p q ihp ihq =>
    obtain ⟨o1, h1, d1⟩ := ihp t hc
    simp only [TermProg.run]
    split
    · obtain ⟨o2, h2, d2⟩ := ihq (p.run t).1 (by rw [h1]; exact hc)
      exact ⟨o1 ++ o2, by rw [h2, h1]; simp, by simp [d1, d2]⟩
    · exact ⟨o1, h1, d1⟩
  | raise e => exact ⟨[], by simp [TermProg.run], by simp⟩
  | catches p ih => exact ih t hc

/-- With colours switched off no program, whatever it does, changes the colour of its text. -/
theorem nocolor_partial (p : TermProg) (t t' : Term) (e : Option PyErr) (hc : t.noColor = true) (h : p.run t = (t', e)) :
    ∃ o, t'.out = t.out ++ o ∧ ∀ x ∈ display none o, x.2 = none := by
  obtain ⟨o, h1, h2⟩ := run_noColor p t hc
  rw [h] at h1
  refine ⟨o, by simp only at h1; rw [h1], ?_⟩
  clear h1
  induction o with
  | nil => simp [display]
  | cons x o ih =>
    cases x with
    | text s =>
      simp only [display, List.mem_cons, forall_eq_or_imp, true_and]
      exact ih fun c hc => h2 c (by simp [hc])
    | color c => exact absurd (by simp) (h2 c)
    | reset => exact ih fun c hc => h2 c (by simp [hc])

/-- False of the code: the output is not free of control sequences; every coloured block that ends normally writes
one. -/
theorem nocolor_violated (c : Color) (s : List Char) (t : Term) (hc : t.noColor = true) :
    (TermProg.inColor c (.print s)).run t = ({ t with out := t.out ++ [.text s, .reset, .text ['\n']] }, none) := by
  simp [TermProg.run, Term.leave, Term.select, Term.reset, hc]

/-- The first call of `setup` decides; later ones change nothing. -/
theorem setup_once (a b : Bool) : ((Term.init.setup a).setup b).noColor = a ∧ (Term.init.setup a).noColor = a :=
  ⟨rfl, rfl⟩

end SY.Props
