import Verif.Firewall

/-! # Properties of the host firewall: C54, C55 -/

namespace SY.Props
open SY

/-! ## C54: the machine is restored -/

/-- Rules added while the firewall is up; a rule that cannot be parsed raises and changes nothing. -/
def addRules (env : FwEnv) (fw : LinuxFirewall) (m : Machine) : List (List Char) → Machine × LinuxFirewall
  | [] => (m, fw)
  | r :: rs => addRules env (fw.addRule env m r).1.2 (fw.addRule env m r).1.1 rs

/-- Create the firewall, enter its context, add rules, leave the context. -/
def fwSession (env : FwEnv) (m : Machine) (interfaces : List String) (rules added : List (List Char)) : Res Machine :=
  (fun x =>
    let y := addRules env x.2 (x.2.block env x.1) added
    y.2.unblock env y.1) <$> LinuxFirewall.new env m interfaces rules

theorem exec_arp (env : FwEnv) (m : Machine) (c : FwCmd) : (m.exec env c).arpIgnore = m.arpIgnore := by
  cases c with
  | flush => rfl
  | flushRaw => rfl
  | drop p i t =>
    rcases p with _ | _ | _ | _ <;> cases t <;> simp only [Machine.exec] <;> split <;> rfl

theorem execAll_arp (env : FwEnv) (m : Machine) (cs : List FwCmd) : (m.execAll env cs).arpIgnore = m.arpIgnore := by
  induction cs generalizing m with
  | nil => rfl
  | cons c cs ih => simp only [Machine.execAll, List.foldl_cons] at ih ⊢; rw [ih, exec_arp]

theorem addRules_facts (env : FwEnv) (fw : LinuxFirewall) (m : Machine) (rs : List (List Char)) :
    (addRules env fw m rs).1.arpIgnore = m.arpIgnore ∧ (addRules env fw m rs).2.intf = fw.intf ∧
    (addRules env fw m rs).2.saved = fw.saved ∧ (addRules env fw m rs).2.arpignore = fw.arpignore := by
  induction rs generalizing fw m with
  | nil => exact ⟨rfl, rfl, rfl, rfl⟩
  | cons r rs ih =>
    simp only [addRules]
    obtain ⟨a, b, c, d⟩ := ih (fw.addRule env m r).1.2 (fw.addRule env m r).1.1
    rw [a, b, c, d]
    unfold LinuxFirewall.addRule
    split
    · exact ⟨rfl, rfl, rfl, rfl⟩
    · exact ⟨execAll_arp _ _ _, rfl, rfl, rfl⟩

theorem setArp_arp (env : FwEnv) (m : Machine) (i : String) (n : Int) (j : String) :
    (m.setArp env i n).arpIgnore j = if env.writable i ∧ j = i then n else m.arpIgnore j := by
  unfold Machine.setArp
  by_cases hw : env.writable i <;> simp [hw]

theorem setArp_tables (env : FwEnv) (m : Machine) (i : String) (n : Int) : (m.setArp env i n).tables = m.tables := by
  unfold Machine.setArp; split <;> rfl

/-- What the saving loop does. -/
theorem saveArp_facts (env : FwEnv) (m : Machine) (saved : Dict String Int) (bad is : List String) (hn : is.Nodup) :
    (saveArp env m saved bad is).1.tables = m.tables ∧
    (∀ j, (saveArp env m saved bad is).1.arpIgnore j =
      if j ∈ is ∧ env.readable j ∧ env.writable j then 8 else m.arpIgnore j) ∧
    (∀ j, (saveArp env m saved bad is).2.1.get? j =
      if j ∈ is ∧ env.readable j then some (m.arpIgnore j) else saved.get? j) ∧
    (saveArp env m saved bad is).2.2 = bad ++ is.filter (fun j => !env.readable j) := by
  induction is generalizing m saved bad with
  | nil => simp [saveArp]
  | cons i is ih =>
    rw [List.nodup_cons] at hn
    simp only [saveArp]
    split
    · rename_i hr
      obtain ⟨a, b, c, d⟩ := ih (m.setArp env i 8) (saved.set i (m.arpIgnore i)) bad hn.2
      refine ⟨by rw [a, setArp_tables], ?_, ?_, ?_⟩
      · intro j
        rw [b, setArp_arp]
        by_cases hj : j = i
        · subst hj; simp [hn.1, hr]
        · simp [hj]
      · intro j
        rw [c, setArp_arp, Dict.get?_set]
        by_cases hj : j = i
        · subst hj; simp [hn.1, hr]
        · have hj' : ¬ i = j := fun e => hj e.symm
          simp [hj, hj']
      · rw [d]; simp [hr]
    · rename_i hr
      obtain ⟨a, b, c, d⟩ := ih m saved (bad ++ [i]) hn.2
      refine ⟨a, ?_, ?_, ?_⟩
      · intro j
        rw [b]
        by_cases hj : j = i
        · subst hj; simp [hr]
        · simp [hj]
      · intro j
        rw [c]
        by_cases hj : j = i
        · subst hj; simp [hr]
        · simp [hj]
      · rw [d]; simp [hr]

theorem mem_foldl_erase {bad is : List String} {j : String} (hj : j ∈ is) (hb : j ∉ bad) : j ∈ bad.foldl List.erase is := by
  induction bad generalizing is with
  | nil => exact hj
  | cons b bad ih =>
    simp only [List.foldl_cons]
    simp only [List.mem_cons, not_or] at hb
    exact ih ((List.mem_erase_of_ne hb.1).mpr hj) hb.2

theorem restoreArp_facts (env : FwEnv) (saved : Dict String Int) (m : Machine) (is : List String) :
    (restoreArp env saved m is).tables = m.tables ∧
    ∀ j, (restoreArp env saved m is).arpIgnore j =
      if j ∈ is ∧ env.writable j then (saved.get? j).getD (m.arpIgnore j) else m.arpIgnore j := by
  induction is generalizing m with
  | nil => simp [restoreArp]
  | cons i is ih =>
    simp only [restoreArp]
    split
    · rename_i n hn
      obtain ⟨a, b⟩ := ih (m.setArp env i n)
      refine ⟨by rw [a, setArp_tables], fun j => ?_⟩
      rw [b, setArp_arp]
      by_cases hj : j = i
      · subst hj
        by_cases hw : env.writable j <;> simp [hw, hn]
      · simp [hj]
    · rename_i hn
      obtain ⟨a, b⟩ := ih m
      refine ⟨a, fun j => ?_⟩
      rw [b]
      by_cases hj : j = i
      · subst hj; simp [hn]
      · simp [hj]

/-- For every machine, every set of interfaces, every list of rules and of rules added later, and whichever
settings cannot be read or written: creating, entering and leaving the firewall leaves the packet-filter
tables and all `arp_ignore` settings as they were. -/
theorem firewall_restores (env : FwEnv) (m : Machine) (interfaces : List String) (hn : interfaces.Nodup)
    (rules added : List (List Char)) (m' : Machine) (h : fwSession env m interfaces rules added = .ok m') :
    m'.tables = m.tables ∧ ∀ i, m'.arpIgnore i = m.arpIgnore i := by
  unfold fwSession at h
  obtain ⟨⟨m1, fw⟩, hnew, rfl⟩ := map_eq_ok.mp h
  unfold LinuxFirewall.new at hnew
  obtain ⟨cmds, _, hnew⟩ := bind_eq_ok.mp hnew
  split at hnew
  · cases hnew
    obtain ⟨a, b, c, d⟩ := saveArp_facts env m [] [] interfaces hn
    generalize hsv : saveArp env m [] [] interfaces = sv at a b c d ⊢
    simp only [LinuxFirewall.unblock]
    obtain ⟨e1, e2, e3, e4⟩ := addRules_facts env
      ⟨sv.2.2.foldl List.erase interfaces, m.tables, sv.2.1, [.flush, .flushRaw] ++ cmds⟩
      (LinuxFirewall.block env ⟨sv.2.2.foldl List.erase interfaces, m.tables, sv.2.1, [.flush, .flushRaw] ++ cmds⟩ sv.1) added
    rw [e2, e3, e4]
    refine ⟨(restoreArp_facts ..).1, fun j => ?_⟩
    rw [(restoreArp_facts ..).2]
    simp only [execAll_arp]
    rw [e1]
    simp only [LinuxFirewall.block, execAll_arp]
    rw [b, c]
    simp only [d, List.nil_append]
    by_cases hj : j ∈ interfaces
    · by_cases hr : env.readable j
      · have hm : j ∈ (interfaces.filter (fun j => !env.readable j)).foldl List.erase interfaces :=
          mem_foldl_erase hj (by simp [hr])
        by_cases hw : env.writable j <;> simp [hj, hr, hw, hm]
      · simp [hr]
    · simp [hj]
  · cases hnew
    simp only [LinuxFirewall.unblock]
    obtain ⟨e1, e2, e3, e4⟩ := addRules_facts env ⟨interfaces, m.tables, [], [.flush, .flushRaw] ++ cmds⟩
      (LinuxFirewall.block env ⟨interfaces, m.tables, [], [.flush, .flushRaw] ++ cmds⟩ m) added
    rw [e2, e3, e4]
    refine ⟨(restoreArp_facts ..).1, fun j => ?_⟩
    rw [(restoreArp_facts ..).2]
    simp only [execAll_arp]
    rw [e1]
    simp [execAll_arp, LinuxFirewall.block]

/-- A machine with rules of its own and different settings per interface. -/
def fwMachine : Machine := ⟨⟨["-A INPUT -j ACCEPT"], [.other "-A PREROUTING -j CT"], ["-t nat -P OUTPUT ACCEPT"]⟩,
  fun i => if i = "eth0" then 1 else 2⟩

/-- `sysctl` cannot read the setting of a VLAN interface (the dot separates components). -/
def fwEnv : FwEnv := ⟨fun i => i ≠ "eth0.5", fun _ => true, fun s => some (s.foldl (fun n c => 10 * n + (c.toNat - 48)) 0)⟩

/-- While the firewall is up the machine is different. -/
example : (LinuxFirewall.new fwEnv fwMachine ["eth0", "eth0.5"] ["all".toList]).map
      (fun x => ((x.2.block fwEnv x.1).tables, (x.2.block fwEnv x.1).arpIgnore "eth0", x.2.intf)) =
    .ok (⟨[], [.drop none "eth0" none, .drop none "eth0.5" none], ["-t nat -P OUTPUT ACCEPT"]⟩, 8, ["eth0"]) := by
  decide +kernel

example : (fwSession fwEnv fwMachine ["eth0", "eth0.5"] ["all".toList] ["udp:53".toList, "bogus".toList]).map
      (fun m => (m.tables, m.arpIgnore "eth0")) = .ok (fwMachine.tables, 1) := by
  decide +kernel

/-- If the firewall cannot be created because a rule cannot be parsed, `ValueError` is raised (the machine is
not touched before: the rules are parsed first). -/
theorem firewall_new_raises (env : FwEnv) (m : Machine) (interfaces : List String) (rules : List (List Char))
    (e : PyErr) (h : LinuxFirewall.new env m interfaces rules = .error e) : e = .valueError := by
  have hi : ∀ r e, interpRule r = .error e → e = .valueError := by
    intro r e h
    unfold interpRule at h
    split at h
    · cases h
    · split at h
      · cases h
      · split at h
        · cases h
        · cases h; rfl
  have hr : ∀ r e, parseRule interfaces r = .error e → e = .valueError := by
    intro r e h
    unfold parseRule at h
    split at h
    · cases h
    · split at h
      · cases h
      · cases hx : interpRule r with
        | ok a => rw [hx] at h; cases h
        | error e' => rw [hx] at h; cases h; exact hi r _ hx
  have hrs : ∀ rs e, parseRules interfaces rs = .error e → e = .valueError := by
    intro rs
    induction rs with
    | nil => intro e h; cases h
    | cons r rs ih =>
      intro e h
      simp only [parseRules] at h
      cases hx : parseRule interfaces r with
      | error e' => rw [hx] at h; cases h; exact hr r _ hx
      | ok c =>
        rw [hx] at h
        simp only [bind_ok] at h
        cases hy : parseRules interfaces rs with
        | error e' => rw [hy] at h; cases h; exact ih _ hy
        | ok cs => rw [hy] at h; cases h
  unfold LinuxFirewall.new at h
  cases hx : parseRules interfaces rules with
  | error e' => rw [hx] at h; cases h; exact hrs rules _ hx
  | ok c => rw [hx] at h; simp only [bind_ok] at h; split at h <;> cases h

/-- With an interface listed twice the setting is not restored (device lists are sets, so this does not
happen in the program itself). -/
theorem firewall_duplicate_violated : ∃ m', fwSession fwEnv fwMachine ["eth0", "eth0"] ["all".toList] [] = .ok m' ∧
    fwMachine.arpIgnore "eth0" = 1 ∧ m'.arpIgnore "eth0" = 8 :=
  ⟨_, rfl, by decide +kernel, by decide +kernel⟩

/-- If saving the tables fails but flushing does not, the rules of the machine are lost: the status of the
command is not checked. -/
theorem firewall_unsaved_violated (env : FwEnv) (fw : LinuxFirewall) (m : Machine) :
    (fw.unblockUnsaved env m).tables.filter = [] ∧ (fw.unblockUnsaved env m).tables.raw = [] := by
  unfold LinuxFirewall.unblockUnsaved
  rw [(restoreArp_facts ..).1]
  exact ⟨rfl, rfl⟩

/-! ## C55: the rules cover every interface -/

/-- The documented rules (11-15): `all`, `none`, a protocol with optional port. -/
inductive FwRule
  | none
  | all
  | proto (p : FwProto) (star : Bool)
  | port (p : FwProto) (n : Nat)

/-- How a rule is written. -/
def FwRule.text : FwRule → List Char
  | .none => "none".toList
  | .all => "all".toList
  | .proto p false => p.text
  | .proto p true => p.text ++ [':', '*']
  | .port p n => p.text ++ ':' :: Nat.toDigits 10 n

/-- A packet arriving at the host. -/
structure FwPkt where
  intf : String
  proto : Option FwProto
  dport : Nat

/-- The packets a rule is about. -/
def FwRule.wants : FwRule → FwPkt → Prop
  | .none, _ => False
  | .all, _ => True
  | .proto p _, k => k.proto = some p
  | .port p n, k => k.proto = some p ∧ k.dport = n

/-- What the raw table drops: `iptables` drops a packet that matches all the conditions of a drop rule. -/
def _root_.SY.RawRule.drops : RawRule → FwPkt → Prop
  | .drop p i n, k => k.intf = i ∧ (∀ q, p = some q → k.proto = some q) ∧ (∀ d, n = some d → k.dport = d)
  | .other _, _ => False

/-- The rules `iptables` can express: a port only for TCP and UDP. -/
def FwRule.Expressible (env : FwEnv) : FwRule → Prop
  | .port p n => p ≠ .icmp ∧ env.port (Nat.toDigits 10 n) = some n
  | _ => True

theorem afterPrefix_append (p s : List Char) : afterPrefix p (p ++ s) = some s := by
  induction p with
  | nil => cases s <;> rfl
  | cons a p ih => simp [afterPrefix, ih]

theorem interp_text (p : FwProto) (s : List Char) : interpRule (p.text ++ s) = .ok (p, rulePort s) := by
  cases p with
  | tcp => unfold interpRule; rw [afterPrefix_append]
  | udp =>
    unfold interpRule
    rw [show afterPrefix FwProto.tcp.text (FwProto.udp.text ++ s) = none from rfl, afterPrefix_append]
  | icmp =>
    unfold interpRule
    rw [show afterPrefix FwProto.tcp.text (FwProto.icmp.text ++ s) = none from rfl,
      show afterPrefix FwProto.udp.text (FwProto.icmp.text ++ s) = none from rfl, afterPrefix_append]

theorem toDigits_digits (n : Nat) : (Nat.toDigits 10 n).takeWhile Char.isDigit = Nat.toDigits 10 n := by
  have h : ∀ c ∈ Nat.toDigits 10 n, c.isDigit := fun c hc => Nat.isDigit_of_mem_toDigits (by decide) (by decide) hc
  generalize Nat.toDigits 10 n = l at h
  induction l with
  | nil => rfl
  | cons c l ih =>
    rw [List.takeWhile_cons_of_pos (h c List.mem_cons_self), ih fun d hd => h d (List.mem_cons_of_mem _ hd)]

theorem rulePort_digits (n : Nat) : rulePort (':' :: Nat.toDigits 10 n) = some (Nat.toDigits 10 n) := by
  simp only [rulePort, toDigits_digits]
  rw [if_pos]
  exact Nat.toDigits_ne_nil

theorem dropWhile_concat {α : Type} (p : α → Bool) (l : List α) (c : α) (h : p c = false) :
    (l ++ [c]).dropWhile p = l.dropWhile p ++ [c] := by
  induction l with
  | nil => simp [List.dropWhile, h]
  | cons a l ih =>
    simp only [List.cons_append, List.dropWhile_cons]
    split
    · exact ih
    · rfl

theorem strip_head (c : Char) (s : List Char) (h : isSpace c = false) : ∃ s', strip (c :: s) = c :: s' := by
  refine ⟨(s.reverse.dropWhile isSpace).reverse, ?_⟩
  unfold strip
  rw [List.dropWhile_cons, if_neg (by simp [h]), List.reverse_cons, dropWhile_concat _ _ _ h]
  simp

theorem strip_proto (p : FwProto) (s : List Char) :
    strip (p.text ++ s) ≠ "none".toList ∧ strip (p.text ++ s) ≠ "all".toList := by
  cases p with
  | tcp =>
    obtain ⟨s', h⟩ := strip_head 't' ("cp".toList ++ s) rfl
    rw [show FwProto.tcp.text ++ s = 't' :: ("cp".toList ++ s) from rfl, h]
    constructor <;> intro e <;> cases e
  | udp =>
    obtain ⟨s', h⟩ := strip_head 'u' ("dp".toList ++ s) rfl
    rw [show FwProto.udp.text ++ s = 'u' :: ("dp".toList ++ s) from rfl, h]
    constructor <;> intro e <;> cases e
  | icmp =>
    obtain ⟨s', h⟩ := strip_head 'i' ("cmp".toList ++ s) rfl
    rw [show FwProto.icmp.text ++ s = 'i' :: ("cmp".toList ++ s) from rfl, h]
    constructor <;> intro e <;> cases e

theorem parse_proto (intf : List String) (p : FwProto) (s : List Char) :
    parseRule intf (p.text ++ s) = .ok (intf.map fun i => .drop (some p) i (rulePort s)) := by
  obtain ⟨h1, h2⟩ := strip_proto p s
  unfold parseRule
  rw [if_neg h1, if_neg h2, interp_text]
  rfl

/-- What the commands for a rule add to the raw table. -/
def FwRule.raw (intf : List String) : FwRule → List RawRule
  | .none => []
  | .all => intf.map fun i => .drop Option.none i Option.none
  | .proto p _ => intf.map fun i => .drop (some p) i Option.none
  | .port p n => intf.map fun i => .drop (some p) i (some n)

theorem execAll_append (env : FwEnv) (m : Machine) (a b : List FwCmd) :
    m.execAll env (a ++ b) = (m.execAll env a).execAll env b := by simp [Machine.execAll]

theorem execAll_drops (env : FwEnv) (m : Machine) (intf : List String) (p : Option FwProto) (t : Option (List Char))
    (n : Option Nat)
    (h : ∀ m i, Machine.exec env m (.drop p i t) = { m with tables := { m.tables with raw := m.tables.raw ++ [.drop p i n] } }) :
    (m.execAll env (intf.map fun i => .drop p i t)).tables.raw = m.tables.raw ++ intf.map fun i => RawRule.drop p i n := by
  induction intf generalizing m with
  | nil => simp [Machine.execAll]
  | cons i intf ih =>
    simp only [List.map_cons, Machine.execAll, List.foldl_cons] at ih ⊢
    rw [h, ih]
    simp

theorem rule_exec (env : FwEnv) (intf : List String) (r : FwRule) (hr : r.Expressible env) :
    ∃ cmds, parseRule intf r.text = .ok cmds ∧
      ∀ m : Machine, (m.execAll env cmds).tables.raw = m.tables.raw ++ r.raw intf := by
  cases r with
  | none => exact ⟨[], rfl, fun m => by simp [Machine.execAll, FwRule.raw]⟩
  | all =>
    refine ⟨intf.map fun i => .drop none i none, rfl, fun m => ?_⟩
    exact execAll_drops env m intf none none none fun m i => rfl
  | proto p star =>
    refine ⟨intf.map fun i => .drop (some p) i none, ?_, fun m => ?_⟩
    · cases star with
      | false => have := parse_proto intf p []; rw [List.append_nil] at this; exact this
      | true => exact parse_proto intf p [':', '*']
    · exact execAll_drops env m intf (some p) none none fun m i => by cases p <;> rfl
  | port p n =>
    refine ⟨intf.map fun i => .drop (some p) i (some (Nat.toDigits 10 n)), ?_, fun m => ?_⟩
    · have := parse_proto intf p (':' :: Nat.toDigits 10 n)
      rw [rulePort_digits] at this
      exact this
    · refine execAll_drops env m intf (some p) _ (some n) fun m i => ?_
      cases p with
      | icmp => exact absurd rfl hr.1
      | tcp => simp [Machine.exec, hr.2]
      | udp => simp [Machine.exec, hr.2]

theorem exists_in_map {α β : Type} (l : List α) (f : α → β) (P : β → Prop) :
    (∃ x ∈ l.map f, P x) ↔ ∃ a ∈ l, P (f a) := by
  constructor
  · rintro ⟨x, hx, hp⟩
    obtain ⟨a, ha, rfl⟩ := List.mem_map.mp hx
    exact ⟨a, ha, hp⟩
  · rintro ⟨a, ha, hp⟩
    exact ⟨f a, List.mem_map.mpr ⟨a, ha, rfl⟩, hp⟩

theorem raw_drops (intf : List String) (r : FwRule) (k : FwPkt) :
    (∃ x ∈ r.raw intf, x.drops k) ↔ k.intf ∈ intf ∧ r.wants k := by
  cases r with
  | none => simp [FwRule.raw, FwRule.wants]
  | _ => simp only [FwRule.raw, exists_in_map]; simp [FwRule.wants, RawRule.drops] <;> grind

/-- Entering the firewall with any list of rules (that `iptables` can express): exactly the packets that
arrive on one of the interfaces and that one of the rules is about are dropped. -/
theorem firewall_covers_partial (env : FwEnv) (m : Machine) (interfaces : List String) (rules : List FwRule)
    (h : ∀ r ∈ rules, r.Expressible env) :
    ∃ m1 fw, LinuxFirewall.new env m interfaces (rules.map FwRule.text) = .ok (m1, fw) ∧
      ∀ k : FwPkt, (∃ x ∈ (fw.block env m1).tables.raw, x.drops k) ↔
        k.intf ∈ interfaces ∧ ∃ r ∈ rules, r.wants k := by
  have hp : ∃ cmds, parseRules interfaces (rules.map FwRule.text) = .ok cmds ∧
      ∀ m : Machine, (m.execAll env cmds).tables.raw = m.tables.raw ++ rules.flatMap (FwRule.raw interfaces) := by
    induction rules with
    | nil => exact ⟨[], rfl, fun m => by simp [Machine.execAll]⟩
    | cons r rs ih =>
      obtain ⟨c, hc, hc'⟩ := rule_exec env interfaces r (h r List.mem_cons_self)
      obtain ⟨cs, hcs, hcs'⟩ := ih fun r hr => h r (List.mem_cons_of_mem _ hr)
      refine ⟨c ++ cs, by simp [parseRules, hc, hcs], fun m => ?_⟩
      rw [execAll_append, hcs', hc']
      simp
  obtain ⟨cmds, hcmds, hexec⟩ := hp
  have hfin : ∀ m1 : Machine, (m1.execAll env ([.flush, .flushRaw] ++ cmds)).tables.raw =
      rules.flatMap (FwRule.raw interfaces) := by
    intro m1
    rw [execAll_append, hexec]
    simp [Machine.execAll, Machine.exec]
  have hfin' : ∀ k : FwPkt, (∃ x ∈ rules.flatMap (FwRule.raw interfaces), x.drops k) ↔
        k.intf ∈ interfaces ∧ ∃ r ∈ rules, r.wants k := by
    intro k
    simp only [List.mem_flatMap]
    constructor
    · rintro ⟨x, ⟨r, hr, hx⟩, hk⟩
      obtain ⟨h1, h2⟩ := (raw_drops interfaces r k).mp ⟨x, hx, hk⟩
      exact ⟨h1, r, hr, h2⟩
    · rintro ⟨h1, r, hr, h2⟩
      obtain ⟨x, hx, hk⟩ := (raw_drops interfaces r k).mpr ⟨h1, h2⟩
      exact ⟨x, ⟨r, hr, hx⟩, hk⟩
  unfold LinuxFirewall.new
  rw [hcmds]
  simp only [bind_ok]
  split
  · refine ⟨_, _, rfl, fun k => ?_⟩
    simp only [LinuxFirewall.block]
    rw [hfin]; exact hfin' k
  · refine ⟨_, _, rfl, fun k => ?_⟩
    simp only [LinuxFirewall.block]
    rw [hfin]; exact hfin' k

example : (FwRule.port .udp 53).Expressible fwEnv ∧ (FwRule.port .udp 53).text = "udp:53".toList ∧
    FwRule.all.Expressible fwEnv ∧ (FwRule.proto .icmp true).text = "icmp:*".toList :=
  ⟨⟨by decide, by decide +kernel⟩, by decide +kernel, trivial, rfl⟩

/-- A rule added while the firewall is up drops, in addition, exactly the packets it is about, on the
interfaces the firewall still handles; if the rule cannot be parsed nothing changes. -/
theorem firewall_add_rule_partial (env : FwEnv) (fw : LinuxFirewall) (m : Machine) (r : FwRule)
    (h : r.Expressible env) (k : FwPkt) :
    (fw.addRule env m r.text).2 = none ∧
    ((∃ x ∈ (fw.addRule env m r.text).1.1.tables.raw, x.drops k) ↔
      (∃ x ∈ m.tables.raw, x.drops k) ∨ (k.intf ∈ fw.intf ∧ r.wants k)) := by
  obtain ⟨c, hc, hc'⟩ := rule_exec env fw.intf r h
  unfold LinuxFirewall.addRule
  rw [hc]
  simp only [true_and]
  rw [hc', ← raw_drops]
  simp only [List.mem_append]
  constructor
  · rintro ⟨x, hx | hx, hk⟩
    · exact .inl ⟨x, hx, hk⟩
    · exact .inr ⟨x, hx, hk⟩
  · rintro (⟨x, hx, hk⟩ | ⟨x, hx, hk⟩)
    · exact ⟨x, .inl hx, hk⟩
    · exact ⟨x, .inr hx, hk⟩

/-- A rule that starts with no protocol name and is not `all` or `none` raises `ValueError` and changes
nothing, whether given at the start or later. -/
theorem firewall_malformed_partial (env : FwEnv) (fw : LinuxFirewall) (m : Machine) (r : List Char)
    (h1 : strip r ≠ "none".toList) (h2 : strip r ≠ "all".toList) (h3 : ∀ (p : FwProto) s, r ≠ p.text ++ s) :
    fw.addRule env m r = ((m, fw), some .valueError) ∧
    ∀ interfaces rules, r ∈ rules → LinuxFirewall.new env m interfaces rules = .error .valueError := by
  have hpre : ∀ (p r s : List Char), afterPrefix p r = some s → r = p ++ s := by
    intro p
    induction p with
    | nil => intro r s h; cases r <;> cases h <;> rfl
    | cons a p ih =>
      intro r s h
      cases r with
      | nil => cases h
      | cons b r =>
        simp only [afterPrefix] at h
        split at h
        · rename_i e; rw [e, ih r s h]; rfl
        · cases h
  have hnone : ∀ p : FwProto, afterPrefix p.text r = none := by
    intro p
    cases hx : afterPrefix p.text r with
    | none => rfl
    | some s => exact absurd (hpre _ _ _ hx) (h3 p s)
  have hparse : ∀ intf, parseRule intf r = .error .valueError := by
    intro intf
    unfold parseRule
    rw [if_neg h1, if_neg h2]
    unfold interpRule
    rw [hnone, hnone, hnone]
    rfl
  refine ⟨by unfold LinuxFirewall.addRule; rw [hparse], fun interfaces rules hr => ?_⟩
  have herr : ∃ e, LinuxFirewall.new env m interfaces rules = .error e := by
    have : ∃ e, parseRules interfaces rules = .error e := by
      induction rules with
      | nil => cases hr
      | cons x xs ih =>
        simp only [parseRules]
        cases hx : parseRule interfaces x with
        | error e => exact ⟨e, rfl⟩
        | ok c =>
          rcases List.mem_cons.mp hr with rfl | hr'
          · rw [hparse] at hx; cases hx
          · obtain ⟨e, he⟩ := ih hr'
            exact ⟨e, by rw [he]; rfl⟩
    obtain ⟨e, he⟩ := this
    exact ⟨e, by unfold LinuxFirewall.new; rw [he]; rfl⟩
  obtain ⟨e, he⟩ := herr
  rw [he, firewall_new_raises env m interfaces rules e he]

example : strip "http".toList ≠ "none".toList ∧ strip "http".toList ≠ "all".toList ∧
    ∀ (p : FwProto) s, "http".toList ≠ p.text ++ s := by
  refine ⟨by decide +kernel, by decide +kernel, fun p s h => ?_⟩
  cases p <;> cases h

/-- False of the code: anything may follow the protocol.  `tcp:http` is accepted and blocks all TCP,
`tcpx` too, and `udp:80-90` blocks port 80 only. -/
theorem firewall_malformed_violated :
    parseRule ["eth0"] "tcp:http".toList = .ok [.drop (some .tcp) "eth0" none] ∧
    parseRule ["eth0"] "tcpx".toList = .ok [.drop (some .tcp) "eth0" none] ∧
    parseRule ["eth0"] "udp:80-90".toList = .ok [.drop (some .udp) "eth0" (some "80".toList)] := by decide +kernel

/-- False of the code: a rule for ICMP with a port is accepted but nothing is installed, since the command is
rejected and its status ignored. -/
theorem firewall_icmp_port_violated (env : FwEnv) (fw : LinuxFirewall) (m : Machine) :
    (fw.addRule env m "icmp:8".toList).2 = none ∧
    (fw.addRule env m "icmp:8".toList).1.1.tables.raw = m.tables.raw := by
  have : parseRule fw.intf "icmp:8".toList = .ok (fw.intf.map fun i => .drop (some .icmp) i (some ['8'])) :=
    parse_proto fw.intf .icmp ":8".toList
  unfold LinuxFirewall.addRule
  rw [this]
  refine ⟨rfl, ?_⟩
  have : ∀ (l : List String) (m : Machine),
      m.execAll env (l.map fun i => .drop (some .icmp) i (some ['8'])) = m := by
    intro l
    induction l with
    | nil => intro m; rfl
    | cons i l ih => intro m; exact ih m
  simp only [this]

/-- False of the code: after `all`, rules added later do not cover an interface whose `arp_ignore` could not
be read. -/
theorem firewall_later_rule_violated :
    (LinuxFirewall.new fwEnv fwMachine ["eth0", "eth0.5"] ["all".toList]).map
      (fun x => (x.2.addRule fwEnv (x.2.block fwEnv x.1) "udp:53".toList).1.1.tables.raw) =
    .ok [.drop none "eth0" none, .drop none "eth0.5" none, .drop (some .udp) "eth0" (some 53)] := by decide +kernel

/-- `all` written with a space around it blocks all packets, but ARP replies go on: `arp_ignore` is not
set. -/
theorem firewall_all_space_violated :
    (LinuxFirewall.new fwEnv fwMachine ["eth0"] [" all".toList]).map
      (fun x => ((x.2.block fwEnv x.1).tables.raw, (x.2.block fwEnv x.1).arpIgnore "eth0")) =
      .ok ([.drop none "eth0" none], 1) ∧
    (LinuxFirewall.new fwEnv fwMachine ["eth0"] ["all".toList]).map
      (fun x => ((x.2.block fwEnv x.1).tables.raw, (x.2.block fwEnv x.1).arpIgnore "eth0")) =
      .ok ([.drop none "eth0" none], 8) := by decide +kernel

/-! On macOS -/

/-- What a pf rule blocks: with a port, only packets with that source *and* destination port. -/
def _root_.SY.PfRule.blocks (port : List Char → Option Nat) : PfRule → String → FwProto → (sport dport : Nat) → Prop
  | .all i, j, _, _, _ => i = j
  | .proto i p none, j, q, _, _ => i = j ∧ p = q
  | .proto i p (some t), j, q, s, d => i = j ∧ p = q ∧ port t = some s ∧ port t = some d

/-- Rules for a protocol, and `all`, cover every interface. -/
theorem mac_covers_partial (port : List Char → Option Nat) (intf : List String) (anchor : List PfRule)
    (p : FwProto) (star : Bool) (j : String) (q : FwProto) (s d : Nat) :
    (∃ rules, macAddRule intf anchor (FwRule.proto p star).text = .ok rules ∧
      ((∃ x ∈ rules, x.blocks port j q s d) ↔ j ∈ intf ∧ p = q)) ∧
    (∃ rules, macAddRule intf anchor FwRule.all.text = .ok rules ∧
      ((∃ x ∈ rules, x.blocks port j q s d) ↔ j ∈ intf)) := by
  refine ⟨⟨intf.map fun i => .proto i p none, ?_, ?_⟩, ⟨intf.map .all, rfl, ?_⟩⟩
  · have key : ∀ s, rulePort s = none → macAddRule intf anchor (p.text ++ s) = .ok (intf.map fun i => .proto i p none) := by
      intro s hs
      obtain ⟨h1, h2⟩ := strip_proto p s
      unfold macAddRule macParseRule
      rw [if_neg h1, if_neg h2, interp_text, hs]
      rfl
    cases star with
    | false => have := key [] rfl; rw [List.append_nil] at this; exact this
    | true => exact key [':', '*'] rfl
  · rw [exists_in_map]; simp [PfRule.blocks]; grind
  · rw [exists_in_map]; simp [PfRule.blocks]

/-- False of the code on macOS: the rule for a port does not block a packet for that port from another
port. -/
theorem mac_port_violated (port : List Char → Option Nat) (intf : List String) (anchor : List PfRule)
    (p : FwProto) (n : Nat) (j : String) (s : Nat) (hs : s ≠ n) (hport : port (Nat.toDigits 10 n) = some n) :
    ∃ rules, macAddRule intf anchor (FwRule.port p n).text = .ok rules ∧ ∀ x ∈ rules, ¬ x.blocks port j p s n := by
  refine ⟨intf.map fun i => .proto i p (some (Nat.toDigits 10 n)), ?_, ?_⟩
  · obtain ⟨h1, h2⟩ := strip_proto p (':' :: Nat.toDigits 10 n)
    unfold macAddRule macParseRule FwRule.text
    simp only
    rw [if_neg h1, if_neg h2, interp_text, rulePort_digits]
    rfl
  · intro x hx
    simp only [List.mem_map] at hx
    obtain ⟨i, _, rfl⟩ := hx
    simp only [PfRule.blocks, hport, Option.some.injEq]
    rintro ⟨_, _, h, _⟩
    exact hs h.symm

/-- False of the code on macOS: a rule added later replaces all the others, and `none` raises
`UnboundLocalError`. -/
theorem mac_add_rule_violated (anchor : List PfRule) :
    macAddRule ["en0"] anchor "udp".toList = .ok [.proto "en0" .udp none] ∧
    macAddRule ["en0"] anchor "none".toList = .error .unboundLocal := by
  constructor <;> rfl

/-- In test mode rules are recorded in order and rejected like the others. -/
theorem test_mode_rules (rules : List TestRule) (r : FwRule) :
    testAddRule rules r.text = .ok (rules ++ [match r with
      | .none => .none
      | .all => .all
      | .proto p _ => .proto p none
      | .port p n => .proto p (some (Nat.toDigits 10 n))]) := by
  have key : ∀ (p : FwProto) s, testAddRule rules (p.text ++ s) = .ok (rules ++ [.proto p (rulePort s)]) := by
    intro p s
    obtain ⟨h1, h2⟩ := strip_proto p s
    unfold testAddRule
    rw [if_neg h2, if_neg h1, interp_text]
    rfl
  cases r with
  | none => rfl
  | all => rfl
  | proto p star =>
    cases star with
    | false => have := key p []; rw [List.append_nil] at this; exact this
    | true => exact key p [':', '*']
  | port p n => have := key p (':' :: Nat.toDigits 10 n); rw [rulePort_digits] at this; exact this

end SY.Props
