import Verif.Dict
import Verif.Text

/-! # The host firewall: switchyard/hostfirewall.py

Line numbers without a file name refer to that file.

`_runcmd` (17-47) runs a program; its effect is modelled on a `Machine` that has the state the programs
change: the tables of `iptables` and the `arp_ignore` settings.  Text is a list of characters; `strip` and
`\d` are modelled for ASCII.  What the environment decides is in `FwEnv`. -/

namespace SY

inductive FwProto
  | tcp | udp | icmp
  deriving DecidableEq, Repr

/-- The alternatives of the regular expression, 82. -/
def FwProto.text : FwProto → List Char
  | .tcp => "tcp".toList
  | .udp => "udp".toList
  | .icmp => "icmp".toList

/-- The text after prefix `p`, if `s` starts with it. -/
def afterPrefix (p s : List Char) : Option (List Char) :=
  match p, s with
  | [], s => some s
  | _ :: _, [] => none
  | a :: p, b :: s => if a = b then afterPrefix p s else none

/-- `(:(?P<port>\d+|\*))?` and lines 88-90: the port, or `None`. -/
def rulePort (s : List Char) : Option (List Char) :=
  match s with
  | ':' :: s => if (s.takeWhile Char.isDigit) ≠ [] then some (s.takeWhile Char.isDigit) else none
  | _ => none

/-- `AbstractFirewall._interp_rule`, 80-91.  `re.match` looks at a prefix of the text only. -/
def interpRule (r : List Char) : Res (FwProto × Option (List Char)) :=
  match afterPrefix FwProto.tcp.text r with
  | some s => .ok (.tcp, rulePort s)
  | none =>
    match afterPrefix FwProto.udp.text r with
    | some s => .ok (.udp, rulePort s)
    | none =>
      match afterPrefix FwProto.icmp.text r with
      | some s => .ok (.icmp, rulePort s)
      | none => .error .valueError

/-- The commands the firewall runs: `iptables -F`, `iptables -t raw -F`, and
`iptables -t raw -A PREROUTING -j DROP [--protocol p] -i intf [--dport port]`. -/
inductive FwCmd
  | flush
  | flushRaw
  | drop (proto : Option FwProto) (intf : String) (port : Option (List Char))
  deriving DecidableEq, Repr

/-- A rule of the raw table: a drop rule, or something else that was there before. -/
inductive RawRule
  | drop (proto : Option FwProto) (intf : String) (dport : Option Nat)
  | other (text : String)
  deriving DecidableEq, Repr

/-- What `iptables-save` prints: the tables. -/
structure Tables where
  filter : List String
  raw : List RawRule
  rest : List String
  deriving DecidableEq, Repr

/-- The machine. -/
structure Machine where
  tables : Tables
  arpIgnore : String → Int

/-- What the environment decides: for which interfaces `sysctl` can read and write `arp_ignore`, and what port
`iptables` takes a text to mean (`none`: it rejects the command). -/
structure FwEnv where
  readable : String → Bool
  writable : String → Bool
  port : List Char → Option Nat

/-- The effect of a command.  `iptables` has no `--dport` for protocol icmp or without a protocol and
rejects such a command; a rejected command changes nothing. -/
def Machine.exec (env : FwEnv) (m : Machine) : FwCmd → Machine
  | .flush => { m with tables := { m.tables with filter := [] } }
  | .flushRaw => { m with tables := { m.tables with raw := [] } }
  | .drop p i none => { m with tables := { m.tables with raw := m.tables.raw ++ [.drop p i none] } }
  | .drop (some .icmp) _ (some _) => m
  | .drop none _ (some _) => m
  | .drop (some p) i (some t) =>
    match env.port t with
    | some n => { m with tables := { m.tables with raw := m.tables.raw ++ [.drop (some p) i (some n)] } }
    | none => m

/-- `for cmd in cmds: _runcmd(cmd)`. -/
def Machine.execAll (env : FwEnv) (m : Machine) (cmds : List FwCmd) : Machine := cmds.foldl (Machine.exec env) m

/-- `sysctl -w net.ipv4.conf.<intf>.arp_ignore=<n>`. -/
def Machine.setArp (env : FwEnv) (m : Machine) (intf : String) (n : Int) : Machine :=
  if env.writable intf then { m with arpIgnore := fun i => if i = intf then n else m.arpIgnore i } else m

/-- `LinuxFirewall`, 135-164. -/
structure LinuxFirewall where
  intf : List String
  saved : Tables
  arpignore : Dict String Int
  rulecmds : List FwCmd

/-- `LinuxFirewall._parse_rule`, 166-183. -/
def parseRule (intf : List String) (r : List Char) : Res (List FwCmd) :=
  if strip r = "none".toList then .ok []
  else if strip r = "all".toList then .ok (intf.map fun i => .drop none i none)
  else (fun pp => intf.map fun i => .drop (some pp.1) i pp.2) <$> interpRule r

/-- The loop 146-148. -/
def parseRules (intf : List String) : List (List Char) → Res (List FwCmd)
  | [] => .ok []
  | r :: rs => parseRule intf r >>= fun c => parseRules intf rs >>= fun cs => .ok (c ++ cs)

/-- The loop 154-160: the machine, the saved settings and the interfaces whose setting could not be read. -/
def saveArp (env : FwEnv) (m : Machine) (saved : Dict String Int) (bad : List String) :
    List String → Machine × Dict String Int × List String
  | [] => (m, saved, bad)
  | i :: is =>
    if env.readable i then saveArp env (m.setArp env i 8) (saved.set i (m.arpIgnore i)) bad is
    else saveArp env m saved (bad ++ [i]) is

/-- `LinuxFirewall.__init__`, 136-164.  `list.remove` (162) removes the first occurrence. -/
def LinuxFirewall.new (env : FwEnv) (m : Machine) (interfaces : List String) (rules : List (List Char)) :
    Res (Machine × LinuxFirewall) :=
  parseRules interfaces rules >>= fun cmds =>
  if rules.contains "all".toList then
    .ok ((saveArp env m [] [] interfaces).1,
      ⟨(saveArp env m [] [] interfaces).2.2.foldl List.erase interfaces, m.tables,
       (saveArp env m [] [] interfaces).2.1, [.flush, .flushRaw] ++ cmds⟩)
  else .ok (m, ⟨interfaces, m.tables, [], [.flush, .flushRaw] ++ cmds⟩)

/-- `LinuxFirewall.add_rule`, 185-189. -/
def LinuxFirewall.addRule (env : FwEnv) (fw : LinuxFirewall) (m : Machine) (r : List Char) :
    (Machine × LinuxFirewall) × Option PyErr :=
  match parseRule fw.intf r with
  | .error e => ((m, fw), some e)
  | .ok cmds => ((m.execAll env cmds, { fw with rulecmds := fw.rulecmds ++ cmds }), none)

/-- `LinuxFirewall.block`, 191-194. -/
def LinuxFirewall.block (env : FwEnv) (fw : LinuxFirewall) (m : Machine) : Machine := m.execAll env fw.rulecmds

/-- The loop 202-204. -/
def restoreArp (env : FwEnv) (saved : Dict String Int) (m : Machine) : List String → Machine
  | [] => m
  | i :: is =>
    match saved.get? i with
    | some n => restoreArp env saved (m.setArp env i n) is
    | none => restoreArp env saved m is

/-- `LinuxFirewall.unblock`, 196-204.  `iptables-restore` replaces the tables by the saved ones. -/
def LinuxFirewall.unblock (env : FwEnv) (fw : LinuxFirewall) (m : Machine) : Machine :=
  restoreArp env fw.arpignore { (m.execAll env [.flush, .flushRaw]) with tables := fw.saved } fw.intf

/-- The same, when saving or restoring the tables failed: the status of those commands (139, 201) is not
looked at. -/
def LinuxFirewall.unblockUnsaved (env : FwEnv) (fw : LinuxFirewall) (m : Machine) : Machine :=
  restoreArp env fw.arpignore (m.execAll env [.flush, .flushRaw]) fw.intf

/-! ## macOS -/

/-- A rule `block drop on <intf> all` or `block drop on <intf> proto <p> from any[ port n] to any[ port n]`. -/
inductive PfRule
  | all (intf : String)
  | proto (intf : String) (p : FwProto) (port : Option (List Char))
  deriving DecidableEq, Repr

/-- `MacOSFirewall._parse_rule`, 228-244: for `none` the loop reads `rulestr` before it is assigned. -/
def macParseRule (intf : List String) (r : List Char) : Res (List PfRule) :=
  if strip r = "none".toList then (if intf = [] then .ok [] else .error .unboundLocal)
  else if strip r = "all".toList then .ok (intf.map .all)
  else (fun pp => intf.map fun i => .proto i pp.1 pp.2) <$> interpRule r

/-- The loop 216-218. -/
def macParseRules (intf : List String) : List (List Char) → Res (List PfRule)
  | [] => .ok []
  | r :: rs => macParseRule intf r >>= fun c => macParseRules intf rs >>= fun cs => .ok (c ++ cs)

/-- `MacOSFirewall.add_rule`, 246-250: the rules in the anchor afterwards.  `pfctl -f` replaces the rules of
the anchor. -/
def macAddRule (intf : List String) (_anchor : List PfRule) (r : List Char) : Res (List PfRule) := macParseRule intf r

/-- `MacOSFirewall.block`, 252-259: the rules in the anchor afterwards. -/
def macBlock (rules _anchor : List PfRule) : List PfRule := rules

/-! ## Test mode -/

/-- What a rule of `TestModeFirewall` is turned into. -/
inductive TestRule
  | all | none
  | proto (p : FwProto) (port : Option (List Char))
  deriving DecidableEq, Repr

/-- `TestModeFirewall.add_rule`, 125-132. -/
def testAddRule (rules : List TestRule) (r : List Char) : Res (List TestRule) :=
  if strip r = "all".toList then .ok (rules ++ [.all])
  else if strip r = "none".toList then .ok (rules ++ [.none])
  else (fun pp => rules ++ [.proto pp.1 pp.2]) <$> interpRule r

end SY
