import Verif.Firewall

/-! # The class `Firewall` and the colours of the terminal

`Firewall` (switchyard/hostfirewall.py 50-73) is the object the rest of the code uses: it chooses the implementation
for the platform, is entered and left by a `with` statement (syinit.py 112 and 133) and gets the rules sockets add
(socketemu.py 254).  Line numbers without a file name refer to hostfirewall.py.

`Verif.Firewall` models what the commands do when they are run.  Here each command is a process that may fail to be
started.  `_runcmd` (17-47) then handles `OSError` by reading `e.stderror` (41), which does not exist (the attribute is
`strerror`): `AttributeError` is raised instead.  Every other failure of a command is turned into a status no caller
but `__init__` (156) looks at. -/

namespace SY

/-- The host: what the programs change on Linux, the rules in pf's anchor and the references to pf on macOS, and the
number of processes that were asked for so far. -/
structure FwHost where
  machine : Machine
  anchor : List PfRule
  refs : List Nat
  ran : Nat

/-- What the environment decides: the state of the commands' world (`fw`), whether the `n`-th process can be started,
and the token `pfctl -E` prints, if any. -/
structure HostEnv where
  fw : FwEnv
  spawns : Nat → Bool
  token : Option Nat

/-- `_runcmd`, 17-47, for a command with effect `f`: nothing is returned if `AttributeError` is raised. -/
def runCmd (env : HostEnv) (h : FwHost) (f : FwHost → FwHost) : FwHost × Res Unit :=
  if env.spawns h.ran then ({ f h with ran := h.ran + 1 }, .ok ()) else ({ h with ran := h.ran + 1 }, .error .attributeError)

/-- Go on after a call that may have raised. -/
def andThen {α β : Type} (r : FwHost × Res α) (k : FwHost → α → FwHost × Res β) : FwHost × Res β :=
  match r.2 with
  | .ok a => k r.1 a
  | .error e => (r.1, .error e)

/-- The effect of a command of the Linux firewall. -/
def FwHost.onMachine (h : FwHost) (m : Machine) : FwHost := { h with machine := m }

/-- `for cmd in cmds: _runcmd(cmd)`, 193-194. -/
def runCmds (env : HostEnv) (h : FwHost) : List FwCmd → FwHost × Res Unit
  | [] => (h, .ok ())
  | c :: cs => andThen (runCmd env h fun h => h.onMachine (h.machine.exec env.fw c)) fun h _ => runCmds env h cs

/-- The loop 154-160: the settings saved and the interfaces whose setting could not be read. -/
def saveArpRun (env : HostEnv) (h : FwHost) (saved : Dict String Int) (bad : List String) :
    List String → FwHost × Res (Dict String Int × List String)
  | [] => (h, .ok (saved, bad))
  | i :: is =>
    andThen (runCmd env h id) fun h _ =>
      if env.fw.readable i then
        andThen (runCmd env h fun h => h.onMachine (h.machine.setArp env.fw i 8)) fun h' _ =>
          saveArpRun env h' (saved.set i (h.machine.arpIgnore i)) bad is
      else saveArpRun env h saved (bad ++ [i]) is

/-- Lines 145-163, after `iptables-save` printed `tables`. -/
def linuxRules (env : HostEnv) (tables : Tables) (interfaces : List String) (rules : List (List Char)) (h : FwHost) :
    FwHost × Res LinuxFirewall :=
  match parseRules interfaces rules with
  | .error e => (h, .error e)
  | .ok cmds =>
    if rules.contains "all".toList then
      andThen (saveArpRun env h [] [] interfaces) fun h sb =>
        (h, .ok ⟨sb.2.foldl List.erase interfaces, tables, sb.1, [.flush, .flushRaw] ++ cmds⟩)
    else (h, .ok ⟨interfaces, tables, [], [.flush, .flushRaw] ++ cmds⟩)

/-- `LinuxFirewall.__init__`, 136-164. -/
def linuxNew (env : HostEnv) (h : FwHost) (interfaces : List String) (rules : List (List Char)) :
    FwHost × Res LinuxFirewall :=
  andThen (runCmd env h id) fun h' _ => linuxRules env h.machine.tables interfaces rules h'

/-- `MacOSFirewall`, 212-226. -/
structure MacFirewall where
  interfaces : List String
  rules : List PfRule
  token : Nat

/-- Lines 220-224: `pfctl -E` takes a reference to pf and prints its token. -/
def macEnable (env : HostEnv) (interfaces : List String) (rules : List PfRule) (h : FwHost) : FwHost × Res MacFirewall :=
  match env.token with
  | some t => andThen (runCmd env h fun h => { h with refs := t :: h.refs }) fun h _ => (h, .ok ⟨interfaces, rules, t⟩)
  | none => andThen (runCmd env h id) fun h _ => (h, .error .runtimeError)

/-- `MacOSFirewall.__init__`, 213-226. -/
def macNew (env : HostEnv) (h : FwHost) (interfaces : List String) (rules : List (List Char)) : FwHost × Res MacFirewall :=
  match macParseRules interfaces rules with
  | .error e => (h, .error e)
  | .ok rs => macEnable env interfaces rs h

/-- `TestModeFirewall.__init__`, 111-114. -/
def testNew (rules : List TestRule) : List (List Char) → Res (List TestRule)
  | [] => .ok rules
  | r :: rs => testAddRule rules r >>= fun rules => testNew rules rs

/-- The implementations. -/
inductive Delegate
  | linux (fw : LinuxFirewall)
  | mac (fw : MacFirewall)
  | test (rules : List TestRule)

/-- `sys.platform`, as far as `_osmap` (276-280) tells apart. -/
inductive Platform
  | linux | darwin | test | other
  deriving DecidableEq

/-- The host and `Firewall._instance`: `none` before an object was made, `some none` for an object without
`_firewall_delegate`. -/
structure FwWorld where
  host : FwHost
  inst : Option (Option Delegate)

/-- Lines 56-59. -/
def makeDelegate (env : HostEnv) (p : Platform) (interfaces : List String) (rules : List (List Char)) (h : FwHost) :
    FwHost × Res Delegate :=
  match p with
  | .linux => andThen (linuxNew env h interfaces rules) fun h fw => (h, .ok (.linux fw))
  | .darwin => andThen (macNew env h interfaces rules) fun h fw => (h, .ok (.mac fw))
  | .test => (h, Delegate.test <$> testNew [] rules)
  | .other => (h, .error .generic)

/-- The object after 59: it has a delegate if there was no exception. -/
def delegateOf : Res Delegate → Option Delegate
  | .ok d => some d
  | .error _ => none

/-- `Firewall.__init__`, 52-59. -/
def Firewall.new (env : HostEnv) (p : Platform) (interfaces : List String) (rules : List (List Char)) (w : FwWorld) :
    FwWorld × Res Unit :=
  if w.inst.isSome then (w, .error .generic)
  else
    (⟨(makeDelegate env p interfaces rules w.host).1, some (delegateOf (makeDelegate env p interfaces rules w.host).2)⟩,
      (fun _ => ()) <$> (makeDelegate env p interfaces rules w.host).2)

/-- `block`: 116-117, 191-194, 252-259. -/
def Delegate.block (env : HostEnv) (h : FwHost) : Delegate → FwHost × Res Unit
  | .linux fw => runCmds env h fw.rulecmds
  | .mac fw => runCmd env h fun h => { h with anchor := macBlock fw.rules h.anchor }
  | .test _ => (h, .ok ())

/-- `show_rules`: 122-123, 206-209, 269-274; one command that changes nothing. -/
def Delegate.showRules (env : HostEnv) (h : FwHost) : Delegate → FwHost × Res Unit
  | .test _ => (h, .ok ())
  | _ => runCmd env h id

/-- The loop 202-204. -/
def restoreArpRun (env : HostEnv) (saved : Dict String Int) (h : FwHost) : List String → FwHost × Res Unit
  | [] => (h, .ok ())
  | i :: is =>
    match saved.get? i with
    | some n =>
      andThen (runCmd env h fun h => h.onMachine (h.machine.setArp env.fw i n)) fun h _ => restoreArpRun env saved h is
    | none => restoreArpRun env saved h is

/-- Lines 201-204, after the tables were flushed. -/
def linuxRestore (env : HostEnv) (fw : LinuxFirewall) (h : FwHost) : FwHost × Res Unit :=
  andThen (runCmd env h fun h => h.onMachine { h.machine with tables := fw.saved }) fun h _ =>
    restoreArpRun env fw.arpignore h fw.intf

/-- `unblock`: 119-120, 196-204, 261-267. -/
def Delegate.unblock (env : HostEnv) (h : FwHost) : Delegate → FwHost × Res Unit
  | .linux fw => andThen (runCmds env h [.flush, .flushRaw]) fun h _ => linuxRestore env fw h
  | .mac fw =>
    andThen (runCmd env h fun h => { h with anchor := [] }) fun h _ =>
      runCmd env h fun h => { h with refs := h.refs.erase fw.token }
  | .test _ => (h, .ok ())

/-- The loop 186-189: the commands are recorded one by one as they are run. -/
def addCmds (env : HostEnv) (fw : LinuxFirewall) (h : FwHost) : List FwCmd → (FwHost × LinuxFirewall) × Option PyErr
  | [] => ((h, fw), none)
  | c :: cs =>
    match (runCmd env h fun h => h.onMachine (h.machine.exec env.fw c)).2 with
    | .ok _ =>
      addCmds env { fw with rulecmds := fw.rulecmds ++ [c] }
        (runCmd env h fun h => h.onMachine (h.machine.exec env.fw c)).1 cs
    | .error e => (((runCmd env h fun h => h.onMachine (h.machine.exec env.fw c)).1, fw), some e)

/-- What a call of `run` raised. -/
def errOf {α : Type} : Res α → Option PyErr
  | .ok _ => none
  | .error e => some e

/-- `add_rule` of the implementations: 125-132, 185-189, 246-250. -/
def Delegate.addRule (env : HostEnv) (h : FwHost) (r : List Char) : Delegate → (FwHost × Delegate) × Option PyErr
  | .linux fw =>
    match parseRule fw.intf r with
    | .error e => ((h, .linux fw), some e)
    | .ok cmds => (((addCmds env fw h cmds).1.1, .linux (addCmds env fw h cmds).1.2), (addCmds env fw h cmds).2)
  | .mac fw =>
    match macParseRule fw.interfaces r with
    | .error e => ((h, .mac fw), some e)
    | .ok rs =>
      (((runCmd env h fun h => { h with anchor := rs }).1, .mac { fw with rules := fw.rules ++ rs }),
        errOf (runCmd env h fun h => { h with anchor := rs }).2)
  | .test rules =>
    match testAddRule rules r with
    | .error e => ((h, .test rules), some e)
    | .ok rs => ((h, .test rs), none)

/-- `Firewall.add_rule`, 71-73: `None` has no `_firewall_delegate`. -/
def Firewall.addRule (env : HostEnv) (w : FwWorld) (r : List Char) : FwWorld × Option PyErr :=
  match w.inst with
  | some (some d) => (⟨(d.addRule env w.host r).1.1, some (some (d.addRule env w.host r).1.2)⟩, (d.addRule env w.host r).2)
  | _ => (w, some .attributeError)

/-- The rules a program's sockets add while it runs.  What `add_rule` raises reaches the program, which may end because
of it or not. -/
def Firewall.addAll (env : HostEnv) (w : FwWorld) : List (List Char) → FwWorld
  | [] => w
  | r :: rs => Firewall.addAll env (Firewall.addRule env w r).1 rs

/-- `Firewall.__enter__`, 61-65. -/
def Firewall.enter (env : HostEnv) (verbose : Bool) (d : Delegate) (h : FwHost) : FwHost × Res Unit :=
  andThen (d.block env h) fun h _ => if verbose then d.showRules env h else (h, .ok ())

/-- The body of the `with` statement and `__exit__`, 67-69: a body that adds the rules `added` and ends with `r`.
`__exit__` returns `None`, so an exception of the body goes on. -/
def Firewall.body {α : Type} (env : HostEnv) (added : List (List Char)) (r : Res α) (w : FwWorld) : FwWorld × Res α :=
  match (Firewall.addAll env w added).inst with
  | some (some d) =>
    (⟨(d.unblock env (Firewall.addAll env w added).host).1, some (some d)⟩,
      (d.unblock env (Firewall.addAll env w added).host).2 >>= fun _ => r)
  | _ => (Firewall.addAll env w added, .error .attributeError)

/-- Entering, and the body if entering succeeded. -/
def Firewall.entered {α : Type} (env : HostEnv) (verbose : Bool) (added : List (List Char)) (r : Res α) (d : Delegate)
    (h : FwHost) : FwWorld × Res α :=
  match (Firewall.enter env verbose d h).2 with
  | .error e => (⟨(Firewall.enter env verbose d h).1, some (some d)⟩, .error e)
  | .ok _ => Firewall.body env added r ⟨(Firewall.enter env verbose d h).1, some (some d)⟩

/-- `with Firewall(interfaces, rules): …` (syinit.py 112 and 133). -/
def withFirewall {α : Type} (env : HostEnv) (p : Platform) (verbose : Bool) (interfaces : List String)
    (rules added : List (List Char)) (r : Res α) (w : FwWorld) : FwWorld × Res α :=
  match (Firewall.new env p interfaces rules w).2 with
  | .error e => ((Firewall.new env p interfaces rules w).1, .error e)
  | .ok _ =>
    match (Firewall.new env p interfaces rules w).1.inst with
    | some (some d) => Firewall.entered env verbose added r d (Firewall.new env p interfaces rules w).1.host
    | _ => ((Firewall.new env p interfaces rules w).1, .error .attributeError)

/-! ## Colours (switchyard/textcolor.py; line numbers from here on refer to it) -/

/-- The colours there are methods for, 31-59. -/
inductive Color
  | green | red | blue | cyan | magenta | yellow
  deriving DecidableEq, Repr

/-- What is written to the terminal: text, the sequence that selects a colour, the sequence that resets everything. -/
inductive TermOut
  | text (s : List Char)
  | color (c : Color)
  | reset
  deriving DecidableEq, Repr

/-- `_SETUP` and `_NoColor`, 9-10, and what was written so far. -/
structure Term where
  isSetup : Bool
  noColor : Bool
  out : List TermOut
  deriving DecidableEq, Repr

/-- At the beginning, 9-10. -/
def Term.init : Term := ⟨false, false, []⟩

/-- `TextColor.setup`, 15-25 (the registration at exit is left out). -/
def Term.setup (t : Term) (nocolor : Bool) : Term := if t.isSetup then t else { t with isSetup := true, noColor := nocolor }

/-- `TextColor.reset`, 27-29: the sequence and the newline of `print`. -/
def Term.reset (t : Term) : Term := { t with out := t.out ++ [.reset, .text ['\n']] }

/-- `TextColor.green` and the others, 31-59. -/
def Term.select (t : Term) (c : Color) : Term := if t.noColor then t else { t with out := t.out ++ [.color c] }

/-- What a program does: print, print in a colour (`with red(): …`, 61-95), raise an exception, or catch one. -/
inductive TermProg
  | print (s : List Char)
  | inColor (c : Color) (body : TermProg)
  | seq (p q : TermProg)
  | raise (e : PyErr)
  | catches (p : TermProg)

/-- After the body of a `with` statement: the generator of `contextmanager` is resumed where it yielded, with the
exception if there was one, so that what follows the `yield` (65) is done only if there was none. -/
def Term.leave (r : Term × Option PyErr) : Term × Option PyErr :=
  match r.2 with
  | none => (r.1.reset, none)
  | some e => (r.1, some e)

/-- Run a program. -/
def TermProg.run : TermProg → Term → Term × Option PyErr
  | .print s, t => ({ t with out := t.out ++ [.text s] }, none)
  | .inColor c b, t => Term.leave (b.run (t.select c))
  | .seq p q, t =>
    match (p.run t).2 with
    | none => q.run (p.run t).1
    | some e => ((p.run t).1, some e)
  | .raise e, t => (t, some e)
  | .catches p, t => ((p.run t).1, none)

end SY
