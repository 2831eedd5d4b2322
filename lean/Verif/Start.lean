import Verif.NetBase
import Verif.Interface
import Verif.Firewall

/-! # Starting programs: switchyard/importcode.py, syinit.py, swyard.py and the end of llnetreal.py

Text is a list of characters.  `SwyardArgs` is what `argparse` hands over; `CmdArgs` models how. -/

namespace SY

/-! ### importcode.py -/

/-- A directory, as the list of its components from the root. -/
abbrev Dir := List (List Char)

/-- The parts of a text between occurrences of `/`. -/
def pathParts (s : List Char) : List (List Char) := splitChar '/' s

/-- `os.path.normpath` on the components of an absolute path: empty ones and `.` are dropped, `..` removes the
one before.  (A path that begins with exactly two slashes keeps both; this is not modelled.) -/
def normParts (acc : Dir) : List (List Char) → Dir
  | [] => acc
  | c :: cs =>
    if c = [] ∨ c = ['.'] then normParts acc cs
    else if c = ['.', '.'] then normParts acc.dropLast cs
    else normParts (acc ++ [c]) cs

/-- `os.path.abspath`, line 14, with the current directory. -/
def absPath (cwd : Dir) (s : List Char) : Dir :=
  match s with
  | '/' :: _ => normParts [] (pathParts s)
  | _ => normParts cwd (pathParts s)

/-- `os.path.splitext`, lines 15-16, on a name that ends in `.py`: the ending stays if only dots precede it. -/
def dropPy (b : List Char) : List Char :=
  if b.drop (b.length - 3) = ".py".toList ∧ (b.take (b.length - 3)).any (· != '.') then
    b.take (b.length - 3)
  else b

/-- What the file of a module holds: the names it defines when it is run, or the exception it raises; and the
modules it loads with their directories and names. -/
structure Source where
  names : List (List Char)
  fails : Option PyErr
  loads : List (List Char × Dir × List (List Char))
  deriving DecidableEq

/-- A loaded module: the directory its file is in, and the names in it. -/
structure LoadedMod where
  dir : Dir
  names : List (List Char)
  deriving DecidableEq

/-- What importing depends on and changes: `sys.path` (directories only) and `sys.modules`. -/
structure Importing where
  path : List Dir
  mods : Dict (List Char) LoadedMod

/-- The files that can be imported: by directory and name without ending.  Packages are not modelled. -/
abbrev Files := Dir → List Char → Option Source

/-- The search for a module along `sys.path`. -/
def findModule (fs : Files) (name : List Char) : List Dir → Option (Dir × Source)
  | [] => none
  | d :: ds =>
    match fs d name with
    | some s => some (d, s)
    | none => findModule fs name ds

/-- The modules that running a file loads along with it; those already loaded stay as they are. -/
def loadOthers (m : Dict (List Char) LoadedMod) : List (List Char × Dir × List (List Char)) →
    Dict (List Char) LoadedMod
  | [] => m
  | (n, d, ns) :: l => loadOthers (if (m.get? n).isSome then m else m.set n ⟨d, ns⟩) l

/-- `importlib.reload`, line 25: the file found now is run with the names of the old module.  (For names without dots; others are
those of modules in packages.) -/
def Importing.reload (w : Importing) (fs : Files) (name : List Char) (old : LoadedMod) :
    Importing × Res LoadedMod :=
  match findModule fs name w.path with
  | none => (w, .error .generic)
  | some (d, s) =>
    let w' := { w with mods := loadOthers w.mods s.loads }
    match s.fails with
    | some e => (w', .error e)
    | none =>
      ({ w' with mods := w'.mods.set name ⟨d, old.names ++ s.names⟩ }, .ok ⟨d, old.names ++ s.names⟩)

/-- `importlib.__import__`, lines 29-36, for a module that is not loaded; `ImportError` is `generic`. -/
def Importing.importPlain (w : Importing) (fs : Files) (name : List Char) : Importing × Res LoadedMod :=
  match findModule fs name w.path with
  | none => (w, .error .generic)
  | some (d, s) =>
    let w' := { w with mods := loadOthers w.mods s.loads }
    match s.fails with
    | some e => (w', .error e)
    | none => ({ w' with mods := w'.mods.set name ⟨d, s.names⟩ }, .ok ⟨d, s.names⟩)

/-- The same for a name with dots, `a.b`: `a` is imported first, unless it is loaded, and is not a package. -/
def Importing.importInside (w : Importing) (fs : Files) (top : List Char) : Importing × Res LoadedMod :=
  match w.mods.get? top with
  | some _ => (w, .error .generic)
  | none =>
    match w.importPlain fs top with
    | (w', .error e) => (w', .error e)
    | (w', .ok _) => (w', .error .generic)

/-- The same for a name that begins with a dot, `.a`: a file `a` is looked for and run, then asking for the part before the dot
raises ValueError.  (What is run for a name with further dots is not modelled; ImportError is raised in the end.) -/
def Importing.importHidden (w : Importing) (fs : Files) (rest : List Char) : Importing × Res LoadedMod :=
  if '.' ∈ rest then (w, .error .generic)
  else
    match findModule fs rest w.path with
    | none => (w, .error .generic)
    | some (d, s) =>
      let w' := { w with mods := loadOthers w.mods s.loads }
      match s.fails with
      | some e => (w', .error e)
      | none => ({ w' with mods := w'.mods.set ('.' :: rest) ⟨d, s.names⟩ }, .error .valueError)

/-- `importlib.__import__`, lines 29-36, for any name. -/
def Importing.importNew (w : Importing) (fs : Files) (name : List Char) : Importing × Res LoadedMod :=
  if '.' ∉ name then w.importPlain fs name
  else
    match name with
    | '.' :: rest => w.importHidden fs rest
    | _ => w.importInside fs (name.takeWhile (· != '.'))

/-- Lines 23-36. -/
def Importing.load (w : Importing) (fs : Files) (name : List Char) : Importing × Res LoadedMod :=
  match w.mods.get? name with
  | some old => w.reload fs name old
  | none => w.importNew fs name

/-- Lines 38-52: the first of the entry points that exists, with the directory of the module it belongs to. -/
def entryPoint (m : LoadedMod) (entries : List (List Char)) : Res (Option (Dir × List Char)) :=
  if entries = [] then .ok none
  else
    match entries.find? (m.names.contains ·) with
    | some n => .ok (some (m.dir, n))
    | none => .error .generic

/-- Lines 19-20. -/
def Importing.addPath (w : Importing) (d : Dir) : Importing :=
  if d ∈ w.path then w else { w with path := w.path ++ [d] }

/-- `import_or_die`, 7-52.  A path without a file name makes `__import__` raise ValueError. -/
def Importing.importOrDie (w : Importing) (fs : Files) (cwd : Dir) (arg : List Char)
    (entries : List (List Char)) : Importing × Res (Option (Dir × List Char)) :=
  let p := absPath cwd arg
  match p.getLast? with
  | none => (w, .error .valueError)
  | some b =>
    match (w.addPath p.dropLast).load fs (dropPy b) with
    | (w', .error e) => (w', .error e)
    | (w', .ok m) => (w', entryPoint m entries)

/-- The entry points of user code, llnetreal.py 281 and llnettest.py 262-263. -/
def userEntries : List (List Char) := ["main".toList, "switchy_main".toList]

/-- `get_test_scenario_from_file`, lib/testing.py 975-991, for a file that is not a compiled one. -/
def scenarioEntries : List (List Char) := ["scenario".toList]

/-- The scenarios that `run_tests`, llnettest.py 148-149, loads: the modules they come from, up to the first
failure. -/
def loadScenarios (w : Importing) (fs : Files) (cwd : Dir) : List (List Char) →
    Importing × List (Option (Dir × List Char)) × Option PyErr
  | [] => (w, [], none)
  | s :: ss =>
    match w.importOrDie fs cwd s scenarioEntries with
    | (w', .error e) => (w', [], some e)
    | (w', .ok m) =>
      let r := loadScenarios w' fs cwd ss
      (r.1, m :: r.2.1, r.2.2)

/-! ### swyard.py and syinit.py -/

/-- The command line as `argparse` hands it over, swyard.py 23-77; options that only change what is printed
(`-v`, `-d`, `-l`, `--nocolor`) are left out. -/
structure SwyardArgs where
  intf : List (List Char) := []
  exclude : List (List Char) := []
  usercode : Option (List Char) := none
  codearg : List Char := []
  compile : List (List Char) := []
  tests : List (List Char) := []
  dryrun : Bool := false
  firewall : List (List Char) := []
  app : Option (List Char) := none
  nohandle : Bool := false
  cli : Bool := false
  topology : Option (List Char) := none
  listif : Bool := false

/-- What the environment decides: the devices, whether the host's firewall can be set up with some rules,
whether the scenario files can be compiled, what importing and running the user's code, the simulator and
making the network object raise. -/
structure StartEnv where
  pcap : List PcapDev
  real : List Char → Bool
  firewall : List (List Char) → List (List Char) → Option PyErr
  compiles : List Char → Option PyErr
  sim : Option PyErr
  imports : Option PyErr
  tests : Option PyErr
  net : Option PyErr
  code : Option PyErr

/-- What the program does, in order. -/
inductive StartAct
  | usage
  | listed (devs : List (List Char))
  | simulated
  | compiled (scenario : List Char)
  | noDevices
  | blocked (devs rules : List (List Char))
  | restored
  | imported (usercode : List Char)
  | tested (tests : List (List Char)) (args : CodeArgs)
  | opened (devs : List (List Char))
  | ran (args : CodeArgs)
  | closed
  deriving DecidableEq

/-- What becomes of the thread of the application: there is none, it waits at the barrier for ever, it passes
the barrier and finds that the setup failed, or it starts the application. -/
inductive AppFate
  | absent | stuck | skipped | started
  deriving DecidableEq, Repr

/-- What a run of the program amounts to: what it did, the exception that ended its main thread, the fate of
the application's thread, and whether the receiving threads of the network are left running. -/
structure StartRun where
  acts : List StartAct
  raised : Option PyErr
  app : AppFate
  receiving : Bool
  deriving DecidableEq

/-- The fate of the application's thread (syinit.py 81-89, 140-145), by what the main thread did: whether it
waited at the barrier, and whether the setup was complete then. -/
def SwyardArgs.fate (a : SwyardArgs) (waited ok : Bool) : AppFate :=
  if a.app.isNone then .absent else if waited then (if ok then .started else .skipped) else .stuck

/-- Lines 91-94 of syinit.py. -/
def SwyardArgs.rules (a : SwyardArgs) : List (List Char) :=
  if a.app.isSome then [] else if a.firewall = [] then ["all".toList] else a.firewall

/-- Lines 101-103 of syinit.py. -/
def compileAll (env : StartEnv) : List (List Char) → List StartAct × Option PyErr
  | [] => ([], none)
  | s :: ss =>
    match env.compiles s with
    | some e => ([], some e)
    | none => (.compiled s :: (compileAll env ss).1, (compileAll env ss).2)

/-- `main_test`, llnettest.py 256-267, and `run_tests`, 141-253. -/
def mainTest (env : StartEnv) (a : SwyardArgs) (c : CodeArgs) (code : List Char) :
    List StartAct × Option PyErr :=
  match env.imports with
  | some e => ([], some e)
  | none =>
    if a.dryrun then ([.imported code], none)
    else ([.imported code, .tested a.tests c], env.tests)

/-- `main_real`, llnetreal.py 276-314: what is done, what it raises, and whether the receiving threads are
left running.  `--nopdb` only decides about the debugger. -/
def mainReal (env : StartEnv) (a : SwyardArgs) (c : CodeArgs) (code : List Char) :
    List StartAct × Option PyErr × Bool :=
  match env.imports with
  | some e => ([], some e, true)
  | none =>
    if a.dryrun then ([.imported code, .closed], none, false)
    else
      match env.code with
      | some e => ([.imported code, .ran c], if a.nohandle then some e else none, true)
      | none => ([.imported code, .ran c, .closed], none, false)

/-- Test mode, syinit.py 96-115. -/
def startTest (env : StartEnv) (a : SwyardArgs) (c : CodeArgs) : StartRun :=
  if a.compile ≠ [] then
    ⟨(compileAll env a.compile).1, (compileAll env a.compile).2, a.fate false false, false⟩
  else
    match a.usercode with
    | none => ⟨[], none, a.fate false false, false⟩
    | some code =>
      match env.firewall [] a.rules with
      | some e => ⟨[], some e, a.fate false false, false⟩
      | none =>
        let r := mainTest env a c code
        ⟨.blocked [] a.rules :: r.1 ++ [.restored], r.2, a.fate true true, false⟩

/-- The part of syinit.py 136-137 inside the firewall. -/
def startNet (env : StartEnv) (a : SwyardArgs) (c : CodeArgs) (devs : List (List Char)) (code : List Char) :
    List StartAct × Option PyErr × Bool :=
  match env.net with
  | some e => ([], some e, false)
  | none =>
    let r := mainReal env a c code
    (.opened devs :: r.1, r.2.1, r.2.2)

/-- Live mode with the list of devices, syinit.py 124-137.  `usercode` is `None` only with `-c`, which is test
mode. -/
def startOn (env : StartEnv) (a : SwyardArgs) (c : CodeArgs) (devs : List (List Char)) : StartRun :=
  if devs = [] then ⟨[.noDevices], none, a.fate true false, false⟩
  else
    match env.firewall devs a.rules with
    | some e => ⟨[], some e, a.fate false false, false⟩
    | none =>
      let r := startNet env a c devs (a.usercode.getD [])
      ⟨.blocked devs a.rules :: r.1 ++ [.restored], r.2.1, a.fate true true, r.2.2⟩

/-- Live mode, syinit.py 116-137. -/
def startReal (env : StartEnv) (a : SwyardArgs) (c : CodeArgs) : StartRun :=
  startOn env a c (makeDeviceList env.pcap env.real a.intf a.exclude)

/-- The simulator, syinit.py 70-79.  The name `load_from_file` is not defined in that module. -/
def startSim (env : StartEnv) (a : SwyardArgs) : StartRun :=
  if a.topology.isSome then ⟨[], some .nameError, .absent, false⟩
  else ⟨[.simulated], env.sim, .absent, false⟩

/-- `start_framework`, syinit.py 50-137. -/
def startFramework (env : StartEnv) (a : SwyardArgs) : StartRun :=
  if a.listif then
    ⟨[.listed (makeDeviceList env.pcap env.real a.intf a.exclude)], none, .absent, false⟩
  else
    match parseCodeargs (some a.codearg) with
    | .error e => ⟨[], some e, .absent, false⟩
    | .ok c =>
      if a.cli then startSim env a
      else if a.compile ≠ [] ∨ a.tests ≠ [] then startTest env a c
      else startReal env a c

/-- `main`, swyard.py 18-83. -/
def swyardMain (env : StartEnv) (a : SwyardArgs) : StartRun :=
  if a.usercode.isNone ∧ a.compile = [] ∧ a.listif = false then ⟨[.usage], none, .absent, false⟩
  else startFramework env a

/-! ### The threads of a live program with an application

`_setup_ok`, the barrier and `_netobj` (syinit.py 133-137 and 140-164) as a transition system.  The main thread
is inside the firewall from `fw` on. -/

/-- Where the main thread is: before the firewall, after it, after `_setup_ok = True`, past the barrier (the
network object being made), in the user's code, at the end. -/
inductive MainAt
  | start | fw | ready | past | running | ended
  deriving DecidableEq, Repr

/-- Where the application's thread is: before the barrier, waiting, past it, in the application, after it,
done. -/
inductive AppAt
  | start | waiting | past | running | after | done
  deriving DecidableEq, Repr

/-- The shared state: the two threads, whether the firewall is in force, the variable `_setup_ok`, whether the
variable `_netobj` is set, and whether the network has been told to shut down. -/
structure Duo where
  main : MainAt
  app : AppAt
  blocked : Bool
  ok : Bool
  net : Bool
  shut : Bool
  deriving DecidableEq

def Duo.init : Duo := ⟨.start, .start, false, false, false, false⟩

/-- What can happen next. -/
inductive DuoEv
  | enterFirewall | setOk | mainWaits | makeNet | codeEnds | leaveFirewall
  | appWaits | appLooks | appEnds | appShuts
  deriving DecidableEq

/-- One step.  The barrier (84, 135, 142) has two parties: the main thread passes it when the application's
thread waits, and that frees the latter. -/
def Duo.step (s : Duo) : DuoEv → Option Duo
  | .enterFirewall => if s.main = .start then some { s with main := .fw, blocked := true } else none
  | .setOk => if s.main = .fw then some { s with main := .ready, ok := true } else none
  | .mainWaits =>
    if s.main = .ready ∧ s.app = .waiting then some { s with main := .past, app := .past } else none
  | .makeNet => if s.main = .past then some { s with main := .running, net := true } else none
  | .codeEnds => if s.main = .running then some { s with main := .ended } else none
  | .leaveFirewall => if s.main = .ended ∧ s.blocked then some { s with blocked := false } else none
  | .appWaits => if s.app = .start then some { s with app := .waiting } else none
  | .appLooks =>
    if s.app = .past then some { s with app := if s.ok then .running else .after } else none
  | .appEnds => if s.app = .running then some { s with app := .after } else none
  | .appShuts =>
    if s.app = .after then some { s with app := .done, shut := s.shut || s.net } else none

/-- A sequence of steps. -/
def Duo.run (s : Duo) : List DuoEv → Option Duo
  | [] => some s
  | e :: es =>
    match s.step e with
    | none => none
    | some s' => s'.run es

end SY
