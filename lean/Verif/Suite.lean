import Verif.Scenario

/-! # Several scenarios in one run of the test harness

Model of `run_tests`, /repo/switchyard/llnettest.py 141-253 (`swyard -t first.py -t second.py code.py`), with what the
scenarios share: the one alarm of the process and its handler (/repo/switchyard/lib/testing.py 726-790), and the files of
the working directory (639-645).  A program under test is any strategy; time enters only through when the alarm arrives.
The interactive debugger (/repo/switchyard/lib/debugging.py) enters through the flag it sets; what the person does in it
is not modelled, nor are two scenarios that are the same object, and Windows. -/

namespace SY

/-- What a program has seen of one of its calls, or of the alarm whose handler raises `TestScenarioFailure`; `debugged`: a
call of `debugger()` has returned; `waited`: something else that does not involve the network has been done. -/
inductive Seen
  | received (r : Res Received)
  | sent (p : Packet) (e : Option PyErr)
  | late
  | debugged
  | waited

/-- How the user's code ends: it returns, raises an exception, or raises `SystemExit` (`sys.exit()`), which
`except Exception`, llnettest.py 174, does not catch. -/
inductive Ending
  | returned
  | raised (e : PyErr)
  | exits
  deriving DecidableEq

/-- What a program does next: a call of the network, a call of `debugger()`, something that does not involve the network
(computing, sleeping), or its end. -/
inductive Move
  | recv
  | send (port : SendPort) (p : Packet)
  | debug
  | wait
  | stop (e : Ending)

/-- A program under test: what it does next after what it has seen in this scenario. -/
abbrev Tested := List Seen → Move

/-- The process: the network object of the scenario that is run, the scenarios run before, whether an alarm is requested
(`signal.alarm`, one for the process), the number of the scenario whose `_timer_expiry` is the handler
(`signal.signal`, testing.py 779), and `in_debugger` of lib/debugging.py 8, a variable of the module. -/
structure Proc where
  net : TestNet
  past : List Scenario
  alarm : Bool
  handler : Option Nat
  debug : Bool := false

/-- `_timer` of scenario number `k`. -/
def Proc.timerOf (s : Proc) (k : Nat) : Bool :=
  if k = s.past.length then s.net.scen.timer
  else match s.past[k]? with
    | some x => x.timer
    | none => false

/-- A call that left the network object as `n`.  If an expectation has been met, `testpass` has withdrawn the alarm
(753, whoever requested it) and, for an output, requested it again with its own handler (779-788). -/
def Proc.after (s : Proc) (n : TestNet) : Proc :=
  if n.scen.completed.length = s.net.scen.completed.length then { s with net := n }
  else { s with net := n, alarm := n.scen.alarm.isSome,
                handler := if n.scen.timer then some s.past.length else s.handler }

/-- The alarm is no longer pending. -/
def Proc.disarm (s : Proc) : Proc :=
  { s with alarm := false, net := { s.net with scen := { s.net.scen with alarm := none } } }

/-- `self._timer = False`, testing.py 732, for scenario number `k`. -/
def Proc.untime (s : Proc) (k : Nat) : Proc :=
  if k = s.past.length then { s with net := { s.net with scen := { s.net.scen with timer := false } } }
  else { s with past := s.past.modify k fun x => { x with timer := false } }

/-- The alarm arrives, testing.py 726-741: whether the handler raises.  Once `in_debugger` is set it does not, 731-733.
(That there is a handler is `proc_handler`.) -/
def Proc.fire (s : Proc) : Proc × Bool :=
  match s.handler with
  | none => (s.disarm, false)
  | some k => if s.debug then (s.disarm.untime k, false) else (s.disarm, s.timerOf k)

/-- One turn: the alarm arrives, if it is its turn and there is one, or the program makes its next move. -/
def Proc.turn (s : Proc) (prog : Tested) (fires : Bool) (h : List Seen) : Proc × List Seen × Option Ending :=
  if fires && s.alarm then (s.fire.1, if s.fire.2 then h ++ [.late] else h, none)
  else
    match prog h with
    | .recv => (s.after s.net.recv.1, h ++ [.received s.net.recv.2], none)
    | .send port p => (s.after (s.net.send port p).1, h ++ [.sent (s.net.send port p).2.1 (s.net.send port p).2.2], none)
    -- lib/debugging.py 9-22: the flag is set first, and nothing sets it back
    | .debug => ({ s with debug := true }, h ++ [.debugged], none)
    | .wait => (s, h ++ [.waited], none)
    | .stop e => (s, h, some e)

/-- The program runs; `none` if it has not ended when the turns are used up. -/
def Proc.play (prog : Tested) : List Bool → Proc → List Seen → Proc × Option Ending
  | [], s, _ => (s, none)
  | b :: bs, s, h =>
    match s.turn prog b h with
    | (s', h', none) => play prog bs s' h'
    | (s', _, some e) => (s', some e)

/-- A scenario as its file defines it: the files of `add_file` (the dictionary `_support_files`, 639-640), `setup` and
`teardown` (`some` of what calling them raises). -/
structure Test where
  scen : Scenario
  files : Dict (List Char) (List Char) := []
  setup : Option (Option PyErr) := none
  teardown : Option (Option PyErr) := none

/-- The points of `run_tests`, outside the user's code, at which the alarm may arrive: before loading, writing files,
setup, teardown and the summary, and after the verdict: when a test has failed, the user is then in the debugger that
231-249 start (which does not set the flag). -/
inductive Gap
  | load | files | setup | teardown | summary | after
  deriving DecidableEq

/-- What happens in the course of one test: what loading (and the sanity check, 149-151) raises, what writing the files
raises, what the program does, when the alarm arrives, what printing the summary raises. -/
structure Course where
  load : Option PyErr := none
  files : Option PyErr := none
  prog : Tested
  turns : List Bool
  gaps : Gap → Bool := fun _ => false
  print : Scenario → Option PyErr := fun _ => none

/-- What the harness does. -/
inductive SuiteAct
  | loaded
  | wrote
  | setup
  | ended (e : Ending)
  | teardown
  | summary
  | said (v : Verdict)
  deriving DecidableEq

/-- Why the run of the harness does not go on: an exception, `SystemExit`, or a program that still runs. -/
inductive Stop
  | raised (e : PyErr)
  | exits
  | running
  deriving DecidableEq

/-- What is carried along: the process and the files of the working directory. -/
structure Harness where
  proc : Proc
  files : Dict (List Char) (List Char)

/-- The outcome of a part of the run: the state, what was done, and why it stopped, if so. -/
abbrev Part := Harness × List SuiteAct × Option Stop

/-- One part after the other, unless the first stopped. -/
def Part.andThen (a : Part) (f : Harness → Part) : Part :=
  match a with
  | (s, l, some x) => (s, l, some x)
  | (s, l, none) => ((f s).1, l ++ (f s).2.1, (f s).2.2)

/-- The alarm may arrive here, in the harness itself. -/
def Harness.gap (b : Bool) (s : Harness) : Part :=
  if b && s.proc.alarm then
    ({ s with proc := s.proc.fire.1 }, [], if s.proc.fire.2 then some (.raised .testFailure) else none)
  else (s, [], none)

/-- A step that is noted when it has been done; it may raise instead. -/
def Harness.step (s : Harness) (e : Option PyErr) (l : List SuiteAct) : Part :=
  match e with
  | some e => (s, [], some (.raised e))
  | none => (s, l, none)

/-- `write_files`, testing.py 642-645: each file is made, or overwritten. -/
def writeFiles (fs : Dict (List Char) (List Char)) : Dict (List Char) (List Char) → Dict (List Char) (List Char)
  | [] => fs
  | (name, text) :: l => writeFiles (fs.set name text) l

/-- Lines 149, 154: a scenario and its network object. -/
def Harness.begin (s : Harness) (t : Test) : Harness := { s with proc := { s.proc with net := { scen := t.scen } } }

/-- Lines 155-186: the user's code. -/
def Harness.user (s : Harness) (c : Course) : Part :=
  match s.proc.play c.prog c.turns [] with
  | (p, none) => ({ s with proc := p }, [], some .running)
  | (p, some .exits) => ({ s with proc := p }, [], some .exits)
  | (p, some e) => ({ s with proc := p }, [.ended e], none)

/-- The exception that ended the user's code, if any. -/
def Ending.error : Ending → Option PyErr
  | .raised e => some e
  | _ => none

/-- Lines 166-186 and 197-253: the verdict; with `--nohandle` a failure ends the harness, 225-226. -/
def Harness.tell (nohandle : Bool) (s : Harness) (e : Option PyErr) : Part :=
  (s, [.said (verdict s.proc.net.scen e)],
    if nohandle && verdict s.proc.net.scen e != .allPassed then some (.raised .generic) else none)

/-- `do_setup`, `do_teardown`, testing.py 655-657, 667-669. -/
def Harness.hook (s : Harness) (f : Option (Option PyErr)) (a : SuiteAct) : Part :=
  match f with
  | none => (s, [], none)
  | some e => s.step e [a]

/-- What ended the user's code, among the things done. -/
def endedWith : List SuiteAct → Option PyErr
  | [] => none
  | .ended e :: _ => e.error
  | _ :: l => endedWith l

/-- Once the user's code has ended, 188-226: teardown, summary and verdict. -/
def Harness.report (nohandle : Bool) (t : Test) (c : Course) (e : Option PyErr) (s : Harness) : Part :=
  (((s.gap (c.gaps .teardown)).andThen fun s => s.hook t.teardown .teardown).andThen fun s =>
    (s.gap (c.gaps .summary)).andThen fun s => s.step (c.print s.proc.net.scen) [.summary]).andThen fun s =>
    s.tell nohandle e

/-- The rest of the loop's body once the user's code has ended, 188-253. -/
def Harness.finish (nohandle : Bool) (t : Test) (c : Course) (e : Option PyErr) (s : Harness) : Part :=
  (s.report nohandle t c e).andThen fun s => s.gap (c.gaps .after)

/-- Lines 149-154: up to the user's code. -/
def Harness.prepare (t : Test) (c : Course) (s : Harness) : Part :=
  (((s.gap (c.gaps .load)).andThen fun s => (s.step c.load [.loaded]).andThen fun s => (s.begin t, [], none)).andThen fun s =>
    (s.gap (c.gaps .files)).andThen fun s => Harness.step { s with files := writeFiles s.files t.files } c.files [.wrote]).andThen fun s =>
    (s.gap (c.gaps .setup)).andThen fun s => s.hook t.setup .setup

/-- One round of the loop, llnettest.py 148-253. -/
def Harness.test (nohandle : Bool) (t : Test) (c : Course) (s : Harness) : Part :=
  (s.prepare t c).andThen fun s =>
    match s.user c with
    | (s', l, some x) => (s', l, some x)
    | (s', l, none) => ((s'.finish nohandle t c (endedWith l)).1, l ++ (s'.finish nohandle t c (endedWith l)).2.1,
        (s'.finish nohandle t c (endedWith l)).2.2)

/-- The scenario is over; the next one comes. -/
def Harness.leave (s : Harness) : Harness := { s with proc := { s.proc with past := s.proc.past ++ [s.proc.net.scen] } }

/-- `run_tests`, llnettest.py 141-253: what was done in each test that was begun. -/
def Harness.run (nohandle : Bool) : List (Test × Course) → Harness → Harness × List (List SuiteAct) × Option Stop
  | [], s => (s, [], none)
  | (t, c) :: l, s =>
    match s.test nohandle t c with
    | (s', a, some x) => (s', [a], some x)
    | (s', a, none) => ((run nohandle l s'.leave).1, a :: (run nohandle l s'.leave).2.1, (run nohandle l s'.leave).2.2)

/-- The harness as the program is started. -/
def Harness.start (fs : Dict (List Char) (List Char)) : Harness := ⟨{ net := { scen := {} }, past := [], alarm := false, handler := none }, fs⟩

end SY
