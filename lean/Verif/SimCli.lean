import Verif.Show

/-! # The command line of the simulator

`Cli` in `/repo/switchyard/sim/cli.py`; line numbers refer to that file.  `onecmd` is that of Python's
`cmd.Cmd`, from its documentation and source.  What `show` prints and completion
are in `Verif.Show`; of what the other commands print only whether it is a complaint is modelled, and of `help` nothing. -/

namespace SY

/-! ## Which command a line is -/

/-- The methods `do_…`. -/
inductive CliCmd
  | show | set | sendeth | load | save | monitor | unmonitor | exec | add | remove | replay | exit | eof | help
  deriving DecidableEq, Repr

/-- The name of a command. -/
def CliCmd.word : CliCmd → String
  | .show => "show" | .set => "set" | .sendeth => "sendeth" | .load => "load" | .save => "save"
  | .monitor => "monitor" | .unmonitor => "unmonitor" | .exec => "exec" | .add => "add" | .remove => "remove"
  | .replay => "replay" | .exit => "exit" | .eof => "EOF" | .help => "help"

/-- All commands: 73, 145, 178, 186, 262, 271, 295, 327, 439, 443, 491, 504, 519, and `do_help` of `Cmd`. -/
def CliCmd.all : List CliCmd :=
  [.show, .set, .sendeth, .load, .save, .monitor, .unmonitor, .exec, .add, .remove, .replay, .exit, .eof, .help]

/-- The order of the tests in `default`, 537-558. -/
def CliCmd.short : List CliCmd :=
  [.show, .set, .sendeth, .load, .save, .monitor, .unmonitor, .exec, .add, .remove, .replay]

/-- What a line comes to: a method called with an argument, nothing (`emptyline` 292-293), or a complaint (560);
`raised` is the `IndexError` of `cmdargs[0]`. -/
inductive CliCall
  | run (c : CliCmd) (arg : Name)
  | empty
  | unknown
  | raised (e : PyErr)
  deriving DecidableEq, Repr

/-- `default`, 531-560. -/
def cliDefault (line : Name) : CliCall :=
  match splitWords [] line with
  | [] => .raised .indexError
  | w :: ws =>
    match CliCmd.short.find? fun c => pre w c.word with
    | some c => .run c (unwords ws)
    | none => .unknown

/-- `Cmd.identchars`. -/
def identChar (c : Char) : Bool := c.isAlphanum || c = '_'

/-- The end of `Cmd.parseline` and of `Cmd.onecmd`. -/
def cliCommand (line : Name) : CliCall :=
  match CliCmd.all.find? fun c => c.word.toList = line.takeWhile identChar with
  | some c => .run c (strip (line.dropWhile identChar))
  | none => cliDefault line

/-- `Cmd.parseline` and `Cmd.onecmd`; there is no `do_shell`. -/
def cliCall (line : Name) : CliCall :=
  match strip line with
  | [] => .empty
  | '?' :: r => cliCommand ("help ".toList ++ r)
  | '!' :: r => cliDefault ('!' :: r)
  | l => cliCommand l

/-! ## The commands -/

/-- The state: 27-32. -/
structure Cli (α : Type) where
  topo : Topo
  unsaved : Bool
  glue : Glue α

/-- How a command ends: the loop goes on (with or without a complaint), an exception leaves the loop (and the
program, 817-821), or the loop ends. -/
inductive CliOut
  | done (complaint : Bool)
  | raised (e : PyErr)
  | quit
  deriving DecidableEq, Repr

/-- What the outside world gives: files that can be written, the lines typed at prompts, what `load_from_file` gives
(`none`: `FileNotFoundError`), the exception of `save_to_file`, the packets of a capture file (`none`: it does not
exist), and the packet made in 496-501. -/
structure CliEnv (α : Type) where
  canOpen : Name → Bool
  answers : List Name
  loaded : Option (Res Topo)
  saveErr : Option PyErr
  capture : Option (List (Res α))
  frame : α

variable {α : Type}

/-- `__get_yn`, 508-514; `none` at the end of the input (`EOFError`). -/
def getYn : List Name → Option Bool
  | [] => none
  | a :: as =>
    if pre (a.map Char.toLower) "no" then some false
    else if pre (a.map Char.toLower) "yes" then some true
    else getYn as

/-- The dictionary of 237. -/
structure LinkSettings where
  capacity : Option Name
  delay : Option Name
  deriving DecidableEq, Repr

/-- Which key `currsetting` is. -/
inductive LinkKey
  | capacity | delay
  deriving DecidableEq, Repr

/-- Lines 243-244, 248-249 and 254-255. -/
def LinkSettings.put (s : LinkSettings) (k : Option LinkKey) (val : List Name) : LinkSettings :=
  match k with
  | none => s
  | some .capacity => { s with capacity := some (unwords val) }
  | some .delay => { s with delay := some (unwords val) }

/-- Lines 242 and 247. -/
def linkKey (w : Name) : Option LinkKey :=
  if w = "bw".toList || pre w "bandwidth" || pre w "capacity" then some .capacity
  else if pre w "delay" then some .delay
  else none

/-- The loop of 240-255. -/
def gatherLoop (s : LinkSettings) (cur : Option LinkKey) (val : List Name) : List Name → LinkSettings
  | [] => s.put cur val
  | w :: ws =>
    match linkKey w with
    | some k => gatherLoop (s.put cur val) (some k) [] ws
    | none => gatherLoop s cur (val ++ [w]) ws

/-- `__gather_link_characteristics`, 236-260: capacity and delay. -/
def gatherLink (ws : List Name) : Res (Name × Name) :=
  match gatherLoop ⟨none, none⟩ none [] ws with
  | ⟨some c, some d⟩ => .ok (c, d)
  | _ => .error .generic

/-- Lines 324-325 and 365-366. -/
def Cli.changed (c : Cli α) (t : Topo) (complaint : Bool) : Cli α × CliOut :=
  match c.glue.rebuild t none with
  | (g, none) => (⟨t, true, g⟩, .done complaint)
  | (g, some e) => (⟨t, true, g⟩, .raised e)

/-- Lines 335-338, 340-343, 345-348. -/
def Cli.addNode (c : Cli α) (k : NodeKind) (name : Option Name) : Cli α × CliOut :=
  match c.topo.add k name with
  | (t, .error e) => ({ c with topo := t }, .raised e)
  | (t, .ok _) => c.changed t false

/-- Lines 350-361. -/
def Cli.addLinkCmd (c : Cli α) (ws : List Name) : Cli α × CliOut :=
  match ws with
  | a :: b :: r =>
    if r.length < 4 then (c, .done true)
    else match gatherLink r with
      | .error _ => c.changed c.topo true
      | .ok (cap, delay) =>
        c.changed (c.topo.addLink a b (.text cap) (.text delay)).1 (c.topo.addLink a b (.text cap) (.text delay)).2.isSome
  | _ => (c, .done true)

/-- `do_add`, 327-366, with the words of the line. -/
def Cli.doAdd (c : Cli α) : List Name → Cli α × CliOut
  | [] => (c, .done true)
  | w :: ws =>
    if pre w "switch" then c.addNode .switch ws.head?
    else if pre w "router" then c.addNode .router ws.head?
    else if pre w "host" then c.addNode .host ws.head?
    else if pre w "link" then c.addLinkCmd ws
    else (c, .done true)

/-- Lines 303-309. -/
def Cli.removeNodeCmd (c : Cli α) : List Name → Cli α × CliOut
  | [n] => c.changed (c.topo.removeNode n).1 (c.topo.removeNode n).2.isSome
  | _ => (c, .done true)

/-- Lines 312-318. -/
def Cli.removeLinkCmd (c : Cli α) : List Name → Cli α × CliOut
  | [a, b] => c.changed (c.topo.removeLink a b).1 (c.topo.removeLink a b).2.isSome
  | _ => (c, .done true)

/-- `do_remove`, 295-325. -/
def Cli.doRemove (c : Cli α) : List Name → Cli α × CliOut
  | w :: v :: ws =>
    if pre w "node" || pre w "switch" || pre w "router" || pre w "host" then c.removeNodeCmd (v :: ws)
    else if pre w "edge" || pre w "link" then c.removeLinkCmd (v :: ws)
    else (c, .done true)
  | _ => (c, .done true)

/-- Lines 199-222: `ethernet` assigns a variable; for `inet`, lines 203-215 complain or choose a mask, and line 217 calls
`setInterfaceAddresses` with an argument `netmask`, which it does not have (topobuild.py 330), a `TypeError`
that 218-219 print. -/
def setNodeComplains (family : Name) : Bool := !pre family "ethernet"

/-- `do_set`, 186-234. -/
def Cli.doSet (c : Cli α) : List Name → Cli α × CliOut
  | w :: a :: b :: k :: v :: ws =>
    if pre w "node" then (c, .done (setNodeComplains k))
    else if pre w "link" then
      match gatherLink (k :: v :: ws) with
      | .error _ => (c, .done true)
      | .ok (cap, delay) =>
        ({ c with topo := (c.topo.setLink a b (.text cap) (.text delay)).1 },
         .done (c.topo.setLink a b (.text cap) (.text delay)).2.isSome)
    else (c, .done true)
  | _ => (c, .done true)

/-- The end of `do_exec` 183-184 and of `do_load` 289-290: `stop`, then `rebuildGlue`. -/
def Cli.restart (c : Cli α) (nodeexec : Option Name) : Cli α × CliOut :=
  match c.glue.stop with
  | (g, some e) => ({ c with glue := g }, .raised e)
  | (g, none) =>
    match g.rebuild c.topo nodeexec with
    | (g', none) => ({ c with glue := g' }, .done false)
    | (g', some e) => ({ c with glue := g' }, .raised e)

/-- `do_exec`, 178-184. -/
def Cli.doExec (c : Cli α) : List Name → Cli α × CliOut
  | [m] => c.restart (some m)
  | _ => (c, .done true)

/-- Lines 283-290. -/
def Cli.loadFile (c : Cli α) : Option (Res Topo) → Cli α × CliOut
  | none => (c, .done true)
  | some (.error e) => (c, .raised e)
  | some (.ok t) => Cli.restart { c with topo := t, unsaved := false } none

/-- `do_load`, 271-290. -/
def Cli.doLoad (c : Cli α) (env : CliEnv α) : List Name → Cli α × CliOut
  | [_] =>
    if c.unsaved then
      match getYn env.answers with
      | none => (c, .raised .generic)
      | some false => (c, .done false)
      | some true => c.loadFile env.loaded
    else c.loadFile env.loaded
  | _ => (c, .done true)

/-- `do_save`, 262-269. -/
def Cli.doSave (c : Cli α) (env : CliEnv α) : List Name → Cli α × CliOut
  | [_] =>
    match env.saveErr with
    | some e => (c, .raised e)
    | none => ({ c with unsaved := false }, .done false)
  | _ => (c, .done true)

/-- Lines 526-529 with `stop` 516-517. -/
def Cli.leave (c : Cli α) : Cli α × CliOut :=
  match c.glue.stop with
  | (g, none) => ({ c with glue := g }, .quit)
  | (g, some e) => ({ c with glue := g }, .raised e)

/-- `do_exit`, 519-529, and `do_EOF`, 504-505. -/
def Cli.doExit (c : Cli α) (env : CliEnv α) : Cli α × CliOut :=
  if c.unsaved then
    match getYn env.answers with
    | none => (c, .raised .generic)
    | some false => (c, .done false)
    | some true => c.leave
  else c.leave

/-- The interfaces of a node, 376-378 and 395. -/
def nodeLocs (n : Name) (nd : TNode) : List (Name × Name) := nd.ifs.keys.map fun f => (n, f)

/-- Lines 385-395; `none` after a complaint. -/
def monitorNode (t : Topo) (n : Name) (ws : List Name) : Option (List (Name × Name) × List Name) :=
  match t.nodes.get? n with
  | none => some ([], ws)
  | some nd =>
    match ws with
    | f :: ws' =>
      if "eth".toList.isPrefixOf f then (if f ∈ nd.ifs.keys then some ([(n, f)], ws') else none)
      else some (nodeLocs n nd, f :: ws')
    | [] => some (nodeLocs n nd, [])

/-- Lines 369-398: the places, and the words that are left; `none` after a complaint. -/
def monitorWhere (t : Topo) : List Name → Option (List (Name × Name) × List Name)
  | [] => none
  | w :: ws =>
    if pre w "any" || pre w "all" then some (t.nodes.flatMap fun x => nodeLocs x.1 x.2, ws)
    else if t.hasNode w then monitorNode t w ws
    else if pre w "node" then
      match ws with
      | [] => none
      | n :: ws' => monitorNode t n ws'
    else none

/-- Lines 404-421; `none` after a complaint. -/
def monitorHow : List Name → Option MonHow
  | [] => none
  | w :: ws =>
    if pre w "dump" || pre w "pcap" || pre w "file" then some (.pcap (ws.head?.getD []))
    else if pre w "debug" || pre w "inspect" || pre w "trace" then some .debug
    else if pre w "code" || pre w "install" then ws.head?.map .code
    else some .other

/-- The loop of 433-437: whether there was an error, and the result. -/
def eachPlace (f : Glue α → Name → Name → Glue α × Option PyErr) (g : Glue α) : List (Name × Name) → Glue α × Bool
  | [] => (g, false)
  | (n, i) :: ps => ((eachPlace f (f g n i).1 ps).1, (f g n i).2.isSome || (eachPlace f (f g n i).1 ps).2)

/-- `do_monitor`, 443-445. -/
def Cli.doMonitor (c : Cli α) (env : CliEnv α) (ws : List Name) : Cli α × CliOut :=
  match monitorWhere c.topo ws with
  | none => (c, .done true)
  | some (ps, ws') =>
    match monitorHow ws' with
    | none => (c, .done true)
    | some how =>
      ({ c with glue := (eachPlace (fun g n i => g.addMonitor env.canOpen n i how) c.glue ps).1 },
       .done (eachPlace (fun g n i => g.addMonitor env.canOpen n i how) c.glue ps).2)

/-- `do_unmonitor`, 439-441. -/
def Cli.doUnmonitor (c : Cli α) (ws : List Name) : Cli α × CliOut :=
  match monitorWhere c.topo ws with
  | none => (c, .done true)
  | some (ps, _) =>
    ({ c with glue := (eachPlace (fun g n i => g.removeMonitor n i) c.glue ps).1 },
     .done (eachPlace (fun g n i => g.removeMonitor n i) c.glue ps).2)

/-- `do_sendeth`, 491-502, with the argument. -/
def Cli.doSendeth (c : Cli α) (env : CliEnv α) (arg : Name) : Cli α × CliOut :=
  if c.topo.hasNode (strip arg) then
    match c.glue.sendHost (strip arg) env.frame with
    | (g, none) => ({ c with glue := g }, .done false)
    | (g, some e) => ({ c with glue := g }, .raised e)
  else (c, .done true)

/-- The loop of 168-174: the exception, if any. -/
def replayLoop (g : Glue α) (n i : Name) : List (Res α) → Glue α × Option PyErr
  | [] => (g, none)
  | .error e :: _ => (g, some e)
  | .ok p :: ps =>
    match g.emit n i p with
    | (g', some e) => (g', some e)
    | (g', none) => replayLoop g' n i ps

/-- Lines 166-176. -/
def Cli.replayAll (c : Cli α) (n i : Name) (ps : List (Res α)) : Cli α × CliOut :=
  match replayLoop c.glue n i ps with
  | (g, none) => ({ c with glue := g }, .done false)
  | (g, some e) => ({ c with glue := g }, .raised e)

/-- `do_replay`, 145-176. -/
def Cli.doReplay (c : Cli α) (env : CliEnv α) : List Name → Cli α × CliOut
  | [_, n, i] =>
    match env.capture with
    | none => (c, .done true)
    | some ps => if (c.topo.iface? n i).isSome then c.replayAll n i ps else (c, .done true)
  | _ => (c, .done true)

/-- `do_show`, 73-90, without what is printed.  Drawing the topology (489) is taken to succeed. -/
def Cli.doShow (c : Cli α) (ws : List Name) : Cli α × CliOut :=
  match (showCmd (fun _ => []) c.topo c.glue.mons ws).err with
  | some e => (c, .raised e)
  | none => (c, .done (showCmd (fun _ => []) c.topo c.glue.mons ws).complaint)

/-- A command with its argument; `help` prints. -/
def Cli.command (c : Cli α) (env : CliEnv α) (cmd : CliCmd) (arg : Name) : Cli α × CliOut :=
  match cmd with
  | .help => (c, .done false)
  | .show => c.doShow (splitWords [] arg)
  | .set => c.doSet (splitWords [] arg)
  | .sendeth => c.doSendeth env arg
  | .load => c.doLoad env (splitWords [] arg)
  | .save => c.doSave env (splitWords [] arg)
  | .monitor => c.doMonitor env (splitWords [] arg)
  | .unmonitor => c.doUnmonitor (splitWords [] arg)
  | .exec => c.doExec (splitWords [] arg)
  | .add => c.doAdd (splitWords [] arg)
  | .remove => c.doRemove (splitWords [] arg)
  | .replay => c.doReplay env (splitWords [] arg)
  | .exit | .eof => c.doExit env

/-- `onecmd`. -/
def Cli.onecmd (c : Cli α) (env : CliEnv α) (line : Name) : Cli α × CliOut :=
  match cliCall line with
  | .run cmd arg => c.command env cmd arg
  | .empty => (c, .done false)
  | .unknown => (c, .done true)
  | .raised e => (c, .raised e)

/-- `__checkmonitor`, 48-51: a node waits at the barrier of an interactive monitor; `InteractiveMonitor.exec` uses the
undefined name `IPAddr` (monitor.py 139). -/
def Cli.debugWaits (c : Cli α) : Bool := c.glue.xnode.any fun x => x.2.blocked

/-- A line in the loop of `Cmd.cmdloop`: `precmd` 53-55, `onecmd`, `postcmd` 57-59. -/
def Cli.line (c : Cli α) (env : CliEnv α) (l : Name) : Cli α × CliOut :=
  if c.debugWaits then (c, .raised .nameError)
  else if (c.onecmd env l).1.debugWaits then
    match (c.onecmd env l).2 with
    | .raised e => ((c.onecmd env l).1, .raised e)
    | _ => ((c.onecmd env l).1, .raised .nameError)
  else c.onecmd env l

/-- What happens in a simulator: a line is typed, or one of the threads does something. -/
inductive SimEv (α : Type)
  | line (env : CliEnv α) (l : Name)
  | thread (e : ThreadEv)

/-- One event; after an exception or the end of the loop nothing more is modelled. -/
def Cli.event (c : Cli α) : SimEv α → Cli α × CliOut
  | .line env l => c.line env l
  | .thread e => ({ c with glue := c.glue.thread e }, .done false)

/-- Events while the loop goes on: the state, and whether it still does. -/
def Cli.runEvents (c : Cli α) : List (SimEv α) → Cli α × CliOut
  | [] => (c, .done false)
  | e :: es =>
    match c.event e with
    | (c', .done _) => runEvents c' es
    | r => r

/-- `run_simulation`, 815-818: the glue is made, then lines are read. -/
def Cli.start (t : Topo) : Cli α × Option PyErr := (⟨t, false, (Glue.new t).1⟩, (Glue.new (α := α) t).2)

end SY
