import Verif.Live
import Verif.Host
import Verif.PdbFrame

/-! # The interfaces of a live network: `LLNetReal._assemble_devinfo`, switchyard/llnetreal.py 101-163

Line numbers without a file name refer to that file.  `assembleIntf` in `Live` makes the interface for one device. -/

namespace SY

/-- What `iwconfig` knows: whether it is installed, and the devices of the host, each with what it prints for it, or
`none` if it has no wireless extensions. -/
structure IwHost where
  installed : Bool
  devs : List (List Char × Option (List Char))

/-- What `iwconfig` prints for a device; standard output and error together, as `getstatusoutput` collects them. -/
def iwEntry (d : List Char × Option (List Char)) : List Char :=
  match d.2 with
  | none => d.1 ++ "      no wireless extensions.\n\n".toList
  | some t => d.1 ++ t

/-- What the command `iwconfig` prints with these arguments: all devices without, and one with its name. -/
def IwHost.iwconfig (h : IwHost) (args : List (List Char)) : List Char :=
  if h.installed then
    match args with
    | [] => h.devs.flatMap iwEntry
    | n :: _ =>
      match h.devs.find? fun d => decide (d.1 = n) with
      | some d => iwEntry d
      | none => n ++ "  No such device\n".toList
  else "/bin/sh: 1: iwconfig: not found".toList

/-- `subprocess.getstatusoutput(["iwconfig", name])`, 114: the command is run by a shell (`shell=True`), and of a list given
for a shell only the first element is the command; the rest are parameters of the shell itself, not of the command. -/
def IwHost.getoutput (h : IwHost) (cmd : List (List Char)) : List Char :=
  match cmd with
  | [] => []
  | _ :: _ => h.iwconfig []

/-- `devtype[p.name]`, 109-123. -/
def devType (plat : Platform) (h : IwHost) (p : PcapDev) : IfType :=
  if p.isloop then .loopback
  else
    match plat with
    | .linux => if textIn "no wireless extensions".toList (h.getoutput ["iwconfig".toList, p.name]) then .wired else .wireless
    | _ => .unknown

/-- The dictionary `devtype`, 107-123. -/
def devTypes (plat : Platform) (h : IwHost) (ps : List PcapDev) : Dict (List Char) IfType :=
  ps.foldl (fun d p => d.set p.name (devType plat h p)) []

/-- The loop over the devices, 127-161.  `index` is `if_nametoindex`.  `RuntimeException` in line 138 is no name. -/
def assembleDevs (plat : Platform) (types : Dict (List Char) IfType) (info : Dict (List Char) (List AddrInfo))
    (index : List Char → Res Int) : List (List Char) → Dict (List Char) Iface → Res (Dict (List Char) Iface)
  | [], acc => .ok acc
  | d :: ds, acc =>
    match info.get? d with
    | none => assembleDevs plat types info index ds acc
    | some l =>
      if plat = .linux ∨ plat = .darwin then
        index d >>= fun n =>
        assembleMac ⟨List.replicate 6 0⟩ l >>= fun _ =>
        match types.get? d with
        | none => .error .keyError
        | some t => assembleIntf d n t l >>= fun i => assembleDevs plat types info index ds (acc.set d i)
      else .error .nameError

/-- `_assemble_devinfo`, 101-163. -/
def assembleDevinfo (plat : Platform) (h : IwHost) (ps : List PcapDev) (info : Dict (List Char) (List AddrInfo))
    (index : List Char → Res Int) (devs : List (List Char)) : Res (Dict (List Char) Iface) :=
  assembleDevs plat (devTypes plat h ps) info index devs []

end SY
