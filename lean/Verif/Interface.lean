import Verif.Dict
import Verif.IPText

/-! # Interfaces and device selection: switchyard/lib/interface.py

Line numbers without a file name refer to that file. -/

namespace SY

/-- `InterfaceType`, 9-13; `none` is what `Node.addInterface` passes. -/
inductive IfType
  | unknown
  | loopback
  | wired
  | wireless
  | none
  deriving DecidableEq, Repr

/-- `Interface`, 15-16.  The set of addresses is a list without repetitions; the order in which Python
iterates over a set is not modelled. -/
structure Iface where
  name : List Char
  ethaddr : EthAddr
  ips : List IPIface
  ifnum : Int
  iftype : IfType
  deriving DecidableEq, Repr

/-- The value the setter of `ethaddr` stores, 43-52. -/
def ifaceEth : EthArg → Res EthAddr
  | .addr a => .ok a
  | .text s => EthAddr.mk' (.text s)
  | .raw b => EthAddr.mk' (.raw b)
  | .none => EthAddr.mk' (.text "00:00:00:00:00:00".toList)
  | .other => .error .valueError

/-- `ethaddr.setter`, 43-52. -/
def Iface.setEth (i : Iface) (v : EthArg) : Iface × Option PyErr :=
  match ifaceEth v with
  | .ok a => ({ i with ethaddr := a }, none)
  | .error e => (i, some e)

/-- `ifnum.setter`, 93-98: anything but an `int` (`none`) takes the next number of the class counter,
which is the first component. -/
def takeIfnum (next : Int) : Option Int → Int × Int
  | some v => (next, v)
  | none => (next + 1, next)

/-- `intf.ifnum = v`, 93-98. -/
def Iface.setIfnum (next : Int) (i : Iface) (v : Option Int) : Int × Iface :=
  ((takeIfnum next v).1, { i with ifnum := (takeIfnum next v).2 })

/-- `Interface.__init__`, 26-31; also the new value of the class counter. -/
def Iface.new (next : Int) (name : List Char) (eth : EthArg) (num : Option Int) (ty : IfType) : Res (Int × Iface) :=
  (fun a => ((takeIfnum next num).1, ⟨name, a, [], (takeIfnum next num).2, ty⟩)) <$> ifaceEth eth

/-- `self.__ipaddrset.add(x)`. -/
def Iface.addIp (i : Iface) (x : IPIface) : Iface := if x ∈ i.ips then i else { i with ips := i.ips ++ [x] }

/-- The address `assign_ipaddr` adds, 60-74. -/
def assignedIp : IPIfArg → Res IPIface
  | .iface x => .ok x
  | .addr a => ipInterface (.addr a)
  | .text s => ipInterface (.text s)
  | .none => .ok ⟨.v4 0, 32⟩
  | .other => .error .generic

/-- `assign_ipaddr`, 60-74. -/
def Iface.assignIp (i : Iface) (v : IPIfArg) : Iface × Option PyErr :=
  match assignedIp v with
  | .ok x => (i.addIp x, none)
  | .error e => (i, some e)

/-- The loop of `remove_ipaddr`, 82-85: the first address with this IP, whatever its prefix. -/
def removeIp (a : IPAddr) : List IPIface → Option (List IPIface)
  | [] => none
  | x :: xs => if x.addr = a then some xs else (removeIp a xs).map (x :: ·)

/-- `remove_ipaddr`, 76-86. -/
def Iface.removeIpaddr (i : Iface) (v : IPIfArg) : Iface × Option PyErr :=
  match ipInterface v with
  | .error e => (i, some e)
  | .ok x =>
    match removeIp x.addr i.ips with
    | some l => ({ i with ips := l }, none)
    | none => (i, some .generic)

/-- `__str__`, 105-110: addresses that are zero are left out. -/
def Iface.text (i : Iface) : List Char :=
  i.name ++ " mac:".toList ++ i.ethaddr.toStr ++
    (i.ips.filter fun x => x.addr.toNat ≠ 0).flatMap fun x => " ip:".toList ++ x.text

/-- A device libpcap reports: name and loopback flag. -/
structure PcapDev where
  name : List Char
  isloop : Bool
  deriving DecidableEq

/-- `make_device_list`, 112-136; `real d` tells whether `if_nametoindex(d)` succeeds.  Sets are lists whose
order and repetitions do not matter. -/
def makeDeviceList (pcap : List PcapDev) (real : List Char → Bool) (includes excludes : List (List Char)) :
    List (List Char) :=
  let devs := (pcap.filter fun d => !d.isloop || includes.contains d.name).map PcapDev.name
  let inc := includes.filter fun d => devs.contains d
  let devs := (devs.filter real).filter fun d => !excludes.contains d
  if inc = [] then devs else devs.filter fun d => inc.contains d

end SY
