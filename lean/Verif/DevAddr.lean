import Verif.DevInfo

/-! # The addresses of a device as the system reports them: switchyard/llnetreal.py 140-158

Line numbers refer to that file.  `assembleIntf` in `Live` begins where the texts have been read. -/

namespace SY

/-- A record of psutil's `net_if_addrs`: texts, or `None`; of the link layer or of a family that is not looked at. -/
inductive RawAddr
  | inet (addr mask : Option (List Char))
  | inet6 (addr mask : Option (List Char))
  | link (addr : Option (List Char))
  | other

/-- `IPv4Address(v)`, 147-148, for a text or `None`. -/
def rawV4 : Option (List Char) → Res (BitVec 32)
  | some s => match ipv4Parse s with
    | some a => .ok a
    | none => .error .addressValue
  | none => .error .addressValue

/-- `IPv6Address(v)`, 155-156, for a text without zone, or `None`. -/
def rawV6 : Option (List Char) → Res (BitVec 128)
  | some s => match ipv6Parse s with
    | some a => .ok a
    | none => .error .addressValue
  | none => .error .addressValue

/-- `s[:s.find('%')]`, 152-154: the text before the zone. -/
def cutZone (s : List Char) : List Char := s.takeWhile (· ≠ '%')

/-- `str(addrinfo.address)`, 151. -/
def rawText : Option (List Char) → List Char
  | some s => s
  | none => "None".toList

/-- `EthAddr(addrinfo.address)`, 158. -/
def rawMac : Option (List Char) → EthArg
  | some s => .text s
  | none => .none

/-- One turn of the loop, 145-158: the Ethernet address and the IP addresses so far.  A set of addresses. -/
def rawStep (st : EthAddr × List IPIface) : RawAddr → Res (EthAddr × List IPIface)
  | .inet a m => rawV4 a >>= fun x => rawV4 m >>= fun _ => .ok (st.1, st.2 ++ [⟨.v4 x, 32⟩])
  | .inet6 a m => rawV6 (some (cutZone (rawText a))) >>= fun x => rawV6 m >>= fun _ => .ok (st.1, st.2 ++ [⟨.v6 x, 128⟩])
  | .link t => EthAddr.mk' (rawMac t) >>= fun a => .ok (a, st.2)
  | .other => .ok st

/-- The loop, 144-158. -/
def rawLoop (st : EthAddr × List IPIface) : List RawAddr → Res (EthAddr × List IPIface)
  | [] => .ok st
  | r :: rs => rawStep st r >>= fun st' => rawLoop st' rs

/-- The interface made for a device, 140-161. -/
def rawIntf (dev : List Char) (ifnum : Int) (ty : IfType) (l : List RawAddr) : Res Iface :=
  rawLoop (⟨List.replicate 6 0⟩, []) l >>= fun st => .ok (st.2.foldl Iface.addIp ⟨dev, st.1, [], ifnum, ty⟩)

end SY
