import Verif.IPText
import Verif.Socket

/-! # The names of sockets

Addresses that applications give to the socket emulation as text, read by `ip_address` (switchyard/lib/socket/socketemu.py
83-84), and the addresses it gives back as text (86-87).  Line numbers without a file name refer to socketemu.py. -/

namespace SY

/-- An address as applications see it: text and a port number. -/
abbrev NameTuple := List Char × Int

/-- `_stringify_addrs`, 86-87. -/
def stringifyAddrs (e : Endpoint) : NameTuple := (e.1.text, e.2)

/-- `getsockname`, 361-366. -/
def Sock.sockname (s : Sock) : NameTuple := stringifyAddrs s.localAddr

/-- `getpeername`, 354-359: of a socket that was not connected the address is `(None, None)`, and `int(None)` raises
`TypeError`. -/
def Sock.peername (s : Sock) : Res NameTuple :=
  match s.remote with
  | some r => .ok (stringifyAddrs r)
  | none => .error .typeError

/-- `recvfrom`, 407-414, of a message: the data and the sender. -/
def UpMsg.from (m : UpMsg) : Bytes × NameTuple := (m.data, stringifyAddrs m.remoteAddr)

/-- An address tuple whose first component is text, as an argument of `connect`, `sendto` or `bind`: `_normalize_addrs`,
83-84, raises if the text is not an address. -/
def textArg (a : NameTuple) : Res (IPArg × PortArg) := (fun ip => (.addr ip, .num a.2)) <$> ipAddressText a.1

/-- `sendto` with such an address, 441-451. -/
def SockState.sendtoText (st : SockState) (s : Sock) (data : Bytes) (a : NameTuple) : SockState × Out :=
  match textArg a with
  | .ok a => st.sendto s data a
  | .error e => (st, .raises e)

/-- `connect` with such an address, 338-344. -/
def SockState.connectText (st : SockState) (i : Nat) (s : Sock) (a : NameTuple) : SockState × Out :=
  match textArg a with
  | .ok a => st.connect i s a
  | .error e => (st, .raises e)

/-- `bind` with such an address, 314-336: the port is looked at before the text. -/
def SockState.bindText (st : SockState) (i : Nat) (s : Sock) (a : NameTuple) (sys : List Int) (fw : Option PyErr) :
    SockState × Out :=
  match textArg a with
  | .ok a => st.bind i s a sys fw
  | .error e => if (PortArg.num a.2).isIn (sys ++ st.emuports) then (st, .code (-1)) else (st, .raises e)

end SY
