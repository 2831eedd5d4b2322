import Verif.Live

/-! # Sending on the loopback device: where a packet is sent, and how macOS is served

switchyard/llnetreal.py 355-392; `rawSend` in `Live` has the rest.  Line numbers refer to that file. -/

namespace SY

/-- `port`, 373-375. -/
def rawPort (p : Packet) : Res Int :=
  if p.hasHeader .udp then
    p.getClass .udp >>= fun it =>
    match it with
    | .hdr (.udp u) => .ok u.dst
    | _ => .error .attributeError
  else .ok 0

/-- `addr`, 376: the first header is an IP header. -/
def rawTo (p : Packet) : Res (List Char × Int) :=
  rawPort p >>= fun port =>
  p.getItem 0 >>= fun it =>
  match it with
  | .hdr (.ip4 h) => .ok (h.dst.text, port)
  | .hdr (.ip6 h) => .ok ((IPAddr.v6 h.dst).text, port)
  | _ => .error .attributeError

/-- 384-386: two fields of the IPv4 header in the other byte order. -/
def rawSwap (raw : Bytes) : Bytes :=
  raw.take 2 ++ ((raw.drop 2).take 2).reverse ++ (raw.drop 4).take 2 ++ ((raw.drop 6).take 2).reverse ++ raw.drop 8

/-- `_RawSocket.send_packet`, 355-389: the bytes and the address given to `sendto`; `mac` is `_doswap`, 331. -/
def rawSendTo (mac : Bool) (p : Packet) : Res (Bytes × (List Char × Int)) :=
  match rawSend p with
  | (_, .error e) => .error e
  | (p', .ok b) => rawTo p' >>= fun a => .ok (if mac then rawSwap b else b, a)

end SY
