import Verif.UdpStack
import Verif.Scenario

/-! # The test of the UDP stack example: examples/udpstack_tests.py

Line numbers without a file name refer to that file. -/

namespace SY

/-- 127.0.0.1, line 8. -/
def stackHome : BitVec 32 := 0x7f000001

/-- `b'Hello stack'`, line 12. -/
def stackHello : Bytes := [72, 101, 108, 108, 111, 32, 115, 116, 97, 99, 107]

/-- The packet expected on the interface, lines 10-12. -/
def stackWanted : Packet :=
  [.hdr (.null 2), .hdr (.ip4 { IPv4.default with src := .v4 stackHome, dst := .v4 stackHome, protocol := 17 }),
   .hdr (.udp ((UDP.default.setSrc 65535).setDst 10000)), .hdr (.raw stackHello)]

/-- The reply, lines 16-18: a copy with the addresses and the ports exchanged. -/
def stackAnswer : Packet :=
  [.hdr (.null 2), .hdr (.ip4 { IPv4.default with src := .v4 stackHome, dst := .v4 stackHome, protocol := 17 }),
   .hdr (.udp ((UDP.default.setSrc 10000).setDst 65535)), .hdr (.raw stackHello)]

/-- The name of the interface, line 8. -/
def stackDev : List Char := ['l', 'o', '0']

/-- The two expectations, lines 14 and 20-22. -/
def stackEvents : Res (List Event) :=
  Event.mkOutput [(stackDev, stackWanted)] false false [(.udp, .src)] [] >>= fun a =>
  Event.mkCopying stackDev stackAnswer (.one ⟨stackDev, .udp, .src, .udp, .dst⟩) >>= fun b => .ok [a, b]

end SY
