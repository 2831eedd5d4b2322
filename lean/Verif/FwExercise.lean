import Verif.Serve
import Verif.Skeletons

/-! # The tests of the firewall exercise

The rules and the frames of examples/exercises/firewall/firewalltests.py, for all numbers that may be drawn, and what
examples/exercises/firewall/firewall.rst says the rules mean.  Rate limits are in `FwLimit`; impairments are not
modelled: a rule that permits with such an addition is a rule that permits.  The descriptions of the expectations are not modelled. -/

namespace SY

/-! ## The rules -/

/-- A rule of firewall_rules.txt, firewall.rst 97-115: `none` is `ip` as protocol and `any` elsewhere; a network is an
address and a prefix length. -/
structure FwRule where
  permit : Bool
  proto : Option Nat
  src : Option (Nat × Nat)
  sport : Option Nat
  dst : Option (Nat × Nat)
  dport : Option Nat
  deriving DecidableEq, Repr

/-- What rules look at, firewall.rst 97-115: protocol, addresses and ports (0 where there are none). -/
structure FwKey where
  proto : Nat
  src : Nat
  sport : Int
  dst : Nat
  dport : Int
  deriving DecidableEq, Repr

/-- An address is in a network, firewall.rst 109. -/
def fwInNet (a : Nat) : Option (Nat × Nat) → Bool
  | none => true
  | some (n, len) => decide (a / 2 ^ (32 - len) = n / 2 ^ (32 - len))

/-- A number that a rule asks for, firewall.rst 109. -/
def fwIs (a : Int) : Option Nat → Bool
  | none => true
  | some n => decide (a = n)

/-- firewall.rst 97-115. -/
def FwRule.matches (r : FwRule) (k : FwKey) : Bool :=
  fwIs k.proto r.proto && fwInNet k.src r.src && fwIs k.sport r.sport && fwInNet k.dst r.dst && fwIs k.dport r.dport

/-- firewall.rst 154: the first rule that matches decides, and a packet that none matches is permitted. -/
def fwVerdict : List FwRule → FwKey → Bool
  | [], _ => true
  | r :: rs, k => if r.matches k then r.permit else fwVerdict rs k

/-- The ports of a transport header. -/
def fwPorts : Packet → Int × Int
  | .hdr (.tcp t) :: _ => (t.src, t.dst)
  | .hdr (.udp u) :: _ => (u.src, u.dst)
  | _ => (0, 0)

/-- What the rules look at in a frame; nothing if it is not an IPv4 packet. -/
def fwKey : Packet → Option FwKey
  | .hdr (.eth _) :: .hdr (.ip4 h) :: rest => some ⟨h.protocol, h.src.toNat, (fwPorts rest).1, h.dst.toNat, (fwPorts rest).2⟩
  | _ => none

/-- firewall.rst 38: the rules apply to IPv4 packets; all others are permitted. -/
def fwPermits (rs : List FwRule) (p : Packet) : Bool :=
  match fwKey p with
  | none => true
  | some k => fwVerdict rs k

/-- `firewall_rules`, firewalltests.py 10-57. -/
def exerciseRules : List FwRule :=
  [⟨false, none, some (0xc0a82a00, 24), none, none, none⟩,
   ⟨false, none, none, none, some (0xc0a82a00, 24), none⟩,
   ⟨true, some 6, some (0xc0a80d0d, 32), some 80, none, none⟩,
   ⟨true, some 6, none, none, some (0xc0a80d0d, 32), some 80⟩,
   ⟨true, some 17, some (0xc0a80000, 16), none, none, some 53⟩,
   ⟨true, some 17, none, some 53, some (0xc0a80000, 16), none⟩,
   ⟨true, some 6, some (0xc0a80000, 16), none, none, some 80⟩,
   ⟨true, some 6, none, some 80, some (0xc0a80000, 16), none⟩,
   ⟨true, some 6, some (0xc0a80000, 16), none, none, some 443⟩,
   ⟨true, some 6, none, some 443, some (0xc0a80000, 16), none⟩,
   ⟨true, some 6, some (0xc0a80000, 24), none, none, some 8000⟩,
   ⟨true, some 6, none, some 8000, some (0xc0a80000, 24), none⟩,
   ⟨true, some 1, none, none, none, none⟩,
   ⟨false, none, none, none, none, none⟩]

/-! ## The frames -/

/-- `struct.pack('xxI', n)`, firewalltests.py 71-72: two pad bytes, two more that align the number, and the number with its
least significant byte first (on a machine that stores numbers so). -/
def packXxI (n : Nat) : Bytes :=
  [0, 0, 0, 0, UInt8.ofNat n, UInt8.ofNat (n / 256), UInt8.ofNat (n / 65536), UInt8.ofNat (n / 16777216)]

/-- `mketh(xtype)`, firewalltests.py 68-73; `a` and `b` are the numbers drawn. -/
def mkEth (xtype : Int) (a b : Nat) : Res Ethernet :=
  Ethernet.default.setEthertype xtype >>= fun e =>
  e.setSrc (.raw (packXxI a)) >>= fun e =>
  e.setDst (.raw (packXxI b))

/-- The header that is swapped, 85-94: ports, and numbers of TCP. -/
def swapPorts : Item → Item
  | .hdr (.tcp t) => .hdr (.tcp (TCP.setflag { t with seq := t.ack, ack := t.seq, src := t.dst, dst := t.src } .ACK true))
  | .hdr (.udp u) => .hdr (.udp { u with src := u.dst, dst := u.src })
  | x => x

/-- `swap`, firewalltests.py 75-95, for a frame of an IPv4 packet, whose transport header comes third: `255-ip.ttl` is
not negative, since the time to live is a byte. -/
def fwSwap : Packet → Packet
  | .hdr (.eth e) :: .hdr (.ip4 h) :: x :: rest =>
    .hdr (.eth { e with src := e.dst, dst := e.src }) ::
    .hdr (.ip4 { h with src := h.dst, dst := h.src, ttl := 255 - h.ttl, ipid := 0 }) :: swapPorts x :: rest
  | p => p

/-- The numbers drawn for one frame, firewalltests.py 59-66; which of them are, and their least values, depends on the frame. -/
structure FwDraw where
  sport : Nat
  dport : Nat
  seq : Nat
  ack : Nat
  window : Nat
  low : Nat
  src : Nat
  dst : Nat
  ttl : Nat
  a : Nat
  b : Nat
  deriving DecidableEq, Repr

/-- What `randint` may give, 59-66, if the least port is `p`, and the least address `q`. -/
def FwDraw.InRange (d : FwDraw) (p q : Nat) : Prop :=
  (p ≤ d.sport ∧ d.sport < 65536) ∧ (p ≤ d.dport ∧ d.dport < 65536) ∧ d.seq < 2 ^ 32 ∧ d.ack < 2 ^ 32 ∧ d.window < 65536 ∧
  d.low < 256 ∧ (q ≤ d.src ∧ d.src < 2 ^ 32) ∧ (q ≤ d.dst ∧ d.dst < 2 ^ 32) ∧ d.ttl < 256 ∧ d.a < 2 ^ 32 ∧ d.b < 2 ^ 32

instance (d : FwDraw) (p q : Nat) : Decidable (d.InRange p q) := by unfold FwDraw.InRange; infer_instance

/-- `ip` with the assigned attributes, on a new header. -/
def fwIp (proto ttl src dst : Nat) : IPv4 :=
  { IPv4.default with protocol := proto, ttl := ttl, src := .v4 (.ofNat 32 src), dst := .v4 (.ofNat 32 dst) }

/-- `mketh() + ip + t`. -/
def fwFrame (d : FwDraw) (h : IPv4) (rest : Packet) : Res Packet :=
  mkEth 0x0800 d.a d.b >>= fun e => .ok (.hdr (.eth e) :: .hdr (.ip4 h) :: rest)

/-- 106-118: the web server answers. -/
def fwWeb (d : FwDraw) : Res Packet :=
  fwFrame d (fwIp 6 d.ttl 0xc0a80d0d d.dst)
    [.hdr (.tcp (TCP.setflag { TCP.default with src := 80, dst := d.dport, seq := d.seq, ack := d.ack, window := d.window } .SYN true))]

/-- 128-135: a question to a name server; `int(IPv4Address('192.168.113.0')) | rand8()`. -/
def fwDns (d : FwDraw) : Res Packet :=
  fwFrame d (fwIp 17 d.ttl (0xc0a87100 ||| d.low) d.dst) [.hdr (.udp { UDP.default with src := d.sport, dst := 53 })]

/-- 145-155. -/
def fwHttps (d : FwDraw) : Res Packet :=
  fwFrame d (fwIp 6 d.ttl (0xc0a87100 ||| d.low) d.dst)
    [.hdr (.tcp (TCP.setflag { TCP.default with src := d.sport, dst := 443, seq := d.seq, ack := d.ack } .SYN true))]

/-- 170-181. -/
def fwHttp (d : FwDraw) : Res Packet :=
  fwFrame d (fwIp 6 d.ttl (0xc0a8d500 ||| d.low) d.dst)
    [.hdr (.tcp (TCP.setflag { TCP.default with src := d.sport, dst := 80, seq := d.seq, ack := d.ack, window := d.window } .SYN true))]

/-- 191-194: the header keeps the time to live of the frame before. -/
def fwPing (d : FwDraw) : Res Packet :=
  fwFrame d (fwIp 1 d.ttl d.src d.dst) [.hdr (.icmp ICMPMsg.default4)]

/-- 206-218: a host that may not communicate. -/
def fwInner (d : FwDraw) : Res Packet :=
  fwFrame d (fwIp 6 d.ttl (0xc0a82a00 ||| d.low) d.dst)
    [.hdr (.tcp (TCP.setflag (TCP.setflag { TCP.default with src := d.sport, dst := 443, seq := d.seq, ack := d.ack, window := d.window }
      .ACK true) .PSH true))]

/-- `b'Hello, little UDP packet!'`, 243. -/
def fwHello : Bytes :=
  [72, 101, 108, 108, 111, 44, 32, 108, 105, 116, 116, 108, 101, 32, 85, 68, 80, 32, 112, 97, 99, 107, 101, 116, 33]

/-- 236-243. -/
def fwOther (d : FwDraw) : Res Packet :=
  fwFrame d (fwIp 17 0 d.src d.dst) [.hdr (.udp { UDP.default with src := d.sport, dst := d.dport }), .hdr (.raw fwHello)]

/-- 250. -/
def fwArp (d : FwDraw) : Res Packet :=
  mkEth 0x0800 d.a d.b >>= fun e =>
  createIpArpRequest (.addr e.src) (.int d.src) (.int d.dst) >>= fun x => .ok [.hdr (.eth x.1), .hdr (.arp x.2)]

/-- 261-265. -/
def fwSix (d : FwDraw) : Res Packet :=
  mkEth 0x86dd d.a d.b >>= fun e => .ok [.hdr (.eth e), .hdr (.ip6 IPv6.default), .hdr (.icmp6 ICMPMsg.default6)]

/-- The numbers drawn for all frames, in the order in which they are made. -/
structure FwDraws where
  web : FwDraw
  dns : FwDraw
  https : FwDraw
  http : FwDraw
  ping : FwDraw
  inner : FwDraw
  other : FwDraw
  arp : FwDraw
  six : FwDraw
  deriving Repr

/-- The least values, firewalltests.py 106-265. -/
def FwDraws.InRange (d : FwDraws) : Prop :=
  d.web.InRange 10000 0 ∧ d.dns.InRange 10000 0 ∧ d.https.InRange 10000 0 ∧ d.http.InRange 10000 0 ∧ d.ping.InRange 0 0 ∧
  d.inner.InRange 10000 0 ∧ d.other.InRange 0 (2 ^ 24) ∧ d.arp.InRange 0 0 ∧ d.six.InRange 0 0

instance (d : FwDraws) : Decidable d.InRange := by unfold FwDraws.InRange; infer_instance

/-- A frame arrives on a device, and is or is not expected on the other. -/
structure FwStep where
  dev : List Char
  pkt : Packet
  expected : Bool

/-- The two ports, firewalltests.py 101-102. -/
def fwPort0 : List Char := "eth0".toList
def fwPort1 : List Char := "eth1".toList

/-- The other port. -/
def fwOtherPort (dev : List Char) : List Char := if dev = fwPort0 then fwPort1 else fwPort0

/-- A frame that is expected to pass, and its answer, 119-126. -/
def fwPass (p : Packet) : List FwStep := [⟨fwPort0, p, true⟩, ⟨fwPort1, fwSwap p, true⟩]

/-- The steps of the test, 119-274. -/
def fwSteps (d : FwDraws) : Res (List FwStep) :=
  fwWeb d.web >>= fun web => fwDns d.dns >>= fun dns => fwHttps d.https >>= fun https =>
  fwHttp d.http >>= fun http => fwPing d.ping >>= fun ping => fwInner d.inner >>= fun inner =>
  fwOther d.other >>= fun other => fwArp d.arp >>= fun arp => fwSix d.six >>= fun six =>
  .ok (fwPass web ++ fwPass dns ++ fwPass https ++ fwPass http ++ fwPass ping ++
    [⟨fwPort0, inner, false⟩, ⟨fwPort1, inner, false⟩, ⟨fwPort0, fwSwap inner, false⟩, ⟨fwPort1, fwSwap inner, false⟩,
     ⟨fwPort0, other, false⟩, ⟨fwPort1, other, false⟩, ⟨fwPort0, arp, true⟩, ⟨fwPort1, arp, true⟩,
     ⟨fwPort0, six, true⟩, ⟨fwPort1, six, true⟩])

/-- The expectations that a step adds to the scenario. -/
def FwStep.events (s : FwStep) : Res (List Event) :=
  if s.expected then
    Event.mkOutput [(fwOtherPort s.dev, s.pkt)] false true [] [] >>= fun e => .ok [.mkInput s.dev s.pkt, e]
  else .ok [.mkInput s.dev s.pkt]

/-- The expectations of the scenario. -/
def fwEvents : List FwStep → Res (List Event)
  | [] => .ok []
  | s :: ss => s.events >>= fun es => fwEvents ss >>= fun rest => .ok (es ++ rest)

/-- The firewall the exercise asks for, firewall.rst 38, in the loop of firewall.py: a permitted frame goes out on the
paired port, any other is ignored. -/
def ruleHandler (rs : List FwRule) (ifs : List Iface) : Handler Unit := fun st dev p n =>
  if fwPermits rs p then firewallHandler ifs st dev p n else (n, .ok ())

end SY
