import Verif.Scenario

/-!
# What the test harness says

Model of the messages of /repo/switchyard/lib/testing.py (`_compare_packet_against_reference` with its diagnosis,
`_showpkt`, `fail_reason`, `format_pkt`, `__str__` and `__eq__` of events and scenarios, `testpass` with its log
messages, `print_summary`, `scenario_sanity_check`) and of /repo/switchyard/llnettest.py 60-105, where they are made.
Making them can raise, so that the operations of `Verif.Scenario` are given here once more with the messages.

A member of a packet that is not a header has a class of unknown name (`object` here).  Log messages themselves are not
kept.  `str.capitalize` and `textwrap` are as for ASCII text.
-/

namespace SY

/-- What else was given to an event: `display`, testing.py 417, 489-491; `wildcards` and the source texts of
`predicates`, 493-507 (the same for all ports of an output event). -/
structure Note where
  display : Option Cls := none
  wild : List (Cls × HdrAttr) := []
  preds : List Text := []

/-- The notes of the events of a scenario, by timestamp (every expectation has its own). -/
abbrev Notes := Nat → Note

/-! ## Packets in messages -/

/-- One header in `format_pkt`, testing.py 363-368. -/
def shownAs (idx : Int) (i : Int) (it : Item) : Res Text :=
  match it with
  | .hdr h => if i = idx then h.str else .ok (h.cls.name.toList ++ "...".toList)
  | .bytes b => .ok (if i = idx then bytesRepr b else "bytes...".toList)
  | .other _ => .ok (if i = idx then "object".toList else "object...".toList)

/-- The loop of `format_pkt`, testing.py 364-368. -/
def shownItems (idx : Int) : Int → Packet → Res (List Text)
  | _, [] => .ok []
  | i, it :: p => shownAs idx i it >>= fun s => shownItems idx (i + 1) p >>= fun r => .ok (s :: r)

/-- `format_pkt` with a class to highlight, testing.py 358-369. -/
def highlight (c : Cls) (p : Packet) : Res Text :=
  p.headerIndex c 0 >>= fun idx =>
  if idx = -1 then p.str
  else shownItems idx 0 p >>= fun l => .ok (joinText " | ".toList l)

/-- `format_pkt`, testing.py 344-369; `v` is `VerboseOutput.enabled()`. -/
def formatPkt (v : Bool) (d : Option Cls) (p : Packet) : Res Text :=
  match if v then none else d with
  | none => p.str
  | some c => highlight c p

/-- `format_pkt` of a packet that was sent; bytes have no `get_header_index`. -/
def formatSent (v : Bool) (d : Option Cls) : Sent → Res Text
  | .pkt p => formatPkt v d p
  | .raw b =>
    match if v then none else d with
    | none => .ok (bytesRepr b)
    | some _ => .error .attributeError

/-- `"{} out {}".format(self.format_pkt(v.packet), k)` for the ports that wait, testing.py 568. -/
def waitingTexts (v : Bool) (d : Option Cls) : Dict (List Char) Matcher → Res (List Text)
  | [] => .ok []
  | (k, m) :: w => formatPkt v d m.ref >>= fun s => waitingTexts v d w >>= fun r => .ok ((s ++ " out ".toList ++ k) :: r)

/-- The same for the packets that were sent, testing.py 570. -/
def sentTexts (v : Bool) (d : Option Cls) : Dict (List Char) Sent → Res (List Text)
  | [] => .ok []
  | (k, x) :: w => formatSent v d x >>= fun s => sentTexts v d w >>= fun r => .ok ((s ++ " out ".toList ++ k) :: r)

/-- `__str__` of the events, testing.py 391-392, 449-450, 565-572. -/
def Event.str (v : Bool) (n : Note) : Event → Res Text
  | .timeout t => .ok ("Timeout after ".toList ++ intText t ++ "s on a call to recv_packet".toList)
  | .input dev p _ _ =>
    formatPkt v n.display p >>= fun s => .ok ("recv_packet ".toList ++ s ++ " on ".toList ++ dev)
  | .output w x =>
    waitingTexts v n.display w >>= fun a => sentTexts v n.display x >>= fun b =>
    .ok ("send_packet(s) ".toList ++ joinText " and ".toList (a ++ b))

/-! ## Comparing -/

/-- The names of the attributes, in Python. -/
def HdrAttr.name : HdrAttr → String
  | .src => "src" | .dst => "dst" | .ethertype => "ethertype" | .vlanid => "vlanid" | .pcp => "pcp"
  | .hardwaretype => "hardwaretype" | .protocoltype => "protocoltype" | .operation => "operation"
  | .senderhwaddr => "senderhwaddr" | .senderprotoaddr => "senderprotoaddr" | .targethwaddr => "targethwaddr"
  | .targetprotoaddr => "targetprotoaddr" | .tos => "tos" | .dscp => "dscp" | .ecn => "ecn"
  | .totalLength => "total_length" | .ipid => "ipid" | .flags => "flags" | .fragmentOffset => "fragment_offset"
  | .ttl => "ttl" | .protocol => "protocol" | .hl => "hl" | .options => "options" | .trafficclass => "trafficclass"
  | .flowlabel => "flowlabel" | .nextheader => "nextheader" | .hoplimit => "hoplimit" | .address => "address"
  | .ident => "id" | .offset => "offset" | .mf => "mf" | .length => "length" | .seq => "seq" | .ack => "ack"
  | .window => "window" | .flagstr => "flagstr" | .urgentPointer => "urgent_pointer"
  | .flag .FIN => "FIN" | .flag .SYN => "SYN" | .flag .RST => "RST" | .flag .PSH => "PSH" | .flag .ACK => "ACK"
  | .flag .URG => "URG" | .flag .ECE => "ECE" | .flag .CWR => "CWR" | .flag .NS => "NS"
  | .icmptype => "icmptype" | .icmpcode => "icmpcode" | .icmpdata => "icmpdata" | .icmp6type => "icmp6type"
  | .icmp6code => "icmp6code" | .command => "command" | .version => "version" | .af => "af" | .data => "data"

/-- `__class__.__name__`. -/
def Klass.name : Klass → Text
  | .hdr c => c.name.toList
  | .bytes => "bytes".toList
  | .other _ => "object".toList

/-- The names of the classes of what is left over, testing.py 190, 195. -/
def klassNames (p : Packet) : Text := joinText " | ".toList (p.map fun it => it.klass.name)

/-- `_compare_header_types`, testing.py 178-199: the diagnosis, if there is one; `i` headers have been compared. -/
def diagTypes : Nat → Packet → Packet → Option Text
  | _, [], [] => none
  | _, [], y :: p => some ("Extra headers found in your packet: ".toList ++ klassNames (y :: p))
  | _, x :: r, [] => some ("Missing headers in your packet: ".toList ++ klassNames (x :: r))
  | i, x :: r, y :: p =>
    if x.klass = y.klass then diagTypes (i + 1) r p
    else some ("Packet header type is wrong at index ".toList ++ natText i ++ ": expecting ".toList ++ x.klass.name ++
      " but found ".toList ++ y.klass.name)

/-- `"{} is wrong (is {} but should be {})"`, testing.py 210; `u` is expected, `v` is there. -/
def diffText (a : HdrAttr) (u v : AVal) : Res Text :=
  v.str >>= fun vt => u.str >>= fun ut =>
  .ok (a.name.toList ++ " is wrong (is ".toList ++ vt ++ " but should be ".toList ++ ut ++ ")".toList)

/-- The loop over attributes, testing.py 206-210. -/
def diagAttrs (x y : Item) : List HdrAttr → Res (List Text)
  | [] => .ok []
  | a :: l =>
    x.getattr a >>= fun u => y.getattr a >>= fun v => u.eq v >>= fun e =>
    (if e then .ok [] else (diffText a u v >>= fun t => .ok [t])) >>= fun t =>
    diagAttrs x y l >>= fun r => .ok (t ++ r)

/-- `_compare_header_attrs`, testing.py 201-217, for packets with equally many headers: the differences. -/
def diagHeaders (d : Dict Klass (List HdrAttr)) : Packet → Packet → Res (List Text)
  | x :: r, y :: p =>
    diagAttrs x y ((d.get? x.klass).getD []) >>= fun t => diagHeaders d r p >>= fun c =>
    .ok (if t = [] then c
      else ("In the ".toList ++ x.klass.name ++ " header, ".toList ++ joinText "; ".toList t) :: c)
  | _, _ => .ok []

/-- `_compare_packet_against_reference`, testing.py 177-219: `_comparison_diagnosis`, if the packets differ. -/
def Matcher.diagnose (m : Matcher) (p : Packet) : Res (Option Text) :=
  match diagTypes 0 m.ref p with
  | some t => .ok (some t)
  | none => diagHeaders m.attrs m.ref p >>= fun l => .ok (if l = [] then none else some (joinText ", ".toList l))

/-! ## Packets with stars -/

/-- The attributes of a header that have been replaced by stars. -/
abbrev Stars := Dict HdrAttr Text

/-- Whether `"_" + attr` can be assigned: it is in `__slots__`, or the class has a `__dict__`
(`IPv6DestinationOption`).  ethernet.py 27, 98; arp.py 17-18; ipv4.py 382-385; ipv6.py 25, 88, 125, 490-492; udp.py 15;
tcp.py 68-69; icmp.py 25-26; icmpv6.py 25-26; ripv2.py 99; null.py 20; packet.py 367. -/
def hasSlot : Hdr → HdrAttr → Bool
  | .eth _, a => a ∈ [.src, .dst, .ethertype]
  | .vlan _, a => a ∈ [.vlanid, .pcp, .ethertype]
  | .arp _, a => a ∈ [.operation, .senderhwaddr, .senderprotoaddr, .targethwaddr, .targetprotoaddr]
  | .ip4 _, a => a ∈ [.tos, .ttl, .ipid, .flags, .protocol, .src, .dst, .options]
  | .ip6 _, a => a ∈ [.trafficclass, .flowlabel, .ttl, .nextheader, .src, .dst]
  | .route _, a => a ∈ [.address, .nextheader]
  | .frag _, a => a ∈ [.ident, .offset, .nextheader]
  | .hop _, a => a ∈ [.nextheader]
  | .dst _, _ => true
  | .udp _, a => a ∈ [.src, .dst]
  | .tcp _, a => a ∈ [.src, .dst, .seq, .ack, .flags, .window, .options]
  | .icmp _, a => a ∈ [.icmpdata]
  | .icmp6 _, a => a ∈ [.icmpdata]
  | .rip _, a => a ∈ [.command]
  | .null _, a => a ∈ [.af]
  | .raw _, _ => false
  | .nullHdr, _ => true

/-- The stars for a value, testing.py 227-233. -/
def AVal.stars : AVal → Text
  | .ip (.v4 _) => "*.*.*.*".toList
  | .ip (.v6 _) => "*::*".toList
  | .eth _ => "**:**:**:**:**:**".toList
  | _ => "*".toList

/-- What reading an attribute raises because of stars put into another one: `dscp` and `ecn` shift and mask `_tos`
(ipv4.py 484-490), `hl` asks `_options` for its size (556-558), the flags and `flagstr` of TCP mask `_flags` (tcp.py
204-308), `offset` serialises `_options` (tcp.py 148-150). -/
def spoiltBy : HdrAttr → Option (HdrAttr × PyErr)
  | .dscp => some (.tos, .typeError)
  | .ecn => some (.tos, .typeError)
  | .hl => some (.options, .attributeError)
  | .flagstr => some (.flags, .typeError)
  | .flag _ => some (.flags, .typeError)
  | .offset => some (.options, .attributeError)
  | _ => none

/-- The new value of `star_out_attr`, testing.py 223-233: a text is there already if the attribute was starred before. -/
def starFor (h : Hdr) (st : Stars) (a : HdrAttr) : Res Text :=
  match st.get? a with
  | some _ => .ok "*".toList
  | none =>
    match spoiltBy a with
    | some (b, e) => if (st.get? b).isSome then .error e else h.getattr a >>= fun v => .ok v.stars
    | none => h.getattr a >>= fun v => .ok v.stars

/-- `star_out_attr`, testing.py 222-234: `hasattr` is false if `AttributeError` is raised. -/
def starAttr (h : Hdr) (st : Stars) (a : HdrAttr) : Res Stars :=
  match starFor h st a with
  | .error e => if e = .attributeError then .ok st else .error e
  | .ok t => if hasSlot h a then .ok (st.set a t) else .error .attributeError

/-- One wildcard, testing.py 237-240: the first header of the class, if there is one. -/
def starPkt (c : Cls) (a : HdrAttr) : List (Item × Stars) → Res (List (Item × Stars))
  | [] => .ok []
  | (.hdr h, st) :: p =>
    if h.cls.isSub c then starAttr h st a >>= fun st => .ok ((.hdr h, st) :: p)
    else starPkt c a p >>= fun p => .ok ((.hdr h, st) :: p)
  | x :: p => starPkt c a p >>= fun p => .ok (x :: p)

/-- The loop of `_showpkt`, testing.py 237-240. -/
def starAll : List (Cls × HdrAttr) → List (Item × Stars) → Res (List (Item × Stars))
  | [], p => .ok p
  | (c, a) :: ws, p => starPkt c a p >>= fun p => starAll ws p

/-- The text of an attribute. -/
def starred (st : Stars) (a : HdrAttr) (t : Text) : Text := (st.get? a).getD t

/-- The `name` of an attribute, or of the text in its place, which has none. -/
def namedStar (st : Stars) (a : HdrAttr) (t : Text) : Res Text :=
  if (st.get? a).isSome then .error .attributeError else .ok t

/-- `str` of a header with stars (for the methods see `Verif.Str`). -/
def Hdr.starStr (st : Stars) : Hdr → Res Text
  | .eth h => namedStar st .ethertype (enumName etherTypeNames h.ethertype) >>= fun t =>
    .ok ("Ethernet ".toList ++ starred st .src h.src.toStr ++ "->".toList ++ starred st .dst h.dst.toStr ++ " ".toList ++ t)
  | .vlan h => namedStar st .ethertype (enumName etherTypeNames h.ethertype) >>= fun t =>
    .ok ("Vlan ".toList ++ starred st .vlanid (intText h.vlanid) ++ " ".toList ++ t)
  | .arp h =>
    .ok ("Arp ".toList ++ starred st .senderhwaddr h.senderhwaddr.toStr ++ ":".toList ++
      starred st .senderprotoaddr h.senderprotoaddr.text ++ " ".toList ++ starred st .targethwaddr h.targethwaddr.toStr ++
      ":".toList ++ starred st .targetprotoaddr h.targetprotoaddr.text)
  | .ip4 h => namedStar st .protocol (enumName ipProtocolNames h.protocol) >>= fun t =>
    .ok ("IPv4 ".toList ++ starred st .src h.src.text ++ "->".toList ++ starred st .dst h.dst.text ++ " ".toList ++ t)
  | .ip6 h => namedStar st .nextheader (enumName ipProtocolNames h.next) >>= fun t =>
    .ok ("IPv6 ".toList ++ starred st .src (ipv6Text h.src) ++ "->".toList ++ starred st .dst (ipv6Text h.dst) ++
      " ".toList ++ t)
  | .route h =>
    .ok ("IPv6RouteOption (type ".toList ++ natText h.rtype ++ ", ".toList ++ starred st .address (ipv6Text h.addr) ++
      ")".toList)
  | .frag h =>
    .ok ("IPv6Fragment (id: ".toList ++ starred st .ident (intText h.ident) ++ " offset: ".toList ++
      starred st .offset (intText h.offset) ++ " mf: ".toList ++ boolText h.mf ++ ")".toList)
  | .udp h =>
    .ok ("UDP ".toList ++ starred st .src (intText h.src) ++ "->".toList ++ starred st .dst (intText h.dst))
  | .tcp h =>
    if (st.get? .flags).isSome then .error .typeError
    else .ok ("TCP ".toList ++ starred st .src (intText h.src) ++ "->".toList ++ starred st .dst (intText h.dst) ++
      " (".toList ++ h.flagstr ++ " ".toList ++ starred st .seq (intText h.seq) ++ ":".toList ++
      starred st .ack (intText h.ack) ++ ")".toList)
  | .icmp m =>
    .ok ("ICMP ".toList ++ typeCode (enumName icmpTypeNames m.type) (codeName icmpCodes m.type m.code) ++ " ".toList ++
      starred st .icmpdata m.data.str)
  | .icmp6 m =>
    (if (st.get? .icmpdata).isSome then .ok "*".toList else m.data.str) >>= fun d =>
    .ok ("ICMPv6 ".toList ++ typeCode (enumName icmpv6TypeNames m.type) (codeName icmpv6Codes m.type m.code) ++
      " ".toList ++ d)
  | .rip h => if (st.get? .command).isSome then .error .attributeError else .ok h.str
  | .null af => .ok ("Null: ".toList ++ if (st.get? .af).isSome then "?".toList else afName af)
  | h => h.str

/-- The texts of the headers of a packet with stars. -/
def starStrs : List (Item × Stars) → Res (List Text)
  | [] => .ok []
  | (.hdr h, st) :: p => h.starStr st >>= fun s => starStrs p >>= fun r => .ok (s :: r)
  | _ :: p => starStrs p

/-- `_showpkt`, testing.py 221-241. -/
def showPkt (wild : List (Cls × HdrAttr)) (p : Packet) : Res Text :=
  starAll wild (p.map fun it => (it, [])) >>= fun q => starStrs q >>= fun l => .ok (joinText " | ".toList l)

/-! ## Reasons -/

/-- `"passed" if result else "failed"`. -/
def passText (b : Bool) : Text := if b then "passed".toList else "failed".toList

/-- The predicates, testing.py 265-272. -/
def predTexts : List (Text × Bool) → List Text
  | [] => []
  | [(t, b)] => ["and the predicate (".toList ++ t ++ ") ".toList ++ passText b ++ ".".toList]
  | (t, b) :: x :: r => (" the predicate (".toList ++ t ++ ") ".toList ++ passText b ++ ",".toList) :: predTexts (x :: r)

/-- The first sentence, testing.py 250-255; the second `capitalize` of 261-262 never happens, because the sentence ends
with a space. -/
def contentText (exact wild first : Bool) : Text :=
  (if exact then "an exact".toList else "a inexact".toList) ++ " match ".toList ++
    (if wild then "with wildcards ".toList else []) ++ "of packet contents ".toList ++ passText first ++
    (if first then ", but".toList else ". ".toList)

/-- The packets at the end, testing.py 274-284; both times the packet that was sent is shown. -/
def packetTexts (v : Bool) (wild : List (Cls × HdrAttr)) (p : Packet) : Option Text → Res (List Text)
  | none => showPkt wild p >>= fun s =>
    .ok ["\nPacket field comparisons matched correctly: ".toList ++ s ++ ".".toList]
  | some d =>
    if v then
      p.str >>= fun s => showPkt wild p >>= fun t =>
      .ok [d ++ ".".toList, "\nDetails: here is the packet that failed the check: ".toList ++ s ++ ",".toList,
        "\nand here is what I expected to match: ".toList ++ t]
    else .ok [d]

/-- `_PacketMatcher.fail_reason`, testing.py 243-285, given the outcome of the comparison and of the predicates. -/
def failReason (v exact : Bool) (n : Note) (diag : Option Text) (results : List Bool) (p : Packet) : Res Text :=
  packetTexts v n.wild p diag >>= fun l =>
  .ok (joinText " ".toList
    (contentText exact (!n.wild.isEmpty) diag.isNone ::
      ((if results = [] then [] else
        "when comparing the packet you sent versus what I expected,".toList :: predTexts (n.preds.zip results)) ++ l)))

/-- `matcher.fail_reason(pkt)` after `matcher.match(pkt)`, testing.py 243-285, 302-303. -/
def Matcher.reason (v : Bool) (n : Note) (m : Matcher) (p : Packet) : Res Text :=
  m.diagnose p >>= fun d => evalPreds p m.preds >>= fun bs => failReason v m.exact n d bs p

/-- `str.capitalize`. -/
def capitalize : Text → Text
  | [] => []
  | c :: s => c.toUpper :: s.map Char.toLower

/-- `"" if len(l) == 1 else "s"`. -/
def plural {α : Type} (l : List α) : Text := if l.length = 1 then [] else "s".toList

/-- `PacketOutputEvent.fail_reason` without `capitalize`, testing.py 545-558. -/
def unsentText (waiting sent : List Text) : Text :=
  (if sent = [] then [] else
    "your code has sent a packet on port".toList ++ plural sent ++ " ".toList ++ joinText ",".toList sent ++
      (if waiting = [] then [] else ", but ".toList)) ++
  (if waiting = [] then [] else
    (if sent = [] then "your code did not send packet".toList ++ plural waiting ++ " ".toList else "not ".toList) ++
      "on port".toList ++ plural waiting ++ " ".toList ++ joinText ",".toList waiting)

/-- `fail_reason` of the events, testing.py 408-409, 477-478, 543-559. -/
def Event.failText : Event → Text
  | .timeout _ => "Your code did not time out on a call to recv_packet".toList
  | .input .. => "Your code did not call recv_packet".toList
  | .output w x => capitalize (unsentText w.keys x.keys)

/-! ## The operations, with their messages -/

/-- How a call ends: `TestScenarioFailure` carries a message. -/
inductive Outcome (α : Type)
  | ok (a : α)
  | raised (e : PyErr)
  | failed (why : Text)

/-- The exception raised, if making the message does not raise. -/
def Outcome.fail {α : Type} (r : Res Text) (f : Text → Text) : Outcome α :=
  match r with
  | .ok t => .failed (f t)
  | .error e => .raised e

/-- `testpass`, testing.py 755-790, with the texts made for the log (765, 790): an event that cannot be printed is no
longer pending, but not completed either. -/
def Scenario.testpassR (v : Bool) (notes : Notes) (s : Scenario) : Scenario × Option PyErr :=
  match s.pending with
  | [] => (s.cancelTimer, some .indexError)
  | x :: xs =>
    match x.event.str v (notes x.ts) with
    | .error e => ({ s.cancelTimer with pending := xs }, some e)
    | .ok _ =>
      (s.testpass.1,
        match xs with
        | [] => none
        | y :: _ =>
          match y.event.str v (notes y.ts) with
          | .error e => some e
          | .ok _ => none)

/-- The message for an input event on an unknown interface, testing.py 468. -/
def unknownInput (e : Event) (ifaces : Dict (List Char) Iface) : Text :=
  match e with
  | .input dev .. =>
    "Test scenario problem: input event refers to an interface (".toList ++ dev ++
      ") that is not configured in the scenario (these are the interfaces configured: ".toList ++
      joinText ", ".toList ifaces.keys ++ ")".toList
  | _ => []

/-- The end of `generate_packet`. -/
def Outcome.ofRes {α : Type} (why : Text) : Res α → Outcome α
  | .ok a => .ok a
  | .error e => if e = .testFailure then .failed why else .raised e

/-- `recv_packet`, llnettest.py 60-79, after `next`. -/
def TestNet.recvHead (v : Bool) (notes : Notes) (n : TestNet) (x : Entry) : TestNet × Outcome Received :=
  match x.event.matchInput with
  | .success =>
    match n.scen.testpassR v notes with
    | (s, some e) => ({ n with scen := s }, .raised e)
    | (s, none) =>
      ({ n with scen := { s with completed := setLast s.completed (x.event.generate n.ts s.ifaces s.lastout).1 } },
        Outcome.ofRes (unknownInput x.event s.ifaces) (x.event.generate n.ts s.ifaces s.lastout).2)
  | _ => (n, Outcome.fail (x.event.str v (notes x.ts)) ("recv_packet was called instead of ".toList ++ ·))

/-- `recv_packet`, llnettest.py 60-79. -/
def TestNet.recvR (v : Bool) (notes : Notes) (n : TestNet) : TestNet × Outcome Received :=
  match n.scen.pending with
  | [] => (n, .raised .shutdown)
  | x :: _ => n.recvHead v notes x

/-- The outcome of `match(EVENT_OUTPUT, device, packet)` with the messages of testing.py 539-541. -/
def Event.matchOutputR (v : Bool) (n : Note) (e : Event) (dev : List Char) (p : Packet) : Outcome MatchRes :=
  match e with
  | .timeout _ => .ok .fail
  | .input .. => .ok .fail
  | .output waiting _ =>
    match waiting.get? dev with
    | none =>
      Outcome.fail (e.str v n) fun t => "You called send_packet with an unexpected output port ".toList ++ dev ++
        ".  Here is what Switchyard expected: ".toList ++ t ++ ".".toList
    | some m =>
      match (m.matchPkt p).2.2 with
      | .error x => .raised x
      | .ok true => .ok (if waiting.erase dev = [] then .success else .part)
      | .ok false =>
        Outcome.fail ((m.matchPkt p).1.reason v n (m.matchPkt p).2.1) fun t =>
          "You called send_packet and while the output port ".toList ++ dev ++ " is ok, ".toList ++ t ++ ".".toList

/-- What `send_packet` does with the outcome of the match, llnettest.py 95-105; `ts` is that of the expectation, `ev` its
event. -/
def TestNet.afterMatchR (v : Bool) (notes : Notes) (n : TestNet) (ev : Event) (ts : Nat) (r : Outcome MatchRes) :
    TestNet × Outcome Unit :=
  match r with
  | .raised x => (n, .raised x)
  | .failed t => (n, .failed t)
  | .ok .success =>
    match n.scen.testpassR v notes with
    | (s, some e) => ({ n with scen := s }, .raised e)
    | (s, none) => ({ scen := s, ts := n.ts + 1 }, .ok ())
  | .ok .fail => (n, Outcome.fail (ev.str v (notes ts)) ("send_packet was called instead of ".toList ++ ·))
  | .ok .part => ({ n with ts := n.ts + 1 }, .ok ())

/-- `send_packet` on a named port, llnettest.py 92-105. -/
def TestNet.sendOnR (v : Bool) (notes : Notes) (n : TestNet) (dev : List Char) (p : Packet) (x : Entry) :
    TestNet × Packet × Outcome Unit :=
  ((TestNet.afterMatchR v notes
      { n with scen := { n.scen with pending := setFirst n.scen.pending (x.event.matchOutput dev p).1 } }
      (x.event.matchOutput dev p).1 x.ts (x.event.matchOutputR v (notes x.ts) dev p)).1,
    (x.event.matchOutput dev p).2.1,
    (TestNet.afterMatchR v notes
      { n with scen := { n.scen with pending := setFirst n.scen.pending (x.event.matchOutput dev p).1 } }
      (x.event.matchOutput dev p).1 x.ts (x.event.matchOutputR v (notes x.ts) dev p)).2)

/-- `send_packet`, llnettest.py 81-105. -/
def TestNet.sendR (v : Bool) (notes : Notes) (n : TestNet) (port : SendPort) (p : Packet) : TestNet × Packet × Outcome Unit :=
  match n.scen.pending with
  | [] => (n, p, .failed "send_packet was called, but the test scenario was finished.".toList)
  | x :: _ =>
    match n.port port with
    | .error e => (n, p, .raised e)
    | .ok dev => n.sendOnR v notes dev p x

/-! ## The summary -/

/-- `wrapevent`, testing.py 792-805; `wrap` is `textwrap.wrap(text, 60)`. -/
def wrapEvent (wrap : Text → List Text) (descr ev : Text) (details : Bool) : Text :=
  joinText ['\n'] ((wrap descr).map ("    ".toList ++ ·)) ++
    (if details then '\n' :: joinText ['\n'] ((wrap ("Expected event: ".toList ++ ev)).map ("        ".toList ++ ·)) else [])

/-- One numbered expectation, testing.py 822-823, 832-833: the number takes the place of as many characters. -/
def numbered (wrap : Text → List Text) (v : Bool) (k : Nat) (descr ev : Text) : Text :=
  natText k ++ (wrapEvent wrap descr ev v).drop (natText k).length

/-- Numbered expectations from number `k` on. -/
def numberedAll (wrap : Text → List Text) (v : Bool) (notes : Notes) : Nat → List Entry → Res (List Text)
  | _, [] => .ok []
  | k, x :: xs =>
    x.event.str v (notes x.ts) >>= fun t => numberedAll wrap v notes (k + 1) xs >>= fun r =>
    .ok (numbered wrap v k x.descr t :: r)

/-- `print_summary`, testing.py 807-835, from "Passed:" on: the texts printed, or what is raised on the way. -/
def Scenario.summaryTexts (wrap : Text → List Text) (v : Bool) (notes : Notes) (s : Scenario) : Res (List Text) :=
  numberedAll wrap v notes 1 s.completed >>= fun a =>
  match s.pending with
  | [] => .ok (if a = [] then [] else "\nPassed:".toList :: a)
  | x :: xs =>
    x.event.str v (notes x.ts) >>= fun t => numberedAll wrap v notes 1 xs >>= fun b =>
    .ok ((if a = [] then [] else "\nPassed:".toList :: a) ++
      ["\nFailed:".toList, wrapEvent wrap x.descr t true] ++
      (if b = [] then [] else "\nPending (couldn't test because of prior failure):".toList :: b))

/-! ## Equality -/

/-- `__eq__` of the events, testing.py 387-389, 444-447, 588-590. -/
def Event.eq (v : Bool) (n n' : Note) (e e' : Event) : Res Bool :=
  match e, e' with
  | .timeout t, .timeout t' => .ok (decide (t = t'))
  | .input d p _ _, .input d' p' _ _ =>
    if d = d' then p.str >>= fun s => p'.str >>= fun s' => .ok (decide (s = s')) else .ok false
  | .output w x, .output w' x' =>
    Event.str v n (.output w x) >>= fun s => Event.str v n' (.output w' x') >>= fun s' => .ok (decide (s = s'))
  | _, _ => .ok false

/-- `TestScenarioEvent` tuples, one after the other, testing.py 875-877: event, description, timestamp. -/
def entriesEq (v : Bool) (n n' : Notes) : List Entry → List Entry → Res Bool
  | x :: xs, y :: ys =>
    Event.eq v (n x.ts) (n' y.ts) x.event y.event >>= fun b =>
    if b && decide (x.descr = y.descr) && decide (x.ts = y.ts) then entriesEq v n n' xs ys else .ok false
  | _, _ => .ok true

/-- `TestScenario.__eq__`, testing.py 866-878, for scenarios that share no event objects. -/
def Scenario.eq (v : Bool) (n n' : Notes) (s s' : Scenario) : Res Bool :=
  if s.nextTs ≠ s'.nextTs then .ok false
  else if (s.pending ++ s.completed).length ≠ (s'.pending ++ s'.completed).length then .ok false
  else entriesEq v n n' (s.pending ++ s.completed) (s'.pending ++ s'.completed)

/-! ## The sanity check -/

/-- The loop over the ports of an output event, testing.py 905-919: every unknown one is warned about with the text of the
event.  Predicates have been evaluated when the event was made and can be evaluated again; matchers are matchers. -/
def sanePorts (ifaces : Dict (List Char) Iface) (text : Res Text) : List (List Char) → Res Bool
  | [] => .ok true
  | d :: ds =>
    if d ∈ ifaces.keys then sanePorts ifaces text ds
    else text >>= fun _ => sanePorts ifaces text ds >>= fun _ => .ok false

/-- One event, testing.py 892-923. -/
def saneEvent (v : Bool) (n : Note) (ifaces : Dict (List Char) Iface) (e : Event) : Res Bool :=
  match e with
  | .timeout _ => .ok true
  | .input dev .. => if dev ∈ ifaces.keys then .ok true else e.str v n >>= fun _ => .ok false
  | .output w _ =>
    if w.keys = [] then e.str v n >>= fun _ => .ok false else sanePorts ifaces (e.str v n) w.keys

/-- The loop over the pending events. -/
def saneAll (v : Bool) (notes : Notes) (ifaces : Dict (List Char) Iface) : List Entry → Res Bool
  | [] => .ok true
  | x :: xs =>
    saneEvent v (notes x.ts) ifaces x.event >>= fun b => saneAll v notes ifaces xs >>= fun c => .ok (b && c)

/-- `scenario_sanity_check`, testing.py 880-924. -/
def Scenario.sane (v : Bool) (notes : Notes) (s : Scenario) : Res Bool := saneAll v notes s.ifaces s.pending

end SY
