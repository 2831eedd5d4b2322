# Formal model of switchyard in Lean 4 — design

The subject is the Python source in `/repo` (read as text, never executed).  The
deliverable is the Lake project in `lean/`: an executable functional model of the
code, function by function, and theorems about it.

## Trusted base

* Lean 4.33.0's kernel, and the three standard axioms `propext`, `Quot.sound`,
  `Classical.choice`.  No other axiom is used.  `lean/Verif/Audit.lean` prints the axioms of every
  property theorem during the build.
* No `sorry`, `admit`, `native_decide`, `bv_decide`, added axioms, or `implemented_by`.
* The transcription from Python to Lean.  It is by hand.  Each definition cites the
  file and lines it models, and says where it simplifies.
  As a check on it, `Verif/Conf/*.lean` replays the project's own unit tests, and the sessions about packets that its
  documentation shows (`Conf/Docs.lean`), on the model, as `example`s evaluated by the
  kernel.  They are tests of the transcription, not proofs, and no claim rests on them.
* Python semantics as summarised below (`struct`, `bytes`, list indexing, `enum` lookup,
  `ipaddress`, `int(s, 16)`, `str.split`, `heapq`, `queue.Queue`).

## Modelling conventions

* A Python `bytes` value is `List UInt8` (`Bytes`).
* Raising is a value: `Res α = Except PyErr α`.  Every error branch of the code is
  kept; nothing is totalised to a default.
* `struct.pack`/`unpack` are modelled once (`Verif/Struct.lean`) over a list of format items, so
  each header keeps its own `_PACKFMT` and the range-check failures of `struct` are real.
* A header object is a structure; an attribute assignment is a function
  `X → arg → Res X`.  A raised assignment keeps the old object.
* A mutable service (socket layer, scenario, flow table, topology, …) is a state and a step function, and properties
  are invariants over all finite histories.
* Loops that might not terminate are modelled as step relations or with fuel, and
  termination is itself stated (or refuted) as a theorem.
* Property statements live in `Verif/Props/*.lean`, with their own small specifications
  (`Verif/Spec/*.lean`, or local definitions) written without the model's helpers.
* When the code violates the property, the violation is a theorem with a concrete
  witness (`..._violated`), and the strongest true restriction is proved as `..._partial`.

## Modelled / not modelled

Modelled: `lib/packet/*` (common, ethernet, arp, ipv4, ipv6, udp, tcp, icmp, icmpv6, ripv2,
null, util, packet), `lib/address`, `lib/interface`, `lib/socket/socketemu`, `lib/testing`,
`llnetbase`, `llnettest`, receive/send decision logic of `llnetreal`, `hostfirewall` (command
generation and effects), `lib/openflow/ofswitch`, `lib/openflow/openflow10`, `lib/openflow/openflow13` (messages and actions),
`lib/topo`, `sim/linkem`, `sim/nodeexec`, `sim/monitor`, `sim/cli`, `pcapffi` (the Python side), `importcode`, `syinit`,
`swyard` (with the part of `argparse` that its options use), `textcolor`, the hub and UDP stack examples with the test of the latter, the programs the switch, router and firewall exercises begin with, the test of the firewall exercise, its rate limit test, the hubs, the echo program and the header classes of the documentation.

Not modelled: libpcap itself, OS threads and real time (their interleavings are
modelled as histories), logging (but for packets printed on the way), `repr`, the `duration` setter and constructor arguments of OpenFlow 1.3 statistics,
plotting and graph drawing, networkx beyond the dictionary behaviour used.

### Simplifications, by module

Each is repeated in the comment of the definition concerned.

* Headers: user-defined header classes occur in `Registry` (deriving from `PacketHeaderBase` directly, not overriding `next_header_class` or `pre_serialize`) and nowhere else; the cached IPv4 checksum, `Packet._raw`, IPv6 `_extheaders` and the
  stored length of hop-by-hop options are left out because nothing observable depends on them; TCP
  options are always empty (the code never keeps any); the mobility header is commented out in the code.
  Address-family numbers of `Null` are those of Linux, little endian.  `UDP._len` after a
  `pre_serialize` that raised is not tracked.
* Objects: header objects are shared between packets in `Heap` only; elsewhere packets are values.  Objects inside a header (ICMP data, options)
  are part of its value.
* Addresses: the dotted-quad and prefix parsers of `ipaddress` are modelled from its source, for both families; IPv6 zone names are left out.
  Iteration order of sets is not modelled.
* Importing: `sys.path` is a list of directories; packages and built-in modules are left out; running a file
  may load other modules but not change the path.  Options that only affect output are left out.
* Sockets and firewall: the environment (port draws, success of commands, packet arrival) is an oracle quantified over;
  `iptables`/`pf` by their documented effect; texts are ASCII.
* Live network: one user thread; the signal handler is an event; raw sockets take all bytes of a packet.
* UDP stack example: live network on Linux; addresses of an interface in the order of their list (a set in the code);
  applications interleave with the stack at whole steps of either.
* Link emulator: `heapq` by its contract, comparisons of equal times in any order, whole-number times.
* Topology: networkx 2.x dictionary order; node names are texts; labels are kept as the numbers their text is made from;
  `hosts()` of a /32 as in Python 3.9 and later.  Floats are exact doubles (`toDouble`, round to nearest even) without
  overflow and subnormals; delays are whole microseconds where a text is made of them.  The saved form is the object
  given to JSON; its text and what JSON reads are in `Json` and `TopoFile` (a float is the text it is written with, lone surrogates are refused); `TopoLoad` reads topologies from texts (`eval` of a node's type only for the three class names; shapes that `serialize` never writes are refused with `TypeError`, whatever networkx does).
  Node objects shared between a topology and one made from it by `union` are modelled in `TopoShare` only (C204).
* Matcher and scenarios: predicates are pure functions; messages are in `Report` (`textwrap` is any function, colours and logging are left out; what the stars of an event stand for, its predicates' source and the header to display are parameters); shared event objects are in `HeapNet`;
  support files, setup and teardown, several scenarios and the flag `debugger()` sets are in `Suite`; the Windows timer and what is done in the debugger are not modelled; timestamps are
  whole numbers; the digest is any function to 64 bytes; compression and pickle are parameters that give back what they were given (`Compiled`), base64 is modelled.  Assigning an attribute by name (`SetAttr`): a value of the wrong kind that the
  setter would store is refused at once.
* OpenFlow 1.3: classes whose text is that of 1.0 are shared with it; values assigned are numbers, bytes and objects of the
  right class.
* OpenFlow: sets of enumeration members are lists in the order of definition; texts are UTF-8 bytes; network
  containment by shifts.
* Simulator: the link emulators of the nodes are bags (their order is that of the link emulator model); steps of threads
  are atomic between queue operations; what is printed is reduced to whether it is a complaint; the deletion of `__t`
  during `shutdown` is not modelled.
* OpenFlow switch: callbacks of the base class (no-ops); `send_packet` is an oracle of raised errors; the
  TLS wrapping succeeds; one controller thread; times are whole microseconds.  Names the module uses but never
  imports raise `NameError` when the parameter `names` is false.

## Per-property plan

| id | model | proof |
|----|-------|-------|
| C01–C03 | `checksum` transcribed with little-endian words, two folds, byte swap | congruence mod 65535 and bounds, by induction on the word list |
| C04–C07 | `EthAddr` constructor on bytes/text, `toStr`, comparison | per-byte hex round-trip lifted to lists; lexicographic order vs. big-endian value. C05 is false for 1–5 byte strings: witness + partial |
| C08–C09 | Ethernet pack/unpack | generic struct round-trip. C09 is false: witness + partial |
| C10 | Vlan | as above; TCI identity false for pcp > 3: witness + partial |
| C11–C12 | Arp, helper functions | struct round-trip; definitional expansion against a field spec |
| C13–C21 | IPv4, options, setters | struct round-trip, induction over option lists, invariant over assignment histories; C15, C17, C19, C20, C21 violated: witnesses + partials |
| C22–C27 | UDP, TCP | round-trip + checksum theorem C01 applied to pseudo-header |
| C28–C30 | ICMP | invariant over histories on type tables; round-trip per type; checksum |
| C31–C36 | IPv6, extension headers, ICMPv6 | as IPv4; C32, C34, C35, C36 violated in parts |
| C37 | RIPv2 | induction over routes |
| C38–C45 | Packet | induction over the header list; fuel/measure for `_parse` |
| C46–C49 | socket layer transition system | invariants over histories |
| C50–C53 | scenarios, events, matcher | refinement to list position; multiset argument; monotonicity |
| C54–C55 | firewall | effect of commands on an abstract table state |
| C56–C61 | OpenFlow switch and wire formats | invariants over histories; induction on chunk lists |
| C62–C67 | topology and its text utilities | invariants over histories; number-theoretic round-trips |
| C68 | link emulator | invariant over schedules |
| C69–C74 | interfaces, receive loop, argument parsing, hub | case analysis / induction |
| C75–C76, C89, C98 | checksums of headers | arithmetic mod 65535; witnesses for the cases the code gets wrong |
| C77–C88, C90–C91, C100 | header details | layout against an independent bit-field specification; witnesses + partials |
| C92, C114 | socket timeouts and initial state | invariants over histories |
| C93, C97, C99, C107, C115–C116 | units, emulated delay, topology and scenario details | case analysis, arithmetic |
| C94–C96, C112–C113 | interfaces and addresses | text grammars proved equivalent to the parsers |
| C101–C106 | matcher and scenario files | refinement to attribute tables; round-trip laws |
| C108–C111 | packets, RIPv2, ICMPv6 | induction over the parse; independent table of assigned numbers |
| C117–C121 | OpenFlow matches and messages | semantics against per-field agreement; round-trip per structure, composed |
| C122–C125 | OpenFlow switch | invariants over interleaved histories of messages and packets; refinement to a list of replies |
| C126–C128 | saved form of topologies and its text, renaming, union | round-trip law for all histories, also through the text (`TopoLoad`); listing order of links preserved; dictionaries under injective renaming; witnesses for the cases the code gets wrong |
| C129 | match objects and port numbers | fields, wildcards and addresses after any history of operations equal a specification read off the history, by induction |
| C130, C131 | statistics objects (`OfStats`) and sizes of messages | round trip, layout against the specification and reading what it prescribes, per class; refutations hold for all values where possible; `size` compared with the length of the bytes for every body |
| C132, C133 | capture files as lists of records, `write_packet`, `_recv_packet`, `loop`, `recv_packet` (`Pcap`); libpcap, `select` and the clock are parameters | times by exact arithmetic on doubles (rounding is modelled); reading by induction over the records; waiting by induction over the rounds of the loop |
| C134, C135 | open handles, `_OpenDevices`, live objects, `close` in two steps (`PcapWorld`); settings as functions on handles | an invariant over all histories links objects, registered and open handles; refutations by concrete histories or for all devices |
| C136–C138 | nodes, egress pipes, link emulators as bags of packets, monitors, `SyssGlue` (`Sim`) | the wiring by induction over the links of any topology history; an invariant over all interleavings relates packets sent, on their way and received; the receive loop by induction over its rounds |
| C139–C145 | the command line `Cli` with `cmd.Cmd` (`SimCli`): dispatch of lines, every command that changes something, questions, monitors | dispatch over all texts; commands compared with topology operations through a relation that lists the documented forms; invariants over histories of lines and thread steps; refutations hold for all states where possible |
| C146 | `sys.path`, `sys.modules`, files with the names they define (`Start`); paths as texts | the search along the path is characterised for all worlds; refutations for all worlds with a name clash |
| C147–C149 | options, environment (what fails), the list of things done, barrier and threads (`Start`) | case analysis over all options and failures; invariant over all interleavings of the two threads; refutations for all options or by a schedule |
| C150 | `setattr` for every header class (`SetAttr`), `copyfromlastout`, `lastout` (`Scenario`) | read-back by cases over classes and attributes; the last output is tracked by induction over the sends in any order; refutations for all scenarios of the shape |
| C151 | header and packet objects with references (`Heap`) | frame conditions of every statement, lifted by induction over histories; refinement to a store of packet values in which a packet whose headers were given away is gone; refutation for all packets |
| C152–C155 | events as objects that hold packet objects; private copies of matchers as references that no statement can name (`HeapNet`) | invariant over all histories: private objects are in no packet and keep their values; refinement of the comparison to the value model of `Matcher`; separation of untouched packets lifted from C151; refutations by runs, or for all later histories |
| C156–C159 | bodies and messages of `openflow13.py` with the names it fails to import as a parameter; histories of assignments (`Of13`) | round trip per body; an invariant over all histories of assignments (the port of a packet message stays `Any`) shows what can never be serialised, and the rest is characterised exactly; layout against the specification |
| C160, C161 | `setattr` and `getattr` for every header class (`SetAttr`, `Matcher`) | case analysis over classes and attributes, for all values; refutations for all headers concerned |
| C162, C163 | `str` of every header class and of packets, with the names of all enumerations (`Str`); where the code prints packets it handles, the models of sending, hub, matcher and switch do too | case analysis and induction over headers; the texts are cut at separators that do not occur in the parts, and where payloads or options may contain the separator (`Props/StrAll`, `Props/StrPacket`), at the end of the self-delimiting `repr` of the bytes; refutations for all packets concerned |
| C164 | assignments to bodies of OpenFlow 1.3 messages (`Of13`) | what a program reads is a separate table of attributes; one step by cases over bodies and statements, histories by induction; exactly which statements raise; refutation for all ports |
| C165–C172 | the messages of the test harness: texts of events and packets, stars for wildcards, the diagnosis, the reasons of failures, the summary, comparison and sanity check of scenarios (`Report`) | the operations with their messages refine those without (`Scenario`) for packets that can be printed, by induction over histories; the texts by induction over packets, attributes and ports; refutations for all packets concerned |
| C173–C177 | the UDP stack example on a live network, as steps that interleave with calls of applications (`UdpStack`, over `Socket` and `Live`) | the packet made for a message is serialised and parsed back for all messages; delivery composes this with the sockets' (C47); an invariant by induction over interleavings for the order; refutations for all messages and packets concerned |
| C178–C182 | constructors and methods of the option classes and of lists of options, as operations on values (`OptApi`, over `IPv4Opt` and `Icmpv6`) | an invariant over all sequences of operations; bytes and parsing computed for variables; RFC 791 written out as a separate predicate; refutations for all options concerned |
| C183–C188 | the class attributes behind `add_next_header_class`, `set_next_header_map` and `set_next_header_class_key` as dictionary objects shared by inheritance; user-defined classes as arbitrary functions; `_parse` with a bound on the iterations (`Registry`) | ownership invariant over all sequences of calls, giving one abstract table per class; agreement of two parses header by header; the round trip by reduction to C41; termination by a rank; refutations for all calls, or with the documentation's own class |
| C189–C192 | class `Firewall` with its `with` statement, every command a process that may fail to start; `textcolor` as the output it writes to a terminal (`Host`, over `Firewall`) | reduction to the firewall model without processes (C54–C55) when all processes start; terminal output folded into coloured text and compared with a specification, by induction over programs; refutations for all programs, colours and rule lists concerned |
| C193, C194 | texts of addresses in both families, parsed as `ipaddress` does and compared with a grammar after RFC 4291; names of sockets (`IPText`, `AddrText`, over `Socket`) | the parser is proved equivalent to the grammar; writing then parsing is the identity; reduction to the socket model (C92–C98); refutations for all sockets and ports |
| C195, C196 | setters of the features reply and of sets of flags (`OfFeat`, over `OfMsg`, `OfSwitch`) | invariant over all assignments giving the round trip; sets of flags equal those added since the last clear, by induction over calls; refutations for all values concerned |
| C197, C198 | receive loops with an arbitrary reaction to packets, the hubs of the examples and of the documentation, scenarios as `hubtests.py` builds them (`Serve`, over `Scenario` and `Report`) | reduction of a run to the calls it makes and to C50's specification of when calls meet expectations, by induction over the scenario; the hub tests by induction over frames |
| C199, C200 | `show` with the lines it prints, the label of a link as the numbers it is made from, and the completion methods (`Show`, over `Topo`, `Sim`, `Units`) | invariant over histories of operations that each link has the label of its capacity and delay; printed lists compared with the network as permutations in order; completion against an inductive list of possible next words; refutations for all networks concerned, or by commands |
| C201–C203 | the example programs sydump.py, readpkt.py, sniff.py and sendpkt.py (`Tools`, over `Pcap`, `Packet`, `Str`) | induction over the outcomes of receiving; the file written is the input of the reader; refutations for all histories and all interfaces, with a parameter for the attribute that does not exist |
| C204 | several topologies over a store of node objects; `union` shares references (`TopoShare`, over `Topo`, `TopoSave`) | invariant (one object has one name everywhere, references are unique and old) over all histories; each operation refines the one on a topology alone; the sharing is an invariant as well, which refutes the full property |
| C205, C206 | the simulator of C133 with packets as references into the heap of C151, and the files that monitors write (`SimShare`, over `Sim`, `Heap`) | frame lemma over all steps (what a step may change), induction over histories; a relation between runs with and without monitors, preserved by every step; refuted for all states by what one reception does |
| C207 | the text of a compiled scenario at every point of writing it; base64 with the tolerant decoder of CPython (`Compiled`, over `Scenario`) | what the decoder makes of the first k characters, by induction over the bytes; the rest is by cases |
| C208 | JSON texts: the writer and the reader of CPython, and the saved form of topologies in it (`Json`, `TopoFile`, over `TopoSave`, `Show`) | mutual induction over values: what is written is read, and no proper part of it is; the characters are ASCII |
| C209 | no new model: the parsers of all header classes and the loop of `Packet` (`Packet` and below) | for each parser a set that contains its exceptions, through binds and loops; that nothing else is in the set, by a byte string for each exception and class; false of the code, with the exact sets |
| C210 | `EthAddr.__eq__` and `__hash__`, and dictionaries and lists of Python as far as they use them, for any hash functions (`AddrKey`, over `EthAddr`) | refinement to a function from six bytes to values, by induction over histories; false of texts and other objects |
| C211 | the methods `NodeExecutor` overrides and inherits (`SimApi`, over `Sim`, `NetBase`, `Live`) | equality with the answers of `NetBase` for the questions where they agree, induction over additions; the others refuted for all nodes |
| C212 | the options of `swyard` and the reading of words by `argparse` (`CmdArgs`, over `Start`) | a grammar of command lines and their meaning written apart from the model; accepted iff derivable, by induction over items one way and over words the other; inversion of the reading of one word |
| C213 | statistics classes of OpenFlow 1.3 and assignments to their attributes (`Of13Stats`, over `OfStats`, `Of13`) | an invariant of histories of assignments for the classes that need missing names, exact ranges for the others; round trip from C130 |
| C214 | ICMP messages over a store of data objects: the setters over references (`IcmpShare`, over the tables of `Icmp` and `Icmpv6`) | refinement to messages as values with a relation "data in common", by induction over programs; corollaries for programs without sharing, for copies and for parting |
| C215 | constructors with keyword arguments: the loop of `PacketHeaderBase.__init__` over the setters of `SetAttr`, the loops of `ICMP` and `ICMPv6` over attributes of their data (`Build`); `int(text)` | each class's setters brought to a normal form (which field, from the value alone), so two that are not views of the same thing commute; induction over permutations and lists; what `int` takes against a description of the texts; the cases where the code depends on the order proved for all values |
| C216 | setters and constructors of the data classes of ICMP and ICMPv6 and of the prefix information option (`Build`) | `FitsData` says which values an attribute holds; case analysis over classes and names; the laws of C215 for data lift to the constructors by induction over permutations; what the option's constructor makes, component by component, by one lemma over the list |
| C217, C218 | `run_tests` with several scenarios, the one alarm of the process and its handler, support files, setup and teardown; a program is any strategy over what it has seen (`Suite`, over `Scenario`) | a relation between two processes with different pasts, kept by every step, gives independence; the invariant of C105 says when no alarm is left; composition of parts that may stop |
| C219, C220 | receiver threads, calls of `shutdown` by any number of threads, signals and creation of networks as a transition system with the class-wide flag (`LiveStop`, beside `Live`, which is about what user code receives) | one invariant of all histories (closed devices' receivers have ended, frames captured = frames queued plus the one in hand), a measure that each receiver's step decreases once the flag is cleared, a second invariant for one caller; counterexamples for SIGINT before shutdown (for all continuations), two callers, several networks |
| C221 | the flag `in_debugger` as part of the process in `Suite`, calls of `debugger()` and steps without the network as moves of programs, one more point at which the alarm may arrive, after the verdict | two programs that differ only in how they react to timeouts after `debugger()` behave alike (induction over turns); with the flag set no part of a run is ended by the alarm; counterexamples, one of them for all schedules |
| C222 | the bodies of the programs that the switch, router and firewall exercises and the documentation begin with (`Skeletons`), in the main loop of `Serve`; tests of forwarding as an inductive family over an arbitrary rule that says where a frame is wanted, given the frames before it | induction over the test: the expectations are met exactly if each frame's sends cover the wanted ports (C197's method for an arbitrary rule); then what the three programs send is compared with the rule |
| C223 | `_prepare_debugger` on tracebacks as lists of frames with the texts of their code objects (`PdbFrame`) | the scan counts frames up to the last that is not of the harness, by induction; false for exceptions from other files of the library: any such frame is where the debugger opens |
| C224 | `_assemble_devinfo` over a host: libpcap's devices, psutil's addresses, the output of `iwconfig` as a text and how `subprocess` passes a list to a shell (`DevInfo`) | induction over the devices with the dictionary built so far; the phrase searched for is in the output for all devices together, whatever the device; false of wireless devices |
| C225 | arguments of `PacketOutputEvent` as written by the author of a test, with `eval` any function (`OutEvent`) | induction over predicates, wildcards and pairs; refinement to `Event.mkOutput` and the acceptance theorem of matchers |
| C226 | the frames and expectations of `firewalltests.py` as functions of the numbers drawn, and the meaning of rules that `firewall.rst` gives: the first rule that matches decides (`FwExercise`); token buckets with the half seconds that pass before each frame as any list (`FwLimit`); impairments are left out | every frame is valid whatever is drawn; the verdict on each is computed for all draws; refinement to C222's tests of forwarding, where what is expected is given by position; what the rules look at is unchanged by serialising and parsing; a bucket that holds what the frames to come need never runs dry, and an empty one lets nothing through, by induction over the frames; false for draws in 192.168.42.0/24 and for empty buckets |
| C227 | the frames and expectations of `ratelimittest.py` as functions of the numbers drawn (`FwRate`), with the rules and buckets of C226; pauses while the scenario is made are left out, since the program does not run then | every frame is valid whatever is drawn, with its payload; a frame larger than twice the rate passes in no state of its bucket; the rest is C226's refinement, for any subset of the limits; false since no frames exceed the limits on TCP, for draws in 192.168.42.0/24 and for empty buckets |
| C228 | the two expectations of `udpstack_tests.py` (`StackTest`), with the packets the stack makes (C173) and the test network (C50) | the packet is serialised for all ports and data, and compared with the one expected by the characterisation of matchers (C53); the copied port by C150; false since data is not compared |
