import Verif.Scenario

/-! # Making an output expectation: `PacketOutputEvent(device, packet, …, predicates=…, wildcards=…, exact=…)`

switchyard/lib/testing.py 46-123 and 486-515, with the arguments as the author of a test writes them.  Line numbers refer to
that file.  `Event.mkOutput` in `Scenario` begins where these checks have passed. -/

namespace SY

/-- What `eval` gives for a text, 101: a syntax error, another exception, a function (what `lambda` gives is of the same
type as what `def` gives), or any other value. -/
inductive Evaled
  | syntaxErr
  | raises (e : PyErr)
  | func (f : Packet → Res Bool)
  | value

/-- `eval` in the module testing.py, the same at every call. -/
abbrev Evaluator := List Char → Evaled

/-- A member of `predicates`: a text, or no text. -/
inductive PredObj
  | text (s : List Char)
  | other

/-- A member of a wildcard: a header class, another class, the name of an attribute of headers, another text, or anything
else. -/
inductive WildMember
  | cls (c : Cls)
  | otherCls
  | attr (a : HdrAttr)
  | text (s : List Char)
  | other

/-- A wildcard: a list or tuple, or something else. -/
inductive WildObj
  | seq (l : List WildMember)
  | other

/-- What is given for `predicates` or `wildcards`: nothing, a list or tuple, a text, or something that cannot be iterated
over. -/
inductive ManyArg (α : Type)
  | absent
  | seq (l : List α)
  | text (s : List Char)
  | scalar

/-- The keyword arguments, 489-506 and 78. -/
structure OutKw where
  predicates : ManyArg PredObj := .absent
  predicate : Option PredObj := none
  wildcards : ManyArg WildObj := .absent
  wildcard : Option WildObj := none
  exact : Option Bool := none

/-- What is raised: `SyntaxError`, or an exception of `PyErr`. -/
inductive OutErr
  | syntaxErr
  | py (e : PyErr)
  deriving DecidableEq

/-- A result of `PyErr`. -/
def liftOut {α : Type} : Res α → Except OutErr α
  | .ok a => .ok a
  | .error e => .error (.py e)

/-- `predicates.extend(pval)`, 493-495: of a text, the characters are added. -/
def extendPreds : ManyArg PredObj → Except OutErr (List PredObj)
  | .absent => .ok []
  | .seq l => .ok l
  | .text s => .ok (s.map fun c => .text [c])
  | .scalar => .error (.py .typeError)

/-- `wildcards.extend(wc)`, 501-503: of a text, the characters are added, which are neither lists nor tuples. -/
def extendWilds : ManyArg WildObj → Except OutErr (List WildObj)
  | .absent => .ok []
  | .seq l => .ok l
  | .text s => .ok (s.map fun _ => .other)
  | .scalar => .error (.py .typeError)

/-- `_check_predicates`, 94-109.  The name `predicate` in line 107 is not bound. -/
def checkPredicates (ev : Evaluator) : List PredObj → Except OutErr (List (List Char))
  | [] => .ok []
  | .other :: _ => .error (.py .generic)
  | .text s :: ps =>
    match ev s with
    | .syntaxErr => .error .syntaxErr
    | .raises e => .error (.py e)
    | .value => .error (.py .nameError)
    | .func _ => checkPredicates ev ps >>= fun l => .ok (s :: l)

/-- The data attributes a class has, for `hasattr(wcklass, wcattr)`, 121; they are properties of the class.
`IPv6ExtensionHeader`: ipv6.py 43-57. -/
def classAttrs : Cls → List HdrAttr
  | .base | .nullHdr => []
  | .eth => [.dst, .ethertype, .src]
  | .vlan => [.ethertype, .pcp, .vlanid]
  | .arp => [.hardwaretype, .operation, .protocoltype, .senderhwaddr, .senderprotoaddr, .targethwaddr, .targetprotoaddr]
  | .ip4 => [.dscp, .dst, .ecn, .flags, .fragmentOffset, .hl, .ipid, .options, .protocol, .src, .tos, .totalLength, .ttl]
  | .ip6 => [.dst, .flowlabel, .hoplimit, .nextheader, .src, .trafficclass, .ttl]
  | .ext | .hop | .dst => [.nextheader, .protocol]
  | .route => [.address, .nextheader, .protocol]
  | .frag => [.ident, .mf, .nextheader, .offset, .protocol]
  | .udp => [.dst, .length, .src]
  | .tcp => tcpFlagsByName.map .flag ++ [.ack, .dst, .flags, .flagstr, .offset, .options, .seq, .src, .urgentPointer, .window]
  | .icmp => [.icmpcode, .icmpdata, .icmptype]
  | .icmp6 => [.icmp6code, .icmp6type, .icmpcode, .icmpdata, .icmptype]
  | .rip => [.command, .version]
  | .null => [.af]
  | .raw => [.data]

/-- One turn of `_check_wildcards`, 114-122.  `more` says which other names (methods, private names, `checksum`) a class
has; a wildcard with such a name has no effect (165-169).  `issubclass` of what is no class raises. -/
def checkWildcard (more : Cls → List Char → Bool) : WildObj → Except OutErr (List (Cls × HdrAttr))
  | .seq [k, a] =>
    match k with
    | .cls c =>
      match a with
      | .attr a => if a ∈ classAttrs c then .ok [(c, a)] else .error (.py .valueError)
      | .text s => if more c s then .ok [] else .error (.py .valueError)
      | _ => .error (.py .valueError)
    | .otherCls => .error (.py .valueError)
    | _ => .error (.py .typeError)
  | _ => .error (.py .valueError)

/-- `_check_wildcards`, 111-123. -/
def checkWildcards (more : Cls → List Char → Bool) : List WildObj → Except OutErr (List (Cls × HdrAttr))
  | [] => .ok []
  | w :: ws => checkWildcard more w >>= fun x => checkWildcards more ws >>= fun l => .ok (x ++ l)

/-- `eval(fn)(packet)`, 303. -/
def predFn (ev : Evaluator) (s : List Char) (p : Packet) : Res Bool :=
  match ev s with
  | .func f => f p
  | .raises e => .error e
  | _ => .error .typeError

/-- `_PacketMatcher(packet, predicates=…, wildcards=…, exact=…)`, 46-88. -/
def matcherOf (ev : Evaluator) (more : Cls → List Char → Bool) (exact : Option Bool) (ws : List WildObj) (ps : List PredObj)
    (p : Packet) : Except OutErr Matcher :=
  checkWildcards more ws >>= fun wild =>
  checkPredicates ev ps >>= fun ss =>
  liftOut (Matcher.new p (exact.getD true) wild (ss.map (predFn ev)))

/-- The loop over devices and packets, 513-515. -/
def waitingOf (ev : Evaluator) (more : Cls → List Char → Bool) (exact : Option Bool) (ws : List WildObj) (ps : List PredObj)
    (d : Dict (List Char) Matcher) : List (List Char × Packet) → Except OutErr (Dict (List Char) Matcher)
  | [] => .ok d
  | (dev, p) :: args =>
    matcherOf ev more exact ws ps p >>= fun m => waitingOf ev more exact ws ps (d.set dev m) args

/-- `PacketOutputEvent(…)`, 486-515: the positional arguments as pairs; `odd` says that one more argument follows. -/
def outputEvent (ev : Evaluator) (more : Cls → List Char → Bool) (args : List (List Char × Packet)) (odd : Bool) (kw : OutKw) :
    Except OutErr Event :=
  extendPreds kw.predicates >>= fun ps =>
  extendWilds kw.wildcards >>= fun ws =>
  if args = [] ∧ odd = false then .error (.py .valueError)
  else if odd then .error (.py .valueError)
  else waitingOf ev more kw.exact (ws ++ kw.wildcard.toList) (ps ++ kw.predicate.toList) [] args >>= fun d => .ok (.output d [])

end SY
