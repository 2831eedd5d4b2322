import Verif.Start

/-! # The command line of `swyard`: switchyard/swyard.py 21-77

The options are declared in swyard.py 23-76 and read by `parser.parse_args()` (77), which is Python's own
`argparse`.  Its reading of words is modelled here as it is in CPython 3.11.10 (`_parse_known_args`,
`_parse_optional`, `_get_option_tuples`, `_match_argument`, `_get_values`), for the shapes of options that occur in
swyard.py: options with no value or with one, and one positional word with `nargs='?'`.  *Simplified:* digits of
negative numbers are ASCII ones; the texts of messages are left out; an attribute that is `None` because no option
of kind `append` was given is the empty list. -/

namespace SY

/-- What an option sets: the `dest` names of swyard.py 23-76, and `argparse`'s own `-h`. -/
inductive Dest
  | help | intf | exclude | codearg | compile | tests | dryrun | verbose | debug | logfile | nocolor | nopdb
  | fwconfig | app | nohandle | cli | topology | listif
  deriving DecidableEq, Repr

/-- Whether the option takes a value: the `action`s `append` and `store` do, `store_true`, `count` and `help` do
not; swyard.py 23-76. -/
def Dest.takes : Dest → Bool
  | .intf | .exclude | .codearg | .compile | .tests | .logfile | .fwconfig | .app | .topology => true
  | _ => false

/-- The option strings in the order of their declaration, swyard.py 23-76; `-h` is added by `ArgumentParser`. -/
def optionStrings : List (List Char × Dest) :=
  [("-h".toList, .help), ("--help".toList, .help),
   ("-i".toList, .intf), ("--include".toList, .intf),
   ("-x".toList, .exclude), ("--exclude".toList, .exclude),
   ("-g".toList, .codearg), ("--codearg".toList, .codearg),
   ("-c".toList, .compile), ("--compile".toList, .compile),
   ("-t".toList, .tests), ("--test".toList, .tests),
   ("--dryrun".toList, .dryrun),
   ("-v".toList, .verbose), ("--verbose".toList, .verbose),
   ("-d".toList, .debug), ("--debug".toList, .debug),
   ("-l".toList, .logfile), ("--logfile".toList, .logfile),
   ("--nocolor".toList, .nocolor),
   ("--nopdb".toList, .nopdb),
   ("-f".toList, .fwconfig), ("--firewall".toList, .fwconfig),
   ("-a".toList, .app), ("--app".toList, .app),
   ("-e".toList, .nohandle), ("--nohandle".toList, .nohandle),
   ("--cli".toList, .cli),
   ("--topology".toList, .topology),
   ("--listif".toList, .listif)]

/-- The namespace that `parse_args` returns, swyard.py 77: the arguments of `start_framework` and the options that
only change what is printed. -/
structure CmdLine extends SwyardArgs where
  verbose : Nat := 0
  debug : Bool := false
  logfile : Option (List Char) := none
  nocolor : Bool := false
  nopdb : Bool := false

/-- `_option_string_actions[s]`; swyard.py 23-76. -/
def optionOf (s : List Char) : Option Dest := (optionStrings.find? fun p => p.1 == s).map (·.2)

/-- `str.partition('=')`: what stands before the first `=`, and after it if there is one. -/
def partEq : List Char → List Char × Option (List Char)
  | [] => ([], none)
  | c :: cs => if c = '=' then ([], some cs) else (c :: (partEq cs).1, (partEq cs).2)

/-- How a word is read: as an argument, as the word `--`, or as an option.  An option is the one it names (or none
that is known), whether it was written with one dash, whether a `=` separates an explicit value, and the explicit
value. -/
inductive Tok
  | arg
  | dash
  | opt (o : Option Dest) (short : Bool) (sep : Bool) (value : Option (List Char))
  deriving DecidableEq, Repr

/-- The regular expression `^-\d+$|^-\d*\.\d+$`; `$` also matches before a final newline.  *Simplified:* ASCII
digits. -/
def negNumber (w : List Char) : Bool :=
  negBody (if w.getLast? = some '\n' then w.dropLast else w)
where
  /-- without the final newline -/
  negBody : List Char → Bool
    | '-' :: cs =>
      (cs ≠ [] && cs.all Char.isDigit) ||
        (match cs.dropWhile Char.isDigit with
         | '.' :: ds => ds ≠ [] && ds.all Char.isDigit
         | _ => false)
    | _ => false

/-- `_get_option_tuples` for a word of at least two characters beginning with `-`; swyard.py 77. -/
def optionTuples (w : List Char) : List Tok :=
  if "--".toList.isPrefixOf w then
    (optionStrings.filter fun p => (partEq w).1.isPrefixOf p.1).map fun p =>
      .opt (some p.2) false (partEq w).2.isSome (partEq w).2
  else
    optionStrings.filterMap fun p =>
      if p.1 = w.take 2 then some (.opt (some p.2) true false (some (w.drop 2)))
      else if w.isPrefixOf p.1 then some (.opt (some p.2) true false none)
      else none

/-- Whether an option string has one dash. -/
def isShort (s : List Char) : Bool := !("--".toList.isPrefixOf s)

/-- The end of `_parse_optional`, when no option begins so: negative numbers and words with blanks are arguments;
swyard.py 77. -/
def readUnknown (w : List Char) : Tok :=
  if negNumber w then .arg
  else if ' ' ∈ w then .arg
  else .opt none false false none

/-- The middle of `_parse_optional`: abbreviations and joined values.  An ambiguous abbreviation ends the program
with the status 2; swyard.py 77. -/
def readTuples (w : List Char) : Except Nat Tok :=
  match optionTuples w with
  | [] => .ok (readUnknown w)
  | [t] => .ok t
  | _ => .error 2

/-- `_parse_optional`; swyard.py 77. -/
def readWord (w : List Char) : Except Nat Tok :=
  if w.head? ≠ some '-' then .ok .arg
  else
    match optionOf w with
    | some d => .ok (.opt (some d) (isShort w) false none)
    | none =>
      if w.length = 1 then .ok .arg
      else
        match (partEq w).2, optionOf (partEq w).1 with
        | some v, some d => .ok (.opt (some d) (isShort (partEq w).1) true (some v))
        | _, _ => readTuples w

/-- The first part of `_parse_known_args`: every word is read; all words after `--` are arguments;
swyard.py 77. -/
def readWords : List (List Char) → Except Nat (List (List Char × Tok))
  | [] => .ok []
  | w :: ws =>
    if w = "--".toList then .ok ((w, .dash) :: ws.map fun v => (v, .arg))
    else readWord w >>= fun t => readWords ws >>= fun r => .ok ((w, t) :: r)

/-- What an option does to the namespace, `Action.__call__`; `-h` prints the help and ends the program with the
status 0; swyard.py 23-76. -/
def CmdLine.take (c : CmdLine) (d : Dest) (v : List Char) : Except Nat CmdLine :=
  match d with
  | .help => .error 0
  | .intf => .ok { c with intf := c.intf ++ [v] }
  | .exclude => .ok { c with exclude := c.exclude ++ [v] }
  | .codearg => .ok { c with codearg := v }
  | .compile => .ok { c with compile := c.compile ++ [v] }
  | .tests => .ok { c with tests := c.tests ++ [v] }
  | .dryrun => .ok { c with dryrun := true }
  | .verbose => .ok { c with verbose := c.verbose + 1 }
  | .debug => .ok { c with debug := true }
  | .logfile => .ok { c with logfile := some v }
  | .nocolor => .ok { c with nocolor := true }
  | .nopdb => .ok { c with nopdb := true }
  | .fwconfig => .ok { c with firewall := c.firewall ++ [v] }
  | .app => .ok { c with app := some v }
  | .nohandle => .ok { c with nohandle := true }
  | .cli => .ok { c with cli := true }
  | .topology => .ok { c with topology := some v }
  | .listif => .ok { c with listif := true }

/-- The actions of one word, in order. -/
def CmdLine.takeAll (c : CmdLine) : List (Dest × List Char) → Except Nat CmdLine
  | [] => .ok c
  | (d, v) :: r => c.take d v >>= fun c' => c'.takeAll r

/-- What `consume_optional` finds at a word: the actions with their values, the number of further words used, and
whether something of the word is left over. -/
structure Found where
  acts : List (Dest × List Char)
  used : Nat
  extra : Bool

/-- The last option of a word, which has no explicit value: it takes the next word if it needs a value, which must
be an argument; swyard.py 77. -/
def lastOpt (d : Dest) (next : Option Tok) : Except Nat Found :=
  if d.takes then (if next = some .arg then .ok ⟨[(d, [])], 1, false⟩ else .error 2)
  else .ok ⟨[(d, [])], 0, false⟩

/-- The loop of `consume_optional` on an option with an explicit value: options of one dash that take no value
may be joined; swyard.py 77. -/
def joined (next : Option Tok) (short : Bool) : (d : Dest) → (sep : Bool) → List Char → Except Nat Found
  | d, sep, v =>
    if d.takes then .ok ⟨[(d, v)], 0, false⟩
    else
      match v with
      | [] => .error 2
      | a :: r =>
        if short = false then .error 2
        else if sep = true ∨ a = '-' then .error 2
        else
          match optionOf ['-', a] with
          | none => .ok ⟨[(d, [])], 0, true⟩
          | some e =>
            match r with
            | [] => lastOpt e next >>= fun f => .ok { f with acts := (d, []) :: f.acts }
            | b :: r' =>
              if b = '=' then joined next short e true r' >>= fun f => .ok { f with acts := (d, []) :: f.acts }
              else joined next short e false (b :: r') >>= fun f => .ok { f with acts := (d, []) :: f.acts }
  termination_by _ _ v => v.length

/-- `consume_optional` on a known option; swyard.py 77. -/
def consumeOpt (next : Option Tok) (d : Dest) (short sep : Bool) : Option (List Char) → Except Nat Found
  | none => lastOpt d next
  | some v => joined next short d sep v

/-- The actions of a word with the value that is the next word filled in. -/
def Found.fill (f : Found) (next : Option (List Char)) : List (Dest × List Char) :=
  if f.used = 1 then f.acts.dropLast ++ (f.acts.getLast?.map fun p => (p.1, next.getD [])).toList else f.acts

/-- How many words the positional takes: the regular expression `-*A?-*`, where `-` is the word `--`;
swyard.py 77. -/
def posSpan (ts : List Tok) : Nat :=
  (ts.takeWhile (· = .dash)).length + posRest (ts.dropWhile (· = .dash))
where
  /-- `A?-*` -/
  posRest : List Tok → Nat
    | .arg :: r => 1 + (r.takeWhile (· = .dash)).length
    | _ => 0

/-- The value of the positional: `_get_values` removes the first `--`; swyard.py 77. -/
def posValue (ws : List (List Char)) : Option (List Char) := (ws.erase "--".toList).head?

/-- The second part of `_parse_known_args`: options are done in order, the first run of arguments gives the
positional, and everything else is left over; swyard.py 77. -/
def consume (c : CmdLine) (pos : Bool) (extra : Bool) : List (List Char × Tok) → Except Nat (CmdLine × Bool)
  | [] => .ok (c, extra)
  | (w, .opt none _ _ _) :: r => consume c pos true r
  | (w, .opt (some d) short sep v) :: r =>
    consumeOpt (r.head?.map (·.2)) d short sep v >>= fun f =>
      c.takeAll (f.fill (r.head?.map (·.1))) >>= fun c' =>
        consume c' pos (extra || f.extra) (r.drop f.used)
  | (w, t) :: r =>
    if pos then consume c pos true r
    else
      consume { c with usercode := posValue ((((w, t) :: r).take (posSpan (((w, t) :: r).map (·.2)))).map (·.1)) }
        true extra (r.drop (posSpan (((w, t) :: r).map (·.2)) - 1))
  termination_by ts => ts.length
  decreasing_by all_goals (simp; try omega)

/-- `parse_args`: words that are left over end the program with the status 2; swyard.py 77. -/
def parseArgs (ws : List (List Char)) : Except Nat CmdLine :=
  readWords ws >>= fun ts => consume {} false false ts >>= fun r => if r.2 then .error 2 else .ok r.1

/-- What `swyard` does with a command line: it ends with a status before anything is started, or it goes on with
`main`, swyard.py 77-83. -/
def swyardCommand (env : StartEnv) (ws : List (List Char)) : Except Nat StartRun :=
  parseArgs ws >>= fun c => .ok (swyardMain env c.toSwyardArgs)

end SY
