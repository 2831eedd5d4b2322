import Verif.Pcap
import Verif.Str
import Verif.Interface

/-! # The example programs that capture, read and send packets

`/repo/examples/sydump.py`, `readpkt.py`, `sniff.py` and `sendpkt.py`.  Opening and closing files and
devices is the subject of `Pcap`; the fixed lines these programs print at their beginning are not modelled. -/

namespace SY

/-- How a program ends: it still waits for what comes next, reaches its last line, lets an exception escape, or
never comes back from a call. -/
inductive ToolEnd
  | waiting
  | done
  | crashed (e : PyErr)
  | hung
  deriving DecidableEq, Repr

/-- `print(Packet(raw=raw))`, sydump.py 24-25 and readpkt.py 23-24: the text printed. -/
def showRaw (raw : Bytes) : Res Text := Packet.parse raw none >>= fun p => p.str

/-- What sydump.py has done: the records written, a line for every packet (its text, or the exception reported in line
27), and how it ended.  The number it prints (32) is that of the lines. -/
structure Dump where
  file : List PcapRec
  out : List (Res Text)
  how : ToolEnd
  deriving DecidableEq

/-- The main loop, sydump.py 19-30, on a sequence of outcomes of `recv_packet(10.0)`, each with what `time()` gives
when the packet is written.  Parsing that does not come back is no exception that line 26 could catch. -/
def sydump : List (Res (Option PcapPkt) × (Nat × Nat)) → List PcapRec → List (Res Text) → Dump
  | [], f, o => ⟨f, o, .waiting⟩
  | (.error e, _) :: _, f, o => ⟨f, o, .crashed e⟩
  | (.ok none, _) :: _, f, o => ⟨f, o, .done⟩
  | (.ok (some p), now) :: rs, f, o =>
    if showRaw p.raw = .error .diverges then ⟨f, o, .hung⟩
    else sydump rs (dumpPacket f now p.raw none) (o ++ [showRaw p.raw])

/-- How an exception ends a program that does not catch it. -/
def endOf (e : PyErr) : ToolEnd := if e = .diverges then .hung else .crashed e

/-- The loop over one file, readpkt.py 19-25: the texts printed and how it ends.  The first argument bounds the number
of rounds; each one uses up a record. -/
def readpkt : Nat → List PcapRec → List Text × ToolEnd
  | 0, _ => ([], .hung)
  | k + 1, recs =>
    match readerRecv (fun _ => true) recs with
    | (.error e, _) => ([], endOf e)
    | (.ok none, _) => ([], .done)
    | (.ok (some p), recs') =>
      match showRaw p.raw with
      | .error e => ([], endOf e)
      | .ok t => (t :: (readpkt k recs').1, (readpkt k recs').2)

/-- The loop over the files, readpkt.py 15-27: the texts printed for each file that was opened, and how the program ends. -/
def readpktFiles : List (List PcapRec) → List (List Text) × ToolEnd
  | [] => ([], .done)
  | f :: fs =>
    match readpkt (f.length + 1) f with
    | (ts, .done) => (ts :: (readpktFiles fs).1, (readpktFiles fs).2)
    | (ts, x) => ([ts], x)

/-- What sniff.py has done: the devices and texts it logged (21), the number it printed (25), if any, and how it ended.
The text of the time is not modelled. -/
structure Sniff where
  log : List (List Char × Text)
  printed : Option Nat
  how : ToolEnd
  deriving DecidableEq

/-- The main loop, sniff.py 13-25, on a sequence of outcomes of `recv_packet(timeout=1.0)`.  Lines 24-25 follow a loop
that is left only by `return`. -/
def sniff : List (Res (List Char × Packet)) → List (List Char × Text) → Sniff
  | [], l => ⟨l, none, .waiting⟩
  | .error .noPackets :: rs, l => sniff rs l
  | .error .shutdown :: _, l => ⟨l, none, .done⟩
  | .error e :: _, l => ⟨l, none, endOf e⟩
  | .ok (dev, p) :: rs, l =>
    match p.str with
    | .error e => ⟨l, none, endOf e⟩
    | .ok t => sniff rs (l ++ [(dev, t)])

/-- One packet sendpkt.py passes to `send_packet`: the port, and the two addresses it sets (19, 22).  The other
contents are the same for all. -/
structure Probe where
  port : List Char
  ethsrc : EthAddr
  ipsrc : IPAddr
  deriving DecidableEq

/-- `a.version == 4`, sendpkt.py 21. -/
def IPIface.isV4 (x : IPIface) : Bool :=
  match x.addr with
  | .v4 _ => true
  | _ => false

/-- The address assigned in sendpkt.py 22, where `look` is what follows the index. -/
def probeSrc (look : IPIface → Res IPAddr) (i : Iface) : Res IPAddr :=
  match i.ips.filter IPIface.isV4 with
  | [] => .error .indexError
  | x :: _ => look x

/-- The loop, sendpkt.py 18-27: the packets passed to `send_packet`, whose exceptions are caught (26-27), and the exception
that escapes. -/
def probes (look : IPIface → Res IPAddr) : List Iface → List Probe × Option PyErr
  | [] => ([], none)
  | i :: is =>
    match probeSrc look i with
    | .error e => ([], some e)
    | .ok a => (⟨i.name, i.ethaddr, a⟩ :: (probes look is).1, (probes look is).2)

/-- sendpkt.py 22: `.src.ip` of an `IPv4Interface`, which has no attribute `src` (Python's ipaddress module). -/
def sendpkt (ifs : List Iface) : List Probe × Option PyErr := probes (fun _ => .error .attributeError) ifs

end SY
