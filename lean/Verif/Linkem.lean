import Verif.Packet

/-! # The link emulator: switchyard/sim/linkem.py, and sending in switchyard/sim/nodeexec.py

Line numbers without a file name refer to linkem.py.  The emulator is one thread; packets arrive in its
queue at any time and the clock advances at any time.  Times are integers in an arbitrary unit.

The heap is a list; `heapq` is used according to its documentation: `heappop` removes some smallest entry,
`heappush` adds one, and either may compare any two entries. -/

namespace SY

/-- An entry `(expiretime, (devname, packet), outqueue)`, nodeexec.py 97. -/
structure LinkEntry where
  expiry : Int
  dev : List Char
  pkt : Packet
  out : Nat
  deriving DecidableEq

/-- `a < b` on two entries raises `TypeError`: the times and device names are equal, so that packets or,
if these are equal, queues are compared. -/
def LinkEntry.incomparable (a b : LinkEntry) : Bool :=
  a.expiry = b.expiry && a.dev = b.dev && (a.pkt ≠ b.pkt || a.out ≠ b.out)

/-- Where the thread is in the loop of `run`, 15-34. -/
inductive LinkAt
  | top
  | drain (now : Int)
  | drained
  | waiting (until_ : Int)
  | returned
  | dead (e : PyErr)
  deriving DecidableEq

/-- `inqueue`, `expiryheap`, `__shutdown`, the clock, where the thread is; and the history: everything that
arrived, and everything put into an output queue with the time. -/
structure Linkem where
  inq : List LinkEntry
  heap : List LinkEntry
  stop : Bool
  clock : Int
  at_ : LinkAt
  arrived : List LinkEntry
  delivered : List (LinkEntry × Int)
  deriving DecidableEq

/-- Before `run` starts, 8-10. -/
def Linkem.init (clock : Int) : Linkem := ⟨[], [], false, clock, .top, [], []⟩

/-- The atomic steps. -/
inductive LinkEv
  | arrive (e : LinkEntry)
  | tick (d : Nat)
  | shutdown
  | enter
  | pop (i : Nat)
  | popFail
  | drainEnd
  | wait
  | receive
  | receiveFail
  | timeout
  deriving DecidableEq

/-- Two entries of the heap cannot be compared. -/
def hasIncomparable (h : List LinkEntry) : Bool := h.any fun a => h.any fun b => a.incomparable b

/-- The time waited when the heap is empty (`0.1`, 27). -/
def idleWait : Nat := 100

/-- A step, if it is possible in this state. -/
def Linkem.step (s : Linkem) : LinkEv → Option Linkem
  | .arrive e => some { s with inq := s.inq ++ [e], arrived := s.arrived ++ [e] }
  | .tick d => some { s with clock := s.clock + d }
  -- 12-13
  | .shutdown => some { s with stop := true }
  -- 16-18
  | .enter =>
    if s.at_ = .top then some { s with at_ := if s.stop then .returned else .drain s.clock } else none
  -- 19-21: the entry removed is one of the smallest
  | .pop i =>
    match s.at_, s.heap[i]? with
    | .drain now, some e =>
      if e.expiry ≤ now ∧ s.heap.all (fun x => decide (e.expiry ≤ x.expiry)) then
        some { s with heap := s.heap.eraseIdx i, delivered := s.delivered ++ [(e, s.clock)] }
      else none
    | _, _ => none
  -- 20: a comparison inside `heappop` raises
  | .popFail =>
    match s.at_ with
    | .drain now =>
      if s.heap.any (fun e => decide (e.expiry ≤ now)) && hasIncomparable s.heap then some { s with at_ := .dead .typeError }
      else none
    | _ => none
  -- 19: nothing (more) to deliver
  | .drainEnd =>
    match s.at_ with
    | .drain now => if s.heap.all (fun e => decide (now < e.expiry)) then some { s with at_ := .drained } else none
    | _ => none
  -- 23-30: the clock is read a second time; `get` raises `ValueError` for a negative timeout
  | .wait =>
    if s.at_ = .drained then
      match (s.heap.map LinkEntry.expiry).min? with
      | none => some { s with at_ := .waiting (s.clock + idleWait) }
      | some m =>
        if m < s.clock then some { s with at_ := .dead .valueError } else some { s with at_ := .waiting m }
    else none
  -- 30 and 34; with one entry in the heap, `heappush` compares the new one with it
  | .receive =>
    match s.at_, s.inq with
    | .waiting _, e :: q =>
      if s.heap.length = 1 ∧ hasIncomparable (s.heap ++ [e]) then none
      else some { s with inq := q, heap := s.heap ++ [e], at_ := .top }
    | _, _ => none
  -- 34: a comparison inside `heappush` raises; the entry has been appended to the list by then
  | .receiveFail =>
    match s.at_, s.inq with
    | .waiting _, e :: q =>
      if hasIncomparable (s.heap ++ [e]) then some { s with inq := q, heap := s.heap ++ [e], at_ := .dead .typeError } else none
    | _, _ => none
  -- 31-32
  | .timeout =>
    match s.at_, s.inq with
    | .waiting t, [] => if t ≤ s.clock then some { s with at_ := .top } else none
    | _, _ => none

/-- A sequence of steps. -/
def Linkem.run (s : Linkem) : List LinkEv → Option Linkem
  | [] => some s
  | e :: es => (s.step e).bind fun s => s.run es

/-- The delivery time `NodeExecutor.send_packet` computes, nodeexec.py 93-97, minus the present time, times
the capacity (a number of bits per second; times are in seconds): `len(packet)` is a number of bytes. -/
def sendDelayTimesCapacity (p : Packet) (capacity delay : Nat) : Res Nat :=
  p.size >>= fun n => .ok (n + delay * capacity)

end SY
