import Verif.Live

/-! # Receiver threads and stopping live networks: switchyard/llnetreal.py

Line numbers without a file name refer to that file.  `Verif.Live` is about what user code receives; this module is
about the threads that receive frames from the devices, the calls of `shutdown` that end them and close the
devices, and signals.  The flag `LLNetReal.running` belongs to the class, so that all networks of a process have it
in common.  A device is known by a number.  The raw sockets of loopback interfaces are not modelled: no thread
reads them and closing one again does nothing. -/

namespace SY

/-- Where a receiver thread is in `_low_level_dispatch`, 191-210: before the test of 197, in the call of 203, before
206 with a frame, before 209, or done (also because an exception ended it). -/
inductive ReceiverAt
  | top
  | polling
  | holding (f : Frame)
  | leaving
  | ended
  deriving DecidableEq

/-- Where a thread is in a call of `shutdown`, 71-90: not in one, past the test of 77, waiting for the receivers
that are `left` of all of a network (82-83), closing the devices that are `left` (85-86), or ended by the
`KeyError` of a device that was closed already (pcapffi.py 670). -/
inductive StopAt
  | out
  | entered (all : List Nat)
  | joining (all left : List Nat)
  | closing (left : List Nat)
  | failed
  deriving DecidableEq

/-- The process: the flag, the devices of each network, the number of devices made, the receiver of each device, the
threads that may call `shutdown`, the devices closed (the last one first), whether a device was used after it was
closed (which is undefined in libpcap), and the history: the frames the devices gave and the frames put into the
queues. -/
structure LiveProc where
  running : Bool
  nets : List (List Nat)
  made : Nat
  recv : Nat → ReceiverAt
  call : Nat → StopAt
  closed : List Nat
  crashed : Bool
  captured : List (Nat × Frame)
  queued : List (Nat × Frame)

/-- No network was made. -/
def LiveProc.init : LiveProc := ⟨false, [], 0, fun _ => .ended, fun _ => .out, [], false, [], []⟩

/-- The atomic steps. -/
inductive StopEv
  | make (k : Nat)
  | check (d : Nat)
  | poll (d : Nat) (r : Option (Option Frame))
  | put (d : Nat)
  | stats (d : Nat)
  | enter (c n : Nat)
  | clear (c : Nat)
  | join (c : Nat)
  | close (c : Nat)
  | signal (int : Bool)
  | send (d : Nat)
  deriving DecidableEq

/-- A function with another value at one place. -/
def fnSet {α : Type} (f : Nat → α) (d : Nat) (v : α) : Nat → α := fun x => if x = d then v else f x

/-- A step, if it is possible in this state. -/
def LiveProc.step (s : LiveProc) : StopEv → Option LiveProc
  -- `__init__`, 36-61, for `k` devices all of which can be opened: 165-177, 55 and 92-100
  | .make k => some { s with
      running := true, nets := s.nets ++ [List.range' s.made k], made := s.made + k,
      recv := fun d => if s.made ≤ d ∧ d < s.made + k then .top else s.recv d }
  -- 197
  | .check d =>
    match s.recv d with
    | .top => some { s with recv := fnSet s.recv d (if s.running then .polling else .leaving) }
    | _ => none
  -- 203: an exception, nothing, or a frame
  | .poll d r =>
    match s.recv d with
    | .polling =>
      if d ∈ s.closed then some { s with crashed := true }
      else
        match r with
        | none => some { s with recv := fnSet s.recv d .ended }
        | some none => some { s with recv := fnSet s.recv d .top }
        | some (some f) =>
          some { s with recv := fnSet s.recv d (.holding f), captured := s.captured ++ [(d, f)] }
    | _ => none
  -- 206
  | .put d =>
    match s.recv d with
    | .holding f => some { s with recv := fnSet s.recv d .top, queued := s.queued ++ [(d, f)] }
    | _ => none
  -- 209
  | .stats d =>
    match s.recv d with
    | .leaving =>
      if d ∈ s.closed then some { s with crashed := true } else some { s with recv := fnSet s.recv d .ended }
    | _ => none
  -- `shutdown` of a network, 77-78
  | .enter c n =>
    match s.call c, s.nets[n]? with
    | .out, some all => some (if s.running then { s with call := fnSet s.call c (.entered all) } else s)
    | _, _ => none
  -- 80
  | .clear c =>
    match s.call c with
    | .entered all => some { s with running := false, call := fnSet s.call c (.joining all all) }
    | _ => none
  -- 82-83: `join` returns when the thread has ended
  | .join c =>
    match s.call c with
    | .joining all [] => some { s with call := fnSet s.call c (.closing all) }
    | .joining all (d :: ds) =>
      if s.recv d = .ended then some { s with call := fnSet s.call c (.joining all ds) } else none
    | _ => none
  -- 85-90, and `close` of the device, pcapffi.py 667-671, in one step
  | .close c =>
    match s.call c with
    | .closing [] => some { s with call := fnSet s.call c .out }
    | .closing (d :: ds) =>
      if d ∈ s.closed then some { s with call := fnSet s.call c .failed }
      else some { s with closed := d :: s.closed, call := fnSet s.call c (.closing ds) }
    | _ => none
  -- `_sig_handler`, 179-189, for `SIGINT` and for the four other signals of 39-42; its dummy packet is in `Verif.Live`
  | .signal int => some (if int then { s with running := false } else s)
  -- the end of `send_packet`, 270-273
  | .send d => some (if d ∈ s.closed then { s with crashed := true } else s)

/-- A sequence of steps. -/
def LiveProc.run (s : LiveProc) : List StopEv → Option LiveProc
  | [] => some s
  | e :: es => (s.step e).bind fun s => s.run es

end SY
