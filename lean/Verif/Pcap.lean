import Verif.Text
import Verif.Common
import Verif.Dict

/-! # Capture files and capture devices

`/repo/switchyard/pcapffi.py`, lines 268-713; line numbers without a file name refer to that file.  libpcap is
modelled from its documentation: the results of its calls are parameters, a capture file is the list of
its records, and a call with a NULL handle or one that was closed ends the process (`none` as the result of
an operation).  `PcapException` is the exception `generic`. -/

namespace SY

/-! ## Packets and capture files -/

/-- `struct pcap_pkthdr` (114-119) and the bytes: a record of a capture file. -/
structure PcapRec where
  sec : Nat
  usec : Nat
  caplen : Nat
  len : Nat
  data : Bytes
  deriving DecidableEq, Repr

/-- `PcapPacket`, 13; the timestamp is a fraction. -/
structure PcapPkt where
  ts : Nat × Nat
  caplen : Nat
  len : Nat
  raw : Bytes
  deriving DecidableEq, Repr

/-- `int(ts)` and `int(1000000*(ts-int(ts)))` of 332-333, for a double `ts ≥ 0` (a fraction): the difference
and the product are rounded to doubles. -/
def splitTime (ts : Nat × Nat) : Nat × Nat :=
  (ts.1 / ts.2,
   (toDouble (1000000 * (toDouble (ts.1 % ts.2) ts.2).1) (toDouble (ts.1 % ts.2) ts.2).2).1 /
   (toDouble (1000000 * (toDouble (ts.1 % ts.2) ts.2).1) (toDouble (ts.1 % ts.2) ts.2).2).2)

/-- `"{:d}.{:06d}".format(sec, usec)`, 277 and 705. -/
def stampText (sec usec : Nat) : List Char :=
  natText sec ++ '.' :: (List.replicate (6 - (natText usec).length) '0' ++ natText usec)

/-- `float(..)` of 277 and 705. -/
def stamp (sec usec : Nat) : Res (Nat × Nat) :=
  parseDecimal (stampText sec usec) >>= fun x => .ok (toDouble x.1 x.2)

/-- `PcapDumper.write_packet`, 325-338, with `bytes`: the records of the file afterwards; `now` is what
`time()` gives.  libpcap writes the seconds with 32 bits; the theorems are about times below 2^31. -/
def dumpPacket (file : List PcapRec) (now : Nat × Nat) (pkt : Bytes) (ts : Option (Nat × Nat)) : List PcapRec :=
  let t := match ts with
    | some t => if t.1 = 0 then now else t
    | none => now
  file ++ [⟨(splitTime t).1, (splitTime t).2, pkt.length, pkt.length, pkt⟩]

/-- `PcapDumper.write_packet`, 326-327: anything but `bytes` (`none`) is refused. -/
def dumpAny (file : List PcapRec) (now : Nat × Nat) (pkt : Option Bytes) (ts : Option (Nat × Nat)) :
    List PcapRec × Option PyErr :=
  match pkt with
  | some b => (dumpPacket file now b ts, none)
  | none => (file, some .generic)

/-- What `pcap_next_ex` gives: 1 and a packet, 0, -1, -2, or another error (such as -3 for a device that is not
activated). -/
inductive NextEx
  | packet (r : PcapRec)
  | timeout
  | failed
  | eof
  | other
  deriving DecidableEq, Repr

/-- Lines 273-278 (and 701-706). -/
def PcapRec.packet (r : PcapRec) : Res PcapPkt :=
  stamp r.sec r.usec >>= fun t => .ok ⟨t, r.caplen, r.len, r.data⟩

/-- `_recv_packet`, 268-288; line 284 has a name that is not defined, and other errors reach the end of the function. -/
def recvResult : NextEx → Res (Option PcapPkt)
  | .packet r => r.packet >>= fun p => .ok (some p)
  | .timeout => .ok none
  | .failed => .error .nameError
  | .eof => .ok none
  | .other => .ok none

/-- `pcap_next_ex` on a capture file whose remaining records are given, with the filter `pass`. -/
def nextRecord (pass : Bytes → Bool) : List PcapRec → NextEx × List PcapRec
  | [] => (.eof, [])
  | r :: rs => if pass r.data then (.packet r, rs) else nextRecord pass rs

/-- `PcapReader.recv_packet`, 374-375. -/
def readerRecv (pass : Bytes → Bool) (recs : List PcapRec) : Res (Option PcapPkt) × List PcapRec :=
  (recvResult (nextRecord pass recs).1, (nextRecord pass recs).2)

/-- The results of `n` calls of `PcapReader.recv_packet`. -/
def readerCalls (pass : Bytes → Bool) : Nat → List PcapRec → List (Res (Option PcapPkt))
  | 0, _ => []
  | n + 1, recs => (readerRecv pass recs).1 :: readerCalls pass n (readerRecv pass recs).2

/-- `PcapReader.loop`, 386-389, with `_pcap_callback`, 698-707, on a capture file: what the function of the
user is called with, and the remaining records.  With `n` = 0 (for a `count` that is not positive) libpcap
goes on to the end of the file.  Exceptions in the function are printed by cffi and do not end the loop. -/
def readerLoop (pass : Bytes → Bool) : Nat → List PcapRec → List (Res PcapPkt) × List PcapRec
  | _, [] => ([], [])
  | n, r :: rs =>
    if pass r.data then
      if n = 1 then ([r.packet], rs)
      else (r.packet :: (readerLoop pass (n - 1) rs).1, (readerLoop pass (n - 1) rs).2)
    else readerLoop pass n rs

/-- `close` of `PcapReader` (371-372) or `PcapDumper` (340-341): `opened` says whether the handle is
still open. -/
def closeFile (opened : Bool) : Option Bool := if opened then some false else none

/-! ## Receiving from a device -/

/-- What receiving depends on: the result of `select` (`none` if it raises), those of `pcap_next_ex` and of
`time()` in the order of the calls, in the unit of the timeout.  The rounding of `now + timeout` is not
modelled. -/
structure RecvEnv where
  select : Option Bool
  next : Nat → NextEx
  clock : Nat → Int

/-- The loop of 653-658, from its `k`-th round; with `fuel` rounds. -/
def pollLoop (env : RecvEnv) (expiry : Int) : Nat → Nat → Res (Option PcapPkt)
  | 0, _ => .error .diverges
  | fuel + 1, k =>
    if env.clock k < expiry then
      recvResult (env.next k) >>= fun p =>
      match p with
      | some p => .ok (some p)
      | none => pollLoop env expiry fuel (k + 1)
    else .ok none

/-- An open `PcapLiveDevice`: the handle and `nonblock` of `_pcapdev`, and `_fd` (411, 452-453). -/
structure PcapObj where
  handle : Nat
  nonblock : Bool
  fd : Option Int
  deriving DecidableEq, Repr

/-- Lines 650-662. -/
def recvNoSelect (env : RecvEnv) (fuel : Nat) (timeout : Option Int) : Res (Option PcapPkt) :=
  match timeout with
  | some t => if t = 0 then recvResult (env.next 0) else pollLoop env (env.clock 0 + t) fuel 0
  | none => recvResult (env.next 0)

/-- Lines 638-645. -/
def recvSelect (env : RecvEnv) : Res (Option PcapPkt) :=
  match env.select with
  | none => .ok none
  | some true => recvResult (env.next 0)
  | some false => .ok none

/-- `recv_packet`, 632-665. -/
def PcapObj.recv (o : PcapObj) (env : RecvEnv) (fuel : Nat) (timeout : Option Int) : Res (Option PcapPkt) :=
  match o.fd with
  | none => .error .typeError
  | some fd =>
    if 0 ≤ fd then recvSelect env
    else if o.nonblock then
      recvNoSelect env fuel (match timeout with | some t => if t < 0 then none else some t | none => none)
    else recvResult (env.next 0)

/-- `fd`, 586-593: `sel` is what `pcap_get_selectable_fd` gives. -/
def PcapObj.readFd (o : PcapObj) (sel : Int) : PcapObj × Int :=
  match o.fd with
  | some fd => (o, fd)
  | none => ({ o with fd := some sel }, sel)

/-- `send_packet`, 602-610: anything but `bytes` is refused; `rv` is what `pcap_sendpacket` gives. -/
def pcapSend (isBytes : Bool) (rv : Int) : Res Bool :=
  if isBytes then (if rv = 0 then .ok true else .error .generic) else .error .generic

/-- `stats`, 673-680; `rv` is what `pcap_stats` gives. -/
def pcapStats (rv : Int) (s : Nat × Nat × Nat) : Res (Nat × Nat × Nat) :=
  if rv = 0 then .ok s else .error .nameError

/-- `PcapTstampType`, 47-52. -/
def tstampTypes : List Nat := [0, 1, 2, 3, 4]

/-- Lines 538-539. -/
def tstampList : List Int → Res (List Nat)
  | [] => .ok []
  | v :: vs => enumOf tstampTypes v >>= fun t => tstampList vs >>= fun ts => .ok (t :: ts)

/-- `set_tstamp_type`, 544-552, with `list_tstamp_types`, 529-542: `listed` is what the device lists (`none` if
libpcap fails), `rv` what `pcap_set_tstamp_type` gives.  The result is the type that was set. -/
def setTstampType (listed : Option (List Int)) (rv : Int) (v : Int) : Res Nat :=
  enumOf tstampTypes v >>= fun t =>
  match listed with
  | none => .error .generic
  | some l =>
    tstampList l >>= fun ts =>
    if t ∈ ts then (if rv = 0 then .ok t else .error .generic) else .error .generic

/-! ## Open devices -/

/-- A handle of libpcap that is open. -/
structure PcapHandle where
  activated : Bool
  nonblock : Bool
  filter : Option (List Char)
  deriving DecidableEq, Repr

/-- The handles that are open and the number of handles so far, `_OpenDevices` (402; `none` stands for NULL),
the objects the program holds, the handles between the two steps of `close` (667-671) and those that
`pcap_close` was called with. -/
structure PcapWorld where
  handles : Dict Nat PcapHandle
  nextHandle : Nat
  reg : Dict Nat (Option Nat)
  objs : Dict Nat PcapObj
  freeing : List Nat
  closed : List Nat
  deriving DecidableEq, Repr

/-- The state at the start. -/
def PcapWorld.start : PcapWorld := ⟨[], 0, [], [], [], []⟩

/-- What happens when a device is opened with `pcap_open_live`: 416-421, 435-436, 439-441, 447-450, and success
with the descriptor of 453. -/
inductive OpenResult
  | noDevice
  | null
  | nonblockFailed
  | badDlt
  | ok (fd : Int)
  deriving DecidableEq, Repr

/-- `_set_filter`, 290-304: `valid h f` says whether libpcap compiles the filter for the handle and sets it;
for a handle that is not activated it does not. -/
def PcapWorld.setFilterOn (valid : Nat → List Char → Bool) (w : PcapWorld) (h : Option Nat) (f : List Char) :
    Option (PcapWorld × Option PyErr) :=
  if f.all (fun c => c.toNat < 128) then
    match h with
    | none => none
    | some h =>
      match w.handles.get? h with
      | none => none
      | some x =>
        if x.activated && valid h f then
          some ({ w with handles := w.handles.set h { x with filter := some f } }, none)
        else some (w, some .generic)
  else some (w, some .valueError)

/-- The loop of 574-575. -/
def PcapWorld.setFilters (valid : Nat → List Char → Bool) (f : List Char) :
    PcapWorld → List (Option Nat) → Option (PcapWorld × Option PyErr)
  | w, [] => some (w, none)
  | w, h :: hs =>
    match w.setFilterOn valid h f with
    | none => none
    | some (w', some e) => some (w', some e)
    | some (w', none) => PcapWorld.setFilters valid f w' hs

/-- `set_bpf_filter_on_all_devices`, 567-575; it holds the lock that also guards the registration. -/
def PcapWorld.setAll (valid : Nat → List Char → Bool) (w : PcapWorld) (f : List Char) :
    Option (PcapWorld × Option PyErr) :=
  PcapWorld.setFilters valid f w (w.reg.map Prod.snd)

/-- `pcap_open_live` and line 439. -/
def PcapWorld.newHandle (w : PcapWorld) (x : PcapHandle) : PcapWorld :=
  { w with handles := w.handles.set w.nextHandle x, nextHandle := w.nextHandle + 1 }

/-- Lines 452-459: registered, then the filter is set; if that raises, the program gets no object.  The
registration and the filter are one step here. -/
def PcapWorld.register (valid : Nat → List Char → Bool) (w : PcapWorld) (id : Nat) (o : PcapObj)
    (filter : Option (List Char)) : Option (PcapWorld × Option PyErr) :=
  match filter with
  | none => some ({ w with reg := w.reg.set id (some o.handle), objs := w.objs.set id o }, none)
  | some f =>
    match ({ w with reg := w.reg.set id (some o.handle) } : PcapWorld).setFilterOn valid (some o.handle) f with
    | none => none
    | some (w', some e) => some (w', some e)
    | some (w', none) => some ({ w' with objs := w'.objs.set id o }, none)

/-- `PcapLiveDevice(..)`, 406-459, for an object with the given id. -/
def PcapWorld.openLive (valid : Nat → List Char → Bool) (w : PcapWorld) (id : Nat) (r : OpenResult)
    (filter : Option (List Char)) (nonblock : Bool) : Option (PcapWorld × Option PyErr) :=
  match r with
  | .noDevice => some (w, some .generic)
  | .null => some (w, some .generic)
  | .nonblockFailed => some (if nonblock then w.newHandle ⟨true, false, none⟩ else w, some .generic)
  | .badDlt => some (w.newHandle ⟨true, nonblock, none⟩, some .generic)
  | .ok fd =>
    (w.newHandle ⟨true, nonblock, none⟩).register valid id ⟨w.nextHandle, nonblock, some fd⟩ filter

/-- `PcapLiveDevice.create(..)`, 425-432 and 461-463: it is registered before the handle is looked at. -/
def PcapWorld.create (w : PcapWorld) (id : Nat) (null : Bool) : PcapWorld × Option PyErr :=
  if null then ({ w with reg := w.reg.set id none }, some .generic)
  else
    ({ w.newHandle ⟨false, false, none⟩ with
        reg := w.reg.set id (some w.nextHandle), objs := w.objs.set id ⟨w.nextHandle, false, none⟩ }, none)

/-- `blocking` getter, 479-485: `pcap_getnonblock` gives an error for a handle that is not activated, and any result but 0
counts as one. -/
def PcapHandle.getBlocking (x : PcapHandle) : Res Bool :=
  if x.activated then (if x.nonblock then .error .generic else .ok x.nonblock) else .error .generic

/-- `blocking` setter, 487-492: the value is passed to `pcap_setnonblock`. -/
def PcapHandle.setBlocking (x : PcapHandle) (v : Bool) : PcapHandle := { x with nonblock := v }

/-- `activate`, 465-477, on a handle: `rv` is what `pcap_activate` gives for a handle that is not activated
(it fails for one that is; positive values are the warnings of 60-63), `dltOk` whether the link type is a member
of `Dlt`. -/
def PcapHandle.activate (x : PcapHandle) (rv : Int) (dltOk : Bool) : PcapHandle × Res Int :=
  if x.activated || decide (rv < 0) then (x, .error .generic)
  else
    ({ x with activated := true },
      if 3 < rv then .error .valueError
      else if dltOk then (PcapHandle.getBlocking { x with activated := true } >>= fun _ => .ok rv) else .error .generic)

/-- What the program does with devices.  `close` consists of the step under the lock and the call of
`pcap_close`; `drop` means that the program no longer holds the object. -/
inductive PcapOp
  | openLive (id : Nat) (r : OpenResult) (filter : Option (List Char)) (nonblock : Bool)
  | create (id : Nat) (null : Bool)
  | activate (id : Nat) (rv : Int) (dltOk : Bool)
  | setBlocking (id : Nat) (v : Bool)
  | setFilter (id : Nat) (f : List Char)
  | setAll (f : List Char)
  | closeStart (id : Nat)
  | closeEnd (h : Nat)
  | drop (id : Nat)
  deriving DecidableEq, Repr

/-- `activate` of an object. -/
def PcapWorld.activate (w : PcapWorld) (id : Nat) (o : PcapObj) (rv : Int) (dltOk : Bool) :
    Option (PcapWorld × Option PyErr) :=
  match w.handles.get? o.handle with
  | none => none
  | some x =>
    match x.activate rv dltOk with
    | (x', .ok _) =>
      some ({ w with handles := w.handles.set o.handle x', objs := w.objs.set id { o with nonblock := x'.nonblock } }, none)
    | (x', .error e) => some ({ w with handles := w.handles.set o.handle x' }, some e)

/-- The `blocking` setter of an object. -/
def PcapWorld.setBlocking (w : PcapWorld) (o : PcapObj) (v : Bool) : Option (PcapWorld × Option PyErr) :=
  match w.handles.get? o.handle with
  | none => none
  | some x => some ({ w with handles := w.handles.set o.handle (x.setBlocking v) }, none)

/-- `close`, 667-670: the step under the lock. -/
def PcapWorld.closeStart (w : PcapWorld) (id : Nat) (o : PcapObj) : PcapWorld × Option PyErr :=
  match w.reg.get? id with
  | none => (w, some .keyError)
  | some _ => ({ w with reg := w.reg.erase id, freeing := o.handle :: w.freeing }, none)

/-- `pcap_close`, 671. -/
def PcapWorld.closeEnd (w : PcapWorld) (h : Nat) : Option (PcapWorld × Option PyErr) :=
  if h ∈ w.freeing then
    if h ∈ w.handles.keys then
      some ({ w with handles := w.handles.erase h, freeing := w.freeing.erase h, closed := h :: w.closed }, none)
    else none
  else some (w, none)

/-- One step; a step with an object the program does not hold, or one that makes an object with the id of
an object it holds, does nothing. -/
def PcapWorld.step (valid : Nat → List Char → Bool) (w : PcapWorld) : PcapOp → Option (PcapWorld × Option PyErr)
  | .openLive id r f nb => if id ∈ w.objs.keys then some (w, none) else w.openLive valid id r f nb
  | .create id null => if id ∈ w.objs.keys then some (w, none) else some (w.create id null)
  | .activate id rv d => match w.objs.get? id with | some o => w.activate id o rv d | none => some (w, none)
  | .setBlocking id v => match w.objs.get? id with | some o => w.setBlocking o v | none => some (w, none)
  | .setFilter id f => match w.objs.get? id with | some o => w.setFilterOn valid (some o.handle) f | none => some (w, none)
  | .setAll f => w.setAll valid f
  | .closeStart id => match w.objs.get? id with | some o => some (w.closeStart id o) | none => some (w, none)
  | .closeEnd h => w.closeEnd h
  | .drop id => some ({ w with objs := w.objs.erase id }, none)

/-- A history; `none` if the process ended on the way. -/
def PcapWorld.run (valid : Nat → List Char → Bool) : PcapWorld → List PcapOp → Option PcapWorld
  | w, [] => some w
  | w, op :: ops =>
    match w.step valid op with
    | none => none
    | some (w', _) => PcapWorld.run valid w' ops

end SY
