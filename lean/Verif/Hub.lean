import Verif.Live

/-! # The hub example: examples/myhub.py

Line numbers without a file name refer to that file. -/

namespace SY

/-- `eth.dst in mymacs`, 26. -/
def macIn (a : EthAddr) : List EthAddr → Res Bool
  | [] => .ok false
  | b :: bs => b.eqArg (.addr a) >>= fun r => if r then .ok true else macIn a bs

/-- Lines 20-32 for one received packet: the interfaces it is sent to, in order; nothing for a packet
without an Ethernet header (22-24).  The packet is printed first, for the log (20). -/
def hubTargets (ifs : List Iface) (dev : List Char) (p : Packet) : Res (List Iface) :=
  p.str >>= fun _ =>
  match p.getHeader .eth with
  | some (.hdr (.eth h)) =>
    macIn h.dst (ifs.map Iface.ethaddr) >>= fun mine =>
      if mine then .ok [] else .ok (ifs.filter fun i => dev ≠ i.name)
  | _ => .ok []

/-- How the hub ends. -/
inductive HubEnd
  | waiting
  | returned
  | crashed (e : PyErr)
  deriving DecidableEq

/-- The main loop, 12-32, on a sequence of outcomes of `recv_packet`: the packets it asks to be sent, and
whether it still waits for the next packet.  (Line 33 is never reached.) -/
def hubRun (ifs : List Iface) : List RecvResult → List (Iface × Packet) × HubEnd
  | [] => ([], .waiting)
  | .noPackets :: rs => hubRun ifs rs
  | .shutdown :: _ => ([], .returned)
  | .raised e :: _ => ([], .crashed e)
  | .badTimeout :: _ => ([], .crashed .valueError)
  | .packet _ dev p :: rs =>
    match hubTargets ifs dev p with
    | .error e => ([], .crashed e)
    | .ok is => (is.map (fun i => (i, p)) ++ (hubRun ifs rs).1, (hubRun ifs rs).2)

/-- The sends of lines 29-32 on a live network, one after the other, with the same packet object. -/
def floodReal (n : NetBase) : List Iface → Packet → Res (List (List Char × Bytes))
  | [], _ => .ok []
  | i :: is, p => (sendReal n (.intf i) p).2 >>= fun s => (s :: ·) <$> floodReal n is (sendReal n (.intf i) p).1

end SY
