import Verif.FwLimit

/-! # The test of rate limits

The frames of examples/exercises/firewall/ratelimittest.py, for all numbers that may be drawn.  Its rules are those of
firewalltests.py (lines 10-57 of both files).  Its pauses are made while the scenario is, and are not modelled; the
descriptions of the expectations are not either. -/

namespace SY

/-- `b'\x25' * 1400`, ratelimittest.py 128. -/
def rateBody : Bytes := List.replicate 1400 0x25

/-- `b'\x45' * 1000`, ratelimittest.py 163. -/
def rateData : Bytes := List.replicate 1000 0x45

/-- 116-128: a question to a web server, with a large payload. -/
def rateHttp (d : FwDraw) : Res Packet :=
  fwFrame d (fwIp 6 d.ttl (0xc0a8d500 ||| d.low) d.dst)
    [.hdr (.tcp (TCP.setflag { TCP.default with src := d.sport, dst := 80, seq := d.seq, ack := d.ack, window := d.window } .SYN true)),
     .hdr (.raw rateBody)]

/-- 159-163: an ICMP frame that is larger than the bucket of its rule ever is. -/
def rateBig (d : FwDraw) : Res Packet :=
  fwFrame d (fwIp 1 d.ttl d.src d.dst) [.hdr (.icmp ⟨8, 0, .echo false 0 0 rateData, 0⟩)]

/-- A loop of the test, 108-136 and 139-156: every frame and its answer are expected to pass. -/
def ratePasses (f : FwDraw → Res Packet) : List FwDraw → Res (List FwStep)
  | [] => .ok []
  | d :: ds => f d >>= fun p => ratePasses f ds >>= fun ss => .ok (fwPass p ++ ss)

/-- The steps of the test, 108-167, of which there are seven with a large payload and two small ones: the last two have no
output expectations.  ICMP frames are made as in firewalltests.py (143-147 are 191-194 there). -/
def rateSteps (https pings : List FwDraw) (big : FwDraw) : Res (List FwStep) :=
  ratePasses rateHttp https >>= fun hs => ratePasses fwPing pings >>= fun ps => rateBig big >>= fun p =>
  .ok (hs ++ (ps ++ [⟨fwPort0, p, false⟩, ⟨fwPort1, fwSwap p, false⟩]))

/-- The numbers that may be drawn, ratelimittest.py 59-66, 108-163. -/
def RateDraws (https pings : List FwDraw) (big : FwDraw) : Prop :=
  https.length = 7 ∧ pings.length = 2 ∧ (∀ d ∈ https, d.InRange 10000 0) ∧ (∀ d ∈ pings, d.InRange 0 0) ∧ big.InRange 0 0

instance (https pings : List FwDraw) (big : FwDraw) : Decidable (RateDraws https pings big) := by
  unfold RateDraws; infer_instance

end SY
