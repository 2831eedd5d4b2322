import Verif.FwExercise

/-! # Rules with rate limits

The token buckets of examples/exercises/firewall/firewall.rst 43-67, for the rules of firewalltests.py.  Time is the number
of half seconds that pass before each frame arrives, as a list (any list); nothing passes once it is used up. -/

namespace SY

/-- The number of the first rule that matches, from 0, firewall.rst 154. -/
def fwWhich : List FwRule → FwKey → Option Nat
  | [], _ => none
  | r :: rs, k => if r.matches k then some 0 else (fwWhich rs k).map (· + 1)

/-- `ratelimit`, firewalltests.py 35, 37, 52: bytes per second, for rules 7, 8 and 13. -/
def exerciseLimits : Nat → Option Nat
  | 6 => some 12500
  | 7 => some 12500
  | 12 => some 150
  | _ => none

/-- Tokens are added for `k` half seconds, firewall.rst 57-63: half the rate for each, up to twice the rate. -/
def refill (limits : Nat → Option Nat) (k : Nat) (b : Nat → Nat) : Nat → Nat := fun i =>
  match limits i with
  | some r => min (2 * r) (b i + k * (r / 2))
  | none => b i

/-- `len(packet) - len(packet.get_header(Ethernet))`, firewall.rst 67. -/
def fwSize (p : Packet) : Nat :=
  match p.size with
  | .ok n => n - 14
  | .error _ => 0

/-- The state of the firewall: the tokens of each rule, and the time to come. -/
structure LimitState where
  tokens : Nat → Nat
  time : List Nat

/-- A packet that matches rule `i`, which permits it and may have a limit, firewall.rst 65. -/
def spend (limits : Nat → Option Nat) (b : Nat → Nat) (i size : Nat) : (Nat → Nat) × Bool :=
  match limits i with
  | none => (b, true)
  | some _ => if size ≤ b i then (fun j => if j = i then b j - size else b j, true) else (b, false)

/-- What happens to the buckets and to a packet, firewall.rst 38, 65. -/
def askBuckets (rs : List FwRule) (limits : Nat → Option Nat) (b : Nat → Nat) (p : Packet) : (Nat → Nat) × Bool :=
  match fwKey p with
  | none => (b, true)
  | some k =>
    if fwVerdict rs k then
      match fwWhich rs k with
      | none => (b, true)
      | some i => spend limits b i (fwSize p)
    else (b, false)

/-- A frame arrives. -/
def limitStep (rs : List FwRule) (limits : Nat → Option Nat) (st : LimitState) (p : Packet) : LimitState × Bool :=
  (⟨(askBuckets rs limits (refill limits (st.time.headD 0) st.tokens) p).1, st.time.tail⟩,
    (askBuckets rs limits (refill limits (st.time.headD 0) st.tokens) p).2)

/-- The firewall with rate limits, in the loop of firewall.py. -/
def limitHandler (rs : List FwRule) (limits : Nat → Option Nat) (ifs : List Iface) : Handler LimitState := fun st dev p n =>
  if (limitStep rs limits st p).2 then
    ((firewallHandler ifs () dev p n).1, (firewallHandler ifs () dev p n).2 >>= fun _ => .ok (limitStep rs limits st p).1)
  else (n, .ok (limitStep rs limits st p).1)

end SY
