import Verif.Hub
import Verif.Props.NetBase
import Verif.Props.Packet
import Verif.Props.Str

/-! # Live networks: C72 (receiving), C95 (sending), C96 (addresses), C74 (the hub) -/

namespace SY.Props
open SY

/-! ## C72: receiving -/

/-- The results that come from frames: packets, and errors while decoding. -/
def RecvResult.fromFrame : RecvResult → Bool
  | .packet .. => true
  | .raised _ => true
  | _ => false

/-- What user code got from frames so far. -/
def received (s : Live) : List RecvResult := s.results.filter RecvResult.fromFrame

/-- The frame in the hands of `recv_packet`. -/
def inHand : RecvAt → List Frame
  | .got _ (some f) => [f]
  | .decoding _ (some f) => [f]
  | _ => []

/-- The frames in the queue. -/
def waitingFrames (s : Live) : List Frame := s.queue.filterMap id

/-- Past the check of `running`. -/
def RecvAt.committed : RecvAt → Bool
  | .decoding .. => true
  | _ => false

theorem result_fromFrame {f : Frame} {r : RecvResult} (h : f.result = some r) : RecvResult.fromFrame r = true := by
  unfold Frame.result at h
  split at h
  · cases h
  · split at h <;> cases h <;> rfl

/-- The frames dealt with are the first to have arrived; while the network runs none is missing. -/
def LiveInv (s : Live) : Prop :=
  ∃ done rest, s.arrived = done ++ rest ∧ received s = done.filterMap Frame.result ∧
    (s.running = true ∨ RecvAt.committed s.user = true → rest = inHand s.user ++ waitingFrames s)

theorem liveInv_step {s s' : Live} {e : LiveEv} (h : LiveInv s) (hs : s.step e = some s') : LiveInv s' := by
  obtain ⟨done, rest, ha, hr, hq⟩ := h
  obtain ⟨queue, running, user, sig, arrived, results⟩ := s
  simp only [received, waitingFrames] at ha hr hq
  subst ha
  cases e with
  | arrive f =>
    simp only [Live.step, Option.some.injEq] at hs
    subst hs
    refine ⟨done, rest ++ [f], by simp, hr, fun hc => ?_⟩
    rw [hq hc]
    simp [waitingFrames]
  | call t =>
    simp only [Live.step] at hs
    split at hs
    · rename_i hu
      subst hu
      split at hs
      · cases hs
        exact ⟨done, rest, rfl, hr, fun hc => hq (hc.imp id (by simp [RecvAt.committed]))⟩
      · split at hs
        · cases hs
          refine ⟨done, rest, rfl, ?_, hq⟩
          simpa [received, RecvResult.fromFrame] using hr
        · cases hs
          exact ⟨done, rest, rfl, hr, fun hc => hq (hc.imp id (by simp [RecvAt.committed]))⟩
    · cases hs
  | take =>
    simp only [Live.step] at hs
    split at hs
    · rename_i t x q
      cases hs
      refine ⟨done, rest, rfl, hr, fun hc => ?_⟩
      rw [hq (hc.imp id (by simp [RecvAt.committed]))]
      cases x <;> simp [inHand, waitingFrames]
    · cases hs
  | expire =>
    simp only [Live.step] at hs
    split at hs
    · cases hs
      exact ⟨done, rest, rfl, hr, fun hc => hq (hc.imp id (by simp [RecvAt.committed]))⟩
    · cases hs
  | check =>
    simp only [Live.step] at hs
    split at hs
    · rename_i t x
      split at hs
      · rename_i hrun
        cases hs
        refine ⟨done, rest, rfl, hr, fun _ => ?_⟩
        rw [hq (.inl hrun)]
        cases x <;> rfl
      · rename_i hrun
        cases hs
        refine ⟨done, rest, rfl, ?_, fun hc => ?_⟩
        · simpa [received, RecvResult.fromFrame] using hr
        · rcases hc with hc | hc
          · exact absurd hc hrun
          · cases hc
    · cases hs
  | decode =>
    simp only [Live.step] at hs
    split at hs
    · cases hs
      exact ⟨done, rest, rfl, hr, fun hc => hq (.inr rfl)⟩
    · rename_i t f
      have hrest := hq (.inr rfl)
      simp only [inHand, List.singleton_append] at hrest
      subst hrest
      split at hs
      · rename_i hf
        cases hs
        refine ⟨done ++ [f], _, by simp; rfl, ?_, fun _ => rfl⟩
        simp [hf]
        exact hr
      · rename_i r hf
        cases hs
        refine ⟨done ++ [f], _, by simp; rfl, ?_, fun _ => rfl⟩
        simp only [received, List.filter_append, List.filterMap_append, hr]
        simp [hf, result_fromFrame hf]
    · cases hs
  | look =>
    simp only [Live.step] at hs
    split at hs
    · cases hs
      refine ⟨done, rest, rfl, ?_, fun hc => hq (hc.imp id (by simp [RecvAt.committed]))⟩
      simp only [received, List.filter_append, hr]
      cases running <;> simp [RecvResult.fromFrame]
    · cases hs
  | sigint =>
    cases hs
    exact ⟨done, rest, rfl, hr, fun hc => hq (.inr (by simpa using hc))⟩
  | sigSize =>
    simp only [Live.step] at hs
    split at hs
    · cases hs; exact ⟨done, rest, rfl, hr, hq⟩
    · cases hs
  | sigPut =>
    simp only [Live.step] at hs
    split at hs
    · cases hs
      refine ⟨done, rest, rfl, hr, fun hc => ?_⟩
      rw [hq hc]
      simp [waitingFrames]
    · cases hs
  | stop =>
    cases hs
    exact ⟨done, rest, rfl, hr, fun hc => hq (.inr (by simpa using hc))⟩

theorem run_cons {s s' : Live} {e : LiveEv} {es : List LiveEv} (h : s.run (e :: es) = some s') :
    ∃ t, s.step e = some t ∧ t.run es = some s' := by
  simpa [Live.run, Option.bind_eq_some_iff] using h

theorem live_invariant {P : Live → Prop} (hstep : ∀ s s' e, P s → s.step e = some s' → P s') {s s' : Live}
    {es : List LiveEv} (h : P s) (hs : s.run es = some s') : P s' := by
  induction es generalizing s with
  | nil => cases hs; exact h
  | cons e es ih =>
    obtain ⟨t, h1, h2⟩ := run_cons hs
    exact ih (hstep _ _ _ h h1) h2

/-- Whatever the threads do: user code got exactly what the first so many frames to arrive decode to, in
that order, each once; only frames whose link type has no decoder are passed over.  While the network runs,
every other frame is in the hands of `recv_packet` or in the queue, in order of arrival. -/
theorem recv_in_order (es : List LiveEv) (s : Live) (h : Live.init.run es = some s) :
    ∃ done rest, s.arrived = done ++ rest ∧ received s = done.filterMap Frame.result ∧
      (s.running = true → rest = inHand s.user ++ waitingFrames s) := by
  obtain ⟨done, rest, h1, h2, h3⟩ := live_invariant (P := LiveInv) (fun s s' e => liveInv_step)
    ⟨[], [], rfl, rfl, fun _ => rfl⟩ h
  exact ⟨done, rest, h1, h2, fun hr => h3 (.inl hr)⟩

/-- A frame passed over has a link type that is neither Ethernet nor the null encapsulation. -/
theorem recv_skips_iff (f : Frame) : f.result = none ↔ f.dlt ≠ 1 ∧ f.dlt ≠ 0 := by
  unfold Frame.result dltDecoder
  split
  · rename_i h
    split at h
    · cases h
    · split at h
      · cases h
      · simp_all
  · rename_i h
    constructor
    · intro h'; split at h' <;> cases h'
    · rintro ⟨h1, h2⟩; simp [h1, h2] at h

/-- A packet returned carries the time stamp and device of its frame and is what its bytes parse to. -/
theorem recv_result_packet {f : Frame} {ts : Nat} {dev : List Char} {p : Packet}
    (h : f.result = some (.packet ts dev p)) :
    ts = f.ts ∧ dev = f.dev ∧
      ((f.dlt = 1 ∧ Packet.parse f.raw (some .eth) = .ok p) ∨ (f.dlt = 0 ∧ Packet.parse f.raw (some .null) = .ok p)) := by
  unfold Frame.result at h
  split at h
  · cases h
  · rename_i c hc
    split at h
    · rename_i q hq
      cases h
      refine ⟨rfl, rfl, ?_⟩
      unfold dltDecoder at hc
      split at hc
      · rename_i hd; cases hc; exact .inl ⟨hd, hq⟩
      · split at hc
        · rename_i hd; cases hc; exact .inr ⟨hd, hq⟩
        · cases hc
    · cases h

/-- While the network runs, the next frame is returned: a call gets it in three steps. -/
theorem recv_returns_next (s : Live) (t : Bool) (f : Frame) (q : List (Option Frame)) (r : RecvResult)
    (hu : s.user = .getting t) (hq : s.queue = some f :: q) (hr : s.running = true) (hf : f.result = some r) :
    s.run [.take, .check, .decode] = some { s with queue := q, user := .idle, results := s.results ++ [r] } := by
  obtain ⟨queue, running, user, sig, arrived, results⟩ := s
  subst hu hq hr
  simp [Live.run, Live.step, hf]

/-- Results of calls once the network has been stopped. -/
def AfterStop (old : List RecvResult) (s : Live) : Prop :=
  s.running = false ∧ RecvAt.committed s.user = false ∧
    ∃ new, s.results = old ++ new ∧ ∀ r ∈ new, r = .shutdown ∨ r = .badTimeout

theorem afterStop_step (old : List RecvResult) (s s' : Live) (e : LiveEv) (h : AfterStop old s) (hs : s.step e = some s') :
    AfterStop old s' := by
  obtain ⟨hr, hc, new, hn, hall⟩ := h
  obtain ⟨queue, running, user, sig, arrived, results⟩ := s
  simp only at hr hc hn
  subst hr hn
  cases e with
  | arrive f => cases hs; exact ⟨rfl, hc, new, rfl, hall⟩
  | call t =>
    simp only [Live.step] at hs
    split at hs
    · split at hs
      · cases hs; exact ⟨rfl, rfl, new, rfl, hall⟩
      · split at hs
        · cases hs
          exact ⟨rfl, hc, new ++ [.badTimeout], by simp, fun r h => by
            rcases List.mem_append.mp h with h | h
            · exact hall r h
            · exact .inr (by simpa using h)⟩
        · cases hs; exact ⟨rfl, rfl, new, rfl, hall⟩
    · cases hs
  | take =>
    simp only [Live.step] at hs
    split at hs
    · cases hs; exact ⟨rfl, rfl, new, rfl, hall⟩
    · cases hs
  | expire =>
    simp only [Live.step] at hs
    split at hs
    · cases hs; exact ⟨rfl, rfl, new, rfl, hall⟩
    · cases hs
  | check =>
    simp only [Live.step] at hs
    split at hs
    · cases hs
      exact ⟨rfl, rfl, new ++ [.shutdown], by simp, fun r h => by
        rcases List.mem_append.mp h with h | h
        · exact hall r h
        · exact .inl (by simpa using h)⟩
    · cases hs
  | decode =>
    simp only [Live.step] at hs
    split at hs
    · cases hc
    · cases hc
    · cases hs
  | look =>
    simp only [Live.step] at hs
    split at hs
    · cases hs
      exact ⟨rfl, rfl, new ++ [.shutdown], by simp, fun r h => by
        rcases List.mem_append.mp h with h | h
        · exact hall r h
        · exact .inl (by simpa using h)⟩
    · cases hs
  | sigint => cases hs; exact ⟨rfl, hc, new, rfl, hall⟩
  | sigSize =>
    simp only [Live.step] at hs
    split at hs
    · cases hs; exact ⟨rfl, hc, new, rfl, hall⟩
    · cases hs
  | sigPut =>
    simp only [Live.step] at hs
    split at hs
    · cases hs; exact ⟨rfl, hc, new, rfl, hall⟩
    · cases hs
  | stop => cases hs; exact ⟨rfl, hc, new, rfl, hall⟩

/-- Once the network has been stopped, a call that had not yet checked for it never returns a packet: every
call that ends ends with `Shutdown` (or with `ValueError`, if its timeout was negative). -/
theorem recv_shutdown_only (s s' : Live) (es : List LiveEv) (hr : s.running = false)
    (hc : ∀ t x, s.user ≠ .decoding t x) (h : s.run es = some s') :
    s'.running = false ∧ ∃ new, s'.results = s.results ++ new ∧ ∀ r ∈ new, r = .shutdown ∨ r = .badTimeout := by
  have hc' : RecvAt.committed s.user = false := by
    cases hu : s.user <;> simp_all [RecvAt.committed]
  have := live_invariant (P := AfterStop s.results) (afterStop_step s.results) ⟨hr, hc', [], by simp, by simp⟩ h
  exact ⟨this.1, this.2.2⟩

/-- `NoPackets` is raised only by a call with a timeout that found the queue empty when the time was up. -/
theorem no_packets_only_if_empty (es : List LiveEv) (s : Live) (h : Live.init.run es = some s)
    (hn : RecvResult.noPackets ∈ s.results) :
    ∃ es₁ es₂ t, es = es₁ ++ .expire :: es₂ ∧ Live.init.run es₁ = some t ∧ t.queue = [] ∧ t.user = .getting true := by
  suffices H : ∀ (s₀ s : Live) (es : List LiveEv), s₀.run es = some s →
      (RecvResult.noPackets ∉ s₀.results) → s₀.user ≠ .expired → (RecvResult.noPackets ∈ s.results ∨ s.user = .expired) →
      ∃ es₁ es₂ t, es = es₁ ++ .expire :: es₂ ∧ s₀.run es₁ = some t ∧ t.queue = [] ∧ t.user = .getting true from
    H _ _ es h (by simp [Live.init]) (by simp [Live.init]) (.inl hn)
  clear h hn s es
  intro s₀ s es
  induction es generalizing s₀ with
  | nil => intro h h1 h2 h3; cases h; rcases h3 with h3 | h3 <;> contradiction
  | cons e es ih =>
    intro h h1 h2 h3
    obtain ⟨t, hs, ht⟩ := run_cons h
    by_cases he : e = .expire
    · subst he
      refine ⟨[], es, s₀, rfl, rfl, ?_⟩
      simp only [Live.step] at hs
      split at hs
      · rename_i hu hq; exact ⟨hq, hu⟩
      · cases hs
    · have key : RecvResult.noPackets ∉ t.results ∧ t.user ≠ .expired := by
        cases e with
        | arrive f => cases hs; exact ⟨h1, h2⟩
        | call v =>
          simp only [Live.step] at hs
          split at hs
          · split at hs
            · cases hs; exact ⟨h1, by simp⟩
            · split at hs
              · cases hs; exact ⟨by simpa using h1, h2⟩
              · cases hs; exact ⟨h1, by simp⟩
          · cases hs
        | take =>
          simp only [Live.step] at hs
          split at hs
          · cases hs; exact ⟨h1, by simp⟩
          · cases hs
        | expire => exact absurd rfl he
        | check =>
          simp only [Live.step] at hs
          split at hs
          · split at hs
            · cases hs; exact ⟨h1, by simp⟩
            · cases hs; exact ⟨by simpa using h1, by simp⟩
          · cases hs
        | decode =>
          simp only [Live.step] at hs
          split at hs
          · cases hs; exact ⟨h1, by simp⟩
          · split at hs
            · cases hs; exact ⟨h1, by simp⟩
            · rename_i r hr
              cases hs
              refine ⟨?_, by simp⟩
              have := result_fromFrame hr
              simp only [List.mem_append, List.mem_singleton, not_or]
              exact ⟨h1, by rintro rfl; cases this⟩
          · cases hs
        | look =>
          simp [Live.step, h2] at hs
        | sigint => cases hs; exact ⟨h1, h2⟩
        | sigSize =>
          simp only [Live.step] at hs
          split at hs
          · cases hs; exact ⟨h1, h2⟩
          · cases hs
        | sigPut =>
          simp only [Live.step] at hs
          split at hs
          · cases hs; exact ⟨h1, h2⟩
          · cases hs
        | stop => cases hs; exact ⟨h1, h2⟩
      obtain ⟨es₁, es₂, u, e1, e2, e3⟩ := ih t ht key.1 key.2 h3
      refine ⟨e :: es₁, es₂, u, by rw [e1]; rfl, ?_, e3⟩
      simp [Live.run, hs, e2]

/-- After `SIGINT`: nothing that would make `recv_packet` return has been lost. -/
def SigInv (s : Live) : Prop :=
  (s.sig ≠ .never → s.running = false) ∧
  (s.sig = .finished → s.queue ≠ [] ∨ (∃ t x, s.user = .got t x) ∨ .shutdown ∈ s.results)

theorem sigInv_step (s s' : Live) (e : LiveEv) (h : SigInv s) (hs : s.step e = some s') : SigInv s' := by
  obtain ⟨h1, h2⟩ := h
  obtain ⟨queue, running, user, sig, arrived, results⟩ := s
  simp only at h1 h2
  cases e with
  | arrive f => cases hs; exact ⟨h1, fun _ => .inl (by simp)⟩
  | call t =>
    simp only [Live.step] at hs
    split at hs
    · rename_i hu
      subst hu
      have h2' : sig = .finished → queue ≠ [] ∨ RecvResult.shutdown ∈ results := by
        intro h; rcases h2 h with h | ⟨_, _, h⟩ | h
        · exact .inl h
        · cases h
        · exact .inr h
      split at hs
      · cases hs; exact ⟨h1, fun h => (h2' h).imp id .inr⟩
      · split at hs
        · cases hs; exact ⟨h1, fun h => (h2' h).imp id fun h => .inr (by simp [h])⟩
        · cases hs; exact ⟨h1, fun h => (h2' h).imp id .inr⟩
    · cases hs
  | take =>
    simp only [Live.step] at hs
    split at hs
    · rename_i t x q
      cases hs; exact ⟨h1, fun _ => .inr (.inl ⟨t, x, rfl⟩)⟩
    · cases hs
  | expire =>
    simp only [Live.step] at hs
    split at hs
    · cases hs
      refine ⟨h1, fun h => ?_⟩
      rcases h2 h with h | ⟨_, _, h⟩ | h
      · exact absurd rfl h
      · cases h
      · exact .inr (.inr h)
    · cases hs
  | check =>
    simp only [Live.step] at hs
    split at hs
    · split at hs
      · rename_i hr
        cases hs
        refine ⟨h1, fun h => ?_⟩
        simp only at h
        have := h1 (by simp [h])
        rw [this] at hr
        cases hr
      · cases hs
        exact ⟨h1, fun _ => .inr (.inr (by simp))⟩
    · cases hs
  | decode =>
    have h2' : (∃ t x, user = .decoding t x) → sig = .finished → queue ≠ [] ∨ RecvResult.shutdown ∈ results := by
      rintro ⟨t, x, rfl⟩ h; rcases h2 h with h | ⟨_, _, h⟩ | h
      · exact .inl h
      · cases h
      · exact .inr h
    simp only [Live.step] at hs
    split at hs
    · cases hs; exact ⟨h1, fun h => (h2' ⟨_, _, rfl⟩ h).imp id .inr⟩
    · split at hs
      · cases hs; exact ⟨h1, fun h => (h2' ⟨_, _, rfl⟩ h).imp id .inr⟩
      · cases hs; exact ⟨h1, fun h => (h2' ⟨_, _, rfl⟩ h).imp id fun h => .inr (by simp [h])⟩
    · cases hs
  | look =>
    simp only [Live.step] at hs
    split at hs
    · cases hs
      refine ⟨h1, fun h => ?_⟩
      rcases h2 h with h | ⟨_, _, h⟩ | h
      · exact .inl h
      · cases h
      · exact .inr (.inr (by simp [h]))
    · cases hs
  | sigint => cases hs; exact ⟨fun _ => rfl, fun h => by cases h⟩
  | sigSize =>
    simp only [Live.step] at hs
    split at hs
    · rename_i hsig
      cases hs
      refine ⟨fun _ => h1 (by simp [hsig]), fun h => ?_⟩
      simp only at h
      split at h
      · cases h
      · rename_i hq; exact .inl hq
    · cases hs
  | sigPut =>
    simp only [Live.step] at hs
    split at hs
    · rename_i hsig
      cases hs
      exact ⟨fun _ => h1 (by simp [hsig]), fun _ => .inl (by simp)⟩
    · cases hs
  | stop => cases hs; exact ⟨fun _ => rfl, h2⟩

/-- `SIGINT` wakes a blocked call: once the handler has run and no call has raised `Shutdown` yet, a call
waiting for a packet finds something in the queue, and the next two steps make it raise `Shutdown`. -/
theorem sigint_unblocks (es : List LiveEv) (s : Live) (t : Bool) (h : Live.init.run es = some s)
    (hsig : s.sig = .finished) (hu : s.user = .getting t) (hn : RecvResult.shutdown ∉ s.results) :
    ∃ s', s.run [.take, .check] = some s' ∧ s'.results = s.results ++ [.shutdown] := by
  have hi : SigInv s := live_invariant sigInv_step ⟨by simp [Live.init], by simp [Live.init]⟩ h
  obtain ⟨h1, h2⟩ := hi
  have hr := h1 (by simp [hsig])
  have hq := h2 hsig
  obtain ⟨queue, running, user, sig, arrived, results⟩ := s
  simp only at hsig hu hr hq hn
  subst hsig hu hr
  rcases hq with hq | ⟨_, _, hq⟩ | hq
  · cases queue with
    | nil => exact absurd rfl hq
    | cons x q => exact ⟨_, rfl, rfl⟩
  · cases hq
  · exact absurd hq hn

/-- An Ethernet frame of a type for which there is no header class. -/
def exFrame (ts : Nat) : Frame := ⟨"eth0".toList, 1, ts, List.replicate 12 7 ++ [0x08, 0x42]⟩

/-- A receiver thread, user code and the signal handler interleaved: the first frame is returned, one of a
link type without decoder is passed over, the call blocked in `get` ends with `Shutdown`. -/
example : ∃ s p, Live.init.run [.call none, .arrive (exFrame 1), .take, .check, .arrive ⟨"w".toList, 105, 2, []⟩, .decode,
    .call (some 5), .take, .check, .decode, .sigint, .sigSize, .sigPut, .take, .check] = some s ∧
    s.results = [.packet 1 "eth0".toList p, .shutdown] ∧ p.length = 1 := by
  refine ⟨_, ?p, rfl, ?_, ?_⟩
  case p => exact [.hdr (.eth ⟨⟨List.replicate 6 7⟩, ⟨List.replicate 6 7⟩, 0x0842⟩)]
  · decide +kernel
  · rfl

/-- Raises `Shutdown` once stopped: only the first call after `SIGINT` does.  The dummy in the queue is
gone then, and a second call without timeout waits forever: of the steps of user code none is possible. -/
theorem recv_after_shutdown_violated : ∃ es s, Live.init.run es = some s ∧ s.running = false ∧
    s.results = [.shutdown] ∧ s.user = .getting false ∧ s.sig = .finished ∧
    ∀ e, (e = .take ∨ e = .expire ∨ e = .check ∨ e = .decode ∨ e = .look ∨ ∃ v, e = .call v) → s.step e = none := by
  refine ⟨[.sigint, .sigSize, .sigPut, .call none, .take, .check, .call none], _, rfl, rfl, rfl, rfl, rfl, ?_⟩
  rintro e (rfl | rfl | rfl | rfl | rfl | ⟨v, rfl⟩) <;> rfl

/-- Nor does `shutdown()` from another thread wake a call that is blocked. -/
theorem stop_unblocks_violated : ∃ es s, Live.init.run es = some s ∧ s.running = false ∧
    s.user = .getting false ∧ s.results = [] ∧
    ∀ e, (e = .take ∨ e = .expire ∨ e = .check ∨ e = .decode ∨ e = .look ∨ ∃ v, e = .call v) → s.step e = none := by
  refine ⟨[.call none, .stop], _, rfl, rfl, rfl, rfl, ?_⟩
  rintro e (rfl | rfl | rfl | rfl | rfl | ⟨v, rfl⟩) <;> rfl

/-! ## C95: sending -/

/-- The three ways of naming an interface agree: by the object, its name or its number (if no two
interfaces have the same number). -/
theorem send_naming (n : NetBase) (h : NetOk n) (hnum : ∀ x ∈ n.devinfo, ∀ y ∈ n.devinfo, x.2.ifnum = y.2.ifnum → x = y)
    (i : Iface) (hi : i ∈ n.interfaces) (p : Packet) :
    sendReal n (.name i.name) p = sendReal n (.intf i) p ∧ sendReal n (.num i.ifnum) p = sendReal n (.intf i) p := by
  obtain ⟨⟨k, v⟩, hx, e⟩ := List.mem_map.mp hi
  simp only at e
  subst e
  have hk := h.2 _ hx
  simp only at hk
  subst hk
  have hg := Dict.get?_of_mem h.1 hx
  have h1 : sendTarget n (.name v.name) = .ok (v, v.name) := by
    simp only [sendTarget, hg]
  have h2 : sendTarget n (.num v.ifnum) = .ok (v, v.name) := by
    simp only [sendTarget, NetBase.lookupDevname]
    cases hf : n.devinfo.find? (fun x => x.2.ifnum = v.ifnum) with
    | none => have := List.find?_eq_none.mp hf _ hx; simp at this
    | some y =>
      have := hnum y (List.mem_of_find?_eq_some hf) _ hx (by simpa using List.find?_some hf)
      subst this
      rw [bind_ok]
      simp only [hg]
  unfold sendReal
  rw [h1, h2]
  exact ⟨rfl, rfl⟩

/-- On a device that is not a loopback device, exactly what `to_bytes` returns is sent, on that device, and
the packet is as `to_bytes` leaves it; a packet that cannot be serialised is not sent, and nor is one that cannot be
printed. -/
theorem send_exact (n : NetBase) (h : NetOk n) (i : Iface) (hi : i ∈ n.interfaces) (hl : i.iftype ≠ .loopback)
    (p : Packet) :
    (sendReal n (.intf i) p).1 = p.toBytes.1 ∧
    (∀ d b, (sendReal n (.intf i) p).2 = .ok (d, b) ↔ d = i.name ∧ p.toBytes.2 = .ok b ∧ PrintablePkt p) ∧
    (∀ e, (sendReal n (.intf i) p).2 = .error e ↔
      p.toBytes.2 = .error e ∨ (∃ b, p.toBytes.2 = .ok b) ∧ ¬ PrintablePkt p ∧ e = .attributeError) := by
  obtain ⟨⟨k, v⟩, hx, e⟩ := List.mem_map.mp hi
  simp only at e
  subst e
  have hk := h.2 _ hx
  simp only at hk
  subst hk
  have hg := Dict.get?_of_mem h.1 hx
  have : sendReal n (.intf v) p =
      (p.toBytes.1, p.toBytes.2 >>= fun b => p.toBytes.1.str >>= fun _ => .ok (v.name, b)) := by
    simp only [sendReal, sendTarget, if_neg hl, hg]
  rw [this]
  cases hb : p.toBytes.2 with
  | error e => simp [bind_error]
  | ok b' =>
    rw [str_after_bytes p p.toBytes.1 b' (Prod.ext rfl hb)]
    obtain ⟨h1, h2⟩ := packet_str_partial p
    by_cases hp : PrintablePkt p
    · obtain ⟨t, ht⟩ := h1.mpr hp
      refine ⟨rfl, fun d b => ?_, fun e => ?_⟩
      · simp only [ht, bind_ok, Except.ok.injEq, Prod.mk.injEq, hp, and_true]
        constructor
        · rintro ⟨rfl, rfl⟩; exact ⟨rfl, rfl⟩
        · rintro ⟨rfl, rfl⟩; exact ⟨rfl, rfl⟩
      · simp [ht, bind_ok, hp]
    · refine ⟨rfl, fun d b => ?_, fun e => ?_⟩
      · simp [h2.mpr hp, bind_ok, bind_error, hp]
      · simp only [h2.mpr hp, bind_ok, bind_error, hp, Except.error.injEq]
        constructor
        · rintro rfl; exact .inr ⟨⟨_, rfl⟩, not_false, rfl⟩
        · rintro (e | ⟨_, _, rfl⟩)
          · cases e
          · rfl

/-- A packet with a router advertisement is never sent on such a device: `AttributeError` is raised, if it can be
serialised at all. -/
theorem send_advertisement_violated (n : NetBase) (h : NetOk n) (i : Iface) (hi : i ∈ n.interfaces)
    (hl : i.iftype ≠ .loopback) (p p' : Packet) (b : Bytes) (hb : p.toBytes = (p', .ok b)) (t c s : Nat)
    (hop rl re rt : Int) (f o hh q : Bool) (os : List NDOpt) (w : Bytes)
    (hm : .hdr (.icmp6 ⟨t, c, .ra hop f o hh q rl re rt os w, s⟩) ∈ p) :
    (sendReal n (.intf i) p).2 = .error .attributeError :=
  ((send_exact n h i hi hl p).2.2 _).mpr (.inr ⟨⟨b, by rw [hb]⟩, (packet_str_partial p).2.mp
    (advertisement_str_violated p t c s hop rl re rt f o hh q os w hm), rfl⟩)

/-- Sending the same packet object again, on any such device, sends the same bytes. -/
theorem send_again (n : NetBase) (h : NetOk n) (i j : Iface) (hi : i ∈ n.interfaces) (hj : j ∈ n.interfaces)
    (hl : i.iftype ≠ .loopback) (hl' : j.iftype ≠ .loopback) (p : Packet) (b : Bytes)
    (hs : (sendReal n (.intf i) p).2 = .ok (i.name, b)) :
    (sendReal n (.intf j) (sendReal n (.intf i) p).1).2 = .ok (j.name, b) := by
  obtain ⟨h1, h2, _⟩ := send_exact n h i hi hl p
  obtain ⟨_, hb, hp⟩ := (h2 _ _).mp hs
  have e : p.toBytes = (p.toBytes.1, .ok b) := by rw [← hb]
  rw [h1, (send_exact n h j hj hl' _).2.1 j.name b]
  refine ⟨rfl, ?_, ?_⟩
  · rw [packet_idempotent _ _ _ e]
  · rw [← (packet_str_partial _).1] at hp ⊢
    rw [str_after_bytes _ _ _ e]
    exact hp

/-- A name that is not registered is refused with `ValueError`, and nothing happens to the packet. -/
theorem send_unknown (n : NetBase) (h : NetOk n) (name : List Char) (p : Packet) (hn : ∀ i ∈ n.interfaces, i.name ≠ name) :
    sendReal n (.name name) p = (p, .error .valueError) := by
  have : n.devinfo.get? name = none := by
    cases hg : n.devinfo.get? name with
    | none => rfl
    | some i =>
      have hm := Dict.mem_of_get? hg
      exact absurd (h.2 _ hm) (hn _ (List.mem_map.mpr ⟨_, hm, rfl⟩))
  simp only [sendReal, sendTarget, this]

/-- A network with a wired and a loopback interface. -/
def exNet : NetBase :=
  ⟨none, [("eth0".toList, ⟨"eth0".toList, ⟨[0, 0, 0, 0, 0, 1]⟩, [], 0, .wired⟩),
    ("eth1".toList, ⟨"eth1".toList, ⟨[0, 0, 0, 0, 0, 2]⟩, [], 1, .wired⟩),
    ("lo".toList, ⟨"lo".toList, ⟨[0, 0, 0, 0, 0, 0]⟩, [], 2, .loopback⟩)], []⟩

theorem exNet_ok : NetOk exNet := by decide

example : NetOk exNet ∧ (∀ x ∈ exNet.devinfo, ∀ y ∈ exNet.devinfo, x.2.ifnum = y.2.ifnum → x = y) ∧
    ∃ i b, i ∈ exNet.interfaces ∧ i.iftype ≠ .loopback ∧ (sendReal exNet (.intf i) exPacket).2 = .ok (i.name, b) ∧ b.length = 44 := by
  obtain ⟨p', b, h, hb⟩ := exPacket_ok
  refine ⟨exNet_ok, by decide, ⟨"eth0".toList, ⟨[0, 0, 0, 0, 0, 1]⟩, [], 0, .wired⟩, b, by decide, by decide, ?_, hb⟩
  exact ((send_exact _ exNet_ok _ (by decide) (by decide) _).2.1 _ _).mpr ⟨rfl, by rw [h], by
    intro k hk
    simp only [exPacket, List.mem_cons, Item.hdr.injEq, List.not_mem_nil, or_false] at hk
    rcases hk with rfl | rfl | rfl | rfl <;> trivial⟩

/-- Sending leaves the packet alone: not on a loopback device, where the Ethernet header is deleted from
the caller's packet, for every packet that has one before an IPv4 header and can be sent. -/
theorem send_mutates_violated (n : NetBase) (h : NetOk n) (i : Iface) (hi : i ∈ n.interfaces) (hl : i.iftype = .loopback)
    (e : Ethernet) (p : Packet) (b : Bytes) (hs : (sendReal n (.intf i) (.hdr (.eth e) :: p)).2 = .ok (i.name, b)) :
    (sendReal n (.intf i) (.hdr (.eth e) :: p)).1.length = p.length ∧ p.toBytes.2 = .ok b := by
  obtain ⟨⟨k, v⟩, hx, e'⟩ := List.mem_map.mp hi
  simp only at e'
  subst e'
  have hk := h.2 _ hx
  simp only at hk
  subst hk
  have hg := Dict.get?_of_mem h.1 hx
  have hd : Packet.dropLink (.hdr (.eth e) :: p) = p := rfl
  have he : sendReal n (.intf v) (.hdr (.eth e) :: p) =
      ((rawSend (.hdr (.eth e) :: p)).1, (fun b => (v.name, b)) <$> (rawSend (.hdr (.eth e) :: p)).2) := by
    simp only [sendReal, sendTarget, if_pos hl, hg]
  rw [he] at hs ⊢
  unfold rawSend at hs ⊢
  rw [if_neg (by simp), hd] at hs ⊢
  split at hs
  · rename_i hf
    rw [if_pos hf]
    simp only at hs ⊢
    cases hb : p.toBytes.2 with
    | error e => rw [hb] at hs; cases hs
    | ok b' =>
      rw [hb, bind_ok] at hs
      unfold rawVersion at hs
      split at hs
      · cases hs
        refine ⟨?_, rfl⟩
        obtain ⟨_, _, _, h3, _⟩ := packet_compositional p _ b (Prod.ext rfl hb)
        exact h3
      · cases hs
  · cases hs

example : ∃ i b, i ∈ exNet.interfaces ∧ i.iftype = .loopback ∧ (sendReal exNet (.intf i) exPacket).2 = .ok (i.name, b) ∧
    (sendReal exNet (.intf i) exPacket).1.length = 3 ∧ b.length = 30 := by
  have h : ∃ r, (sendReal exNet (.intf ⟨"lo".toList, ⟨[0, 0, 0, 0, 0, 0]⟩, [], 2, .loopback⟩) exPacket).2 = .ok r ∧
      (decide (r.1 = "lo".toList) && r.2.length == 30) = true := Except.of_test (by decide +kernel)
  obtain ⟨⟨d, b⟩, h1, h2⟩ := h
  simp only [Bool.and_eq_true, decide_eq_true_eq, beq_iff_eq] at h2
  obtain ⟨rfl, h2⟩ := h2
  exact ⟨_, b, by decide, rfl, h1, (send_mutates_violated _ exNet_ok _ (by decide) rfl _ _ _ h1).1, h2⟩

/-- An interface object that was never registered is not refused with `ValueError`: whatever it is,
`AttributeError` is raised when the packet itself is all right. -/
theorem send_unregistered_violated (n : NetBase) (i : Iface) (p p' : Packet) (b : Bytes)
    (hn : n.devinfo.get? i.name = none) (hb : p.toBytes = (p', .ok b)) :
    (sendReal n (.intf i) p).2 = .error .attributeError := by
  simp only [sendReal, sendTarget, hn, hb]
  split
  · rfl
  · rw [bind_ok, str_after_bytes _ _ _ hb]
    by_cases hp : PrintablePkt p
    · obtain ⟨t, ht⟩ := (packet_str_partial p).1.mpr hp
      rw [ht, bind_ok]
    · rw [(packet_str_partial p).2.mpr hp, bind_error]

/-! ## C96: addresses of the interfaces -/

/-- Every configured address is an address of the interface, and it has no others. -/
theorem assembled_addresses (dev : List Char) (num : Int) (ty : IfType) (l : List AddrInfo) (i : Iface)
    (h : assembleIntf dev num ty l = .ok i) (a : IPAddr) :
    (∃ n, (⟨a, n⟩ : IPIface) ∈ i.ips) ↔
      (∃ x m, AddrInfo.inet x m ∈ l ∧ a = .v4 x) ∨ (∃ x m, AddrInfo.inet6 x m ∈ l ∧ a = .v6 x) := by
  unfold assembleIntf at h
  obtain ⟨mac, -, h'⟩ := bind_eq_ok.mp h
  clear h
  cases h'
  have key : ∀ (xs : List IPIface) (i : Iface) (x : IPIface), x ∈ (xs.foldl Iface.addIp i).ips ↔ x ∈ i.ips ∨ x ∈ xs := by
    intro xs
    induction xs with
    | nil => simp
    | cons y ys ih =>
      intro i x
      rw [List.foldl_cons, ih]
      unfold Iface.addIp
      split
      · rename_i hy
        simp only [List.mem_cons]
        constructor
        · rintro (h | h) <;> simp [h]
        · rintro (h | rfl | h)
          · exact .inl h
          · exact .inl hy
          · exact .inr h
      · simp [or_assoc]
  simp only [key, List.not_mem_nil, false_or]
  induction l with
  | nil => simp [assembleAddrs]
  | cons y l ih =>
    cases y with
    | inet x m =>
      simp only [assembleAddrs, List.mem_cons, IPIface.mk.injEq, exists_or, ih, AddrInfo.inet.injEq]
      constructor
      · rintro (⟨n, rfl, -⟩ | (⟨z, k, hz, rfl⟩ | ⟨z, k, hz, rfl⟩))
        · exact .inl ⟨x, m, .inl ⟨rfl, rfl⟩, rfl⟩
        · exact .inl ⟨z, k, .inr hz, rfl⟩
        · exact .inr ⟨z, k, .inr hz, rfl⟩
      · rintro (⟨z, k, ⟨rfl, rfl⟩ | hz, rfl⟩ | ⟨z, k, hz | hz, rfl⟩)
        · exact .inl ⟨_, rfl, rfl⟩
        · exact .inr (.inl ⟨z, k, hz, rfl⟩)
        · cases hz
        · exact .inr (.inr ⟨z, k, hz, rfl⟩)
    | inet6 x m =>
      simp only [assembleAddrs, List.mem_cons, IPIface.mk.injEq, exists_or, ih, AddrInfo.inet6.injEq]
      constructor
      · rintro (⟨n, rfl, -⟩ | (⟨z, k, hz, rfl⟩ | ⟨z, k, hz, rfl⟩))
        · exact .inr ⟨x, m, .inl ⟨rfl, rfl⟩, rfl⟩
        · exact .inl ⟨z, k, .inr hz, rfl⟩
        · exact .inr ⟨z, k, .inr hz, rfl⟩
      · rintro (⟨z, k, hz | hz, rfl⟩ | ⟨z, k, ⟨rfl, rfl⟩ | hz, rfl⟩)
        · cases hz
        · exact .inr (.inl ⟨z, k, hz, rfl⟩)
        · exact .inl ⟨_, rfl, rfl⟩
        · exact .inr (.inr ⟨z, k, hz, rfl⟩)
    | link t =>
      simp only [assembleAddrs, ih, List.mem_cons]
      constructor
      · rintro (⟨z, k, hz, rfl⟩ | ⟨z, k, hz, rfl⟩)
        · exact .inl ⟨z, k, .inr hz, rfl⟩
        · exact .inr ⟨z, k, .inr hz, rfl⟩
      · rintro (⟨z, k, hz | hz, rfl⟩ | ⟨z, k, hz | hz, rfl⟩)
        · cases hz
        · exact .inl ⟨z, k, hz, rfl⟩
        · cases hz
        · exact .inr ⟨z, k, hz, rfl⟩

/-- The prefix lengths are those configured: never, except for a full-length mask.  Whatever the masks,
every prefix length is that of a single host. -/
theorem assembled_prefix_violated (dev : List Char) (num : Int) (ty : IfType) (l : List AddrInfo) (i : Iface)
    (h : assembleIntf dev num ty l = .ok i) (x : IPIface) (hx : x ∈ i.ips) :
    (∃ a, x = ⟨.v4 a, 32⟩) ∨ (∃ a, x = ⟨.v6 a, 128⟩) := by
  unfold assembleIntf at h
  obtain ⟨mac, -, h'⟩ := bind_eq_ok.mp h
  clear h
  cases h'
  have key : ∀ (xs : List IPIface) (i : Iface) (x : IPIface), x ∈ (xs.foldl Iface.addIp i).ips → x ∈ i.ips ∨ x ∈ xs := by
    intro xs
    induction xs with
    | nil => simp
    | cons y ys ih =>
      intro i x h
      rcases ih _ _ h with h | h
      · unfold Iface.addIp at h
        split at h
        · exact .inl h
        · rcases List.mem_append.mp h with h | h
          · exact .inl h
          · exact .inr (by simp_all)
      · exact .inr (by simp [h])
  rcases key _ _ _ hx with h | h
  · cases h
  · clear hx key
    induction l with
    | nil => cases h
    | cons y l ih =>
      cases y with
      | inet a m =>
        rcases List.mem_cons.mp h with rfl | h
        · exact .inl ⟨a, rfl⟩
        · exact ih h
      | inet6 a m =>
        rcases List.mem_cons.mp h with rfl | h
        · exact .inr ⟨a, rfl⟩
        · exact ih h
      | link t => exact ih h

/-- 10.0.0.1 with the mask of a /24 network. -/
example : ∃ i, assembleIntf "eth0".toList 2 .wired [.link "02:00:00:00:00:01".toList, .inet 0x0a000001 0xffffff00] = .ok i ∧
    (decide (i.ips = [⟨.v4 0x0a000001, 32⟩]) && decide (i.ethaddr.raw = [2, 0, 0, 0, 0, 1])) = true :=
  Except.of_test (by decide +kernel)

/-! ## C74: the hub -/

theorem macIn_spec (a : EthAddr) (ha : a.raw ≠ []) (l : List EthAddr) : macIn a l = .ok (decide (a ∈ l)) := by
  induction l with
  | nil => simp [macIn]
  | cons b l ih =>
    have : b.eqArg (.addr a) = .ok (decide (b = a)) := by
      unfold EthAddr.eqArg
      rw [EthAddr.mk'_addr ha]
      obtain ⟨r⟩ := a
      obtain ⟨s⟩ := b
      simp
    rw [macIn, this, bind_ok, ih]
    by_cases h : b = a
    · simp [h]
    · have : a ≠ b := fun e => h e.symm
      simp [h, this]

/-- The Ethernet destination of a packet: that of its first Ethernet header. -/
def ethDst (p : Packet) : Option EthAddr :=
  p.findSome? fun it => match it with
    | .hdr (.eth h) => some h.dst
    | _ => none

theorem getHeader_eth (p : Packet) :
    (∃ h, p.getHeader .eth = some (.hdr (.eth h)) ∧ ethDst p = some h.dst) ∨ (p.getHeader .eth = none ∧ ethDst p = none) := by
  induction p with
  | nil => exact .inr ⟨rfl, rfl⟩
  | cons x p ih =>
    have skip : x.isA .eth = false → (ethDst (x :: p) = ethDst p) →
        (∃ h, Packet.getHeader (x :: p) .eth = some (.hdr (.eth h)) ∧ ethDst (x :: p) = some h.dst) ∨
        (Packet.getHeader (x :: p) .eth = none ∧ ethDst (x :: p) = none) := by
      intro h1 h2
      rw [h2]
      have : Packet.getHeader (x :: p) .eth = Packet.getHeader p .eth := by
        unfold Packet.getHeader; rw [List.find?_cons, h1]
      rw [this]; exact ih
    cases x with
    | bytes b => exact skip rfl rfl
    | other n => exact skip rfl rfl
    | hdr h =>
      cases h with
      | eth h => exact .inl ⟨h, rfl, rfl⟩
      | _ => exact skip rfl rfl

/-- What the hub does with one packet: nothing, if it is not an Ethernet packet or is addressed to the hub;
otherwise it is sent to exactly those interfaces that do not have the name of the input device, each once,
in order. -/
theorem hub_targets (ifs : List Iface) (dev : List Char) (p : Packet) (hd : ∀ a, ethDst p = some a → a.raw ≠ [])
    (hp : PrintablePkt p) :
    ∃ out, hubTargets ifs dev p = .ok out ∧
      (ethDst p = none → out = []) ∧
      (∀ a, ethDst p = some a → (∃ i ∈ ifs, i.ethaddr = a) → out = []) ∧
      (∀ a, ethDst p = some a → (∀ i ∈ ifs, i.ethaddr ≠ a) →
        out.Sublist ifs ∧ ∀ i, out.count i = if i.name = dev then 0 else ifs.count i) := by
  obtain ⟨t, ht⟩ := (packet_str_partial p).1.mpr hp
  rcases getHeader_eth p with ⟨h, h1, h2⟩ | ⟨h1, h2⟩
  · have hne := hd _ h2
    simp only [hubTargets, ht, h1, macIn_spec _ hne, bind_ok, decide_eq_true_eq, h2]
    split
    · rename_i hm
      refine ⟨[], rfl, (by simp), fun _ _ _ => rfl, fun a e hall => ?_⟩
      cases e
      obtain ⟨i, hi, e⟩ := List.mem_map.mp hm
      exact absurd e (hall i hi)
    · rename_i hm
      refine ⟨_, rfl, (by simp), fun a e ⟨i, hi, e'⟩ => ?_, fun a e _ => ⟨List.filter_sublist, fun i => ?_⟩⟩
      · cases e
        exact absurd (List.mem_map.mpr ⟨i, hi, e'⟩) hm
      · split
        · rename_i hn
          rw [List.count_eq_zero]
          simp [hn]
        · rename_i hn
          exact List.count_filter (by simpa using fun e => hn e.symm)
  · refine ⟨[], by simp only [hubTargets, ht, h1, bind_ok], fun _ => rfl, fun a e => ?_, fun a e => ?_⟩ <;> rw [h2] at e <;> cases e

/-- The packets of a sequence of results before `Shutdown`. -/
def packetsOf : List RecvResult → List (List Char × Packet)
  | .packet _ dev p :: rs => (dev, p) :: packetsOf rs
  | .noPackets :: rs => packetsOf rs
  | _ => []

/-- The whole run of the hub: the packets received are dealt with one after the other, in order of
arrival, and the hub returns at the first `Shutdown`. -/
theorem hub_run (ifs : List Iface) (rs : List RecvResult) (more : List RecvResult)
    (hrs : ∀ r ∈ rs, r = .noPackets ∨ ∃ ts dev p, r = .packet ts dev p ∧ PrintablePkt p ∧
      ∀ a, ethDst p = some a → a.raw ≠ []) :
    ∃ outs : List (List Iface),
      (packetsOf rs).map (fun x => hubTargets ifs x.1 x.2) = outs.map .ok ∧
      hubRun ifs rs = ((List.zipWith (fun (x : List Char × Packet) is => is.map fun i => (i, x.2)) (packetsOf rs) outs).flatten, .waiting) ∧
      hubRun ifs (rs ++ .shutdown :: more) =
        ((List.zipWith (fun (x : List Char × Packet) is => is.map fun i => (i, x.2)) (packetsOf rs) outs).flatten, .returned) := by
  induction rs with
  | nil => exact ⟨[], rfl, rfl, rfl⟩
  | cons r rs ih =>
    obtain ⟨outs, h1, h2, h3⟩ := ih fun r hr => hrs r (by simp [hr])
    rcases hrs r (by simp) with rfl | ⟨ts, dev, p, rfl, hp, hd⟩
    · exact ⟨outs, h1, h2, h3⟩
    · obtain ⟨out, ho, -⟩ := hub_targets ifs dev p hd hp
      refine ⟨out :: outs, ?_, ?_, ?_⟩
      · simp only [packetsOf, List.map_cons, ho, h1]
      · simp only [hubRun, ho, h2, packetsOf, List.zipWith_cons_cons, List.flatten_cons]
      · simp only [List.cons_append, hubRun, ho, h3, packetsOf, List.zipWith_cons_cons, List.flatten_cons]

example : ∃ is, hubTargets exNet.interfaces "eth0".toList exPacket = .ok is ∧
    (is.map Iface.name == ["eth1".toList, "lo".toList]) = true := Except.of_test (by decide +kernel)

/-- The hub stops, raising `AttributeError`, at the first packet that cannot be printed, such as a router
advertisement. -/
theorem hub_advertisement_violated (ifs : List Iface) (ts : Nat) (dev : List Char) (p : Packet)
    (rs : List RecvResult) (hp : ¬ PrintablePkt p) :
    hubRun ifs (.packet ts dev p :: rs) = ([], .crashed .attributeError) := by
  simp only [hubRun, hubTargets, (packet_str_partial p).2.mpr hp, bind_error]

/-- A router advertisement as it comes from the network. -/
def exAdvert : Packet :=
  [.hdr (.eth ⟨⟨[1, 2, 3, 4, 5, 6]⟩, ⟨[2, 0, 0, 0, 0, 1]⟩, 0x86dd⟩), .hdr (.ip6 ⟨0, 0, 255, 58, 0, 1, 2⟩),
   .hdr (.icmp6 ⟨134, 0, .ra 64 false false false false 1800 0 0 [] [], 0⟩)]

example : PrintablePkt exPacket ∧ ¬ PrintablePkt exAdvert ∧ ∃ b, exAdvert.toBytes.2 = .ok b ∧ (b.length == 70) = true :=
  ⟨(packet_str_partial _).1.mp ⟨_, rfl⟩,
    (packet_str_partial _).2.mp (advertisement_str_violated _ 134 0 0 64 1800 0 0 false false false false [] []
      (.tail _ (.tail _ (.head _)))),
    Except.of_test (by decide +kernel)⟩

/-- Flooding on a live network without loopback devices: every interface gets the same bytes, exactly those
of the packet. -/
theorem flood_exact (n : NetBase) (h : NetOk n) (is : List Iface) (hi : ∀ i ∈ is, i ∈ n.interfaces)
    (hl : ∀ i ∈ is, i.iftype ≠ .loopback) (p p' : Packet) (b : Bytes) (hb : p.toBytes = (p', .ok b))
    (hp : PrintablePkt p) :
    floodReal n is p = .ok (is.map fun i => (i.name, b)) := by
  induction is generalizing p with
  | nil => rfl
  | cons i is ih =>
    obtain ⟨h1, h2, -⟩ := send_exact n h i (hi i (by simp)) (hl i (by simp)) p
    have hs := (h2 i.name b).mpr ⟨rfl, by rw [hb], hp⟩
    have hp' : PrintablePkt p' := by
      rw [← (packet_str_partial _).1] at hp ⊢
      rw [str_after_bytes _ _ _ hb]
      exact hp
    rw [floodReal, hs, bind_ok, h1, hb]
    simp only
    rw [ih (fun j hj => hi j (by simp [hj])) (fun j hj => hl j (by simp [hj])) p' (packet_idempotent p p' b hb) hp']
    rfl

/-- With a loopback device among them it is not so: the interfaces after it get the packet without its
Ethernet header. -/
theorem flood_loopback_violated : ∃ (n : NetBase) (is : List Iface) (p p' : Packet) (b c d : Bytes),
    NetOk n ∧ (∀ i ∈ is, i ∈ n.interfaces) ∧ p.toBytes = (p', .ok b) ∧
    floodReal n is p = .ok [("lo".toList, c), ("eth1".toList, d)] ∧ b.length = 44 ∧ d.length = 30 := by
  obtain ⟨p', b, h, hb⟩ := exPacket_ok
  have hx : ∃ r, floodReal exNet [⟨"lo".toList, ⟨[0, 0, 0, 0, 0, 0]⟩, [], 2, .loopback⟩,
      ⟨"eth1".toList, ⟨[0, 0, 0, 0, 0, 2]⟩, [], 1, .wired⟩] exPacket = .ok r ∧
      (match r with
        | [x, y] => decide (x.1 = "lo".toList) && decide (y.1 = "eth1".toList) && y.2.length == 30
        | _ => false) = true := Except.of_test (by decide +kernel)
  obtain ⟨r, h1, h2⟩ := hx
  split at h2
  · rename_i x y
    simp only [Bool.and_eq_true, decide_eq_true_eq, beq_iff_eq] at h2
    obtain ⟨⟨hx, hy⟩, hd⟩ := h2
    refine ⟨exNet, [⟨"lo".toList, ⟨[0, 0, 0, 0, 0, 0]⟩, [], 2, .loopback⟩,
      ⟨"eth1".toList, ⟨[0, 0, 0, 0, 0, 2]⟩, [], 1, .wired⟩], exPacket, p', b, x.2, y.2, exNet_ok, by decide, h, ?_, hb, hd⟩
    rw [h1, ← hx, ← hy]
  · cases h2

end SY.Props
