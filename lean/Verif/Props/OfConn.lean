import Verif.OfSwitch
import Verif.Props.OfMsg

/-! # Properties of the OpenFlow controller connection (C58, C124) -/

namespace SY.Props

/-! ## Sending -/

theorem sendLoop_inv {take : SendOracle} {raw : Bytes} {fuel k remain : Nat} {sent s : Bytes} {e : Option PyErr}
    (hr : remain ≤ raw.length) (hs : sent = raw.take (raw.length - remain))
    (h : sendLoop take raw fuel k remain sent = some (s, e)) :
    (∃ n, s = raw.take n) ∧ (e = none → s = raw) := by
  induction fuel generalizing k remain sent with
  | zero => simp [sendLoop] at h
  | succ fuel ih =>
    simp only [sendLoop] at h
    split at h
    · rename_i h0; subst h0; simp only [Option.some.injEq, Prod.mk.injEq] at h; obtain ⟨rfl, rfl⟩ := h
      subst hs; exact ⟨⟨_, rfl⟩, fun _ => by simp⟩
    · split at h
      · simp only [Option.some.injEq, Prod.mk.injEq] at h; obtain ⟨rfl, rfl⟩ := h
        exact ⟨⟨_, hs⟩, fun h => by simp at h⟩
      · rename_i rv _
        refine ih (by omega) ?_ h
        subst hs
        have : raw.length - (remain - min rv remain) = (raw.length - remain) + min rv remain := by omega
        rw [this, List.take_add]

/-- **C58**: whatever the socket takes at each call, what has been transmitted is an initial part of the
message, and all of it if the call returns normally. -/
theorem send_prefix (take : SendOracle) (raw : Bytes) (fuel : Nat) (sent : Bytes) (e : Option PyErr)
    (h : sendAll take raw fuel = some (sent, e)) : sent <+: raw ∧ (e = none → sent = raw) := by
  obtain ⟨⟨n, rfl⟩, h2⟩ := sendLoop_inv (Nat.le_refl _) (by simp) h
  exact ⟨List.take_prefix _ _, h2⟩

theorem sendLoop_ends {take : SendOracle} {raw : Bytes} (ht : ∀ k, ∃ n, take k = some n ∧ 0 < n)
    {fuel k remain : Nat} {sent : Bytes} (hf : remain < fuel) : ∃ s, sendLoop take raw fuel k remain sent = some (s, none) := by
  induction fuel generalizing k remain sent with
  | zero => omega
  | succ fuel ih =>
    simp only [sendLoop]
    split
    · exact ⟨_, rfl⟩
    · obtain ⟨n, hn, hp⟩ := ht k
      rw [hn]
      exact ih (by omega)

/-- **C58**: if every call takes at least one byte, the message is transmitted in at most one call for each
byte of it. -/
theorem send_completes (take : SendOracle) (raw : Bytes) (ht : ∀ k, ∃ n, take k = some n ∧ 0 < n) :
    sendAll take raw (raw.length + 1) = some (raw, none) := by
  obtain ⟨s, h⟩ := sendLoop_ends (raw := raw) (k := 0) (sent := []) ht (Nat.lt_succ_self raw.length)
  rw [sendAll, h, (send_prefix take raw _ s none h).2 rfl]

/-- Three bytes at a time. -/
example : sendAll (fun _ => some 3) [1, 2, 3, 4, 5, 6, 7, 8] 9 = some ([1, 2, 3, 4, 5, 6, 7, 8], none) := by decide
/-- An exception at the second call. -/
example : sendAll (fun k => if k = 0 then some 3 else none) [1, 2, 3, 4, 5] 9 = some ([1, 2, 3], some .osError) := by decide

/-- **C58** fails if the socket takes nothing: the sender never returns. -/
theorem send_stalls_violated (raw : Bytes) (h : raw ≠ []) (fuel : Nat) : sendAll (fun _ => some 0) raw fuel = none := by
  have hl : raw.length ≠ 0 := by simpa using h
  have : ∀ k s, sendLoop (fun _ => some 0) raw fuel k raw.length s = none := by
    induction fuel with
    | zero => intro _ _; rfl
    | succ n ih =>
      intro k s
      simp only [sendLoop, hl, if_false, Nat.zero_min, Nat.sub_zero, List.take_zero, List.append_nil]
      exact ih _ _
  exact this 0 []

/-- Whether every call takes all there is. -/
def WholeCalls : List (Bool × Nat) → Bytes → Bytes → Prop
  | [], _, _ => True
  | (true, n) :: cs, a, b => a.length ≤ n ∧ WholeCalls cs [] b
  | (false, n) :: cs, a, b => b.length ≤ n ∧ WholeCalls cs a []

theorem sendShared_done (cs : List (Bool × Nat)) (w : Bytes) : (sendShared cs ([], [], w)).2.2 = w := by
  induction cs generalizing w with
  | nil => rfl
  | cons c cs ih => obtain ⟨x, n⟩ := c; cases x <;> simp [sendShared, ih]

theorem sendShared_one (cs : List (Bool × Nat)) (a w : Bytes) (h : WholeCalls cs a []) (r : Bytes)
    (hr : sendShared cs (a, [], w) = ([], [], r)) : r = w ++ a := by
  induction cs generalizing a w with
  | nil => cases hr; simp
  | cons c cs ih =>
    obtain ⟨x, n⟩ := c
    cases x
    · simp only [sendShared, List.drop_nil, List.take_nil, List.append_nil] at hr
      exact ih a w h.2 hr
    · simp only [sendShared] at hr
      obtain ⟨h1, h2⟩ := h
      rw [List.drop_of_length_le h1, List.take_of_length_le h1] at hr
      have := sendShared_done cs (w ++ a)
      rw [hr] at this
      exact this

theorem sendShared_two (cs : List (Bool × Nat)) (b w : Bytes) (h : WholeCalls cs [] b) (r : Bytes)
    (hr : sendShared cs ([], b, w) = ([], [], r)) : r = w ++ b := by
  induction cs generalizing b w with
  | nil => cases hr; simp
  | cons c cs ih =>
    obtain ⟨x, n⟩ := c
    cases x
    · simp only [sendShared] at hr
      obtain ⟨h1, h2⟩ := h
      rw [List.drop_of_length_le h1, List.take_of_length_le h1] at hr
      have := sendShared_done cs (w ++ b)
      rw [hr] at this
      exact this
    · simp only [sendShared, List.drop_nil, List.take_nil, List.append_nil] at hr
      exact ih b w h.2 hr

/-- **C58**: two threads sending on one connection leave one whole message after the other on the wire,
provided that every call takes all bytes.  Missing: calls that take a part (`send_shared_violated`). -/
theorem send_shared_partial (cs : List (Bool × Nat)) (a b r : Bytes) (h : WholeCalls cs a b)
    (hr : sendShared cs (a, b, []) = ([], [], r)) : r = a ++ b ∨ r = b ++ a := by
  induction cs with
  | nil => cases hr; simp
  | cons c cs _ =>
    obtain ⟨x, n⟩ := c
    cases x
    · right
      obtain ⟨h1, h2⟩ := h
      simp only [sendShared, List.drop_of_length_le h1, List.take_of_length_le h1, List.nil_append] at hr
      exact sendShared_one cs a b h2 r hr
    · left
      obtain ⟨h1, h2⟩ := h
      simp only [sendShared, List.drop_of_length_le h1, List.take_of_length_le h1, List.nil_append] at hr
      exact sendShared_two cs b a h2 r hr

example : sendShared [(false, 9), (true, 9)] ([1, 2, 3], [4, 5], []) = ([], [], [4, 5, 1, 2, 3]) ∧
    WholeCalls [(false, 9), (true, 9)] [1, 2, 3] [4, 5] := by simp [sendShared, WholeCalls]

/-- **C58** fails for two threads when a call takes a part of a message: the other message gets into it. -/
theorem send_shared_violated :
    ∃ (cs : List (Bool × Nat)) (m n : OfMsg) (a b r : Bytes),
      m.toBytes.toOption.map Prod.snd = some a ∧ n.toBytes.toOption.map Prod.snd = some b ∧
      sendShared cs (a, b, []) = ([], [], r) ∧ r ≠ a ++ b ∧ r ≠ b ++ a :=
  ⟨[(true, 4), (false, 8), (true, 4)], .build 19 1 1, .build 0 2 1, [1, 19, 0, 8, 0, 0, 0, 1], [1, 0, 0, 8, 0, 0, 0, 2],
   [1, 19, 0, 8, 1, 0, 0, 8, 0, 0, 0, 2, 0, 0, 0, 1], by decide +kernel⟩

/-! ## Receiving -/

theorem parse_header {raw : Bytes} {m : OfMsg} (h : OfMsg.parse raw = .ok m) :
    8 ≤ raw.length ∧ headerLength raw = .ok m.hdr.length.toNat := by
  unfold OfMsg.parse at h
  unfold headerLength
  split at h
  · cases h
  · rename_i h8
    obtain ⟨fs, h1, h2⟩ := bind_eq_ok.mp h
    rw [if_neg h8, h1]
    refine ⟨by omega, ?_⟩
    rw [bind_ok]
    split at h2
    · obtain ⟨b, _, h3⟩ := bind_eq_ok.mp h2
      cases h3
      rfl
    · cases h2

theorem headerLength_take {raw : Bytes} (h : 8 ≤ raw.length) : headerLength (raw.take 8) = headerLength raw := by
  unfold headerLength
  rw [List.take_take]
  simp only [List.length_take, Nat.min_self]
  rw [if_neg (by omega), if_neg (by omega)]

theorem recv_some {w : Wire} {k : Nat} (h : w.size w.calls = some k) (n : Nat) :
    w.recv n = (⟨w.pending.drop (min n (k + 1)), w.size, w.calls + 1⟩, some (w.pending.take (min n (k + 1)))) := by
  unfold Wire.recv; rw [h]

theorem recvLoop_reads {fuel : Nat} {w : Wire} {remain : Nat} {data body rest : Bytes}
    (hs : ∀ k, w.size k ≠ none) (hp : w.pending = body ++ rest) (hb : body.length = remain) (hf : remain < fuel) :
    ∃ c, recvLoop fuel w remain data = some (⟨rest, w.size, c⟩, .ok (data ++ body)) := by
  induction fuel generalizing w remain data body with
  | zero => omega
  | succ fuel ih =>
    simp only [recvLoop]
    split
    · rename_i h0
      have : body = [] := List.length_eq_zero_iff.mp (by omega)
      subst this
      obtain ⟨p, sz, c⟩ := w
      simp only [List.nil_append] at hp
      subst hp
      exact ⟨c, by simp⟩
    · rename_i h0
      obtain ⟨k, hk⟩ := Option.ne_none_iff_exists'.mp (hs w.calls)
      rw [recv_some hk]
      have hl : min remain (k + 1) ≤ body.length := by omega
      have e : (body ++ rest).take (min remain (k + 1)) = body.take (min remain (k + 1)) :=
        List.take_append_of_le_length hl
      simp only [hp, e]
      obtain ⟨c, hc⟩ := ih (w := ⟨(body ++ rest).drop (min remain (k + 1)), w.size, w.calls + 1⟩)
        (remain := remain - (body.take (min remain (k + 1))).length) (data := data ++ body.take (min remain (k + 1)))
        (body := body.drop (min remain (k + 1))) hs (List.drop_append_of_le_length hl)
        (by rw [List.length_drop, List.length_take]; omega) (by rw [List.length_take]; omega)
      refine ⟨c, ?_⟩
      rw [hc]
      simp [List.append_assoc]

/-- **C58**: for every division of the stream into segments, one call takes exactly the bytes of one message
(as many as its header says) and leaves the rest.  Missing: a first segment shorter than a header
(`recv_short_header_violated`), an end of the stream inside a message (`recv_eof_violated`), a timeout inside
a message (`recv_timeout_violated`). -/
theorem recv_frames_partial (raw rest : Bytes) (w : Wire) (h8 : 8 ≤ raw.length)
    (hl : headerLength raw = .ok raw.length) (hp : w.pending = raw ++ rest) (hs : ∀ k, w.size k ≠ none)
    (hfirst : ∀ k, w.size w.calls = some k → 7 ≤ k) :
    ∃ calls, recvMsg (raw.length + 1) w = some (⟨rest, w.size, calls⟩, some <$> OfMsg.parse raw) := by
  obtain ⟨k, hk⟩ := Option.ne_none_iff_exists'.mp (hs w.calls)
  have hk7 := hfirst k hk
  unfold recvMsg
  rw [recv_some hk, hp]
  have e : min 8 (k + 1) = 8 := by omega
  have e2 : (raw ++ rest).take 8 = raw.take 8 := List.take_append_of_le_length h8
  have e3 : (raw ++ rest).drop 8 = raw.drop 8 ++ rest := List.drop_append_of_le_length h8
  rw [e, e2, e3]
  have hne : raw.take 8 ≠ [] := by
    intro h
    have := congrArg List.length h
    rw [List.length_take, List.length_nil] at this
    omega
  obtain ⟨c, hc⟩ := recvLoop_reads (fuel := raw.length + 1) (w := ⟨raw.drop 8 ++ rest, w.size, w.calls + 1⟩)
    (remain := raw.length - 8) (data := raw.take 8) (body := raw.drop 8) (rest := rest) hs rfl (by simp) (by omega)
  refine ⟨c, ?_⟩
  split
  · rename_i h; simp at h
  · rename_i h; simp only [Prod.mk.injEq, Option.some.injEq] at h; exact absurd h.2 hne
  · rename_i w' data _ h
    simp only [Prod.mk.injEq, Option.some.injEq] at h
    obtain ⟨rfl, rfl⟩ := h
    rw [headerLength_take h8, hl]
    simp only
    rw [hc, List.take_append_drop]
    simp only [finishRecv]
    cases OfMsg.parse raw <;> rfl

/-- **C58**: a message that was serialised is received, whatever the segments and whatever follows it. -/
theorem recv_message_partial (m : OfMsg) (hw : m.WF) (rest : Bytes) (w : Wire) (m' : OfMsg) (raw : Bytes)
    (hm : m.toBytes = .ok (m', raw)) (hp : w.pending = raw ++ rest) (hs : ∀ k, w.size k ≠ none)
    (hfirst : ∀ k, w.size w.calls = some k → 7 ≤ k) :
    ∃ calls, recvMsg (raw.length + 1) w = some (⟨rest, w.size, calls⟩, .ok (some m')) := by
  obtain ⟨bs, h1, h2, _⟩ := message_roundtrip_partial m hw
  rw [hm] at h1
  cases h1
  obtain ⟨h8, hl⟩ := parse_header h2
  obtain ⟨c, hc⟩ := recv_frames_partial raw rest w h8 (by simpa using hl) hp hs hfirst
  rw [h2] at hc
  exact ⟨c, hc⟩

/-- Receiving once for every message expected. -/
def recvEach : List Nat → Wire → Option (Wire × List (Res (Option OfMsg)))
  | [], w => some (w, [])
  | f :: fs, w =>
    match recvMsg f w with
    | none => none
    | some (w, r) => (recvEach fs w).map fun x => (x.1, r :: x.2)

/-- **C58**: a stream of serialised messages is received as those messages, in order, for every division
into segments of at least eight bytes. -/
theorem recv_stream_partial (ms : List (OfMsg × OfMsg × Bytes)) (hw : ∀ x ∈ ms, x.1.WF ∧ x.1.toBytes = .ok (x.2.1, x.2.2))
    (rest : Bytes) (w : Wire) (hp : w.pending = (ms.flatMap fun x => x.2.2) ++ rest)
    (hs : ∀ k, ∃ n, w.size k = some n ∧ 7 ≤ n) :
    ∃ calls, recvEach (ms.map fun x => x.2.2.length + 1) w =
      some (⟨rest, w.size, calls⟩, ms.map fun x => .ok (some x.2.1)) := by
  induction ms generalizing w with
  | nil =>
    obtain ⟨p, s, c⟩ := w
    simp only [List.flatMap_nil, List.nil_append] at hp
    subst hp
    exact ⟨c, rfl⟩
  | cons x ms ih =>
    obtain ⟨h1, h2⟩ := hw x List.mem_cons_self
    have hs' : ∀ k, w.size k ≠ none := fun k h => by obtain ⟨n, hn, _⟩ := hs k; rw [h] at hn; cases hn
    obtain ⟨c, hc⟩ := recv_message_partial x.1 h1 ((ms.flatMap fun x => x.2.2) ++ rest) w x.2.1 x.2.2 h2
      (by rw [hp]; simp) hs' (fun k h => by obtain ⟨n, hn, h7⟩ := hs w.calls; rw [h] at hn; cases hn; exact h7)
    obtain ⟨d, hd⟩ := ih (fun y hy => hw y (List.mem_cons_of_mem _ hy)) ⟨_, w.size, c⟩ rfl hs
    refine ⟨d, ?_⟩
    simp only [List.map_cons, recvEach, hc, hd, Option.map_some]

/-- A hello and a barrier request in segments of nine bytes. -/
example :
    (recvEach [9, 9] ⟨[1, 0, 0, 8, 0, 0, 0, 1] ++ [1, 18, 0, 8, 0, 0, 0, 2] ++ [1, 0], fun _ => some 8, 0⟩).map
      (fun x => (x.1.pending, x.2)) =
    some ([1, 0], [.ok (some (.build 0 1 1)), .ok (some (.build 18 2 1))]) := by decide +kernel

/-- **C58** fails for segments shorter than a header: an exception, and the bytes are lost. -/
theorem recv_short_header_violated :
    ∃ w : Wire, (∀ k, w.size k ≠ none) ∧ w.pending = [1, 0, 0, 8, 0, 0, 0, 1] ∧
      ∀ fuel, ∃ w', recvMsg fuel w = some (w', .error .generic) ∧ w'.pending = [0, 0, 0, 1] :=
  ⟨⟨[1, 0, 0, 8, 0, 0, 0, 1], fun _ => some 3, 0⟩, by simp, rfl, fun _ => ⟨_, rfl, rfl⟩⟩

theorem recvLoop_eof {fuel remain : Nat} {data : Bytes} {size : Nat → Option Nat} (hs : ∀ k, size k ≠ none)
    (h : 0 < remain) {c : Nat} : recvLoop fuel ⟨[], size, c⟩ remain data = none := by
  induction fuel generalizing c with
  | zero => rfl
  | succ fuel ih =>
    simp only [recvLoop]
    rw [if_neg (by omega)]
    obtain ⟨k, hk⟩ := Option.ne_none_iff_exists'.mp (hs c)
    rw [recv_some (by exact hk)]
    simp only [List.drop_nil, List.take_nil, List.length_nil, Nat.sub_zero, List.append_nil]
    exact ih

/-- **C58** fails if the peer closes the connection inside a message: the receiver never returns. -/
theorem recv_eof_violated (fuel : Nat) : recvMsg fuel ⟨[1, 2, 0, 9, 0, 0, 0, 1], fun _ => some 99, 0⟩ = none := by
  have : recvMsg fuel ⟨[1, 2, 0, 9, 0, 0, 0, 1], fun _ => some 99, 0⟩ =
      finishRecv (recvLoop fuel ⟨[], fun _ => some 99, 1⟩ 1 [1, 2, 0, 9, 0, 0, 0, 1]) := rfl
  rw [this, recvLoop_eof (by simp) (by omega)]
  rfl

/-- **C58** fails if a message is delayed after its header for longer than the timeout: an exception, and the
stream is left inside the message. -/
theorem recv_timeout_violated (fuel : Nat) :
    ∃ w', recvMsg (fuel + 1) ⟨[1, 2, 0, 9, 0, 0, 0, 1, 65], fun k => if k = 0 then some 99 else none, 0⟩ =
      some (w', .error .osError) ∧ w'.pending = [65] := by
  refine ⟨⟨[65], fun k => if k = 0 then some 99 else none, 2⟩, ?_, rfl⟩
  have : recvMsg (fuel + 1) ⟨[1, 2, 0, 9, 0, 0, 0, 1, 65], fun k => if k = 0 then some 99 else none, 0⟩ =
      finishRecv (recvLoop (fuel + 1) ⟨[65], fun k => if k = 0 then some 99 else none, 1⟩ 1 [1, 2, 0, 9, 0, 0, 0, 1]) := rfl
  rw [this]
  rfl

/-! ## The connection -/

/-- The bytes and the fact of reading over a history. -/
def connRun (accepts : Bool) : CtrlConn → List ConnOp → CtrlConn × List Bytes × List Bool
  | c, [] => (c, [], [])
  | c, o :: os =>
    ((connRun accepts (c.step accepts o).1 os).1, (c.step accepts o).2.1 :: (connRun accepts (c.step accepts o).1 os).2.1,
     (c.step accepts o).2.2 :: (connRun accepts (c.step accepts o).1 os).2.2)

/-- **C124** fails: no connection is ever established, and nothing is ever sent or read, even if the
controller accepts connections. -/
theorem never_connected_violated (accepts : Bool) (ops : List ConnOp) :
    (connRun accepts .new ops).1.connected = false ∧ (∀ b ∈ (connRun accepts .new ops).2.1, b = []) ∧
      (∀ r ∈ (connRun accepts .new ops).2.2, r = false) := by
  have : ∀ c : CtrlConn, c.connected = false →
      (connRun accepts c ops).1.connected = false ∧ (∀ b ∈ (connRun accepts c ops).2.1, b = []) ∧
      (∀ r ∈ (connRun accepts c ops).2.2, r = false) := by
    induction ops with
    | nil => intro c h; exact ⟨h, by simp [connRun], by simp [connRun]⟩
    | cons o os ih =>
      intro c h
      have h2 : (c.step accepts o).1.connected = false ∧ (c.step accepts o).2.1 = [] ∧ (c.step accepts o).2.2 = false := by
        cases o <;> simp [CtrlConn.step, CtrlConn.connect, h]
      obtain ⟨i1, i2, i3⟩ := ih _ h2.1
      refine ⟨i1, ?_, ?_⟩
      · intro b hb
        rcases List.mem_cons.mp hb with rfl | hb
        · exact h2.2.1
        · exact i2 b hb
      · intro r hr
        rcases List.mem_cons.mp hr with rfl | hr
        · exact h2.2.2
        · exact i3 r hr
  exact this .new rfl

end SY.Props
