import Verif.Props.PcapTime

/-! # Capture files (C132) and receiving packets (C133) -/

namespace SY.Props

open SY

theorem digitsVal_append (a b : List Char) : digitsVal (a ++ b) = digitsVal a * 10 ^ b.length + digitsVal b := by
  refine snoc_ind (P := fun b => digitsVal (a ++ b) = digitsVal a * 10 ^ b.length + digitsVal b) ?_ ?_ b
  · simp [digitsVal]
  · intro t c ih
    have e1 : digitsVal (a ++ (t ++ [c])) = 10 * digitsVal (a ++ t) + (c.toNat - 48) := by
      rw [← List.append_assoc]; simp [digitsVal, Nat.ofDigitChars_append, Nat.ofDigitChars_cons]
    have e2 : digitsVal (t ++ [c]) = 10 * digitsVal t + (c.toNat - 48) := by
      simp [digitsVal, Nat.ofDigitChars_append, Nat.ofDigitChars_cons]
    rw [e1, e2, ih, List.length_append, List.length_singleton, Nat.pow_succ, Nat.mul_add, ← Nat.mul_assoc, ← Nat.mul_assoc,
      Nat.mul_comm 10 (digitsVal a)]
    rw [Nat.mul_assoc _ 10, Nat.mul_comm 10 (10 ^ _), ← Nat.mul_assoc]
    omega
where
  snoc_ind {P : List Char → Prop} (h0 : P []) (h1 : ∀ t c, P t → P (t ++ [c])) (s : List Char) : P s := by
    have : ∀ r : List Char, P r.reverse := by
      intro r
      induction r with
      | nil => exact h0
      | cons c r ih => rw [List.reverse_cons]; exact h1 _ _ ih
    simpa using this s.reverse

theorem digitsVal_zeros (n : Nat) : digitsVal (List.replicate n '0') = 0 := by
  induction n with
  | zero => rfl
  | succ n ih =>
    rw [List.replicate_succ, show ('0' :: List.replicate n '0') = ['0'] ++ List.replicate n '0' from rfl, digitsVal_append, ih]
    simp [digitsVal, Nat.ofDigitChars_cons]

/-- The text of a time of whole microseconds is read as the number of microseconds. -/
theorem stampText_val (sec usec : Nat) (h : usec < 1000000) :
    parseDecimal (stampText sec usec) = .ok (sec * 1000000 + usec, 1000000) := by
  have hl : (natText usec).length ≤ 6 := (Nat.length_toDigits_le_iff (by decide) (by decide)).mpr h
  have hd := natText_digits sec
  have hu := natText_digits usec
  have hne : natText sec ≠ [] := by
    intro hc
    have := Nat.length_toDigits_pos (b := 10) (n := sec)
    rw [show Nat.toDigits 10 sec = natText sec from rfl, hc] at this
    simp at this
  have e1 : (stampText sec usec).dropWhile Char.isDigit =
      '.' :: (List.replicate (6 - (natText usec).length) '0' ++ natText usec) := by
    unfold stampText
    rw [List.dropWhile_append_of_pos hd, List.dropWhile_cons_of_neg (by decide)]
  have e2 : (stampText sec usec).takeWhile Char.isDigit = natText sec := by
    unfold stampText
    rw [List.takeWhile_append_of_pos hd, List.takeWhile_cons_of_neg (by decide), List.append_nil]
  unfold parseDecimal
  rw [e1]
  simp only
  rw [e2, if_pos]
  · rw [digitsVal_append, digitsVal_append, digitsVal_zeros, natText_val, natText_val, List.length_append,
      List.length_replicate, show 6 - (natText usec).length + (natText usec).length = 6 by omega]
    simp
  · simp only [Bool.and_eq_true, List.all_append, List.all_eq_true, decide_not, Bool.or_eq_true]
    refine ⟨⟨?_, hu⟩, Or.inl ?_⟩
    · intro x hx
      rw [(List.mem_replicate.mp hx).2]; decide
    · simp [hne]

theorem stamp_micro (sec usec : Nat) (h : usec < 1000000) :
    stamp sec usec = .ok (toDouble (sec * 1000000 + usec) 1000000) := by
  unfold stamp
  rw [stampText_val sec usec h]
  rfl

/-! ## What is written is read -/

/-- `W` microseconds are the time `t` (a fraction of seconds) up to a microsecond below and 2^-34 microseconds
above. -/
def SameMicro (t : Nat × Nat) (W : Nat) : Prop :=
  1000000 * t.1 < (W + 1) * t.2 ∧ W * t.2 * 2 ^ 34 ≤ 1000000 * t.1 * 2 ^ 34 + t.2

/-- Two lists of the same length whose elements are related one by one. -/
def Each {α β : Type} (R : α → β → Prop) : List α → List β → Prop
  | [], [] => True
  | a :: as, b :: bs => R a b ∧ Each R as bs
  | _, _ => False

/-- The packet that is read for bytes written with a time. -/
structure ReadFor (w : Bytes × (Nat × Nat)) (p : PcapPkt) : Prop where
  raw : p.raw = w.1
  caplen : p.caplen = w.1.length
  len : p.len = w.1.length
  time : ∃ W, SameMicro w.2 W ∧ p.ts = toDouble W 1000000

theorem split_same {t : Nat × Nat} (h : IsDouble t) :
    SameMicro t ((splitTime t).1 * 1000000 + (splitTime t).2) := by
  obtain ⟨h1, h2, h3⟩ := split_bounds h
  have hdm := Nat.div_add_mod t.1 t.2
  rw [h1]
  generalize (splitTime t).2 = n at *
  generalize t.1 / t.2 = d at *
  generalize t.1 % t.2 = r at *
  obtain ⟨p, q⟩ := t
  simp only at *
  unfold SameMicro
  simp only
  subst hdm
  have e1 : (d * 1000000 + n + 1) * q = 1000000 * (q * d) + (n + 1) * q := by
    rw [Nat.add_assoc, Nat.add_mul, Nat.mul_comm d 1000000, Nat.mul_assoc, Nat.mul_comm d q]
  have e2 : (d * 1000000 + n) * q = 1000000 * (q * d) + n * q := by
    rw [Nat.add_mul, Nat.mul_comm d 1000000, Nat.mul_assoc, Nat.mul_comm d q]
  constructor
  · rw [e1]; omega
  · rw [e2, Nat.mul_add 1000000, Nat.add_mul, Nat.add_mul, Nat.add_assoc]
    exact Nat.add_le_add_left h3 _

/-- The records that a sequence of `write_packet(bytes, ts)` leaves in a file. -/
def recordOf (w : Bytes × (Nat × Nat)) : PcapRec :=
  ⟨(splitTime w.2).1, (splitTime w.2).2, w.1.length, w.1.length, w.1⟩

theorem dump_all (now : Nat × Nat) (ws : List (Bytes × (Nat × Nat))) (h : ∀ w ∈ ws, w.2.1 ≠ 0) :
    ∀ file, ws.foldl (fun f w => dumpPacket f now w.1 (some w.2)) file = file ++ ws.map recordOf := by
  induction ws with
  | nil => intro f; simp
  | cons w ws ih =>
    intro f
    have hw : ¬ w.2.1 = 0 := h w (by simp)
    rw [List.foldl_cons, ih (fun x hx => h x (by simp [hx]))]
    simp [dumpPacket, recordOf, hw]

/-- Reading a file gives its records that pass the filter, in order, and then nothing any more. -/
theorem reader_calls (pass : Bytes → Bool) (recs : List PcapRec) (n : Nat) :
    readerCalls pass n recs =
      (((recs.filter fun r : PcapRec => pass r.data).map fun r => recvResult (.packet r)) ++ List.replicate n (Except.ok none)).take n := by
  induction n generalizing recs with
  | zero => simp [readerCalls]
  | succ n ih =>
    induction recs with
    | nil =>
      rw [readerCalls, ih]
      simp [readerRecv, nextRecord, recvResult, List.replicate_succ]
    | cons r rs ihr =>
      by_cases hp : pass r.data
      · rw [readerCalls, ih]
        simp only [readerRecv, nextRecord, hp, if_true, List.filter_cons_of_pos, List.map_cons, List.cons_append,
          List.take_succ_cons]
        rw [List.replicate_succ', ← List.append_assoc]
        congr 1
        rw [List.take_append (l₁ := _ ++ _)]
        simp
      · rw [readerCalls] at ihr ⊢
        simp only [readerRecv, nextRecord, hp, if_false, Bool.false_eq_true] at ihr ⊢
        rw [List.filter_cons_of_neg (by simpa using hp)]
        exact ihr

theorem read_for {w : Bytes × (Nat × Nat)} (h : IsDouble w.2) :
    ∃ p, recvResult (.packet (recordOf w)) = .ok (some p) ∧ ReadFor w p := by
  have hu := split_usec h
  refine ⟨⟨toDouble ((splitTime w.2).1 * 1000000 + (splitTime w.2).2) 1000000, w.1.length, w.1.length, w.1⟩, ?_, rfl, rfl, rfl,
    _, split_same h, rfl⟩
  simp [recvResult, PcapRec.packet, recordOf, stamp_micro _ _ hu]

/-- C132: whatever bytes are written to a capture file with whatever times, reading it gives, in order, the bytes
that pass the filter, with their lengths and with times of whole microseconds that are the given ones up to a
microsecond, and then nothing any more.  Times of 0, which are replaced, are left out. -/
theorem capture_roundtrip_partial (now : Nat × Nat) (pass : Bytes → Bool) (ws : List (Bytes × (Nat × Nat)))
    (h : ∀ w ∈ ws, IsDouble w.2 ∧ w.2.1 ≠ 0) :
    ∃ ps : List PcapPkt,
      Each ReadFor (ws.filter fun w => pass w.1) ps ∧
      ∀ n, readerCalls pass n (ws.foldl (fun f w => dumpPacket f now w.1 (some w.2)) []) =
        (ps.map (fun p => Except.ok (some p)) ++ List.replicate n (Except.ok none)).take n := by
  have key : ∀ vs : List (Bytes × (Nat × Nat)), (∀ w ∈ vs, IsDouble w.2) →
      ∃ ps : List PcapPkt, Each ReadFor vs ps ∧
        vs.map (fun w => recvResult (.packet (recordOf w))) = ps.map (fun p => Except.ok (some p)) := by
    intro vs
    induction vs with
    | nil => intro _; exact ⟨[], trivial, rfl⟩
    | cons v vs ih =>
      intro hv
      obtain ⟨ps, h1, h2⟩ := ih (fun w hw => hv w (by simp [hw]))
      obtain ⟨p, h3, h4⟩ := read_for (hv v (by simp))
      exact ⟨p :: ps, ⟨h4, h1⟩, by simp [h3, h2]⟩
  obtain ⟨ps, h1, h2⟩ := key (ws.filter fun w => pass w.1) (fun w hw => (h w (List.mem_filter.mp hw).1).1)
  refine ⟨ps, h1, fun n => ?_⟩
  rw [dump_all now ws (fun w hw => (h w hw).2), List.nil_append, reader_calls, ← h2, List.filter_map, List.map_map]
  rfl

/-- C132: a time that is a whole number of microseconds in binary comes back unchanged. -/
theorem capture_time_exact (t : Nat × Nat) (m : Nat) (h : IsDouble t) (hm : 1000000 * t.1 = m * t.2) (h0 : t.1 ≠ 0) :
    (splitTime t).1 * 1000000 + (splitTime t).2 = m ∧
    ∃ r, stamp (splitTime t).1 (splitTime t).2 = .ok r ∧ r.1 * t.2 = t.1 * r.2 ∧ 0 < r.2 := by
  have hs := split_same h
  have hu := split_usec h
  obtain ⟨k, hk, hp⟩ := h
  have hq : 0 < t.2 := hk ▸ Nat.two_pow_pos k
  have hW : (splitTime t).1 * 1000000 + (splitTime t).2 = m := by
    revert hs
    generalize (splitTime t).1 * 1000000 + (splitTime t).2 = W
    rintro ⟨s1, s2⟩
    rw [hm] at s1 s2
    have l1 : m < W + 1 := Nat.lt_of_mul_lt_mul_right s1
    have l2 : W * 2 ^ 34 * t.2 ≤ (m * 2 ^ 34 + 1) * t.2 := by
      rw [Nat.add_mul, Nat.mul_right_comm W, Nat.mul_right_comm m, Nat.one_mul]; exact s2
    have l3 := Nat.le_of_mul_le_mul_right l2 hq
    have l4 : W ≤ m := by
      apply Nat.le_of_not_lt
      intro hlt
      have := Nat.mul_le_mul_right (2 ^ 34) (show m + 1 ≤ W from hlt)
      rw [Nat.add_mul, Nat.one_mul] at this
      have h2 : 2 ^ 34 ≤ 1 := Nat.le_of_add_le_add_left (Nat.le_trans this l3)
      exact absurd h2 (by decide)
    exact Nat.le_antisymm l4 (Nat.le_of_lt_succ l1)
  refine ⟨hW, _, stamp_micro _ _ hu, ?_⟩
  rw [hW]
  have hm0 : 0 < m := by
    apply Nat.pos_of_ne_zero
    rintro rfl
    rw [Nat.zero_mul] at hm
    omega
  obtain ⟨e1, e2, _⟩ := toDouble_exact (a := m) (b := 1000000) (r := t.1) (k := k) hm0 (by decide) hp (by
    rw [← hk, ← hm, Nat.mul_comm])
  refine ⟨?_, e2⟩
  generalize toDouble m 1000000 = r at *
  have : r.1 * t.2 * 1000000 = t.1 * r.2 * 1000000 := by
    calc r.1 * t.2 * 1000000 = r.1 * 1000000 * t.2 := by ac_rfl
      _ = m * r.2 * t.2 := by rw [e1]
      _ = m * t.2 * r.2 := by ac_rfl
      _ = 1000000 * t.1 * r.2 := by rw [hm]
      _ = _ := by ac_rfl
  exact Nat.eq_of_mul_eq_mul_right (by decide) this

example : (splitTime (5, 2), stamp 2 500000) = ((2, 500000), .ok (5629499534213120, 2251799813685248)) := by decide
example : IsDouble (5, 2) ∧ 1000000 * 5 = 2500000 * 2 := ⟨⟨1, rfl, by decide⟩, rfl⟩

/-- The time in a capture file that is copied packet by packet. -/
def copiedTime (r : PcapRec) : Res (Nat × Nat) := r.packet >>= fun p => .ok (splitTime p.ts)

/-- C132, not kept: a packet of time 2.300000 is copied to one of time 2.299999. -/
theorem capture_copy_violated :
    copiedTime ⟨2, 300000, 1, 1, [7]⟩ = .ok (2, 299999) ∧
    readerCalls (fun _ => true) 1 (dumpPacket [] (1, 1) [7] (some (toDouble 23 10))) =
      [.ok (some ⟨toDouble 2299999 1000000, 1, 1, [7]⟩)] := by decide

/-- C132, not kept: the time 0 is replaced by the current one, whatever that is. -/
theorem capture_zero_violated (now : Nat × Nat) (file : List PcapRec) (b : Bytes) :
    dumpPacket file now b (some (0, 1)) = dumpPacket file now b none ∧
    dumpPacket file now b none = file ++ [recordOf (b, now)] := ⟨rfl, rfl⟩

/-- C132, not kept: with a device that gives nanoseconds the time of a packet is wrong by up to nine tenths of
a second: 1 s and 90000000 ns is read as 1.9 s. -/
theorem capture_nano_violated :
    stamp 1 90000000 = .ok (toDouble 19 10) ∧ stamp 1 1000 = .ok (toDouble 1001 1000) := by decide

/-- C132: anything but bytes is refused and the file stays as it is. -/
theorem capture_refused (file : List PcapRec) (now : Nat × Nat) (ts : Option (Nat × Nat)) :
    dumpAny file now none ts = (file, some .generic) ∧
    ∀ b, (dumpAny file now (some b) ts).2 = none ∧ (dumpAny file now (some b) ts).1.length = file.length + 1 :=
  ⟨rfl, fun b => ⟨rfl, by simp [dumpAny, dumpPacket]⟩⟩

/-- C132: `loop` and `count` calls of `recv_packet` give the same packets. -/
theorem loop_calls (pass : Bytes → Bool) (recs : List PcapRec) (n : Nat) :
    (readerLoop pass n recs).1 =
      (if n = 0 then (recs.filter fun r : PcapRec => pass r.data) else (recs.filter fun r : PcapRec => pass r.data).take n).map PcapRec.packet := by
  induction recs generalizing n with
  | nil => cases n <;> rfl
  | cons r rs ih =>
    by_cases hp : pass r.data
    · rw [readerLoop, if_pos hp, List.filter_cons_of_pos (by simpa using hp)]
      match n with
      | 0 => simp [ih]
      | 1 => simp
      | n + 2 => simp [ih]
    · rw [readerLoop, if_neg hp, List.filter_cons_of_neg (by simpa using hp), ih]

/-- C132: what `loop` leaves unread is what follows the packets it gave. -/
theorem loop_rest (pass : Bytes → Bool) (recs : List PcapRec) (n m : Nat) (hm : 0 < m) :
    (readerLoop pass m (readerLoop pass (n + 1) recs).2).1 =
      (((recs.filter fun r : PcapRec => pass r.data).drop (n + 1)).take m).map PcapRec.packet := by
  have key : ∀ (recs : List PcapRec) (n : Nat), ((readerLoop pass (n + 1) recs).2.filter fun r => pass r.data) =
      (recs.filter fun r : PcapRec => pass r.data).drop (n + 1) := by
    intro recs
    induction recs with
    | nil => intro n; simp [readerLoop]
    | cons r rs ih =>
      intro n
      by_cases hp : pass r.data
      · rw [readerLoop, if_pos hp, List.filter_cons_of_pos (by simpa using hp)]
        cases n with
        | zero => simp
        | succ n => simp [ih n]
      · rw [readerLoop, if_neg hp, List.filter_cons_of_neg (by simpa using hp), ih]
  rw [loop_calls, if_neg (by omega), key]

/-- C132, not kept: closing a file a second time frees its handle again. -/
theorem file_close_violated : (closeFile true).bind closeFile = none := rfl

/-! ## Receiving from a device (C133) -/

/-- What a call may do with the first thing the device has for it: hand over a packet, or nothing. -/
theorem recv_none_iff (x : NextEx) : recvResult x = .ok none ↔ x = .timeout ∨ x = .eof ∨ x = .other := by
  cases x with
  | packet r =>
    simp only [recvResult, reduceCtorEq, or_self, iff_false]
    intro h
    obtain ⟨p, _, h⟩ := bind_eq_ok.mp h
    cases h
  | _ => simp [recvResult]

/-- Packets with microseconds can always be handed over. -/
theorem recv_packet_micro (r : PcapRec) (h : r.usec < 1000000) :
    recvResult (.packet r) = .ok (some ⟨toDouble (r.sec * 1000000 + r.usec) 1000000, r.caplen, r.len, r.data⟩) := by
  simp [recvResult, PcapRec.packet, stamp_micro _ _ h]

/-- The first thing other than silence in the rounds of the loop, up to the first round in which the time is
over. -/
theorem poll_result (env : RecvEnv) (expiry : Int) (n k : Nat) (hexp : expiry ≤ env.clock (k + n))
    (hlt : ∀ i < n, env.clock (k + i) < expiry) (hq : ∀ i < n, recvResult (env.next (k + i)) = .ok none) (fuel : Nat)
    (hf : n < fuel) : pollLoop env expiry fuel k = .ok none := by
  induction n generalizing k fuel with
  | zero =>
    obtain ⟨f, rfl⟩ : ∃ f, fuel = f + 1 := ⟨fuel - 1, by omega⟩
    have : ¬ env.clock k < expiry := by have := hexp; simp at this; omega
    rw [pollLoop, if_neg this]
  | succ n ih =>
    obtain ⟨f, rfl⟩ : ∃ f, fuel = f + 1 := ⟨fuel - 1, by omega⟩
    rw [pollLoop, if_pos (by simpa using hlt 0 (by omega)), show recvResult (env.next k) = .ok none by simpa using hq 0 (by omega)]
    simp only [bind_ok]
    refine ih (k + 1) (by rw [Nat.add_right_comm, Nat.add_assoc]; exact hexp) ?_ ?_ f (by omega)
    · intro i hi; rw [Nat.add_right_comm, Nat.add_assoc]; exact hlt (i + 1) (by omega)
    · intro i hi; rw [Nat.add_right_comm, Nat.add_assoc]; exact hq (i + 1) (by omega)

theorem poll_packet (env : RecvEnv) (expiry : Int) (n k : Nat) (hlt : ∀ i ≤ n, env.clock (k + i) < expiry)
    (hq : ∀ i < n, recvResult (env.next (k + i)) = .ok none) (x : Res (Option PcapPkt)) (hx : recvResult (env.next (k + n)) = x)
    (hne : x ≠ .ok none) (fuel : Nat) (hf : n < fuel) : pollLoop env expiry fuel k = x := by
  induction n generalizing k fuel with
  | zero =>
    obtain ⟨f, rfl⟩ : ∃ f, fuel = f + 1 := ⟨fuel - 1, by omega⟩
    rw [pollLoop, if_pos (by simpa using hlt 0 (by omega)), show recvResult (env.next k) = x by simpa using hx]
    match x, hne with
    | .error e, _ => rfl
    | .ok (some p), _ => rfl
  | succ n ih =>
    obtain ⟨f, rfl⟩ : ∃ f, fuel = f + 1 := ⟨fuel - 1, by omega⟩
    rw [pollLoop, if_pos (by simpa using hlt 0 (by omega)), show recvResult (env.next k) = .ok none by simpa using hq 0 (by omega)]
    simp only [bind_ok]
    refine ih (k + 1) ?_ ?_ ?_ f (by omega)
    · intro i hi; rw [Nat.add_right_comm, Nat.add_assoc]; exact hlt (i + 1) (by omega)
    · intro i hi; rw [Nat.add_right_comm, Nat.add_assoc]; exact hq (i + 1) (by omega)
    · rw [Nat.add_right_comm, Nat.add_assoc]; exact hx

/-- A device without a descriptor for `select`, in nonblocking mode. -/
def PollDevice (o : PcapObj) : Prop := (∃ fd, o.fd = some fd ∧ fd < 0) ∧ o.nonblock = true

theorem recv_poll {o : PcapObj} (h : PollDevice o) (env : RecvEnv) (fuel : Nat) {t : Int} (ht : 0 < t) :
    o.recv env fuel (some t) = pollLoop env (env.clock 0 + t) fuel 0 := by
  obtain ⟨⟨fd, h1, h2⟩, h3⟩ := h
  have a1 : ¬ t < 0 := by omega
  have a2 : ¬ t = 0 := by omega
  simp [PcapObj.recv, h1, h3, recvNoSelect, show ¬ 0 ≤ fd by omega, a1, a2]

/-- C133: on a device without `select`, the call looks until the time is over: it gives the first packet (or
error) that arrives in a round begun before then, and nothing if none does. -/
theorem recv_waits (o : PcapObj) (h : PollDevice o) (env : RecvEnv) (t : Int) (ht : 0 < t) (n : Nat)
    (hlt : ∀ i < n, env.clock i < env.clock 0 + t) (hq : ∀ i < n, env.next i = .timeout) (fuel : Nat) (hf : n < fuel) :
    (env.clock 0 + t ≤ env.clock n → o.recv env fuel (some t) = .ok none) ∧
    (env.clock n < env.clock 0 + t → ∀ r, env.next n = .packet r → r.usec < 1000000 →
      o.recv env fuel (some t) =
        .ok (some ⟨toDouble (r.sec * 1000000 + r.usec) 1000000, r.caplen, r.len, r.data⟩)) := by
  rw [recv_poll h env fuel ht]
  have hq' : ∀ i < n, recvResult (env.next (0 + i)) = .ok none := by
    intro i hi; rw [Nat.zero_add, hq i hi]; rfl
  constructor
  · intro he
    exact poll_result env _ n 0 (by rw [Nat.zero_add]; exact he) (by simpa using hlt) hq' fuel hf
  · intro hl r hr hu
    refine poll_packet env _ n 0 ?_ hq' _ (by rw [Nat.zero_add, hr]; exact recv_packet_micro r hu) (by simp) fuel hf
    intro i hi
    rw [Nat.zero_add]
    by_cases hin : i = n
    · rw [hin]; exact hl
    · exact hlt i (by omega)

example : PollDevice ⟨0, true, some (-1)⟩ ∧
    (⟨0, true, some (-1)⟩ : PcapObj).recv ⟨none, fun i => if i = 2 then .packet ⟨1, 5, 1, 1, [9]⟩ else .timeout, fun i => i⟩ 10 (some 5) =
      .ok (some ⟨toDouble 1000005 1000000, 1, 1, [9]⟩) := ⟨⟨⟨-1, rfl, by decide⟩, rfl⟩, by decide⟩

/-- C133: on a device with `select`, the call gives what the device has when `select` says so, and nothing
otherwise, also if `select` is interrupted. -/
theorem recv_selects (o : PcapObj) (fd : Int) (h : o.fd = some fd) (hfd : 0 ≤ fd) (env : RecvEnv) (fuel : Nat)
    (timeout : Option Int) :
    o.recv env fuel timeout = if env.select = some true then recvResult (env.next 0) else .ok none := by
  simp only [PcapObj.recv, h, hfd, if_true, recvSelect]
  cases env.select with
  | none => simp
  | some b => cases b <;> simp

/-- C133: without a timeout (none, or a negative one), or with timeout 0, a device without `select` is asked
exactly once. -/
theorem recv_once (o : PcapObj) (fd : Int) (h : o.fd = some fd) (hfd : fd < 0) (env : RecvEnv) (fuel : Nat)
    (timeout : Option Int) (ht : ∀ t, timeout = some t → t ≤ 0) : o.recv env fuel timeout = recvResult (env.next 0) := by
  simp only [PcapObj.recv, h, show ¬ 0 ≤ fd by omega, if_false]
  split
  · cases timeout with
    | none => rfl
    | some t =>
      have := ht t rfl
      by_cases h0 : t = 0
      · subst h0; rfl
      · simp only [show t < 0 by omega, if_true]; rfl
  · rfl

/-- C133, not kept: without a timeout a nonblocking device gives up at once, although a packet would come. -/
theorem recv_forever_violated (r : PcapRec) :
    (⟨0, true, some (-1)⟩ : PcapObj).recv ⟨none, fun i => if i = 0 then .timeout else .packet r, fun i => i⟩ 10 none = .ok none := rfl

/-- C133, not kept: an error of the device, or of reading a damaged file, is a `NameError`, never the exception
for errors of libpcap; so it is for `stats`.  Other errors of the device (it is not activated) look like
silence. -/
theorem recv_error_violated (rv : Int) (h : rv ≠ 0) (s : Nat × Nat × Nat) :
    recvResult .failed = .error .nameError ∧ pcapStats rv s = .error .nameError ∧ recvResult .other = .ok none := by
  simp [recvResult, pcapStats, h]

/-- C133, not kept: when `select` reports something the filter then drops, the call returns nothing before
the time is over, although a packet comes in time. -/
theorem recv_early_violated (r : PcapRec) (fuel : Nat) (t : Int) :
    (⟨0, true, some 3⟩ : PcapObj).recv ⟨some true, fun i => if i = 0 then .timeout else .packet r, fun i => i⟩ fuel (some t) =
      .ok none := rfl

/-- C133: sending gives `True` exactly if bytes were given and libpcap took them, and raises otherwise. -/
theorem send_iff (isBytes : Bool) (rv : Int) :
    (pcapSend isBytes rv = .ok true ↔ isBytes = true ∧ rv = 0) ∧
    (pcapSend isBytes rv = .error .generic ↔ ¬ (isBytes = true ∧ rv = 0)) := by
  unfold pcapSend
  cases isBytes <;> by_cases h : rv = 0 <;> simp [h]

end SY.Props
