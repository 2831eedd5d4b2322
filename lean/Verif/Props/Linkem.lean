import Verif.Linkem
import Verif.Props.Packet

/-! # The link emulator: C68, C97 -/

namespace SY.Props
open SY

theorem link_run_cons {s s' : Linkem} {e : LinkEv} {es : List LinkEv} (h : s.run (e :: es) = some s') :
    ∃ t, s.step e = some t ∧ t.run es = some s' := by
  simpa [Linkem.run, Option.bind_eq_some_iff] using h

theorem link_invariant {P : Linkem → Prop} (hstep : ∀ s s' e, P s → s.step e = some s' → P s') {s s' : Linkem}
    {es : List LinkEv} (h : P s) (hs : s.run es = some s') : P s' := by
  induction es generalizing s with
  | nil => cases hs; exact h
  | cons e es ih =>
    obtain ⟨t, h1, h2⟩ := link_run_cons hs
    exact ih (hstep _ _ _ h h1) h2

/-- How many copies of an entry there are in all: delivered, in the heap, and in the input queue. -/
def copies (s : Linkem) (e : LinkEntry) : Nat := (s.delivered.map Prod.fst).count e + s.heap.count e + s.inq.count e

/-- Every step, described by its effect. -/
inductive LinkEffect (s : Linkem) : Linkem → Prop
  | arrive (e) : LinkEffect s { s with inq := s.inq ++ [e], arrived := s.arrived ++ [e] }
  | tick (d : Nat) : LinkEffect s { s with clock := s.clock + d }
  | stop : LinkEffect s { s with stop := true }
  | move (a : LinkAt) (h : ∀ t, a = .waiting t → (∀ x ∈ s.heap, t ≤ x.expiry) ∧ (s.heap ≠ [] → ∃ x ∈ s.heap, x.expiry = t))
      (hd : a = .dead .typeError → hasIncomparable s.heap = true) :
      LinkEffect s { s with at_ := a }
  | deliver (i : Nat) (e : LinkEntry) (now : Int) (ha : s.at_ = .drain now) (he : s.heap[i]? = some e) (hn : e.expiry ≤ now)
      (hm : ∀ x ∈ s.heap, e.expiry ≤ x.expiry) :
      LinkEffect s { s with heap := s.heap.eraseIdx i, delivered := s.delivered ++ [(e, s.clock)] }
  | push (e : LinkEntry) (q : List LinkEntry) (hq : s.inq = e :: q) (a : LinkAt)
      (ha : a = .top ∨ a = .dead .typeError ∧ hasIncomparable (s.heap ++ [e]) = true) :
      LinkEffect s { s with inq := q, heap := s.heap ++ [e], at_ := a }

theorem min?_spec {l : List LinkEntry} {m : Int} (h : (l.map LinkEntry.expiry).min? = some m) :
    (∀ x ∈ l, m ≤ x.expiry) ∧ ∃ x ∈ l, x.expiry = m := by
  rw [List.min?_eq_some_iff] at h
  obtain ⟨h1, h2⟩ := h
  obtain ⟨x, hx, e⟩ := List.mem_map.mp h1
  exact ⟨fun y hy => h2 _ (List.mem_map.mpr ⟨y, hy, rfl⟩), x, hx, e⟩

theorem link_effect {s s' : Linkem} {e : LinkEv} (h : s.step e = some s') : LinkEffect s s' := by
  cases e with
  | arrive e => cases h; exact .arrive e
  | tick d => cases h; exact .tick d
  | shutdown => cases h; exact .stop
  | enter =>
    simp only [Linkem.step] at h
    split at h
    · cases h
      exact .move _ (fun t ht => by split at ht <;> cases ht) (fun hd => by split at hd <;> cases hd)
    · cases h
  | pop i =>
    simp only [Linkem.step] at h
    split at h
    · rename_i now e ha he
      split at h
      · rename_i hc
        cases h
        exact .deliver i e now ha he hc.1 (by simpa using hc.2)
      · cases h
    · cases h
  | popFail =>
    simp only [Linkem.step] at h
    split at h
    · split at h
      · rename_i hc
        cases h
        simp only [Bool.and_eq_true] at hc
        exact .move _ (fun t ht => by cases ht) (fun _ => hc.2)
      · cases h
    · cases h
  | drainEnd =>
    simp only [Linkem.step] at h
    split at h
    · split at h
      · cases h; exact .move _ (fun t ht => by cases ht) (fun hd => by cases hd)
      · cases h
    · cases h
  | wait =>
    simp only [Linkem.step] at h
    split at h
    · split at h
      · rename_i hm
        have hnil : s.heap = [] := by
          cases hh : s.heap with
          | nil => rfl
          | cons x l => rw [hh] at hm; simp [List.min?] at hm
        cases h
        exact .move _ (fun t ht => by rw [hnil]; simp) (fun hd => by cases hd)
      · rename_i m hm
        obtain ⟨h1, h2⟩ := min?_spec hm
        split at h
        · cases h; exact .move _ (fun t ht => by cases ht) (fun hd => by cases hd)
        · cases h
          exact .move _ (fun t ht => by cases ht; exact ⟨h1, fun _ => h2⟩) (fun hd => by cases hd)
    · cases h
  | receive =>
    simp only [Linkem.step] at h
    split at h
    · rename_i e q ha hq
      split at h
      · cases h
      · cases h; exact .push e q hq .top (.inl rfl)
    · cases h
  | receiveFail =>
    simp only [Linkem.step] at h
    split at h
    · rename_i e q ha hq
      split at h
      · rename_i hc; cases h; exact .push e q hq _ (.inr ⟨rfl, hc⟩)
      · cases h
    · cases h
  | timeout =>
    simp only [Linkem.step] at h
    split at h
    · split at h
      · cases h; exact .move _ (fun t ht => by cases ht) (fun hd => by cases hd)
      · cases h
    · cases h

theorem count_eraseIdx {l : List LinkEntry} {i : Nat} {e : LinkEntry} (h : l[i]? = some e) (a : LinkEntry) :
    (l.eraseIdx i).count a + (if e = a then 1 else 0) = l.count a := by
  induction l generalizing i with
  | nil => simp at h
  | cons x l ih =>
    cases i with
    | zero =>
      simp only [List.getElem?_cons_zero, Option.some.injEq] at h
      subst h
      simp [List.count_cons]
    | succ i =>
      have := ih (i := i) (by simpa using h)
      simp only [List.eraseIdx_cons_succ, List.count_cons]
      omega

/-- Exactly once: at all times every entry that arrived is in the input queue, in the heap, or has been
delivered, as many times as it arrived; nothing else ever is. -/
theorem link_exactly_once (clock : Int) (es : List LinkEv) (s : Linkem) (h : (Linkem.init clock).run es = some s)
    (e : LinkEntry) : (s.delivered.map Prod.fst).count e + s.heap.count e + s.inq.count e = s.arrived.count e := by
  refine link_invariant (P := fun s => copies s e = s.arrived.count e) ?_ (by simp [copies, Linkem.init]) h
  intro s s' ev hi hs
  have := link_effect hs
  simp only [copies] at hi ⊢
  cases this with
  | arrive x => simp only [List.count_append]; omega
  | tick d => exact hi
  | stop => exact hi
  | move a => exact hi
  | deliver i x now ha he hn hm =>
    have := count_eraseIdx he e
    simp only [List.map_append, List.count_append, List.map_cons, List.map_nil, List.count_singleton, beq_iff_eq]
    omega
  | push x q hq a =>
    rw [hq] at hi
    simp only [List.count_cons, List.count_append, List.count_nil] at hi ⊢
    omega

/-- Never early: whatever is delivered is delivered at or after its expiry time. -/
theorem link_not_early (clock : Int) (es : List LinkEv) (s : Linkem) (h : (Linkem.init clock).run es = some s) :
    ∀ x ∈ s.delivered, x.1.expiry ≤ x.2 := by
  have : (∀ x ∈ s.delivered, x.1.expiry ≤ x.2) ∧ ∀ now, s.at_ = .drain now → now ≤ s.clock := by
    refine link_invariant (P := fun s => (∀ x ∈ s.delivered, x.1.expiry ≤ x.2) ∧ ∀ now, s.at_ = .drain now → now ≤ s.clock)
      ?_ ⟨by simp [Linkem.init], by simp [Linkem.init]⟩ h
    rintro s s' ev ⟨hi, hc⟩ hs
    have heff := link_effect hs
    refine ⟨?_, ?_⟩
    · cases heff with
      | deliver i x now ha he hn hm =>
        intro y hy
        rcases List.mem_append.mp hy with hy | hy
        · exact hi y hy
        · have : y = (x, s.clock) := by simpa using hy
          subst this
          have := hc now ha
          simp only
          omega
      | _ => exact hi
    · cases ev with
      | enter =>
        simp only [Linkem.step] at hs
        split at hs
        · cases hs
          intro now hn
          simp only at hn
          split at hn
          · cases hn
          · cases hn; simp
        · cases hs
      | tick d =>
        cases hs
        intro now hn
        have := hc now hn
        simp only
        omega
      | arrive e => cases hs; exact hc
      | shutdown => cases hs; exact hc
      | pop i =>
        simp only [Linkem.step] at hs
        split at hs
        · split at hs
          · cases hs; exact hc
          · cases hs
        · cases hs
      | popFail =>
        simp only [Linkem.step] at hs
        split at hs
        · split at hs
          · cases hs; intro now hn; cases hn
          · cases hs
        · cases hs
      | drainEnd =>
        simp only [Linkem.step] at hs
        split at hs
        · split at hs
          · cases hs; intro now hn; cases hn
          · cases hs
        · cases hs
      | wait =>
        simp only [Linkem.step] at hs
        split at hs
        · split at hs
          · cases hs; intro now hn; cases hn
          · split at hs <;> cases hs <;> (intro now hn; cases hn)
        · cases hs
      | receive =>
        simp only [Linkem.step] at hs
        split at hs
        · split at hs
          · cases hs
          · cases hs; intro now hn; cases hn
        · cases hs
      | receiveFail =>
        simp only [Linkem.step] at hs
        split at hs
        · split at hs
          · cases hs; intro now hn; cases hn
          · cases hs
        · cases hs
      | timeout =>
        simp only [Linkem.step] at hs
        split at hs
        · split at hs
          · cases hs; intro now hn; cases hn
          · cases hs
        · cases hs
  exact this.1

/-- In order of expiry: when an entry is delivered, every entry with an earlier expiry time that was in the
heap at any time before has been delivered already, all copies of it. -/
theorem link_in_order (s u u' : Linkem) (es : List LinkEv) (ev : LinkEv) (h : s.run es = some u) (hs : u.step ev = some u')
    (b : LinkEntry) (t : Int) (hb : u'.delivered = u.delivered ++ [(b, t)]) (a : LinkEntry) (hab : a.expiry < b.expiry) :
    (s.delivered.map Prod.fst).count a + s.heap.count a ≤ (u.delivered.map Prod.fst).count a := by
  have h1 : (s.delivered.map Prod.fst).count a + s.heap.count a ≤ (u.delivered.map Prod.fst).count a + u.heap.count a := by
    refine link_invariant (P := fun u => (s.delivered.map Prod.fst).count a + s.heap.count a ≤
      (u.delivered.map Prod.fst).count a + u.heap.count a) ?_ (Nat.le_refl _) h
    intro v v' ev hi hv
    cases link_effect hv with
    | deliver i x now ha he hn hm =>
      have := count_eraseIdx he a
      simp only [List.map_append, List.count_append, List.map_cons, List.map_nil, List.count_singleton, beq_iff_eq]
      omega
    | push x q hq a => simp only [List.count_append]; omega
    | _ => exact hi
  have h2 : u.heap.count a = 0 := by
    cases link_effect hs with
    | deliver i x now ha he hn hm =>
      have : x = b := by
        have := List.append_cancel_left hb
        simpa using congrArg (fun l => l.map Prod.fst) this
      subst this
      rw [List.count_eq_zero]
      intro hmem
      have := hm a hmem
      omega
    | _ => exact absurd (congrArg List.length hb) (by simp)
  omega

/-- The emulator never sleeps past an expiry time: while it waits, it does so until the earliest expiry time
in its heap. -/
theorem link_waits_until (clock : Int) (es : List LinkEv) (s : Linkem) (h : (Linkem.init clock).run es = some s)
    (t : Int) (ht : s.at_ = .waiting t) :
    (∀ x ∈ s.heap, t ≤ x.expiry) ∧ (s.heap ≠ [] → ∃ x ∈ s.heap, x.expiry = t) := by
  refine link_invariant (P := fun s => ∀ t, s.at_ = .waiting t → (∀ x ∈ s.heap, t ≤ x.expiry) ∧ (s.heap ≠ [] → ∃ x ∈ s.heap, x.expiry = t))
    ?_ (by simp [Linkem.init]) h t ht
  intro s s' ev hi hs
  cases link_effect hs with
  | move a ha _ => exact ha
  | deliver i x now ha => intro t ht; simp only at ht; rw [ha] at ht; cases ht
  | push x q hq a ha =>
    intro t ht
    simp only at ht
    rcases ha with rfl | ⟨rfl, -⟩ <;> cases ht
  | _ => exact hi

/-- A list of entries with one of the earliest expiry times. -/
theorem exists_min {l : List LinkEntry} (h : l ≠ []) : ∃ (i : Nat) (e : LinkEntry), l[i]? = some e ∧ ∀ x ∈ l, e.expiry ≤ x.expiry := by
  induction l with
  | nil => exact absurd rfl h
  | cons x l ih =>
    by_cases hl : l = []
    · subst hl; exact ⟨0, x, rfl, by simp⟩
    · obtain ⟨i, e, h1, h2⟩ := ih hl
      by_cases hc : x.expiry ≤ e.expiry
      · refine ⟨0, x, rfl, fun y hy => ?_⟩
        rcases List.mem_cons.mp hy with rfl | hy
        · exact Int.le_refl _
        · have := h2 y hy; omega
      · refine ⟨i + 1, e, by simpa using h1, fun y hy => ?_⟩
        rcases List.mem_cons.mp hy with rfl | hy
        · omega
        · exact h2 y hy

/-- Whatever has expired is delivered in the next turn of the loop, without waiting for anything. -/
theorem link_delivers (s : Linkem) (hs : s.at_ = .top) (hstop : s.stop = false) (e : LinkEntry) (he : e ∈ s.heap)
    (hexp : e.expiry ≤ s.clock) :
    ∃ (ps : List Nat) (s' : Linkem), s.run (.enter :: ps.map .pop) = some s' ∧ (e, s.clock) ∈ s'.delivered := by
  have key : ∀ (n : Nat) (u : Linkem), u.heap.length = n → u.at_ = .drain u.clock → e ∈ u.heap → e.expiry ≤ u.clock →
      ∃ (ps : List Nat) (s' : Linkem), u.run (ps.map .pop) = some s' ∧ (e, u.clock) ∈ s'.delivered := by
    intro n
    induction n with
    | zero => intro u h1 _ h3; rw [List.length_eq_zero_iff.mp h1] at h3; cases h3
    | succ n ih =>
      intro u h1 h2 h3 h4
      obtain ⟨i, m, hm1, hm2⟩ := exists_min (List.ne_nil_of_mem h3)
      have hstep : u.step (.pop i) = some { u with heap := u.heap.eraseIdx i, delivered := u.delivered ++ [(m, u.clock)] } := by
        have hle := hm2 e h3
        simp only [Linkem.step, h2, hm1]
        rw [if_pos ⟨by omega, by simpa using hm2⟩]
      by_cases hem : m = e
      · subst hem
        exact ⟨[i], _, by simp [Linkem.run, hstep]; rfl, by simp⟩
      · have hmem : e ∈ u.heap.eraseIdx i := by
          have := count_eraseIdx hm1 e
          rw [if_neg hem] at this
          rw [← List.count_pos_iff]
          have := List.count_pos_iff.mpr h3
          omega
        have hlt : i < u.heap.length := (List.getElem?_eq_some_iff.mp hm1).1
        obtain ⟨ps, s', hr, hd⟩ := ih { u with heap := u.heap.eraseIdx i, delivered := u.delivered ++ [(m, u.clock)] }
          (by simp only [List.length_eraseIdx, hlt, if_true]; omega) h2 hmem h4
        exact ⟨i :: ps, s', by simp only [List.map_cons, Linkem.run, hstep, Option.bind_some]; exact hr, hd⟩
  obtain ⟨ps, s', h1, h2⟩ := key _ { s with at_ := .drain s.clock } rfl rfl he hexp
  refine ⟨ps, s', ?_, h2⟩
  have : s.step .enter = some { s with at_ := .drain s.clock } := by
    simp only [Linkem.step, if_pos hs, hstop, Bool.false_eq_true, if_false]
  simp only [Linkem.run, this, Option.bind_some]
  exact h1

/-- A run in which two packets with different delays overtake each other. -/
def exLink : List LinkEv :=
  [.arrive ⟨30, "a".toList, [], 0⟩, .arrive ⟨20, "b".toList, [], 1⟩, .enter, .drainEnd, .wait, .receive, .enter, .drainEnd, .wait,
   .receive, .tick 40, .enter, .pop 1, .pop 0]

example : ∃ s, (Linkem.init 0).run exLink = some s ∧
    s.delivered = [(⟨20, "b".toList, [], 1⟩, 40), (⟨30, "a".toList, [], 0⟩, 40)] ∧ s.heap = [] := by
  refine ⟨_, rfl, ?_, ?_⟩ <;> decide +kernel

/-- The only way to a `TypeError`: two entries with the same expiry time for the same device. -/
theorem link_type_error_only_ties (clock : Int) (es : List LinkEv) (s : Linkem) (h : (Linkem.init clock).run es = some s)
    (hc : ∀ a ∈ s.arrived, ∀ b ∈ s.arrived, a.expiry = b.expiry → a.dev = b.dev → a = b) : s.at_ ≠ .dead .typeError := by
  have : (s.at_ = .dead .typeError → hasIncomparable s.heap = true) ∧ ∀ x ∈ s.heap ++ s.inq, x ∈ s.arrived := by
    refine link_invariant (P := fun s => (s.at_ = .dead .typeError → hasIncomparable s.heap = true) ∧ ∀ x ∈ s.heap ++ s.inq, x ∈ s.arrived)
      ?_ ⟨by simp [Linkem.init], by simp [Linkem.init]⟩ h
    rintro s s' ev ⟨h1, h2⟩ hs
    cases link_effect hs with
    | arrive x =>
      refine ⟨h1, fun y hy => ?_⟩
      simp only [List.mem_append, List.mem_singleton] at hy ⊢
      rcases hy with hy | hy | hy
      · exact .inl (h2 y (by simp [hy]))
      · exact .inl (h2 y (by simp [hy]))
      · exact .inr hy
    | tick d => exact ⟨h1, h2⟩
    | stop => exact ⟨h1, h2⟩
    | move a _ hd => exact ⟨hd, h2⟩
    | deliver i x now ha =>
      refine ⟨fun hd => ?_, fun y hy => ?_⟩
      · simp only at hd; rw [ha] at hd; cases hd
      · rcases List.mem_append.mp hy with hy | hy
        · exact h2 y (List.mem_append.mpr (.inl ((List.eraseIdx_sublist _ _).mem hy)))
        · exact h2 y (List.mem_append.mpr (.inr hy))
    | push x q hq a ha =>
      refine ⟨fun hd => ?_, fun y hy => ?_⟩
      · rcases ha with rfl | ⟨-, ha⟩
        · cases hd
        · exact ha
      · apply h2
        rw [hq]
        simp only [List.mem_append, List.mem_cons, List.not_mem_nil, or_false] at hy ⊢
        rcases hy with (hy | hy) | hy
        · exact .inl hy
        · exact .inr (.inl hy)
        · exact .inr (.inr hy)
  intro hd
  have hi := this.1 hd
  simp only [hasIncomparable, List.any_eq_true] at hi
  obtain ⟨a, ha, b, hb, hab⟩ := hi
  simp only [LinkEntry.incomparable, Bool.and_eq_true, decide_eq_true_eq, Bool.or_eq_true] at hab
  have heq := hc a (this.2 a (by simp [ha])) b (this.2 b (by simp [hb])) hab.1.1 hab.1.2
  subst heq
  simp at hab

/-- Every packet is delivered: not if the clock passes an expiry time between the two times it is read.  The
timeout is negative then, and the thread ends with `ValueError`. -/
theorem link_clock_violated : ∃ es s, (Linkem.init 0).run es = some s ∧ s.stop = false ∧ s.at_ = .dead .valueError ∧
    s.heap = [⟨10, "a".toList, [], 0⟩] ∧ s.delivered = [] := by
  refine ⟨[.arrive ⟨10, "a".toList, [], 0⟩, .enter, .drainEnd, .wait, .receive, .tick 9, .enter, .drainEnd, .tick 2, .wait], _, rfl, ?_⟩
  decide +kernel

/-- Nor if two different packets for the same device expire at the same time: the thread ends with
`TypeError`.  (With one entry in the heap there is no other step.) -/
theorem link_tie_violated : ∃ es s t, (Linkem.init 0).run es = some s ∧ s.step .receiveFail = some t ∧ s.step .receive = none ∧
    t.at_ = .dead .typeError ∧ t.delivered = [] ∧ t.heap.length = 2 := by
  refine ⟨[.arrive ⟨10, "a".toList, [.hdr .nullHdr], 0⟩, .arrive ⟨10, "a".toList, [], 0⟩, .enter, .drainEnd, .wait, .receive,
    .enter, .drainEnd, .wait], _, _, rfl, rfl, ?_⟩
  decide +kernel

/-- A dead emulator delivers nothing more, whatever arrives. -/
theorem link_dead_forever (s s' : Linkem) (es : List LinkEv) (e : PyErr) (hd : s.at_ = .dead e) (h : s.run es = some s') :
    s'.at_ = .dead e ∧ s'.delivered = s.delivered := by
  refine link_invariant (P := fun u => u.at_ = .dead e ∧ u.delivered = s.delivered) ?_ ⟨hd, rfl⟩ h
  rintro u u' ev ⟨h1, h2⟩ hs
  cases ev <;> simp only [Linkem.step, h1, reduceCtorEq, if_false] at hs <;> cases hs <;> exact ⟨by first | rfl | exact h1, h2⟩

/-! ## C97: emulated transmission time -/

/-- A packet of `n` bytes takes `8 n / capacity` seconds on a link of so many bits per second: the emulator
adds an eighth of that to the delay, for every packet whose size is defined and not zero. -/
theorem send_delay_violated (p : Packet) (n capacity delay : Nat) (h : p.size = .ok n) (hn : 0 < n) :
    ∃ t, sendDelayTimesCapacity p capacity delay = .ok t ∧ 8 * (t - delay * capacity) = 8 * n ∧ t < 8 * n + delay * capacity := by
  refine ⟨n + delay * capacity, ?_, ?_, ?_⟩
  · simp only [sendDelayTimesCapacity, h, bind_ok]
  · omega
  · omega

/-- 44 bytes at 1000 bits per second would take 352 milliseconds; 44 are used. -/
example : (sendDelayTimesCapacity exPacket 1000 0).test (· = 44) = true := by decide +kernel

end SY.Props
