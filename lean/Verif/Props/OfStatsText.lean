import Verif.Props.OfStatsWire

/-! # Texts and lengths of statistics messages: more on C130 -/

namespace SY.Props

/-! ## Which bytes are a text -/

/-- A Unicode scalar value. -/
def Scalar (n : Nat) : Prop := n < 0xD800 ∨ 0xE000 ≤ n ∧ n < 0x110000

/-- Its UTF-8 form (RFC 3629). -/
def utf8Enc (n : Nat) : Bytes :=
  if n < 0x80 then [UInt8.ofNat n]
  else if n < 0x800 then [UInt8.ofNat (0xC0 + n / 64), UInt8.ofNat (0x80 + n % 64)]
  else if n < 0x10000 then [UInt8.ofNat (0xE0 + n / 4096), UInt8.ofNat (0x80 + n / 64 % 64), UInt8.ofNat (0x80 + n % 64)]
  else [UInt8.ofNat (0xF0 + n / 262144), UInt8.ofNat (0x80 + n / 4096 % 64), UInt8.ofNat (0x80 + n / 64 % 64),
    UInt8.ofNat (0x80 + n % 64)]

theorem u8_ofNat_toNat (n : Nat) (h : n < 256) : (UInt8.ofNat n).toNat = n := by
  simp [UInt8.toNat_ofNat', Nat.mod_eq_of_lt h]

theorem u8_eq {b : UInt8} {n : Nat} (h : b.toNat = n) : UInt8.ofNat n = b := by
  rw [← h]; simp

theorem cont_iff (b : UInt8) : utf8Cont b = true ↔ 0x80 ≤ b.toNat ∧ b.toNat ≤ 0xBF := by
  simp [utf8Cont, UInt8.le_iff_toNat_le]

theorem utf8Valid_enc (n : Nat) (hn : Scalar n) (r : Bytes) : utf8Valid (utf8Enc n ++ r) = utf8Valid r := by
  simp only [Scalar] at hn
  simp only [utf8Enc]
  split
  · rename_i h
    have : UInt8.ofNat n < 0x80 := by
      rw [UInt8.lt_iff_toNat_lt, u8_ofNat_toNat n (by omega)]; exact h
    conv => lhs; unfold utf8Valid
    simp [this]
  · split
    · rename_i h0 h
      have e1 := u8_ofNat_toNat (0xC0 + n / 64) (by omega)
      have e2 := u8_ofNat_toNat (0x80 + n % 64) (by omega)
      generalize UInt8.ofNat (0xC0 + n / 64) = a at *
      generalize UInt8.ofNat (0x80 + n % 64) = b at *
      have h1 : ¬ a < 0x80 := by
        rw [UInt8.lt_iff_toNat_lt, e1]; simp; omega
      have h2 : (decide (0xC2 ≤ a) && decide (a ≤ 0xDF)) = true := by
        simp [UInt8.le_iff_toNat_le, e1]; omega
      have h3 : utf8Cont b = true := by rw [cont_iff, e2]; omega
      conv => lhs; unfold utf8Valid
      simp only [List.cons_append, List.nil_append, if_neg h1, h2, h3]
      simp
    · split
      · rename_i h0 h0' h
        have e1 := u8_ofNat_toNat (0xE0 + n / 4096) (by omega)
        have e2 := u8_ofNat_toNat (0x80 + n / 64 % 64) (by omega)
        have e3 := u8_ofNat_toNat (0x80 + n % 64) (by omega)
        generalize UInt8.ofNat (0xE0 + n / 4096) = a at *
        generalize UInt8.ofNat (0x80 + n / 64 % 64) = b at *
        generalize UInt8.ofNat (0x80 + n % 64) = c at *
        have h1 : ¬ a < 0x80 := by
          rw [UInt8.lt_iff_toNat_lt, e1]; simp; omega
        have h2 : (decide (0xC2 ≤ a) && decide (a ≤ 0xDF)) = false := by
          simp [UInt8.le_iff_toNat_le, UInt8.lt_iff_toNat_lt, e1]; omega
        have h2' : (decide (0xE0 ≤ a) && decide (a ≤ 0xEF)) = true := by
          simp [UInt8.le_iff_toNat_le, e1]; omega
        have h3 : utf8Cont b = true := by rw [cont_iff, e2]; omega
        have h4 : utf8Cont c = true := by rw [cont_iff, e3]; omega
        have h5 : (a != 0xE0 || decide (0xA0 ≤ b)) = true := by
          simp only [Bool.or_eq_true, bne_iff_ne, ne_eq, ← UInt8.toNat_inj, e1, decide_eq_true_eq, UInt8.le_iff_toNat_le, e2]
          simp; omega
        have h6 : (a != 0xED || decide (b ≤ 0x9F)) = true := by
          simp only [Bool.or_eq_true, bne_iff_ne, ne_eq, ← UInt8.toNat_inj, e1, decide_eq_true_eq, UInt8.le_iff_toNat_le, e2]
          simp; omega
        conv => lhs; unfold utf8Valid
        simp only [List.cons_append, List.nil_append, if_neg h1, h2, h2', h3, h4, h5, h6]
        simp
      · rename_i h0 h0' h0''
        have e1 := u8_ofNat_toNat (0xF0 + n / 262144) (by omega)
        have e2 := u8_ofNat_toNat (0x80 + n / 4096 % 64) (by omega)
        have e3 := u8_ofNat_toNat (0x80 + n / 64 % 64) (by omega)
        have e4 := u8_ofNat_toNat (0x80 + n % 64) (by omega)
        generalize UInt8.ofNat (0xF0 + n / 262144) = a at *
        generalize UInt8.ofNat (0x80 + n / 4096 % 64) = b at *
        generalize UInt8.ofNat (0x80 + n / 64 % 64) = c at *
        generalize UInt8.ofNat (0x80 + n % 64) = d at *
        have h1 : ¬ a < 0x80 := by
          rw [UInt8.lt_iff_toNat_lt, e1]; simp; omega
        have h2 : (decide (0xC2 ≤ a) && decide (a ≤ 0xDF)) = false := by
          simp [UInt8.le_iff_toNat_le, UInt8.lt_iff_toNat_lt, e1]; omega
        have h2' : (decide (0xE0 ≤ a) && decide (a ≤ 0xEF)) = false := by
          simp [UInt8.le_iff_toNat_le, UInt8.lt_iff_toNat_lt, e1]; omega
        have h2'' : (decide (0xF0 ≤ a) && decide (a ≤ 0xF4)) = true := by
          simp [UInt8.le_iff_toNat_le, e1]; omega
        have h3 : utf8Cont b = true := by rw [cont_iff, e2]; omega
        have h4 : utf8Cont c = true := by rw [cont_iff, e3]; omega
        have h4' : utf8Cont d = true := by rw [cont_iff, e4]; omega
        have h5 : (a != 0xF0 || decide (0x90 ≤ b)) = true := by
          simp only [Bool.or_eq_true, bne_iff_ne, ne_eq, ← UInt8.toNat_inj, e1, decide_eq_true_eq, UInt8.le_iff_toNat_le, e2]
          simp; omega
        have h6 : (a != 0xF4 || decide (b ≤ 0x8F)) = true := by
          simp only [Bool.or_eq_true, bne_iff_ne, ne_eq, ← UInt8.toNat_inj, e1, decide_eq_true_eq, UInt8.le_iff_toNat_le, e2]
          simp; omega
        conv => lhs; unfold utf8Valid
        simp only [List.cons_append, List.nil_append, if_neg h1, h2, h2', h2'', h3, h4, h4', h5, h6]
        simp

theorem utf8_two {a b : UInt8} (h : (decide (0xC2 ≤ a) && decide (a ≤ 0xDF)) = true) (hb : utf8Cont b = true) :
    ∃ n, Scalar n ∧ utf8Enc n = [a, b] := by
  simp only [Bool.and_eq_true, decide_eq_true_eq, UInt8.le_iff_toNat_le] at h
  rw [cont_iff] at hb
  simp at h
  refine ⟨(a.toNat - 0xC0) * 64 + (b.toNat - 0x80), by simp only [Scalar]; omega, ?_⟩
  rw [utf8Enc, if_neg (by omega), if_pos (by omega)]
  rw [u8_eq (b := a) (by omega), u8_eq (b := b) (by omega)]

theorem utf8_three {a b c : UInt8} (h : (decide (0xE0 ≤ a) && decide (a ≤ 0xEF)) = true)
    (hb : (utf8Cont b && (a != 0xE0 || decide (0xA0 ≤ b)) && (a != 0xED || decide (b ≤ 0x9F)) && utf8Cont c) = true) :
    ∃ n, Scalar n ∧ utf8Enc n = [a, b, c] := by
  simp only [Bool.and_eq_true, decide_eq_true_eq, UInt8.le_iff_toNat_le, Bool.or_eq_true, bne_iff_ne, ne_eq, ← UInt8.toNat_inj,
    cont_iff] at h hb
  simp at h hb
  refine ⟨(a.toNat - 0xE0) * 4096 + (b.toNat - 0x80) * 64 + (c.toNat - 0x80), by simp only [Scalar]; omega, ?_⟩
  rw [utf8Enc, if_neg (by omega), if_neg (by omega), if_pos (by omega)]
  rw [u8_eq (b := a) (by omega), u8_eq (b := b) (by omega), u8_eq (b := c) (by omega)]

theorem utf8_four {a b c d : UInt8}
    (h : (decide (0xF0 ≤ a) && decide (a ≤ 0xF4) && utf8Cont b && (a != 0xF0 || decide (0x90 ≤ b)) && (a != 0xF4 || decide (b ≤ 0x8F)) &&
      utf8Cont c && utf8Cont d) = true) : ∃ n, Scalar n ∧ utf8Enc n = [a, b, c, d] := by
  simp only [Bool.and_eq_true, decide_eq_true_eq, UInt8.le_iff_toNat_le, Bool.or_eq_true, bne_iff_ne, ne_eq, ← UInt8.toNat_inj,
    cont_iff] at h
  simp at h
  refine ⟨(a.toNat - 0xF0) * 262144 + (b.toNat - 0x80) * 4096 + (c.toNat - 0x80) * 64 + (d.toNat - 0x80), by simp only [Scalar]; omega, ?_⟩
  rw [utf8Enc, if_neg (by omega), if_neg (by omega), if_neg (by omega)]
  rw [u8_eq (b := a) (by omega), u8_eq (b := b) (by omega), u8_eq (b := c) (by omega), u8_eq (b := d) (by omega)]

/-- C130: the bytes of a text field are accepted if and only if they are the UTF-8 form of some text. -/
theorem utf8_text (bs : Bytes) : utf8Valid bs = true ↔ ∃ ns : List Nat, (∀ n ∈ ns, Scalar n) ∧ bs = ns.flatMap utf8Enc := by
  constructor
  · fun_induction utf8Valid bs with
    | case1 => intro _; exact ⟨[], by simp, rfl⟩
    | case2 a r h ih =>
      intro hv
      obtain ⟨ns, h1, h2⟩ := ih hv
      have ha : a.toNat < 0x80 := by rw [UInt8.lt_iff_toNat_lt] at h; exact h
      refine ⟨a.toNat :: ns, ?_, ?_⟩
      · simp only [List.mem_cons, forall_eq_or_imp]
        exact ⟨.inl (by omega), h1⟩
      · simp [utf8Enc, ha, ← h2]
    | case3 => simp
    | case4 a b r hn h ih =>
      intro hv
      simp only [Bool.and_eq_true] at hv
      obtain ⟨ns, h1, h2⟩ := ih hv.2
      obtain ⟨n, hs, he⟩ := utf8_two h hv.1
      refine ⟨n :: ns, ?_, ?_⟩
      · simp only [List.mem_cons, forall_eq_or_imp]
        exact ⟨hs, h1⟩
      · simp [he, ← h2]
    | case5 => simp
    | case6 a b c r hn h h' ih =>
      intro hv
      rw [Bool.and_eq_true] at hv
      obtain ⟨ns, h1, h2⟩ := ih hv.2
      obtain ⟨n, hs, he⟩ := utf8_three h' hv.1
      refine ⟨n :: ns, ?_, ?_⟩
      · simp only [List.mem_cons, forall_eq_or_imp]
        exact ⟨hs, h1⟩
      · simp [he, ← h2]
    | case7 => simp
    | case8 a b c d r hn h h' ih =>
      intro hv
      rw [Bool.and_eq_true] at hv
      obtain ⟨ns, h1, h2⟩ := ih hv.2
      obtain ⟨n, hs, he⟩ := utf8_four hv.1
      refine ⟨n :: ns, ?_, ?_⟩
      · simp only [List.mem_cons, forall_eq_or_imp]
        exact ⟨hs, h1⟩
      · simp [he, ← h2]
  · rintro ⟨ns, h, rfl⟩
    induction ns with
    | nil => rfl
    | cons n ns ih =>
      rw [List.flatMap_cons, utf8Valid_enc n (h n List.mem_cons_self)]
      exact ih fun x hx => h x (List.mem_cons_of_mem _ hx)

/-- `é`, `€` and a face. -/
example : utf8Valid ([0xE9, 0x20AC, 0x1F600].flatMap utf8Enc) = true :=
  (utf8_text _).mpr ⟨[0xE9, 0x20AC, 0x1F600], by unfold Scalar; decide, rfl⟩

/-- A text, as bytes. -/
def IsText (bs : Bytes) : Prop := ∃ ns : List Nat, (∀ n ∈ ns, Scalar n) ∧ bs = ns.flatMap utf8Enc

/-- What is read is of the class for its type. -/
theorem readStats_texts (reply : Bool) (t : Nat) (raw : Bytes) (b : StatsBody) (hb : readStats reply t raw = .ok b) :
    (∀ a1 a2 a3 a4 a5, b = .desc a1 a2 a3 a4 a5 → readDesc raw = .ok b) ∧ ∀ tb, b = .table tb → readTableStats raw = .ok b := by
  unfold readStats at hb
  split at hb
  case h_8 =>
    refine ⟨fun _ _ _ _ _ _ => hb, fun tb he => ?_⟩
    subst he
    unfold readDesc at hb
    obtain ⟨fs, -, hb⟩ := bind_eq_ok.mp hb
    split at hb
    · split at hb <;> cases hb
    · cases hb
  case h_11 =>
    refine ⟨fun _ _ _ _ _ he => ?_, fun _ _ => hb⟩
    subst he
    unfold readTableStats at hb
    obtain ⟨fs, -, hb⟩ := bind_eq_ok.mp hb
    obtain ⟨fs, -, hb⟩ := bind_eq_ok.mp hb
    cases hb
  all_goals
    refine ⟨fun a1 a2 a3 a4 a5 he => ?_, fun tb he => ?_⟩ <;> subst he <;> exfalso
  all_goals first
    | (cases hb; done)
    | (unfold readFlowReq at hb; (repeat obtain ⟨_, -, hb⟩ := bind_eq_ok.mp hb); split at hb <;> first | cases hb; done | (obtain ⟨_, -, hb⟩ := bind_eq_ok.mp hb; cases hb; done))
    | (unfold readPortReq at hb; (repeat obtain ⟨_, -, hb⟩ := bind_eq_ok.mp hb); split at hb <;> first | cases hb; done | (obtain ⟨_, -, hb⟩ := bind_eq_ok.mp hb; cases hb; done))
    | (unfold readQueueReq at hb; (repeat obtain ⟨_, -, hb⟩ := bind_eq_ok.mp hb); split at hb <;> first | cases hb; done | (obtain ⟨_, -, hb⟩ := bind_eq_ok.mp hb; cases hb; done))
    | (unfold readAggregate at hb; (repeat obtain ⟨_, -, hb⟩ := bind_eq_ok.mp hb); split at hb <;> cases hb)
    | (unfold readQueueStats at hb; (repeat obtain ⟨_, -, hb⟩ := bind_eq_ok.mp hb); split at hb <;> cases hb)
    | (unfold readFlowStats at hb; (repeat obtain ⟨_, -, hb⟩ := bind_eq_ok.mp hb); cases hb)
    | (unfold readPortStats at hb; (repeat obtain ⟨_, -, hb⟩ := bind_eq_ok.mp hb); cases hb)
    | ((repeat obtain ⟨_, -, hb⟩ := bind_eq_ok.mp hb); cases hb)

/-- C130: in a switch description or a table reply that was read, every text field is a text. -/
theorem stats_texts (reply : Bool) (raw : Bytes) (s : OfStats) (h : OfStats.parse reply raw = .ok s) :
    (∀ a b c d e, s.body = .desc a b c d e → IsText a ∧ IsText b ∧ IsText c ∧ IsText d ∧ IsText e) ∧
    ∀ t, s.body = .table t → IsText t.name := by
  unfold OfStats.parse at h
  split at h
  · cases h
  · obtain ⟨t, -, h⟩ := bind_eq_ok.mp h
    split at h
    · cases h
    · split at h
      · cases h
      · obtain ⟨b, hb, h⟩ := bind_eq_ok.mp h
        cases h
        have := readStats_texts reply t _ b hb
        refine ⟨fun a1 a2 a3 a4 a5 he => ?_, fun tb he => ?_⟩
        · simp only at he
          have hd := this.1 _ _ _ _ _ he
          subst he
          unfold readDesc at hd
          obtain ⟨fs, -, hd⟩ := bind_eq_ok.mp hd
          split at hd
          · split at hd
            · rename_i hv
              cases hd
              simp only [Bool.and_eq_true] at hv
              exact ⟨(utf8_text _).mp hv.1.1.1.1, (utf8_text _).mp hv.1.1.1.2, (utf8_text _).mp hv.1.1.2, (utf8_text _).mp hv.1.2,
                (utf8_text _).mp hv.2⟩
            · cases hd
          · cases hd
        · simp only at he
          have hd := this.2 _ he
          subst he
          unfold readTableStats at hd
          obtain ⟨fs, -, hd⟩ := bind_eq_ok.mp hd
          obtain ⟨tb', hd', hd⟩ := bind_eq_ok.mp hd
          cases hd
          unfold OfTableStats.ofFields at hd'
          split at hd'
          · split at hd'
            · rename_i hv
              cases hd'
              exact (utf8_text _).mp hv
            · cases hd'
          · cases hd'

/-- The size of the body of a message: what the specification of OpenFlow 1.0 gives for the fixed part, with the four bytes
of type and flags; for flow replies without the padding byte after the table (this code has `length`, `table_id`, padding,
match and counters). -/
def statsFixed (reply : Bool) (type : Nat) : Nat :=
  4 + match reply, type with
    | false, 1 | false, 2 => 40 + 1 + 1 + 2
    | false, 4 => 2 + 6
    | false, 5 => 2 + 2 + 4
    | false, 0xffff => 4
    | true, 0 => 256 + 256 + 256 + 32 + 256
    | true, 1 => 2 + 1 + 1 + 40 + 4 + 4 + 2 + 2 + 2 + 6 + 8 + 8 + 8
    | true, 2 => 8 + 8 + 4
    | true, 3 => 1 + 3 + 32 + 4 + 4 + 4 + 8 + 8
    | true, 4 => 2 + 6 + 12 * 8
    | true, 5 => 2 + 2 + 4 + 3 * 8
    | true, 0xffff => 4
    | _, _ => 0

/-- C130: a message of a known type that is shorter than the fixed part is refused with an exception, and nothing is read. -/
theorem stats_too_short (reply : Bool) (raw : Bytes) (ht : beDec (raw.take 2) ∈ [0, 1, 2, 3, 4, 5, 0xffff]) (h2 : 2 ≤ raw.length)
    (hl : raw.length < statsFixed reply (beDec (raw.take 2))) : OfStats.parse reply raw = .error .generic := by
  have key : ∀ t ∈ [0, 1, 2, 3, 4, 5, 0xffff], ∀ r : Bool, statsMinLen r t = statsFixed r t ∧ t ∈ ofStatsTypes ∧ t ≠ 0xdead := by decide
  obtain ⟨k1, k2, k3⟩ := key _ ht reply
  unfold OfStats.parse
  rw [if_neg (by omega)]
  simp [enumOf, k2, k3, k1, hl]

example : OfStats.parse false ([0, 1, 0, 0] ++ zeros 43) = .error .generic := by decide +kernel
example : (OfStats.parse false ([0, 1, 0, 0] ++ zeros 44)).isOk = true := by decide +kernel

/-- C130: what a request that was just made asks for, as it is sent: in the port and queue requests port 0xffff (none in
particular), queue 0; the aggregate request is sent as a flow request. -/
theorem fresh_request_bytes (t : Nat) (s : OfStats) (h : OfStats.request t = some s) :
    ∃ m, OfMatch.toBytes .default = .ok m ∧
    ((t, s.toBytes) = (0, .ok [0, 0, 0, 0]) ∨ (t, s.toBytes) = (1, .ok ([0, 1, 0, 0] ++ m ++ [0, 0, 0, 0])) ∨
     (t, s.toBytes) = (2, .ok ([0, 1, 0, 0] ++ m ++ [0, 0, 0, 0])) ∨ (t, s.toBytes) = (3, .ok [0, 3, 0, 0]) ∨
     (t, s.toBytes) = (4, .ok [0, 4, 0, 0, 0xff, 0xff, 0, 0, 0, 0, 0, 0]) ∨
     (t, s.toBytes) = (5, .ok [0, 5, 0, 0, 0xff, 0xff, 0, 0, 0, 0, 0, 0]) ∨
     (t, s.toBytes) = (0xffff, .ok [0xff, 0xff, 0, 0, 0xff, 0xff, 0xff, 0xff])) := by
  have hm : (OfMatch.toBytes .default).isOk = true := by decide +kernel
  cases hd : OfMatch.toBytes .default with
  | error e => rw [hd] at hm; cases hm
  | ok m =>
    refine ⟨m, rfl, ?_⟩
    unfold OfStats.request at h
    split at h <;> cases h
    · simp; decide +kernel
    · have h1 : pack [.u 2, .u 2] [.i ((1 : Nat) : Int), .i 0] = .ok [0, 1, 0, 0] := by decide +kernel
      have h2 : pack [.u 1, .x 1, .u 2] [.i 0, .i ((0 : Nat) : Int)] = .ok [0, 0, 0, 0] := by decide +kernel
      simp only [OfStats.toBytes, StatsBody.toBytes, h1, h2, hd, bind_ok]
      simp
    · have h1 : pack [.u 2, .u 2] [.i ((1 : Nat) : Int), .i 0] = .ok [0, 1, 0, 0] := by decide +kernel
      have h2 : pack [.u 1, .x 1, .u 2] [.i 0, .i ((0 : Nat) : Int)] = .ok [0, 0, 0, 0] := by decide +kernel
      simp only [OfStats.toBytes, StatsBody.toBytes, h1, h2, hd, bind_ok]
      simp
    · simp; decide +kernel
    · simp; decide +kernel
    · simp; decide +kernel
    · simp; decide +kernel

end SY.Props
