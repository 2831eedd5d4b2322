import Verif.OfFeat
import Verif.Props.OfMsg

/-! # C195, C196: building a switch-features reply, and sets of flags -/

namespace SY.Props

/-! ## C195: the parts of a datapath id -/

/-- Link addresses that are assigned have six bytes, as all of them do. -/
def _root_.SY.FeatOp.Ok : FeatOp → Prop
  | .dpid (.addr a) | .low48 (.addr a) | .high16 (.addr a) => a.raw.length = 6
  | _ => True

theorem features_assign_dpid {f g : OfFeatures} {o : FeatOp} (hd : f.dpid.length = 8) (ho : o.Ok) (h : f.assign o = .ok g) :
    g.dpid.length = 8 := by
  cases o with
  | dpid v =>
    cases v with
    | bytes b =>
      simp only [OfFeatures.assign, OfFeatures.setDpid, padDpid] at h
      split at h
      · cases h
      · cases h
        rename_i h8
        simp [zeros]; omega
    | addr a => cases h
    | other => cases h
  | low48 v =>
    cases v with
    | bytes b => simp only [OfFeatures.assign, OfFeatures.setLow48] at h; split at h <;> cases h
    | addr a =>
      cases h
      simp only [FeatOp.Ok] at ho
      simp [OfFeatures.high16, hd, ho]
    | other => cases h
  | high16 v =>
    cases v with
    | bytes b =>
      simp only [OfFeatures.assign, OfFeatures.setHigh16] at h
      split at h
      · cases h
      · cases h
        rename_i h2
        simp [OfFeatures.low48, hd]; omega
    | addr a => cases h
    | other => cases h
  | nbuffers v =>
    simp only [OfFeatures.assign, OfFeatures.setNbuffers] at h
    split at h
    · cases h; exact hd
    · cases h
  | ntables v =>
    simp only [OfFeatures.assign, OfFeatures.setNtables, checkTables] at h
    split at h
    · cases h; exact hd
    · cases h

theorem features_assign_wf {f g : OfFeatures} {o : FeatOp} (w : f.WF) (ho : o.Ok) (h : f.assign o = .ok g) : g.WF := by
  have hd := features_assign_dpid w.dpid ho h
  cases o with
  | dpid v =>
    cases v with
    | bytes b =>
      simp only [OfFeatures.assign, OfFeatures.setDpid] at h
      obtain ⟨d, _, h⟩ := bind_eq_ok.mp h
      cases h
      exact ⟨hd, w.nbuffers, w.ntables, w.capabilities, w.actions, w.ports⟩
    | addr a => cases h
    | other => cases h
  | low48 v =>
    cases v with
    | bytes b => simp only [OfFeatures.assign, OfFeatures.setLow48] at h; split at h <;> cases h
    | addr a => cases h; exact ⟨hd, w.nbuffers, w.ntables, w.capabilities, w.actions, w.ports⟩
    | other => cases h
  | high16 v =>
    cases v with
    | bytes b =>
      simp only [OfFeatures.assign, OfFeatures.setHigh16] at h
      split at h
      · cases h
      · cases h; exact ⟨hd, w.nbuffers, w.ntables, w.capabilities, w.actions, w.ports⟩
    | addr a => cases h
    | other => cases h
  | nbuffers v =>
    simp only [OfFeatures.assign, OfFeatures.setNbuffers] at h
    split at h
    · cases h; exact ⟨hd, by show v.toNat < _; omega, w.ntables, w.capabilities, w.actions, w.ports⟩
    · cases h
  | ntables v =>
    simp only [OfFeatures.assign, OfFeatures.setNtables, checkTables] at h
    split at h
    · cases h; exact ⟨hd, w.nbuffers, by show 0 < v.toNat ∧ v.toNat < _; omega, w.capabilities, w.actions, w.ports⟩
    · cases h

/-- After any assignments, successful or not, the features are written and parsed back as they are. -/
theorem features_assigns_roundtrip (f : OfFeatures) (ops : List FeatOp) (w : f.WF) (ho : ∀ o ∈ ops, o.Ok) :
    (f.assigns ops).WF ∧ ∃ b, (f.assigns ops).toBytes = .ok b ∧ OfFeatures.fromBytes b = .ok (f.assigns ops, []) := by
  have hw : (f.assigns ops).WF := by
    induction ops generalizing f with
    | nil => exact w
    | cons o os ih =>
      simp only [OfFeatures.assigns]
      refine ih _ ?_ (fun p hp => ho p (List.mem_cons_of_mem _ hp))
      cases h : f.assign o with
      | ok g => exact features_assign_wf w (ho o (by simp)) h
      | error e => exact w
  obtain ⟨b, h1, _, h2⟩ := features_roundtrip _ hw
  exact ⟨hw, b, h1, h2⟩

/-- The datapath id as a number. -/
def _root_.SY.OfFeatures.number (f : OfFeatures) : Nat := beDec f.dpid

theorem beDec_padded (n : Nat) (b : Bytes) : beDec (zeros n ++ b) = beDec b := by
  induction n with
  | zero => rfl
  | succ n ih =>
    have : zeros (n + 1) ++ b = 0 :: (zeros n ++ b) := by simp [zeros, List.replicate_succ]
    rw [this, beDec, ih]; simp

/-- What the assignments do: `dpid` takes at most eight bytes, as a number; the upper sixteen bits can be set from two
bytes and the lower forty-eight from a link address, each without changing the other; everything else, with a single
exception (`low48_bytes_violated`), is refused with `ValueError`. -/
theorem dpid_parts_partial (f : OfFeatures) (hd : f.dpid.length = 8) :
    f.dpid = f.high16 ++ f.low48 ∧
    (∀ b : Bytes, b.length ≤ 8 → ∃ g, f.assign (.dpid (.bytes b)) = .ok g ∧ g.number = beDec b ∧ g.dpid.length = 8) ∧
    (∀ b : Bytes, 8 < b.length → f.assign (.dpid (.bytes b)) = .error .valueError) ∧
    (∀ b : Bytes, b.length = 2 → ∃ g, f.assign (.high16 (.bytes b)) = .ok g ∧ g.high16 = b ∧ g.low48 = f.low48) ∧
    (∀ b : Bytes, b.length ≠ 2 → f.assign (.high16 (.bytes b)) = .error .valueError) ∧
    (∀ a : EthAddr, a.raw.length = 6 → ∃ g, f.assign (.low48 (.addr a)) = .ok g ∧ g.low48 = a.raw ∧ g.high16 = f.high16) ∧
    (∀ b : Bytes, b.length ≠ 6 → f.assign (.low48 (.bytes b)) = .error .valueError) ∧
    (∀ a : EthAddr, f.assign (.dpid (.addr a)) = .error .valueError ∧ f.assign (.high16 (.addr a)) = .error .valueError) ∧
    f.assign (.dpid .other) = .error .valueError ∧ f.assign (.high16 .other) = .error .valueError ∧
    f.assign (.low48 .other) = .error .valueError := by
  have ht : f.dpid.take 8 = f.dpid := List.take_of_length_le (by omega)
  refine ⟨?_, ?_, ?_, ?_, ?_, ?_, ?_, fun a => ⟨rfl, rfl⟩, rfl, rfl, rfl⟩
  · simp [OfFeatures.high16, OfFeatures.low48, ht]
  · intro b hb
    refine ⟨{ f with dpid := zeros (8 - b.length) ++ b }, ?_, beDec_padded _ _, ?_⟩
    · simp [OfFeatures.assign, OfFeatures.setDpid, padDpid, show ¬ 8 < b.length by omega]
    · simp [zeros]; omega
  · intro b hb
    simp [OfFeatures.assign, OfFeatures.setDpid, padDpid, hb]
  · intro b hb
    refine ⟨{ f with dpid := b ++ f.low48 }, by simp [OfFeatures.assign, OfFeatures.setHigh16, hb], ?_, ?_⟩
    · simp [OfFeatures.high16, List.take_append, hb]
    · have : f.low48.length = 6 := by simp [OfFeatures.low48, hd]
      show ((b ++ f.low48).take 8).drop 2 = f.low48
      rw [List.take_of_length_le (by simp; omega), List.drop_left' hb]
  · intro b hb
    simp [OfFeatures.assign, OfFeatures.setHigh16, hb]
  · intro a ha
    have hh : f.high16.length = 2 := by simp [OfFeatures.high16, hd]
    refine ⟨{ f with dpid := f.high16 ++ a.raw }, rfl, ?_, ?_⟩
    · show ((f.high16 ++ a.raw).take 8).drop 2 = a.raw
      rw [List.take_of_length_le (by simp; omega), List.drop_left' hh]
    · show (f.high16 ++ a.raw).take 2 = f.high16
      rw [List.take_left' hh]
  · intro b hb
    simp [OfFeatures.assign, OfFeatures.setLow48, hb]

/-- False of the code for the lower forty-eight bits given as bytes: six of them, as the message of the error demands,
always raise `AttributeError`. -/
theorem low48_bytes_violated (f : OfFeatures) (b : Bytes) (h : b.length = 6) :
    f.assign (.low48 (.bytes b)) = .error .attributeError := by
  simp [OfFeatures.assign, OfFeatures.setLow48, h]

/-- The counts: buffers fit a 32-bit word, and there are one to 255 tables; anything else is refused. -/
theorem feature_counts (f : OfFeatures) (v : Int) :
    ((∃ g, f.assign (.nbuffers v) = .ok g ∧ (g.nbuffers : Int) = v) ↔ 0 ≤ v ∧ v < 2 ^ 32) ∧
    (¬ (0 ≤ v ∧ v < 2 ^ 32) → f.assign (.nbuffers v) = .error .valueError) ∧
    ((∃ g, f.assign (.ntables v) = .ok g ∧ (g.ntables : Int) = v) ↔ 1 ≤ v ∧ v ≤ 255) ∧
    (¬ (1 ≤ v ∧ v ≤ 255) → f.assign (.ntables v) = .error .valueError) := by
  simp only [OfFeatures.assign, OfFeatures.setNbuffers, OfFeatures.setNtables, checkTables]
  refine ⟨⟨?_, ?_⟩, ?_, ⟨?_, ?_⟩, ?_⟩
  · rintro ⟨g, h, _⟩
    split at h
    · assumption
    · cases h
  · intro h
    rw [if_pos h]
    exact ⟨_, rfl, by show ((v.toNat : Nat) : Int) = v; omega⟩
  · intro h; rw [if_neg h]
  · rintro ⟨g, h, _⟩
    split at h
    · omega
    · cases h
  · intro h
    rw [if_pos (by omega)]
    exact ⟨_, rfl, by show ((v.toNat : Nat) : Int) = v; omega⟩
  · intro h; rw [if_neg (by omega)]; rfl

example : ((OfFeatures.new.assigns [.dpid (.bytes [7]), .low48 (.addr ⟨[1, 2, 3, 4, 5, 6]⟩), .high16 (.bytes [0xab, 0xcd]),
    .low48 (.bytes [9, 9, 9, 9, 9, 9]), .ntables 0, .ntables 3, .nbuffers 256])) =
    ⟨[0xab, 0xcd, 1, 2, 3, 4, 5, 6], 256, 3, [], [], []⟩ := by decide

/-! ## C196: sets of flags -/

/-- The member was added after the set was last cleared. -/
def AddedSince (x : Nat) (ops : List FlagOp) : Prop :=
  ∃ pre o post, ops = pre ++ o :: post ∧ (o = .add x ∨ o = .assign x) ∧ FlagOp.clear ∉ post

theorem mem_flagStep {enum s : List Nat} {x : Nat} (hs : ∀ y ∈ s, y ∈ enum) (o : FlagOp) :
    (x ∈ (flagStep enum s o).1 ↔ x ∈ enum ∧ (o = .add x ∨ o = .assign x) ∨ x ∈ s ∧ o ≠ .clear) := by
  cases o with
  | clear => simp [flagStep]
  | add v =>
    simp only [flagStep]
    cases h : enumOf enum v with
    | error e =>
      simp only [FlagOp.add.injEq, reduceCtorEq, or_false, ne_eq, not_false_eq_true, and_true]
      constructor
      · exact .inr
      · rintro (⟨h1, rfl⟩ | h1)
        · rw [enumOf_nat h1] at h; cases h
        · exact h1
    | ok n =>
      obtain ⟨h1, rfl⟩ := enumOf_ok h
      simp only [setAdd, List.mem_filter, Bool.or_eq_true, List.contains_iff_mem, beq_iff_eq, FlagOp.add.injEq, reduceCtorEq,
        or_false, ne_eq, not_false_eq_true, and_true]
      constructor
      · rintro ⟨a, b | rfl⟩
        · exact .inr b
        · exact .inl ⟨a, rfl⟩
      · rintro (⟨a, b⟩ | b)
        · exact ⟨a, .inr (by omega)⟩
        · exact ⟨hs _ b, .inl b⟩
  | assign v =>
    simp only [flagStep]
    cases h : enumOf enum v with
    | error e =>
      simp only [FlagOp.assign.injEq, reduceCtorEq, false_or, ne_eq, not_false_eq_true, and_true]
      constructor
      · exact .inr
      · rintro (⟨h1, rfl⟩ | h1)
        · rw [enumOf_nat h1] at h; cases h
        · exact h1
    | ok n =>
      obtain ⟨h1, rfl⟩ := enumOf_ok h
      simp only [setAdd, List.mem_filter, Bool.or_eq_true, List.contains_iff_mem, beq_iff_eq, FlagOp.assign.injEq, reduceCtorEq,
        false_or, ne_eq, not_false_eq_true, and_true]
      constructor
      · rintro ⟨a, b | rfl⟩
        · exact .inr b
        · exact .inl ⟨a, rfl⟩
      · rintro (⟨a, b⟩ | b)
        · exact ⟨a, .inr (by omega)⟩
        · exact ⟨hs _ b, .inl b⟩

theorem addedSince_cons (x : Nat) (o : FlagOp) (os : List FlagOp) :
    AddedSince x (o :: os) ↔ (o = .add x ∨ o = .assign x) ∧ FlagOp.clear ∉ os ∨ AddedSince x os := by
  constructor
  · rintro ⟨pre, p, post, h, hp, hc⟩
    cases pre with
    | nil => cases h; exact .inl ⟨hp, hc⟩
    | cons q pre => cases h; exact .inr ⟨pre, p, post, rfl, hp, hc⟩
  · rintro (⟨ho, hc⟩ | ⟨pre, p, post, rfl, hp, hc⟩)
    · exact ⟨[], o, os, rfl, ho, hc⟩
    · exact ⟨o :: pre, p, post, rfl, hp, hc⟩

theorem mem_flagRun {enum s : List Nat} {x : Nat} (hs : ∀ y ∈ s, y ∈ enum) (ops : List FlagOp) :
    x ∈ flagRun enum s ops ↔ x ∈ enum ∧ AddedSince x ops ∨ x ∈ s ∧ FlagOp.clear ∉ ops := by
  induction ops generalizing s with
  | nil =>
    simp only [flagRun, List.not_mem_nil, not_false_eq_true, and_true]
    constructor
    · exact .inr
    · rintro (⟨_, pre, o, post, h, _⟩ | h)
      · exact absurd h (by simp)
      · exact h
  | cons o os ih =>
    rw [flagRun, ih (fun y hy => ?_), mem_flagStep hs, addedSince_cons, List.mem_cons]
    · constructor
      · rintro (⟨h1, h2⟩ | ⟨⟨h1, h2⟩ | ⟨h1, h2⟩, h3⟩)
        · exact .inl ⟨h1, .inr h2⟩
        · exact .inl ⟨h1, .inl ⟨h2, h3⟩⟩
        · exact .inr ⟨h1, by rintro (h | h); exact h2 h.symm; exact h3 h⟩
      · rintro (⟨h1, ⟨h2, h3⟩ | h2⟩ | ⟨h1, h2⟩)
        · exact .inr ⟨.inl ⟨h1, h2⟩, h3⟩
        · exact .inl ⟨h1, h2⟩
        · exact .inr ⟨.inr ⟨h1, fun h => h2 (.inl h.symm)⟩, fun h => h2 (.inr h)⟩
    · rcases (mem_flagStep hs o).mp hy with ⟨h, _⟩ | ⟨h, _⟩
      · exact h
      · exact hs _ h

/-- After any calls, the set consists of the members that were added since it was last cleared, and its number has exactly
the bits of those; a value that is not a member is refused and changes nothing. -/
theorem flags_added (enum : List Nat) (ops : List FlagOp) :
    (∀ x, x ∈ flagRun enum [] ops ↔ x ∈ enum ∧ AddedSince x ops) ∧
    (∀ k, (makeBitmap (flagRun enum [] ops)).testBit k = true ↔ ∃ x ∈ enum, x.testBit k = true ∧ AddedSince x ops) ∧
    (∀ s v, (∀ x ∈ enum, (x : Int) ≠ v) → flagStep enum s (.add v) = (s, some .valueError)) := by
  have hm : ∀ x, x ∈ flagRun enum [] ops ↔ x ∈ enum ∧ AddedSince x ops := by
    intro x; rw [mem_flagRun (by simp)]; simp
  refine ⟨hm, ?_, ?_⟩
  · intro k
    rw [testBit_makeBitmap, List.any_eq_true]
    constructor
    · rintro ⟨x, h1, h2⟩
      exact ⟨x, ((hm x).mp h1).1, h2, ((hm x).mp h1).2⟩
    · rintro ⟨x, h1, h2, h3⟩
      exact ⟨x, (hm x).mpr ⟨h1, h3⟩, h2⟩
  · intro s v hv
    have : enumOf enum v = .error .valueError := by
      unfold enumOf
      rw [if_neg]
      rintro ⟨h0, hc⟩
      exact hv v.toNat (by simpa using hc) (by omega)
    simp [flagStep, this]

/-- The members of an enumeration are single bits, but for the one that means "none". -/
def SingleBits (enum : List Nat) : Prop := ∀ v ∈ enum, v = 0 ∨ ∃ k, v = 2 ^ k

/-- The flags that are read from the wire are those that were written, for enumerations of single bits; the member that
means "none" is always read. -/
theorem flags_read_back {enum s : List Nat} (he : SingleBits enum) (hs : ∀ x ∈ s, x ∈ enum) (x : Nat) :
    x ∈ unpackBitmap (makeBitmap s) enum ↔ x ∈ s ∨ x = 0 ∧ 0 ∈ enum := by
  rw [unpackBitmap, List.mem_filter, beq_iff_eq, and_eq_self_iff]
  constructor
  · rintro ⟨h1, h2⟩
    rcases he x h1 with rfl | ⟨k, rfl⟩
    · exact .inr ⟨rfl, h1⟩
    · have := h2 k (Nat.testBit_two_pow_self)
      rw [testBit_makeBitmap, List.any_eq_true] at this
      obtain ⟨u, hu, hk⟩ := this
      rcases he u (hs u hu) with rfl | ⟨j, rfl⟩
      · simp at hk
      · rw [Nat.testBit_two_pow] at hk
        simp only [decide_eq_true_eq] at hk
        subst hk
        exact .inl hu
  · rintro (h | ⟨rfl, h⟩)
    · refine ⟨hs x h, fun k hk => ?_⟩
      rw [testBit_makeBitmap, List.any_eq_true]
      exact ⟨x, h, hk⟩
    · exact ⟨h, by simp⟩

theorem singleBits_of {enum : List Nat} (h : enum.all (fun v => v == 0 || 2 ^ v.log2 == v) = true) : SingleBits enum := by
  intro v hv
  have := List.all_eq_true.mp h v hv
  rw [Bool.or_eq_true, beq_iff_eq, beq_iff_eq] at this
  exact this.imp id fun h => ⟨_, h.symm⟩

/-- These enumerations are of that kind. -/
theorem single_bits : SingleBits ofPortConfig ∧ SingleBits ofPortFeatures ∧ SingleBits ofCapabilities ∧
    SingleBits ofFlowModFlags :=
  ⟨singleBits_of (by decide), singleBits_of (by decide), singleBits_of (by decide), singleBits_of (by decide)⟩

/-- False of the code for assignments: what was in the set stays in it, so that what is read afterwards is the assigned
value only when nothing else was there. -/
theorem flags_assign_violated (enum s : List Nat) (v x : Nat) (hv : v ∈ enum) (hs : ∀ y ∈ s, y ∈ enum) (hx : x ∈ s) :
    (flagStep enum s (.assign v)).2 = none ∧ x ∈ (flagStep enum s (.assign v)).1 ∧ v ∈ (flagStep enum s (.assign v)).1 := by
  refine ⟨?_, (mem_flagStep hs _).mpr (.inr ⟨hx, by simp⟩), (mem_flagStep hs _).mpr (.inl ⟨hv, .inr rfl⟩)⟩
  simp [flagStep, enumOf_nat hv]

/-- And the number that is read, when it has two flags or more, cannot be assigned. -/
theorem flags_assign_number_violated {enum s : List Nat} (he : SingleBits enum) (hs : ∀ y ∈ s, y ∈ enum) {x y : Nat}
    (hx : x ∈ s) (hy : y ∈ s) (hxy : x ≠ y) (x0 : x ≠ 0) (y0 : y ≠ 0) (t : List Nat) :
    flagStep enum t (.assign (makeBitmap s)) = (t, some .valueError) := by
  have hn : ∀ z ∈ enum, (z : Int) ≠ (makeBitmap s : Nat) := by
    intro z hz hc
    have hc : z = makeBitmap s := by omega
    rcases he x (hs x hx) with h | ⟨i, rfl⟩
    · exact x0 h
    rcases he y (hs y hy) with h | ⟨j, rfl⟩
    · exact y0 h
    have hi : z.testBit i = true := by
      rw [hc, testBit_makeBitmap, List.any_eq_true]; exact ⟨_, hx, Nat.testBit_two_pow_self⟩
    have hj : z.testBit j = true := by
      rw [hc, testBit_makeBitmap, List.any_eq_true]; exact ⟨_, hy, Nat.testBit_two_pow_self⟩
    rcases he z hz with rfl | ⟨k, rfl⟩
    · simp at hi
    · rw [Nat.testBit_two_pow] at hi hj
      simp only [decide_eq_true_eq] at hi hj
      subst hi; subst hj
      exact hxy rfl
  have : enumOf enum ((makeBitmap s : Nat) : Int) = .error .valueError := by
    unfold enumOf
    rw [if_neg]
    rintro ⟨h0, hc⟩
    exact hn _ (by simpa using hc) (by omega)
  simp [flagStep, this]

example : flagRun ofCapabilities [] [.add 2, .clear, .add 1, .add 64, .add 3, .assign 4] = [1, 4, 64] ∧
    makeBitmap [1, 4, 64] = 69 ∧ (flagStep ofCapabilities [] (.assign 69)).2 = some .valueError := by decide

end SY.Props
