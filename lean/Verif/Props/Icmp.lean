import Verif.Icmp
import Verif.Props.Checksum

/-! # Properties C28–C30, C82: ICMP -/

namespace SY.Props

/-- A user's action on an ICMP header. -/
inductive ICMPOp (D : Type)
  | setType (v : Int)
  | setCode (a : CodeArg)
  | setData (a : DataArg D)

/-- Run one action, catching whatever it raises. -/
def ICMPOp.run {D : Type} (K : ICMPKind D) (m : ICMPMsg D) : ICMPOp D → ICMPMsg D
  | .setType v => (K.setType m v).1
  | .setCode a => (K.setCode m a).1
  | .setData a => (K.setData m a).1

/-- The type has a registered data class and a code enumeration, the code is in it, and the data
object is of the registered class or a subclass. -/
def Coherent {D : Type} (K : ICMPKind D) (m : ICMPMsg D) : Prop :=
  (K.new m.type).isSome = true ∧ (∃ e, K.codes m.type = some e ∧ m.code ∈ e.vals) ∧
    K.isA m.data m.type = true

/-- The action does not assign a data object of a class registered for no type. -/
def ICMPOp.Registered {D : Type} (K : ICMPKind D) : ICMPOp D → Prop
  | .setData (.obj d) => (K.typeOf d).isSome = true
  | _ => True

theorem coherent_step {D : Type} {K : ICMPKind D} (L : K.Lawful) {m : ICMPMsg D}
    (h : Coherent K m) (op : ICMPOp D) (ho : op.Registered K) : Coherent K (op.run K m) := by
  cases op with
  | setType v =>
    simp only [ICMPOp.run, ICMPKind.setType_eq L]
    cases hv : enumOf K.types v with
    | error e => exact h
    | ok t =>
      simp only
      cases hn : K.new t with
      | none => exact h
      | some d =>
        obtain ⟨e, he, h0⟩ := L.code_zero t d hn
        refine ⟨by simp [hn], ⟨e, he, h0⟩, ?_⟩
        simp only
        split
        · assumption
        · exact L.new_isA t d hn
  | setCode a =>
    obtain ⟨h1, ⟨e, he, hc⟩, h3⟩ := h
    cases a with
    | other => simp only [ICMPOp.run, ICMPKind.setCode]; exact ⟨h1, ⟨e, he, hc⟩, h3⟩
    | enum c v =>
      simp only [ICMPOp.run, ICMPKind.setCode, he]
      split
      · rename_i hv; exact ⟨h1, ⟨e, he, hv.2⟩, h3⟩
      · exact ⟨h1, ⟨e, he, hc⟩, h3⟩
    | int v =>
      simp only [ICMPOp.run, ICMPKind.setCode, he]
      cases hv : enumOf e.vals v with
      | error x => exact ⟨h1, ⟨e, he, hc⟩, h3⟩
      | ok c => exact ⟨h1, ⟨e, he, (enumOf_ok hv).1⟩, h3⟩
  | setData a =>
    cases a with
    | notData => exact h
    | obj d =>
      obtain ⟨t, ht⟩ := Option.isSome_iff_exists.mp ho
      simp only [ICMPOp.run, ICMPKind.setData_registered L m d t ht]
      obtain ⟨h1, h2, h3⟩ := L.type_mem d t ht
      obtain ⟨d0, h0⟩ := Option.isSome_iff_exists.mp h3
      obtain ⟨e, he, hz⟩ := L.code_zero t d0 h0
      exact ⟨h3, ⟨e, he, hz⟩, h2⟩

theorem coherent_history {D : Type} {K : ICMPKind D} (L : K.Lawful) (ops : List (ICMPOp D))
    {m : ICMPMsg D} (h : Coherent K m) (ho : ∀ op ∈ ops, op.Registered K) :
    Coherent K (ops.foldl (ICMPOp.run K) m) := by
  induction ops generalizing m with
  | nil => exact h
  | cons op ops ih =>
    exact ih (coherent_step L h op (ho op List.mem_cons_self)) fun o hm => ho o (List.mem_cons_of_mem _ hm)

/-- The number of codes RFC 792 / IANA (as switchyard lists them) defines for an ICMP type; they
are numbered from 0. -/
def icmpCodeCount : Nat → Nat
  | 3 => 16 | 5 => 4 | 11 => 2 | 12 => 3
  | 0 | 4 | 8 | 9 | 10 | 13 | 14 | 15 | 16 | 17 | 18 => 1
  | _ => 0

/-- Is this data object's class the one for the ICMP type, or a subclass of it? -/
def dataMatches (t : Nat) : ICMPData → Prop
  | .other _ => False
  | .plain c _ => t = c.type
  | .quench _ => t = 4
  | .redirect _ _ => t = 5
  | .unreach _ _ _ => t = 3
  | .echo reply _ _ _ => t = 8 ∨ (reply = true ∧ t = 0)
  | .exceeded _ _ => t = 11
  | .mask reply _ _ _ _ => t = 17 ∨ (reply = true ∧ t = 18)

/-- C28's coherence, spelt out. -/
def icmpCoherent (m : ICMPMsg ICMPData) : Prop :=
  m.code < icmpCodeCount m.type ∧ dataMatches m.type m.data

theorem icmpCoherent_of {m : ICMPMsg ICMPData} (h : Coherent icmp4 m) : icmpCoherent m := by
  obtain ⟨h1, ⟨e, he, hc⟩, h3⟩ := h
  have hcode : m.code < icmpCodeCount m.type := by
    have h' : icmpCodes m.type = some e := he
    unfold icmpCodes at h'
    unfold icmpCodeCount
    split at h' <;> cases h' <;> simp_all <;> omega
  refine ⟨hcode, ?_⟩
  have hi : ICMPData.isA m.data m.type = true := h3
  simp only [ICMPData.isA, Bool.or_eq_true, Bool.and_eq_true, beq_iff_eq] at hi
  cases hd : m.data with
  | other p => simp [hd, ICMPData.typeOf] at hi
  | plain c p =>
    simp only [hd, ICMPData.typeOf, Option.some.injEq] at hi
    simp only [dataMatches]
    rcases hi with (hi | ⟨_, hi⟩) | ⟨_, hi⟩
    · exact hi.symm
    · cases c <;> simp [PlainICMP.type] at hi
    · cases c <;> simp [PlainICMP.type] at hi
  | echo r i s p => cases r <;> simp_all [ICMPData.typeOf, dataMatches] <;> omega
  | mask r i s a p => cases r <;> simp_all [ICMPData.typeOf, dataMatches] <;> omega
  | quench p => simp_all [ICMPData.typeOf, dataMatches]
  | redirect a p => simp_all [ICMPData.typeOf, dataMatches]
  | unreach a b p => simp_all [ICMPData.typeOf, dataMatches]
  | exceeded a p => simp_all [ICMPData.typeOf, dataMatches]

/-- **C28, partial**: after any history of type, code and data assignments (valid or not,
exceptions caught) starting from a new header, type, code and data are coherent — provided no data
object of an unregistered class was assigned.  Missing: that last case. -/
theorem icmp_coherent_partial (ops : List (ICMPOp ICMPData))
    (ho : ∀ op ∈ ops, op.Registered icmp4) :
    icmpCoherent (ops.foldl (ICMPOp.run icmp4) ICMPMsg.default4) :=
  icmpCoherent_of (coherent_history icmp4_lawful ops
    ⟨by decide, ⟨_, rfl, by decide⟩, by decide⟩ ho)

example : ∀ op ∈ ([.setType 3, .setCode (.int 4), .setType 77, .setData (.obj (.echo true 1 2 [9])),
    .setCode (.enum "ICMPCodeTimeExceeded" 1)] : List (ICMPOp ICMPData)), op.Registered icmp4 := by
  simp [ICMPOp.Registered]; decide

/-- **C28 is false**: assigning a bare `ICMPData` object raises, but only after replacing the
data, leaving an echo request whose data is no echo data. -/
theorem icmp_coherent_violated :
    ¬ ∀ ops : List (ICMPOp ICMPData), icmpCoherent (ops.foldl (ICMPOp.run icmp4) ICMPMsg.default4) := by
  intro h
  exact (h [.setData (.obj (.other []))]).2

/-- **C28**: what the type setter does, from any coherent state: for the fifteen defined types it
sets the type, resets the code to 0 and keeps the data exactly if it suits the type; for every
other value it raises and changes nothing. -/
theorem icmp_set_type (m : ICMPMsg ICMPData) (v : Int) :
    (0 < icmpCodeCount v.toNat ∧ 0 ≤ v →
      (icmp4.setType m v).2 = none ∧ (icmp4.setType m v).1.type = v.toNat ∧
      (icmp4.setType m v).1.code = 0 ∧ dataMatches v.toNat (icmp4.setType m v).1.data ∧
      (dataMatches v.toNat m.data → (icmp4.setType m v).1.data = m.data)) ∧
    (¬ (0 < icmpCodeCount v.toNat ∧ 0 ≤ v) → icmp4.setType m v = (m, some .valueError)) := by
  have mem : ∀ t : Nat, 0 < icmpCodeCount t ↔ t ∈ icmpTypes := by
    intro t
    constructor
    · intro h
      unfold icmpCodeCount at h
      split at h <;> simp_all [icmpTypes]
    · intro h
      simp only [icmpTypes, List.mem_cons, List.not_mem_nil, or_false] at h
      rcases h with h|h|h|h|h|h|h|h|h|h|h|h|h|h|h <;> subst h <;> decide
  have match_isA : ∀ (t : Nat) (d : ICMPData), dataMatches t d → ICMPData.isA d t = true := by
    intro t d h
    cases d with
    | other p => exact h.elim
    | plain c p => simp only [dataMatches] at h; subst h; simp [ICMPData.isA, ICMPData.typeOf]
    | echo r i s p =>
      cases r <;> simp only [dataMatches] at h <;> (rcases h with h | h) <;>
        simp_all [ICMPData.isA, ICMPData.typeOf]
    | mask r i s a p =>
      cases r <;> simp only [dataMatches] at h <;> (rcases h with h | h) <;>
        simp_all [ICMPData.isA, ICMPData.typeOf]
    | _ => simp only [dataMatches] at h; subst h; simp [ICMPData.isA, ICMPData.typeOf]
  constructor
  · rintro ⟨h1, h2⟩
    have ht := (mem _).mp h1
    have he : enumOf icmp4.types v = .ok v.toNat := by
      have : v = (v.toNat : Int) := by omega
      rw [this]; exact enumOf_nat ht
    have hnew : ∀ t ∈ icmpTypes, (ICMPData.new t).isSome = true := by decide
    obtain ⟨d, hd⟩ := Option.isSome_iff_exists.mp (hnew _ ht)
    have hd' : icmp4.new v.toNat = some d := hd
    rw [ICMPKind.setType_eq icmp4_lawful, he]
    simp only [hd']
    refine ⟨trivial, trivial, trivial, ?_, fun hm => ?_⟩
    · have hc : Coherent icmp4 ⟨v.toNat, 0, if icmp4.isA m.data v.toNat then m.data else d, m.csum⟩ := by
        obtain ⟨e, he, hz⟩ := icmp4_lawful.code_zero _ d hd'
        refine ⟨by rw [hd']; rfl, ⟨e, he, hz⟩, ?_⟩
        simp only
        split
        · assumption
        · exact icmp4_lawful.new_isA _ d hd'
      exact (icmpCoherent_of hc).2
    · exact if_pos (match_isA _ _ hm)
  · intro h
    have : enumOf icmp4.types v = .error .valueError := by
      unfold enumOf
      rw [if_neg]
      rintro ⟨a, b⟩
      exact h ⟨(mem _).mpr b, a⟩
    rw [ICMPKind.setType_eq icmp4_lawful, this]

/-- Data objects whose fields fit their wire widths; address-mask messages have no payload. -/
def dataWF : ICMPData → Prop
  | .unreach o n _ => (0 ≤ o ∧ o < 256) ∧ (0 ≤ n ∧ n < 65536)
  | .echo _ i s _ => (0 ≤ i ∧ i < 65536) ∧ (0 ≤ s ∧ s < 65536)
  | .exceeded o _ => 0 ≤ o ∧ o < 256
  | .mask _ i s _ p => (0 ≤ i ∧ i < 65536) ∧ (0 ≤ s ∧ s < 65536) ∧ p = []
  | _ => True

theorem unpack_of_pack_append {fs : List Fld} {vs : List Val} {b r : Bytes} {n : Nat} (hf : Fits fs vs)
    (hb : pack fs vs = .ok b) (hn : calcsize fs = n) :
    unpack fs ((b ++ r).take n) = .ok vs ∧ (b ++ r).drop n = r ∧ b.length = n := by
  subst hn
  obtain ⟨h1, h2⟩ := unpack_take_append hf hb r
  exact ⟨h1, h2, length_pack hb⟩

/-- Encoding data and decoding it as the type it belongs to gives equal data, and exactly the
same object when its class is the registered one. -/
theorem icmp_data_roundtrip (t : Nat) (d : ICMPData) (hm : dataMatches t d) (w : dataWF d) :
    ∃ b d', d.enc = .ok b ∧ ICMPData.dec t b = .ok d' ∧ d'.enc = .ok b ∧ d'.eq d = .ok true ∧
      (d.typeOf = some t → d' = d) := by
  cases d with
  | other p => exact hm.elim
  | plain c p =>
    simp only [dataMatches] at hm; subst hm
    refine ⟨p, .plain c p, rfl, ?_, rfl, by simp [ICMPData.eq, ICMPData.payload], fun _ => rfl⟩
    cases c <;> rfl
  | quench p =>
    simp only [dataMatches] at hm; subst hm
    refine ⟨zeros 4 ++ p, .quench p, rfl, ?_, rfl, by simp [ICMPData.eq, ICMPData.payload], fun _ => rfl⟩
    simp [ICMPData.dec, ICMPData.new, ICMPData.decQuench, zeros]
  | redirect a p =>
    simp only [dataMatches] at hm; subst hm
    refine ⟨beEnc 4 a.toNat ++ p, .redirect a p, rfl, ?_, rfl, by simp [ICMPData.eq, ICMPData.payload], fun _ => rfl⟩
    simp [ICMPData.dec, ICMPData.new, ICMPData.decRedirect, beDec_beEnc (bv32_lt a)]
  | unreach o n p =>
    simp only [dataMatches] at hm; subst hm
    have hf : Fits [.x 1, .u 1, .u 2] [.i o, .i n] := by
      obtain ⟨⟨w1, w2⟩, w3, w4⟩ := w
      simp only [Fits, and_true]; omega
    obtain ⟨b, hb⟩ := pack_ok hf
    obtain ⟨u1, u2, u3⟩ := unpack_of_pack_append (r := p) hf hb (n := 4) rfl
    refine ⟨b ++ p, .unreach o n p, by simp [ICMPData.enc, hb], ?_, by simp [ICMPData.enc, hb],
      by simp [ICMPData.eq, ICMPData.payload], fun _ => rfl⟩
    simp only [ICMPData.dec, ICMPData.new, ICMPData.decUnreach]
    rw [if_neg (by simp [u3]), u1, u2]; simp
  | exceeded o p =>
    simp only [dataMatches] at hm; subst hm
    have hf : Fits [.x 1, .u 1, .u 2] [.i o, .i 0] := by
      obtain ⟨w1, w2⟩ := w
      simp only [Fits, and_true]; omega
    obtain ⟨b, hb⟩ := pack_ok hf
    obtain ⟨u1, u2, u3⟩ := unpack_of_pack_append (r := p) hf hb (n := 4) rfl
    refine ⟨b ++ p, .exceeded o p, by simp [ICMPData.enc, hb], ?_, by simp [ICMPData.enc, hb],
      by simp [ICMPData.eq, ICMPData.payload], fun _ => rfl⟩
    simp only [ICMPData.dec, ICMPData.new, ICMPData.decUnreach]
    rw [if_neg (by simp [u3]), u1, u2]; simp
  | echo r i s p =>
    have hf : Fits [.u 2, .u 2] [.i i, .i s] := by
      obtain ⟨⟨w1, w2⟩, w3, w4⟩ := w
      simp only [Fits, and_true]; omega
    obtain ⟨b, hb⟩ := pack_ok hf
    obtain ⟨u1, u2, u3⟩ := unpack_of_pack_append (r := p) hf hb (n := 4) rfl
    have hd : ∀ r', ICMPData.decEcho r' (b ++ p) = .ok (.echo r' i s p) := by
      intro r'
      simp only [ICMPData.decEcho]
      rw [if_neg (by simp [u3]), u1, u2]; simp
    simp only [dataMatches] at hm
    have he : ∀ r', (ICMPData.echo r' i s p).enc = .ok (b ++ p) := by simp [ICMPData.enc, hb]
    rcases hm with hm | ⟨hr, hm⟩ <;> subst hm
    · refine ⟨b ++ p, .echo false i s p, he _, hd false, he _, by simp [ICMPData.eq], fun h => ?_⟩
      cases r <;> simp_all [ICMPData.typeOf]
    · exact ⟨b ++ p, .echo true i s p, he _, hd true, he _, by simp [ICMPData.eq], fun h => by rw [hr]⟩
  | mask r i s a p =>
    obtain ⟨⟨w1, w2⟩, ⟨w3, w4⟩, hp⟩ := w
    subst hp
    have hf : Fits [.u 2, .u 2] [.i i, .i s] := by
      simp only [Fits, and_true]; omega
    obtain ⟨b, hb⟩ := pack_ok hf
    obtain ⟨u1, u2, u3⟩ := unpack_of_pack_append (r := beEnc 4 a.toNat) hf hb (n := 4) rfl
    have hd : ∀ r', ICMPData.decMask r' (b ++ beEnc 4 a.toNat) = .ok (.mask r' i s a []) := by
      intro r'
      simp only [ICMPData.decMask]
      rw [if_neg (by simp [u3]), u1, u2]
      have : (beEnc 4 a.toNat).take 4 = beEnc 4 a.toNat := List.take_of_length_le (by simp)
      simp [this]
    simp only [dataMatches] at hm
    have he : ∀ r', (ICMPData.mask r' i s a []).enc = .ok (b ++ beEnc 4 a.toNat) := by simp [ICMPData.enc, hb]
    rcases hm with hm | ⟨hr, hm⟩ <;> subst hm
    · refine ⟨_, .mask false i s a [], he _, hd false, he _, by simp [ICMPData.eq, ICMPData.payload], fun h => ?_⟩
      cases r <;> simp_all [ICMPData.typeOf]
    · exact ⟨_, .mask true i s a [], he _, hd true, he _, by simp [ICMPData.eq, ICMPData.payload], fun h => by rw [hr]⟩

theorem icmp_wire_ok {m : ICMPMsg ICMPData} {d : Bytes} (hc : m.code < icmpCodeCount m.type)
    (hd : m.data.enc = .ok d) {c : Nat} (hcs : c < 65536) :
    icmp4.wire m c = .ok (beEnc 1 m.type ++ beEnc 1 m.code ++ beEnc 2 c ++ d) ∧
      m.type < 256 ∧ m.code < 256 := by
  have ht : m.type < 256 ∧ m.code < 256 := by
    unfold icmpCodeCount at hc
    split at hc <;> omega
  refine ⟨?_, ht⟩
  have hd' : icmp4.enc m.data = .ok d := hd
  simp only [ICMPKind.wire, ICMPKind.fmt]
  rw [pack_cons_u (by omega), pack_cons_u (by omega), pack_cons_u (by omega), pack_nil]
  simp [hd']

/-- **C29, partial**: a coherent ICMP message with in-range fields serialises, and parsing the
bytes gives an equal message of the same type and code with nothing left over (and identical data
when the data is of the registered class itself).  Missing: address-mask messages with a payload. -/
theorem icmp_roundtrip_partial (m : ICMPMsg ICMPData) (h : icmpCoherent m) (w : dataWF m.data) :
    ∃ b m', icmp4.toBytes m = .ok b ∧ icmp4.fromBytes b = .ok (m', []) ∧ m'.eq4 m = .ok true ∧
      m'.type = m.type ∧ m'.code = m.code ∧ (m.data.typeOf = some m.type → m'.data = m.data) := by
  obtain ⟨hc, hm⟩ := h
  obtain ⟨d, d', hd, hdec, hd', heq, hsame⟩ := icmp_data_roundtrip m.type m.data hm w
  obtain ⟨w0, ht, hcd⟩ := icmp_wire_ok hc hd (c := 0) (by decide)
  let c := checksum (beEnc 1 m.type ++ beEnc 1 m.code ++ beEnc 2 0 ++ d)
  have hclt : c < 65536 := checksum_lt _
  obtain ⟨wc, -⟩ := icmp_wire_ok hc hd hclt
  refine ⟨beEnc 1 m.type ++ beEnc 1 m.code ++ beEnc 2 c ++ d, ⟨m.type, m.code, d', c⟩, ?_, ?_, ?_, rfl, rfl, hsame⟩
  · simp only [ICMPKind.toBytes, ICMPKind.computeChecksum, w0, map_ok, bind_ok]
    exact wc
  · have hf : Fits ICMPKind.fmt [.i m.type, .i m.code, .i c] := by
      simp only [ICMPKind.fmt, Fits, and_true]; omega
    have hp : pack ICMPKind.fmt [.i m.type, .i m.code, .i c] =
        .ok (beEnc 1 m.type ++ beEnc 1 m.code ++ beEnc 2 c) := by
      simp only [ICMPKind.fmt]
      rw [pack_cons_u (by omega), pack_cons_u (by omega), pack_cons_u (by omega), pack_nil]
      simp
    obtain ⟨u1, u2, u3⟩ := unpack_of_pack_append (r := d) hf hp (n := 4) rfl
    have hT : m.type ∈ icmpTypes ∧ ∃ e, icmpCodes m.type = some e ∧ m.code ∈ e.vals ∧
        ∃ x, ICMPData.new m.type = some x := by
      unfold icmpCodeCount at hc
      split at hc <;> rename_i heq <;> simp_all [icmpTypes, icmpCodes, ICMPData.new] <;> omega
    obtain ⟨hmem, e, hcodes, hcv, x, hx⟩ := hT
    have h1 : icmp4.codes m.type = some e := hcodes
    have h2 : icmp4.new m.type = some x := hx
    have h3 : icmp4.dec m.type d = .ok d' := hdec
    have h4 : icmp4.enc d' = .ok d := hd'
    have h5 : enumOf icmp4.types (m.type : Int) = .ok m.type := enumOf_nat hmem
    unfold ICMPKind.fromBytes
    rw [if_neg (by simp; omega), u1]
    simp only [bind_ok, h5, h1, enumOf_nat hcv, h2, u2, h3, ICMPKind.size, h4, Int.toNat_natCast]
    have : (calcsize ICMPKind.fmt) = 4 := rfl
    rw [this, List.drop_of_length_le (by simp; omega)]
  · simp [ICMPMsg.eq4, heq]

example : icmpCoherent ⟨3, 4, .unreach 8 1500 [1, 2, 3], 0⟩ ∧ dataWF (.unreach 8 1500 [1, 2, 3]) :=
  ⟨⟨by decide, rfl⟩, by simp [dataWF]⟩

/-- **C29 is false** for an address-mask message given a payload: the payload is accepted but not
serialised, and the parsed message is unequal. -/
theorem icmp_roundtrip_violated :
    ∃ (m m' : ICMPMsg ICMPData) (b : Bytes), icmpCoherent m ∧ icmp4.toBytes m = .ok b ∧
      icmp4.fromBytes b = .ok (m', []) ∧ m'.eq4 m = .ok false := by
  refine ⟨⟨17, 0, .mask false 0 0 0 [1], 0⟩, ⟨17, 0, .mask false 0 0 0 [], 0xeeff⟩,
    [17, 0, 0xee, 0xff, 0, 0, 0, 0, 0, 0, 0, 0], ⟨by decide, Or.inl rfl⟩, ?_, ?_, ?_⟩ <;> decide +kernel

/-- **C30**: the checksum over any serialised ICMP message (of up to 128 KiB) is zero. -/
theorem icmp_checksum (m : ICMPMsg ICMPData) (b : Bytes) (hb : icmp4.toBytes m = .ok b)
    (hl : b.length ≤ 131074) : checksum b = 0 := by
  simp only [ICMPKind.toBytes, ICMPKind.computeChecksum, ICMPKind.wire, ICMPKind.fmt] at hb
  obtain ⟨c, hc, hb⟩ := bind_eq_ok.mp hb
  obtain ⟨w0, hw0, rfl⟩ := map_eq_ok.mp hc
  obtain ⟨p0, hp0, hw0⟩ := bind_eq_ok.mp hw0
  obtain ⟨d, hd, hw0⟩ := bind_eq_ok.mp hw0
  cases hw0
  obtain ⟨p1, hp1, hb⟩ := bind_eq_ok.mp hb
  obtain ⟨d1, hd1, hb⟩ := bind_eq_ok.mp hb
  cases hb
  rw [hd] at hd1; cases hd1
  obtain ⟨-, x1, hx1, rfl⟩ := pack_u_inv hp0
  obtain ⟨-, x2, hx2, rfl⟩ := pack_u_inv hx1
  obtain ⟨-, x3, hx3, rfl⟩ := pack_u_inv hx2
  cases pack_nil_inv hx3
  obtain ⟨-, y1, hy1, rfl⟩ := pack_u_inv hp1
  obtain ⟨-, y2, hy2, rfl⟩ := pack_u_inv hy1
  obtain ⟨-, y3, hy3, rfl⟩ := pack_u_inv hy2
  cases pack_nil_inv hy3
  have := checksum_store (beEnc 1 m.type ++ beEnc 1 m.code) d (by simp) (by simp at hl ⊢; omega)
  have z : beEnc 2 0 = [0, 0] := by decide
  simpa [z] using this

example : ∃ b, icmp4.toBytes ⟨8, 0, .echo false 7 1 [1, 2, 3], 0⟩ = .ok b ∧ b.length ≤ 131074 := by
  obtain ⟨b, h1, h2⟩ := Except.of_test (r := icmp4.toBytes ⟨8, 0, .echo false 7 1 [1, 2, 3], 0⟩)
    (p := fun b => b.length == 11) (by decide +kernel)
  exact ⟨b, h1, by simp at h2; omega⟩

/-- **C82 is false** for ICMP: a truncated echo request raises `IndexError`, a truncated
address-mask request `AddressValueError`. -/
theorem icmp_truncated_violated :
    icmp4.fromBytes [8, 0, 0, 0, 1, 2, 3] = .error .indexError ∧
    icmp4.fromBytes [17, 0, 0, 0, 1, 2, 3, 4, 5] = .error .addressValue := by
  constructor <;> decide +kernel

/-- **C82, partial**: an ICMP message of fewer than 4 bytes, or one of the other types with
a fixed part whose fixed part is cut short, raises `NotEnoughDataError`. -/
theorem icmp_truncated_partial (raw : Bytes) :
    (raw.length < 4 → icmp4.fromBytes raw = .error .notEnoughData) ∧
    (∀ (t c s1 s2 : UInt8) (r : Bytes), raw = t :: c :: s1 :: s2 :: r → r.length < 4 →
      t.toNat ∈ [3, 4, 5, 11] → c = 0 → icmp4.fromBytes raw = .error .notEnoughData) := by
  constructor
  · intro h; unfold ICMPKind.fromBytes; rw [if_pos h]
  · rintro t c s1 s2 r rfl hr ht rfl
    unfold ICMPKind.fromBytes
    rw [if_neg (by simp)]
    have hu : unpack ICMPKind.fmt ((t :: 0 :: s1 :: s2 :: r).take 4) =
        .ok [.i t.toNat, .i (0 : Nat), .i (s1.toNat * 256 + s2.toNat : Nat)] := by
      simp [unpack, ICMPKind.fmt, calcsize, Fld.size, unpackGo, beDec]
    rw [hu]
    simp only [bind_ok, List.drop_succ_cons, List.drop_zero]
    simp only [List.mem_cons, List.not_mem_nil, or_false] at ht
    rcases ht with ht | ht | ht | ht <;> rw [ht] <;>
      simp [icmp4, enumOf, icmpTypes, icmpCodes, ICMPData.new, ICMPData.dec, ICMPData.decUnreach,
        ICMPData.decQuench, ICMPData.decRedirect, hr]

end SY.Props
