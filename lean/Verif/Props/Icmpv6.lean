import Verif.Icmpv6
import Verif.Props.Icmp

/-! # Properties C33–C36, C84–C87: ICMPv6 -/

namespace SY.Props

/-! ## C34: neighbor-discovery options -/

/-- What the wire format can carry: a 6-byte address; a network whose host bits are zero and 32-bit
lifetimes; a 32-bit MTU; a redirected header that fills the option to a multiple of 8 bytes. -/
def NDOptWF : NDOpt → Prop
  | .lladdr _ a => a.raw.length = 6
  | .pfx _ _ v p ad n => (0 ≤ v ∧ v < 2 ^ 32) ∧ (0 ≤ p ∧ p < 2 ^ 32) ∧ n ≤ 128 ∧ ad.toNat % 2 ^ (128 - n) = 0
  | .mtu v => 0 ≤ v ∧ v < 2 ^ 32
  | .redirected h => (h.length + 2) % 8 = 0 ∧ h.length + 2 ≤ 2040

instance NDOptWF.dec : (o : NDOpt) → Decidable (NDOptWF o)
  | .lladdr _ _ | .pfx .. | .mtu _ | .redirected _ => by unfold NDOptWF; infer_instance

theorem pfxFlags_bits (l a : Bool) : ∃ f, f < 256 ∧ pfxFlags l a &&& 0xff = f ∧
    decide ((f >>> 7) &&& 1 ≠ 0) = l ∧ decide ((f >>> 6) &&& 1 ≠ 0) = a := by
  cases l <;> cases a <;> exact ⟨_, by decide, rfl, by decide, by decide⟩

theorem ndStep_of {t : UInt8} {l k : Nat} {body r : Bytes} {o : NDOpt} (hk : k = l * 8)
    (hl : l < 256) (hlen : body.length + 2 = k)
    (hd : decOption t (t :: UInt8.ofNat l :: body) = .ok (some o)) :
    ndStep (t :: UInt8.ofNat l :: body ++ r) = .ok (some o, k) := by
  have e : (UInt8.ofNat l).toNat = l := by simp; omega
  have ht : (t :: UInt8.ofNat l :: body ++ r).take k = t :: UInt8.ofNat l :: body :=
    List.take_left' (by simpa using hlen)
  simp only [ndStep, byteAt, List.cons_append, List.getElem?_cons_zero, List.getElem?_cons_succ, bind_ok, e]
  rw [← hk]
  simp only [List.cons_append] at ht
  simp [ht, hd]

/-- **C34** (one option): a well-formed option serialises to a positive multiple of 8 bytes, that
multiple is its length octet, and parsing it in front of anything gives the same option and
consumes exactly its bytes. -/
theorem nd_option_roundtrip (o : NDOpt) (w : NDOptWF o) :
    ∃ b l, o.toBytes = .ok b ∧ b[1]? = some l ∧ b.length = l.toNat * 8 ∧ 8 ≤ b.length ∧
      ∀ rest, ndStep (b ++ rest) = .ok (some o, b.length) := by
  cases o with
  | lladdr t a =>
    have hl : a.raw.length = 6 := w
    have hne : a.raw ≠ [] := by intro e; simp [e] at hl
    refine ⟨(if t then 2 else 1) :: UInt8.ofNat 1 :: a.raw, 1, ?_, rfl, by simp [hl], by simp [hl], ?_⟩
    · simp only [NDOpt.toBytes]
      cases t
      · simp only [Bool.false_eq_true, if_false]; rfl
      · simp only [if_true]; rfl
    · intro r
      have hmk : EthAddr.mk' (.raw (a.raw.take 6)) = .ok a := by
        rw [List.take_of_length_le (by omega)]
        obtain ⟨x⟩ := a
        cases x with
        | nil => exact absurd rfl hne
        | cons y ys =>
          simp only [EthAddr.mk', EthAddr.parseArg, bind_ok]
          rw [List.take_of_length_le (by simpa using Nat.le_of_eq hl)]
      have hu : ∀ c : UInt8, unpack [.u 1, .u 1, .s 6] (c :: UInt8.ofNat 1 :: a.raw) =
          .ok [.i c.toNat, .i 1, .b (a.raw.take 6)] := by
        intro c
        rw [unpack, if_pos (by simp [calcsize, Fld.size, hl])]
        simp [unpackGo, beDec]
      have := ndStep_of (t := if t then 2 else 1) (l := 1) (k := 8) (body := a.raw) (r := r)
        (o := .lladdr t a) rfl (by decide) (by omega) (by
          cases t
          · simp only [Bool.false_eq_true, if_false, decOption, if_true, decLladdr]
            rw [if_neg (by simp [hl]), hu]
            simp [hmk]
          · simp only [if_true, decOption, decLladdr]
            rw [if_neg (by decide), if_neg (by simp [hl]), hu]
            simp [hmk])
      simpa [hl] using this
  | pfx l a v p ad n =>
    obtain ⟨⟨w1, w2⟩, ⟨w3, w4⟩, w5, w6⟩ := w
    obtain ⟨f, hf1, hf2, hf3, hf4⟩ := pfxFlags_bits l a
    obtain ⟨v', rfl⟩ := Int.eq_ofNat_of_zero_le w1
    obtain ⟨p', rfl⟩ := Int.eq_ofNat_of_zero_le w3
    have hpk : pack [.u 1, .u 1, .u 1, .u 1, .u 4, .u 4, .x 4, .s 16]
        [.i 3, .i 4, .i n, .i f, .i v', .i p', .b (beEnc 16 ad.toNat)] =
        .ok (3 :: UInt8.ofNat 4 :: (beEnc 1 n ++ beEnc 1 f ++ beEnc 4 v' ++ beEnc 4 p' ++ zeros 4 ++ beEnc 16 ad.toNat)) := by
      rw [show (3 : Int) = ((3 : Nat) : Int) from rfl, show (4 : Int) = ((4 : Nat) : Int) from rfl,
        pack_cons_u (by decide), pack_cons_u (by decide), pack_cons_u (by omega), pack_cons_u (by omega),
        pack_cons_u (by omega), pack_cons_u (by omega), pack_cons_x, pack_cons_s (by simp), pack_nil]
      simp [enc1]
    have hfit : Fits [.u 1, .u 1, .u 1, .u 1, .u 4, .u 4, .x 4, .s 16]
        [.i 3, .i 4, .i n, .i f, .i v', .i p', .b (beEnc 16 ad.toNat)] := by
      simp [Fits]; omega
    refine ⟨_, 4, by simp only [NDOpt.toBytes, hf2]; exact hpk, rfl, by simp, by simp, ?_⟩
    intro r
    have hu := unpack_pack hfit hpk
    have hlen := length_pack hpk
    have := ndStep_of (t := 3) (l := 4) (k := 32) (r := r) (o := .pfx l a v' p' ad n)
      (body := beEnc 1 n ++ beEnc 1 f ++ beEnc 4 v' ++ beEnc 4 p' ++ zeros 4 ++ beEnc 16 ad.toNat)
      rfl (by decide) (by simp) (by
        simp only [decOption, decPfx]
        rw [if_neg (by decide), if_neg (by decide), if_pos trivial, if_neg (by rw [hlen]; decide), hu]
        simp only [bind_ok, ne_eq, not_true, or_false, if_false, ipv6OfBytes_enc, ipv6Network]
        rw [if_pos (by omega), Int.toNat_natCast, if_pos w6]
        simp only [bind_ok, map_ok, Int.toNat_natCast]
        simp only [ne_eq] at hf3 hf4
        rw [hf3, hf4])
    simpa using this
  | mtu v =>
    obtain ⟨w1, w2⟩ := w
    obtain ⟨v', rfl⟩ := Int.eq_ofNat_of_zero_le w1
    have hpk : pack [.u 1, .u 1, .x 2, .u 4] [.i 5, .i 1, .i v'] =
        .ok (5 :: UInt8.ofNat 1 :: (zeros 2 ++ beEnc 4 v')) := by
      rw [show (5 : Int) = ((5 : Nat) : Int) from rfl, show (1 : Int) = ((1 : Nat) : Int) from rfl,
        pack_cons_u (by decide), pack_cons_u (by decide), pack_cons_x, pack_cons_u (by omega), pack_nil]
      simp [enc1]
    have hfit : Fits [.u 1, .u 1, .x 2, .u 4] [.i 5, .i 1, .i v'] := by simp [Fits]; omega
    refine ⟨_, 1, hpk, rfl, by simp, by simp, ?_⟩
    intro r
    have hu := unpack_pack hfit hpk
    have hlen := length_pack hpk
    have := ndStep_of (t := 5) (l := 1) (k := 8) (r := r) (o := .mtu v') (body := zeros 2 ++ beEnc 4 v')
      rfl (by decide) (by simp) (by
        simp only [decOption, decMtu]
        rw [if_neg (by decide), if_neg (by decide), if_neg (by decide), if_neg (by decide), if_pos trivial,
          if_neg (by rw [hlen]; decide), hu]
        simp)
    simpa using this
  | redirected h =>
    obtain ⟨w1, w2⟩ := w
    obtain ⟨k, hk⟩ : ∃ k, h.length + 2 = k * 8 := ⟨(h.length + 2) / 8, by omega⟩
    have hk1 : (h.length + 2 + 7) / 8 = k := by omega
    have hk2 : k < 256 := by omega
    have ek : (UInt8.ofNat k).toNat = k := by simp; omega
    refine ⟨4 :: UInt8.ofNat k :: h, UInt8.ofNat k, ?_, rfl, ?_, by simp; omega, ?_⟩
    · simp only [NDOpt.toBytes, hk1]
      rw [show (4 : Int) = ((4 : Nat) : Int) from rfl, pack_cons_u (by decide), pack_cons_u (by omega), pack_nil]
      simp [enc1]
    · rw [ek]; simpa using hk
    · intro r
      have := ndStep_of (t := 4) (l := k) (k := k * 8) (r := r) (o := .redirected h) (body := h)
        rfl hk2 hk (by
          simp only [decOption, decRedirected]
          rw [if_neg (by decide), if_neg (by decide), if_neg (by decide), if_pos trivial, ek,
            if_neg (by decide), if_neg (by simp; omega)]
          have e1 : h.take (k * 8 - 2) = h := List.take_of_length_le (by omega)
          have e2 : 8 - (h.length + 2) = 0 := by omega
          rw [e1, NDOpt.setHeader, e2]
          simp [zeros])
      rw [← hk] at this
      simpa using this

/-- **C34, partial** (option lists): any list of well-formed options parses back to the same
options, in order (up to 7 stray bytes after the last option are ignored).  Missing: redirected
headers of other lengths, see `nd_redirected_length_violated`. -/
theorem nd_options_roundtrip_partial (os : List NDOpt) (hw : ∀ o ∈ os, NDOptWF o) :
    ∃ b, ndBytes os = .ok b ∧ b.length % 8 = 0 ∧ ∀ junk : Bytes, junk.length < 8 → parseND (b ++ junk) = .ok os := by
  induction os with
  | nil => exact ⟨[], rfl, rfl, fun junk hj => parseND_short hj⟩
  | cons o os ih =>
    obtain ⟨b, l, h1, h2, h3, h4, h5⟩ := nd_option_roundtrip o (hw o List.mem_cons_self)
    obtain ⟨r, g1, g2, g3⟩ := ih fun x hx => hw x (List.mem_cons_of_mem _ hx)
    refine ⟨b ++ r, by simp [ndBytes, h1, g1], by simp; omega, fun junk hj => ?_⟩
    rw [List.append_assoc, parseND_cons (by simp; omega) (h5 _) (by omega), List.drop_left, g3 junk hj]
    rfl

example : ∀ o ∈ [NDOpt.lladdr true ⟨[2, 0, 0, 0, 0, 1]⟩, .pfx true false 86400 14400 (BitVec.ofNat 128 (0x20010db8 * 2 ^ 96)) 64,
    .mtu 1500, .setHeader [0x45, 0, 0]], NDOptWF o := by decide +kernel

/-- The negation of **C34**: for every redirected header longer than 6 bytes that does not fill
the option to a multiple of 8, the length octet disagrees with the bytes emitted. -/
theorem nd_redirected_length_violated (v : Bytes) (h6 : 6 < v.length) (h8 : (v.length + 2) % 8 ≠ 0)
    (hmax : v.length + 2 ≤ 2040) :
    ∃ b l, (NDOpt.setHeader v).toBytes = .ok b ∧ b[1]? = some l ∧ b.length ≠ l.toNat * 8 := by
  have e : 8 - (v.length + 2) = 0 := by omega
  refine ⟨4 :: UInt8.ofNat ((v.length + 2 + 7) / 8) :: v, UInt8.ofNat ((v.length + 2 + 7) / 8), ?_, rfl, ?_⟩
  · simp only [NDOpt.setHeader, e, zeros, List.replicate_zero, List.append_nil, NDOpt.toBytes]
    rw [show (4 : Int) = ((4 : Nat) : Int) from rfl, pack_cons_u (by decide), pack_cons_u (by omega), pack_nil]
    simp [enc1]
  · have : (UInt8.ofNat ((v.length + 2 + 7) / 8)).toNat = (v.length + 2 + 7) / 8 := by simp; omega
    rw [this]; simp; omega

example : 6 < (zeros 20).length ∧ ((zeros 20).length + 2) % 8 ≠ 0 ∧ (zeros 20).length + 2 ≤ 2040 := by decide

/-- … so an option list containing a redirected IPv4 header does not parse back: the
redirected option swallows the first bytes of the MTU option. -/
theorem nd_options_roundtrip_violated :
    ∃ b, ndBytes [NDOpt.setHeader (zeros 20), .mtu 1500] = .ok b ∧
      parseND b = .ok [.redirected (zeros 20 ++ [5, 1])] :=
  ⟨[4, 3] ++ zeros 20 ++ [5, 1, 0, 0, 0, 0, 5, 220], by decide +kernel, by decide +kernel⟩

/-! ## C84: option constructors -/

/-- **C84** holds of the source link-layer address option: it carries the address given. -/
theorem source_option_address_partial (a : EthAddr) (h : a.raw.length = 6) :
    NDOpt.mkSource (.addr a) = .ok (.lladdr false a) ∧
    ∃ b, (NDOpt.lladdr false a).toBytes = .ok b ∧ b.drop 2 = a.raw := by
  have hne : a.raw ≠ [] := by intro e; simp [e] at h
  constructor
  · simp [NDOpt.mkSource, EthAddr.mk'_addr hne]
  · exact ⟨1 :: 1 :: a.raw, rfl, rfl⟩

example : (⟨[2, 0, 0, 0, 0, 7]⟩ : EthAddr).raw.length = 6 := rfl

/-- The negation of **C84**: the target link-layer address option ignores the address it is
constructed with, whatever it is, and carries 00:00:00:00:00:00. -/
theorem target_option_address_violated (arg : EthArg) :
    NDOpt.mkTarget arg = .ok (.lladdr true ⟨zeros 6⟩) := rfl

/-! ## C35: termination of option parsing -/

/-- Option parsing arrives at an option of unknown type with length octet 0. -/
inductive ReachesZero : Bytes → Prop
  | here (raw : Bytes) : 8 ≤ raw.length → (∀ t ∈ raw[0]?, t = 0 ∨ 5 < t) → raw[1]? = some 0 → ReachesZero raw
  | later (raw : Bytes) (o : Option NDOpt) (n : Nat) : 8 ≤ raw.length → ndStep raw = .ok (o, n) → n ≠ 0 →
      ReachesZero (raw.drop n) → ReachesZero raw

theorem ndStep_zero {raw : Bytes} (h8 : 8 ≤ raw.length) :
    (∃ o, ndStep raw = .ok (o, 0)) ↔ (∀ t ∈ raw[0]?, t = 0 ∨ 5 < t) ∧ raw[1]? = some 0 := by
  match raw, h8 with
  | t :: l :: r, h8 =>
    simp only [ndStep, byteAt, List.getElem?_cons_zero, List.getElem?_cons_succ, bind_ok, Option.mem_def,
      Option.some.injEq, forall_eq']
    constructor
    · rintro ⟨o, ho⟩
      obtain ⟨o', h1, h2⟩ := bind_eq_ok.mp ho
      simp only [Except.ok.injEq, Prod.mk.injEq] at h2
      have hl : l.toNat = 0 := by omega
      have hl' : l = 0 := by apply UInt8.toNat_inj.mp; simpa using hl
      refine ⟨?_, hl'⟩
      rw [hl] at h1
      simp only [Nat.zero_mul, List.take_zero] at h1
      have key : ∀ t : UInt8, (decOption t []).toOption.isSome = true → t = 0 ∨ 5 < t := by
        apply forall_uint8; decide +kernel
      exact key t (by rw [h1]; rfl)
    · rintro ⟨ht, rfl⟩
      refine ⟨none, ?_⟩
      have : decOption t [] = .ok none := by
        clear h8
        revert t; apply forall_uint8; decide +kernel
      simp [this]
  | [t], h => simp at h
  | [], h => simp at h

/-- **C35 is false**, and exactly when: parsing runs forever if and only if it arrives at an option of
unknown type with a zero length octet. -/
theorem nd_parse_diverges_iff (raw : Bytes) :
    (∀ fuel, ndLoop fuel raw [] = none) ↔ ReachesZero raw := by
  rw [ndLoop_none_iff]
  constructor
  · intro h
    fun_induction parseND raw with
    | case1 raw h8 => cases h
    | case2 raw h8 e he => cases h; exact absurd he (ndStep_nd raw)
    | case3 raw h8 o hst =>
      obtain ⟨h1, h2⟩ := (ndStep_zero (by omega)).mp ⟨o, hst⟩
      exact .here raw (by omega) h1 h2
    | case4 raw h8 o n hst hn ih =>
      refine .later raw o n (by omega) hst hn (ih ?_)
      cases hr : parseND (raw.drop n) with
      | ok l => rw [hr] at h; cases h
      | error e => rw [hr] at h; simpa using h
  · intro h
    induction h with
    | here raw h8 h1 h2 =>
      obtain ⟨o, ho⟩ := (ndStep_zero h8).mpr ⟨h1, h2⟩
      rw [parseND]; simp [show ¬ raw.length < 8 by omega, ho]
    | later raw o n h8 hst hn _ ih => rw [parseND_cons h8 hst hn, ih]; rfl

/-- A neighbor solicitation followed by 8 zero bytes hangs the parser. -/
theorem nd_parse_terminates_violated : ∀ fuel, ndLoop fuel (zeros 8) [] = none :=
  (nd_parse_diverges_iff _).mpr (.here _ (by decide) (by decide) rfl)

/-- **C35, partial**: if no octet at an odd position `8k+1` is zero, parsing stops, after at most one
iteration per byte.  Missing: zero length octets of unknown options, where it is false. -/
theorem nd_parse_terminates_partial (raw : Bytes) (hz : ∀ k, raw[8 * k + 1]? ≠ some 0) :
    ∃ r, ndLoop (raw.length + 1) raw [] = some r := by
  refine ⟨_, ndLoop_eq raw (fun hd => ?_) _ (by omega)⟩
  have h := (nd_parse_diverges_iff raw).mp ((ndLoop_none_iff raw).mpr hd)
  clear hd
  induction h with
  | here raw h8 h1 h2 => exact hz 0 h2
  | later raw o n h8 hst hn _ ih =>
    apply ih
    intro k hk
    obtain ⟨t, _, hst⟩ := bind_eq_ok.mp hst
    obtain ⟨l, _, hst⟩ := bind_eq_ok.mp hst
    obtain ⟨o', _, hst⟩ := bind_eq_ok.mp hst
    cases hst
    rw [List.getElem?_drop] at hk
    apply hz (l.toNat + k)
    rw [← hk]; congr 1; omega

example : ∀ k, ([200, 1, 0, 0, 0, 0, 0, 0, 1, 1, 2, 0, 0, 0, 0, 9] : Bytes)[8 * k + 1]? ≠ some 0 := by
  intro k
  match k with
  | 0 => decide
  | 1 => decide
  | k + 2 => rw [List.getElem?_eq_none (by simp; omega)]; simp

/-! ## Message data -/

/-- Data objects whose fields fit their wire widths and that hold nothing the class does not
serialise: no options on multicast-listener messages, no raw payload beside options, no flags on a
router advertisement. -/
def data6WF : ICMPv6Data → Prop
  | .other _ => True
  | .plain _ os _ => os = []
  | .unreach o n _ => (0 ≤ o ∧ o < 256) ∧ (0 ≤ n ∧ n < 65536)
  | .echo _ i s _ => (0 ≤ i ∧ i < 65536) ∧ (0 ≤ s ∧ s < 65536)
  | .rs os p => (∀ o ∈ os, NDOptWF o) ∧ p = []
  | .ra hop m o h p rl re rt os pl =>
    (0 ≤ hop ∧ hop < 256) ∧ (m = false ∧ o = false ∧ h = false ∧ p = false) ∧ (0 ≤ rl ∧ rl < 65536) ∧
    (0 ≤ re ∧ re < 2 ^ 32) ∧ (0 ≤ rt ∧ rt < 2 ^ 32) ∧ (∀ o ∈ os, NDOptWF o) ∧ pl = []
  | .ns _ os p => (∀ o ∈ os, NDOptWF o) ∧ p = []
  | .na _ _ _ _ os p => (∀ o ∈ os, NDOptWF o) ∧ p = []
  | .redirect _ _ os p => (∀ o ∈ os, NDOptWF o) ∧ p = []

theorem rsoByte_bits (r s o : Bool) : ∃ c, c < 256 ∧ ICMPv6Data.rsoByte r s o = c ∧
    decide ((c &&& 0x80) >>> 7 ≠ 0) = r ∧ decide ((c &&& 0x40) >>> 6 ≠ 0) = s ∧
    decide ((c &&& 0x20) >>> 5 ≠ 0) = o := by
  cases r <;> cases s <;> cases o <;> exact ⟨_, by decide, rfl, by decide, by decide, by decide⟩

/-- Encoding well-formed data and decoding it as its type gives the same object. -/
theorem icmp6_data_roundtrip (t : Nat) (d : ICMPv6Data) (ht : d.typeOf = some t) (w : data6WF d) :
    ∃ b, d.enc = .ok b ∧ ICMPv6Data.dec t b = .ok d := by
  cases d with
  | other p => cases ht
  | plain c os p =>
    have : os = [] := w
    subst this
    cases c <;> cases ht <;> exact ⟨p, rfl, rfl⟩
  | unreach o n p =>
    cases ht
    have hf : Fits [.x 1, .u 1, .u 2] [.i o, .i n] := by
      obtain ⟨⟨w1, w2⟩, w3, w4⟩ := w
      simp only [Fits, and_true]; omega
    obtain ⟨b, hb⟩ := pack_ok hf
    obtain ⟨u1, u2, u3⟩ := unpack_of_pack_append (r := p) hf hb (n := 4) rfl
    refine ⟨b ++ p, by simp [ICMPv6Data.enc, hb], ?_⟩
    simp only [ICMPv6Data.dec, ICMPv6Data.new, ICMPv6Data.decUnreach]
    rw [if_neg (by simp [u3]), u1, u2]; simp
  | echo r i s p =>
    have hf : Fits [.u 2, .u 2] [.i i, .i s] := by
      obtain ⟨⟨w1, w2⟩, w3, w4⟩ := w
      simp only [Fits, and_true]; omega
    obtain ⟨b, hb⟩ := pack_ok hf
    obtain ⟨u1, u2, u3⟩ := unpack_of_pack_append (r := p) hf hb (n := 4) rfl
    refine ⟨b ++ p, by simp [ICMPv6Data.enc, hb], ?_⟩
    have hd : ∀ r', ICMPv6Data.decEcho r' (b ++ p) = .ok (.echo r' i s p) := by
      intro r'
      simp only [ICMPv6Data.decEcho]
      rw [if_neg (by simp [u3]), u1, u2]; simp
    cases r <;> cases ht <;> exact hd _
  | rs os p =>
    cases ht
    obtain ⟨w1, rfl⟩ := w
    obtain ⟨x, h1, _, h2⟩ := nd_options_roundtrip_partial os w1
    have h2 := h2 [] (by decide)
    rw [List.append_nil] at h2
    refine ⟨zeros 4 ++ x, by simp [ICMPv6Data.enc, h1], ?_⟩
    simp only [ICMPv6Data.dec, ICMPv6Data.new, ICMPv6Data.decRS]
    rw [if_neg (by simp), List.drop_left' (by simp), h2]; rfl
  | ra hop m o h p rl re rt os pl =>
    cases ht
    obtain ⟨⟨w1, w2⟩, ⟨rfl, rfl, rfl, rfl⟩, ⟨w3, w4⟩, ⟨w5, w6⟩, ⟨w7, w8⟩, w9, rfl⟩ := w
    obtain ⟨x, h1, _, h2⟩ := nd_options_roundtrip_partial os w9
    have h2 := h2 [] (by decide)
    rw [List.append_nil] at h2
    have hf : Fits [.u 1, .u 1, .u 2, .u 4, .u 4] [.i hop, .i 0, .i rl, .i re, .i rt] := by
      simp only [Fits, and_true]; omega
    obtain ⟨b, hb⟩ := pack_ok hf
    obtain ⟨u1, u2, u3⟩ := unpack_of_pack_append (r := x) hf hb (n := 12) rfl
    have z : ((ICMPv6Data.raFlags false false false false &&& 0xff : Nat) : Int) = 0 := by decide
    refine ⟨b ++ x, by simp only [ICMPv6Data.enc, z, hb, bind_ok, h1, map_ok], ?_⟩
    simp only [ICMPv6Data.dec, ICMPv6Data.new, ICMPv6Data.decRA]
    rw [if_neg (by simp [u3]), u1, u2]
    simp [h2]
  | ns a os p =>
    cases ht
    obtain ⟨w1, rfl⟩ := w
    obtain ⟨x, h1, _, h2⟩ := nd_options_roundtrip_partial os w1
    have h2 := h2 [] (by decide)
    rw [List.append_nil] at h2
    have hf : Fits [.x 4, .s 16] [.b (beEnc 16 a.toNat)] := by simp [Fits]
    obtain ⟨b, hb⟩ := pack_ok hf
    obtain ⟨u1, u2, u3⟩ := unpack_of_pack_append (r := x) hf hb (n := 20) rfl
    refine ⟨b ++ x, by simp only [ICMPv6Data.enc, hb, bind_ok, h1, map_ok], ?_⟩
    simp only [ICMPv6Data.dec, ICMPv6Data.new, ICMPv6Data.decNS]
    rw [if_neg (by simp [u3]), u1, u2]
    simp [h2]
  | na r s o a os p =>
    cases ht
    obtain ⟨w1, rfl⟩ := w
    obtain ⟨x, h1, _, h2⟩ := nd_options_roundtrip_partial os w1
    have h2 := h2 [] (by decide)
    rw [List.append_nil] at h2
    obtain ⟨c, c1, c2, c3, c4, c5⟩ := rsoByte_bits r s o
    have hf : Fits [.s 1, .x 3, .s 16] [.b (beEnc 1 c), .b (beEnc 16 a.toNat)] := by simp [Fits]
    obtain ⟨b, hb⟩ := pack_ok hf
    obtain ⟨u1, u2, u3⟩ := unpack_of_pack_append (r := x) hf hb (n := 20) rfl
    refine ⟨b ++ x, by simp only [ICMPv6Data.enc, c2, hb, bind_ok, h1, map_ok], ?_⟩
    simp only [ICMPv6Data.dec, ICMPv6Data.new, ICMPv6Data.decNA]
    rw [if_neg (by simp [u3]), u1, u2]
    simp only [bind_ok, ipv6OfBytes_enc, h2, beDec_beEnc (show c < 256 ^ 1 by omega), c3, c4, c5]
  | redirect a e os p =>
    cases ht
    obtain ⟨w1, rfl⟩ := w
    obtain ⟨x, h1, _, h2⟩ := nd_options_roundtrip_partial os w1
    have h2 := h2 [] (by decide)
    rw [List.append_nil] at h2
    have hf : Fits [.x 4, .s 16, .s 16] [.b (beEnc 16 a.toNat), .b (beEnc 16 e.toNat)] := by simp [Fits]
    obtain ⟨b, hb⟩ := pack_ok hf
    obtain ⟨u1, u2, u3⟩ := unpack_of_pack_append (r := x) hf hb (n := 36) rfl
    refine ⟨b ++ x, by simp only [ICMPv6Data.enc, hb, bind_ok, h1, map_ok], ?_⟩
    simp only [ICMPv6Data.dec, ICMPv6Data.new, ICMPv6Data.decRedirect]
    rw [if_neg (by simp [u3]), u1, u2]
    simp [h2]

/-! ## C85: coherence and message round-trip -/

/-- The number of codes defined for each ICMPv6 type with a data class; they are numbered from 0. -/
def icmp6CodeCount : Nat → Nat
  | 1 => 9
  | 128 | 129 | 130 | 131 | 132 | 133 | 134 | 135 | 136 | 137 | 143 => 1
  | _ => 0

/-- The ICMPv6 type of each class of data (RFC 4443, 4861, 2710, 3810). -/
def data6Type : ICMPv6Data → Option Nat
  | .other _ => none
  | .plain .mlQuery _ _ => some 130
  | .plain .mlReport _ _ => some 131
  | .plain .mlDone _ _ => some 132
  | .plain .v2Report _ _ => some 143
  | .unreach .. => some 1
  | .echo false .. => some 128
  | .echo true .. => some 129
  | .rs .. => some 133
  | .ra .. => some 134
  | .ns .. => some 135
  | .na .. => some 136
  | .redirect .. => some 137

/-- Type, code and data agree. -/
def icmp6Coherent (m : ICMPMsg ICMPv6Data) : Prop :=
  m.code < icmp6CodeCount m.type ∧ data6Type m.data = some m.type

theorem data6Type_eq (d : ICMPv6Data) : data6Type d = d.typeOf := by
  cases d with
  | plain c => cases c <;> rfl
  | echo r => cases r <;> rfl
  | _ => rfl

/-- **C85, partial** (coherence): after any history of type, code and data assignments (valid or
not, exceptions caught) starting from a new header, type, code and data agree — provided no
data object of an unregistered class (for example an IPv4 one) was assigned. -/
theorem icmp6_coherent_partial (ops : List (ICMPOp ICMPv6Data))
    (ho : ∀ op ∈ ops, op.Registered icmp6) :
    icmp6Coherent (ops.foldl (ICMPOp.run icmp6) ICMPMsg.default6) := by
  obtain ⟨h1, ⟨e, he, hc⟩, h3⟩ := coherent_history icmp6_lawful ops (m := ICMPMsg.default6)
    ⟨by decide, ⟨_, rfl, by decide⟩, by decide⟩ ho
  generalize ops.foldl (ICMPOp.run icmp6) ICMPMsg.default6 = m at *
  constructor
  · have h' : icmpv6Codes m.type = some e := he
    unfold icmpv6Codes at h'
    unfold icmp6CodeCount
    split at h' <;> cases h' <;> simp_all <;> omega
  · have hi : ICMPv6Data.isA m.data m.type = true := h3
    rw [data6Type_eq]
    simpa [ICMPv6Data.isA] using hi

example : ∀ op ∈ ([.setType 1, .setCode (.int 4), .setType 3, .setData (.obj (.ns 1 [.mtu 9] []))] :
    List (ICMPOp ICMPv6Data)), op.Registered icmp6 := by
  simp [ICMPOp.Registered]; decide

/-- The negation of **C85**: assigning a data object of the IPv4 echo class raises, but only after
replacing the data. -/
theorem icmp6_coherent_violated :
    ¬ icmp6Coherent (([.setData (.obj (.other [1]))] : List (ICMPOp ICMPv6Data)).foldl (ICMPOp.run icmp6)
      ICMPMsg.default6) := by
  rintro ⟨-, h⟩
  revert h; decide

theorem icmp6_wire_ok {m : ICMPMsg ICMPv6Data} {d : Bytes} (hc : m.code < icmp6CodeCount m.type)
    (hd : m.data.enc = .ok d) {c : Nat} (hcs : c < 65536) :
    icmp6.wire m c = .ok (beEnc 1 m.type ++ beEnc 1 m.code ++ beEnc 2 c ++ d) ∧
      m.type < 256 ∧ m.code < 256 := by
  have ht : m.type < 256 ∧ m.code < 256 := by
    unfold icmp6CodeCount at hc
    split at hc <;> omega
  refine ⟨?_, ht⟩
  have hd' : icmp6.enc m.data = .ok d := hd
  simp only [ICMPKind.wire, ICMPKind.fmt]
  rw [pack_cons_u (by omega), pack_cons_u (by omega), pack_cons_u (by omega), pack_nil]
  simp [hd']

/-- **C85, partial** (round-trip): a coherent ICMPv6 message with a 16-bit checksum and well-formed
data survives serialising and parsing, with nothing left over.  Missing (false of the code): options
on multicast-listener messages, router-advertisement flags, misaligned redirected headers. -/
theorem icmp6_roundtrip_partial (m : ICMPMsg ICMPv6Data) (h : icmp6Coherent m) (w : data6WF m.data)
    (hcs : m.csum < 65536) : ∃ b, icmp6ToBytes m = .ok b ∧ icmp6.fromBytes b = .ok (m, []) := by
  obtain ⟨hc, hm⟩ := h
  rw [data6Type_eq] at hm
  obtain ⟨d, hd, hdec⟩ := icmp6_data_roundtrip m.type m.data hm w
  obtain ⟨wc, ht, hcd⟩ := icmp6_wire_ok hc hd hcs
  refine ⟨_, wc, ?_⟩
  have hf : Fits ICMPKind.fmt [.i m.type, .i m.code, .i m.csum] := by
    simp only [ICMPKind.fmt, Fits, and_true]; omega
  have hp : pack ICMPKind.fmt [.i m.type, .i m.code, .i m.csum] =
      .ok (beEnc 1 m.type ++ beEnc 1 m.code ++ beEnc 2 m.csum) := by
    simp only [ICMPKind.fmt]
    rw [pack_cons_u (by omega), pack_cons_u (by omega), pack_cons_u (by omega), pack_nil]
    simp
  obtain ⟨u1, u2, u3⟩ := unpack_of_pack_append (r := d) hf hp (n := 4) rfl
  have hT : m.type ∈ icmpv6Types ∧ ∃ e, icmpv6Codes m.type = some e ∧ m.code ∈ e.vals ∧
      ∃ x, ICMPv6Data.new m.type = some x := by
    unfold icmp6CodeCount at hc
    split at hc <;> rename_i heq <;> simp_all [icmpv6Types, icmpv6Codes, ICMPv6Data.new] <;> omega
  obtain ⟨hmem, e, hcodes, hcv, x, hx⟩ := hT
  have h1 : icmp6.codes m.type = some e := hcodes
  have h2 : icmp6.new m.type = some x := hx
  have h3 : icmp6.dec m.type d = .ok m.data := hdec
  have h4 : icmp6.enc m.data = .ok d := hd
  have h5 : enumOf icmp6.types (m.type : Int) = .ok m.type := enumOf_nat hmem
  unfold ICMPKind.fromBytes
  rw [if_neg (by simp; omega), u1]
  simp only [bind_ok, h5, h1, enumOf_nat hcv, h2, u2, h3, ICMPKind.size, h4, Int.toNat_natCast]
  have : (calcsize ICMPKind.fmt) = 4 := rfl
  rw [this, List.drop_of_length_le (by simp; omega)]

example : icmp6Coherent ⟨136, 0, .na true false true 1 [.lladdr true ⟨[2, 0, 0, 0, 0, 1]⟩] [], 0xbeef⟩ ∧
    data6WF (.na true false true 1 [.lladdr true ⟨[2, 0, 0, 0, 0, 1]⟩] []) :=
  ⟨⟨by decide, rfl⟩, by simp [data6WF, NDOptWF]⟩

/-- The negation of **C85** for multicast-listener messages: their options are not serialised. -/
theorem icmp6_options_dropped_violated (c : PlainICMPv6) (os : List NDOpt) (p : Bytes) :
    (ICMPv6Data.plain c os p).enc = (ICMPv6Data.plain c [] p).enc := rfl

/-! ## C36: flags -/

/-- **C36** (neighbor advertisement): the router, solicited and override flags survive, for all
combinations, targets and option lists. -/
theorem na_flags_partial (r s o : Bool) (a : BitVec 128) (os : List NDOpt) (hw : ∀ x ∈ os, NDOptWF x) :
    ∃ b, (ICMPv6Data.na r s o a os []).enc = .ok b ∧ ICMPv6Data.decNA b = .ok (.na r s o a os []) ∧
      (b.take 1 = [UInt8.ofNat (128 * r.toNat + 64 * s.toNat + 32 * o.toNat)]) := by
  obtain ⟨b, h1, h2⟩ := icmp6_data_roundtrip 136 (.na r s o a os []) rfl ⟨hw, rfl⟩
  refine ⟨b, h1, h2, ?_⟩
  simp only [ICMPv6Data.enc] at h1
  rw [pack_cons_s (by simp), pack_cons_x, pack_cons_s (by simp), pack_nil] at h1
  simp only [map_ok, bind_ok] at h1
  obtain ⟨x, _, rfl⟩ := map_eq_ok.mp h1
  rw [enc1]
  cases r <;> cases s <;> cases o <;> rfl

example : ∀ x ∈ [NDOpt.mtu 1280], NDOptWF x := by decide

/-- The negation of **C36** for router advertisements: however the flags were set on the wire, every
parsed router advertisement has all four flags clear. -/
theorem ra_flags_violated (raw : Bytes) (d : ICMPv6Data) (h : ICMPv6Data.decRA raw = .ok d) :
    ∃ hop rl re rt os, d = .ra hop false false false false rl re rt os [] := by
  unfold ICMPv6Data.decRA at h
  split at h
  · cases h
  · obtain ⟨f, _, h⟩ := bind_eq_ok.mp h
    split at h
    · obtain ⟨os, _, h⟩ := bind_eq_ok.mp h
      cases h
      have e : ∀ (x k n : Nat), k < 2 ^ n → (x &&& k) >>> n &&& 1 = 0 := by
        intro x k n hk
        have : x &&& k < 2 ^ n := Nat.lt_of_le_of_lt Nat.and_le_right hk
        rw [Nat.shiftRight_eq_div_pow, Nat.div_eq_of_lt this]; rfl
      rw [e _ 8 7 (by decide), e _ 4 6 (by decide), e _ 2 5 (by decide), e _ 1 4 (by decide)]
      exact ⟨_, _, _, _, _, rfl⟩
    · cases h

/-- … while they are put on the wire correctly (RFC 4861 section 4.2). -/
theorem ra_flags_wire (hop rl re rt : Int) (m o h p : Bool) (os : List NDOpt) (pl b : Bytes)
    (hb : (ICMPv6Data.ra hop m o h p rl re rt os pl).enc = .ok b) :
    b[1]? = some (UInt8.ofNat (128 * m.toNat + 64 * o.toNat + 32 * h.toNat + 16 * p.toNat)) := by
  simp only [ICMPv6Data.enc] at hb
  obtain ⟨x, hx, hb⟩ := bind_eq_ok.mp hb
  obtain ⟨y, _, rfl⟩ := map_eq_ok.mp hb
  obtain ⟨_, x1, hx1, rfl⟩ := pack_u_inv hx
  obtain ⟨_, x2, hx2, rfl⟩ := pack_u_inv hx1
  rw [Int.toNat_natCast, enc1, enc1]
  cases m <;> cases o <;> cases h <;> cases p <;> rfl

example : ∃ b, (ICMPv6Data.ra 64 true false true true 1800 0 0 [.mtu 1500] []).enc = .ok b := by
  obtain ⟨b, h, _⟩ := Except.of_test (r := (ICMPv6Data.ra 64 true false true true 1800 0 0 [.mtu 1500] []).enc)
    (p := fun _ => true) (by decide +kernel)
  exact ⟨b, h⟩

/-! ## C33: checksum -/

/-- RFC 4443 section 2.3 / RFC 2460 section 8.1 pseudo-header. -/
def pseudoHeader6 (src dst : BitVec 128) (len proto : Nat) : Bytes :=
  beEnc 16 src.toNat ++ beEnc 16 dst.toNat ++ beEnc 4 len ++ [0, 0, 0] ++ beEnc 1 proto

/-- Leaving the two zero bytes of the slot out altogether changes nothing. -/
theorem checksum_omit_slot (pre post : Bytes) (he : pre.length % 2 = 0) :
    checksum (pre ++ post) = checksum (pre ++ [0, 0] ++ post) := by
  have key : ∀ pre : Bytes, pre.length % 2 = 0 → leSum (pre ++ post) = leSum (pre ++ [0, 0] ++ post) := by
    intro pre hp
    fun_induction leWords pre with
    | case1 a b r ih =>
      simp only [List.cons_append, leSum_cons2]
      rw [ih (by simp only [List.length_cons] at hp; omega)]
    | case2 r hr =>
      match r, hr with
      | [], _ => simp [leSum_cons2]
      | [a], _ => simp at hp
      | a :: b :: r, hr => exact absurd rfl (hr a b r)
  rw [checksum_eq_fold, checksum_eq_fold, key pre he]

/-- **C33**: when an ICMPv6 header is finalised against the packet's IPv6 header and serialised, the
checksum of pseudo-header and message is zero (messages up to 128 KiB, twice the IPv6 limit). -/
theorem icmp6_checksum (m m' : ICMPMsg ICMPv6Data) (ip : IPv6) (b : Bytes)
    (hp : icmp6PreSerialize m (some ip) = .ok m') (hb : icmp6ToBytes m' = .ok b)
    (hl : b.length ≤ 131000) :
    checksum (pseudoHeader6 ip.src ip.dst b.length 58 ++ b) = 0 := by
  simp only [icmp6PreSerialize, icmp6Checksum] at hp
  obtain ⟨c, hc, hp⟩ := bind_eq_ok.mp hp
  cases hp
  obtain ⟨d, hd, hc⟩ := bind_eq_ok.mp hc
  obtain ⟨q, hq, hc⟩ := bind_eq_ok.mp hc
  cases hc
  simp only [icmp6ToBytes, ICMPKind.wire, ICMPKind.fmt] at hb
  obtain ⟨p1, hp1, hb⟩ := bind_eq_ok.mp hb
  obtain ⟨d1, hd1, hb⟩ := bind_eq_ok.mp hb
  cases hb
  have hd' : m.data.enc = .ok d1 := hd1
  rw [hd] at hd'; cases hd'
  obtain ⟨v1, x1, hx1, rfl⟩ := pack_u_inv hq
  obtain ⟨x2, hx2, rfl⟩ := pack_x_inv hx1
  obtain ⟨v3, x3, hx3, rfl⟩ := pack_u_inv hx2
  obtain ⟨v4, x4, hx4, rfl⟩ := pack_u_inv hx3
  obtain ⟨v5, x5, hx5, rfl⟩ := pack_u_inv hx4
  cases pack_nil_inv hx5
  obtain ⟨-, y1, hy1, rfl⟩ := pack_u_inv hp1
  obtain ⟨-, y2, hy2, rfl⟩ := pack_u_inv hy1
  obtain ⟨-, y3, hy3, rfl⟩ := pack_u_inv hy2
  cases pack_nil_inv hy3
  simp only [Int.toNat_natCast, List.append_nil] at *
  have hlen : (beEnc 1 m.type ++ (beEnc 1 m.code ++ beEnc 2 (checksum (beEnc 16 ip.src.toNat ++ beEnc 16 ip.dst.toNat ++
      (beEnc 4 (4 + d.length) ++ (zeros 3 ++ (beEnc 1 (58 : Int).toNat ++ (beEnc 1 m.type ++ beEnc 1 m.code)))) ++ d))) ++ d).length =
      4 + d.length := by simp; omega
  rw [hlen] at hl ⊢
  have key := checksum_store (pseudoHeader6 ip.src ip.dst (4 + d.length) 58 ++ (beEnc 1 m.type ++ beEnc 1 m.code)) d
    (by simp [pseudoHeader6]) (by simp [pseudoHeader6]; omega)
  rw [← checksum_omit_slot _ _ (by simp [pseudoHeader6])] at key
  have e58 : (58 : Int).toNat = 58 := rfl
  have z3 : zeros 3 = [0, 0, 0] := rfl
  simp only [pseudoHeader6, List.append_assoc, e58, z3] at key ⊢
  exact key

example : ∃ m' b, icmp6PreSerialize ⟨135, 0, .ns 7 [.lladdr false ⟨[2, 0, 0, 0, 0, 1]⟩] [], 0⟩
    (some (IPv6.mk 0 0 255 58 0 1 2)) = .ok m' ∧ icmp6ToBytes m' = .ok b ∧ b.length ≤ 131000 := by
  obtain ⟨x, h1, h2⟩ := Except.of_test
    (r := icmp6PreSerialize ⟨135, 0, .ns 7 [.lladdr false ⟨[2, 0, 0, 0, 0, 1]⟩] [], 0⟩
      (some (IPv6.mk 0 0 255 58 0 1 2)) >>= fun m => icmp6ToBytes m >>= fun b => .ok (m, b))
    (p := fun x => x.2.length == 32) (by decide +kernel)
  obtain ⟨m, h3, h4⟩ := bind_eq_ok.mp h1
  obtain ⟨b, h5, h6⟩ := bind_eq_ok.mp h4
  cases h6
  exact ⟨m, b, h3, h5, by simp at h2; omega⟩

/-! ## C86: what parsing leaves over -/

/-- **C86** is violated: a neighbor solicitation with an option of unknown type (skipped with a
warning) has the last bytes of the message delivered again as payload following the header. -/
theorem icmp6_leftover_violated :
    icmp6.fromBytes ([135, 0, 0, 0] ++ zeros 4 ++ zeros 16 ++ [14, 1, 1, 2, 3, 4, 5, 6]) =
      .ok (⟨135, 0, .ns 0 [] [], 0⟩, [14, 1, 1, 2, 3, 4, 5, 6]) := by
  decide +kernel

/-- **C86, partial**: echo, destination-unreachable and multicast-listener messages are consumed
whole, whatever their contents.  Missing: messages with options, where it is false. -/
theorem icmp6_consumes_partial (raw rest : Bytes) (m : ICMPMsg ICMPv6Data)
    (h : icmp6.fromBytes raw = .ok (m, rest)) (ht : m.type ∈ [1, 128, 129, 130, 131, 132, 143]) : rest = [] := by
  unfold ICMPKind.fromBytes at h
  split at h
  · cases h
  rename_i h4
  obtain ⟨f, hf, h⟩ := bind_eq_ok.mp h
  split at h
  · rename_i t c s
    obtain ⟨ty, hty, h⟩ := bind_eq_ok.mp h
    split at h
    · cases h
    · obtain ⟨cd, hcd, h⟩ := bind_eq_ok.mp h
      split at h
      · cases h
      · obtain ⟨d, hd, h⟩ := bind_eq_ok.mp h
        obtain ⟨n, hn, h⟩ := bind_eq_ok.mp h
        cases h
        simp only [ICMPKind.size] at hn
        obtain ⟨e, he, hn⟩ := bind_eq_ok.mp hn
        cases hn
        have hlen : e.length = (raw.drop 4).length := by
          have hd' : ICMPv6Data.dec ty (raw.drop 4) = .ok d := hd
          have he' : d.enc = .ok e := he
          have echo : ∀ r, ICMPv6Data.decEcho r (raw.drop 4) = .ok d → e.length = (raw.drop 4).length := by
            intro r hh
            unfold ICMPv6Data.decEcho at hh
            split at hh
            · cases hh
            · obtain ⟨g, hg, hh⟩ := bind_eq_ok.mp hh
              split at hh
              · cases hh
                simp only [ICMPv6Data.enc] at he'
                obtain ⟨y, hy, rfl⟩ := map_eq_ok.mp he'
                have := length_pack hy
                simp [this, calcsize, Fld.size]
                simp at *; omega
              · cases hh
          simp only [List.mem_cons, List.not_mem_nil, or_false] at ht
          rcases ht with rfl | rfl | rfl | rfl | rfl | rfl | rfl
          · simp only [ICMPv6Data.dec, ICMPv6Data.new, ICMPv6Data.decUnreach] at hd'
            split at hd'
            · cases hd'
            · obtain ⟨g, hg, hd'⟩ := bind_eq_ok.mp hd'
              split at hd'
              · cases hd'
                simp only [ICMPv6Data.enc] at he'
                obtain ⟨y, hy, rfl⟩ := map_eq_ok.mp he'
                have := length_pack hy
                simp [this, calcsize, Fld.size]
                simp at *; omega
              · cases hd'
          · exact echo _ hd'
          · exact echo _ hd'
          all_goals (cases hd'; cases he'; rfl)
        apply List.drop_of_length_le
        have : calcsize ICMPKind.fmt = 4 := rfl
        rw [this, hlen, List.length_drop]; omega
  · cases h

example : icmp6.fromBytes [128, 0, 1, 2, 0, 7, 0, 1, 9, 9] = .ok (⟨128, 0, .echo false 7 1 [9, 9], 258⟩, []) := by
  decide +kernel

/-! ## C87: types without a data class -/

/-- The negation of **C87**: every message of a type in the enumeration for which switchyard has no
codes (time exceeded, packet too big, parameter problem, …) makes the parser raise `KeyError`. -/
theorem icmp6_classless_violated (t c s1 s2 : UInt8) (r : Bytes) (ht : t.toNat ∈ icmpv6Types)
    (hc : icmp6CodeCount t.toNat = 0) : icmp6.fromBytes (t :: c :: s1 :: s2 :: r) = .error .keyError := by
  unfold ICMPKind.fromBytes
  rw [if_neg (by simp)]
  have hu : unpack ICMPKind.fmt ((t :: c :: s1 :: s2 :: r).take 4) =
      .ok [.i t.toNat, .i c.toNat, .i (s1.toNat * 256 + s2.toNat : Nat)] := by
    simp [unpack, ICMPKind.fmt, calcsize, Fld.size, unpackGo, beDec]
  have hcodes : icmp6.codes t.toNat = none := by
    show icmpv6Codes t.toNat = none
    unfold icmp6CodeCount at hc
    unfold icmpv6Codes
    split at hc <;> first | (exact absurd hc (by decide)) | skip
    split <;> first | rfl | simp_all
  rw [hu]
  simp only [bind_ok]
  rw [show icmp6.types = icmpv6Types from rfl, enumOf_nat ht]
  simp only [bind_ok, hcodes]

example : (3 : UInt8).toNat ∈ icmpv6Types ∧ icmp6CodeCount (3 : UInt8).toNat = 0 := by decide

/-- **C87, partial**: such a message is also refused when built by hand, leaving the header as it was. -/
theorem icmp6_classless_set_partial (m : ICMPMsg ICMPv6Data) (t : Nat) (hc : icmp6CodeCount t = 0) :
    (icmp6.setType m t).1 = m ∧ (icmp6.setType m t).2 ≠ none := by
  have hn : icmp6.new t = none := by
    show ICMPv6Data.new t = none
    unfold icmp6CodeCount at hc
    unfold ICMPv6Data.new
    split at hc <;> first | (exact absurd hc (by decide)) | skip
    split <;> first | rfl | simp_all
  rw [ICMPKind.setType_eq icmp6_lawful]
  cases hv : enumOf icmp6.types (t : Int) with
  | error e => simp
  | ok x =>
    have : x = t := by have := (enumOf_ok hv).2; omega
    subst this
    simp [hn]

example : icmp6CodeCount 3 = 0 := rfl

/-- **C82 is false** for ICMPv6: a truncated echo raises `IndexError`, and a link-layer option whose
declared length runs past the end raises `NameError`. -/
theorem icmp6_truncated_violated :
    icmp6.fromBytes [128, 0, 0, 0, 1] = .error .indexError ∧
    icmp6.fromBytes ([133, 0, 0, 0] ++ zeros 4 ++ [1, 0, 0, 0, 0, 0, 0, 0]) = .error .nameError := by
  constructor <;> decide +kernel

end SY.Props
