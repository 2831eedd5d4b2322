import Verif.IPv4Opt
import Verif.Arp

/-! # IPv4 header (`/repo/switchyard/lib/packet/ipv4.py` 381-573) -/

namespace SY

/-- `IPv4` object, ipv4.py 382-385.  The slot `_csum` is omitted: it is written by `from_bytes`
and by the `checksum` property but no method reads it. -/
structure IPv4 where
  tos : Nat
  totallen : Nat
  ipid : Nat
  flags : Nat
  frag : Nat
  ttl : Nat
  protocol : Nat
  src : IPAddr
  dst : IPAddr
  options : List IPOpt
  deriving DecidableEq, Repr

/-- `_PACKFMT = '!BBHHHBBH4s4s'`, 386. -/
def IPv4.fmt : List Fld := [.u 1, .u 1, .u 2, .u 2, .u 2, .u 1, .u 1, .u 2, .s 4, .s 4]

/-- `IPv4()`, 391-404. -/
def IPv4.default : IPv4 := ⟨0, 20, 0, 0, 0, 0, 1, .v4 0, .v4 0, []⟩

/-- `ttl` setter, 467-472. -/
def IPv4.setTtl (h : IPv4) (v : Int) : Res IPv4 :=
  if 0 ≤ v ∧ v ≤ 255 then .ok { h with ttl := v.toNat } else .error .valueError
/-- `tos` setter, 478-482. -/
def IPv4.setTos (h : IPv4) (v : Int) : Res IPv4 :=
  if 0 ≤ v ∧ v < 256 then .ok { h with tos := v.toNat } else .error .valueError
/-- `dscp` getter, 484-486. -/
def IPv4.dscp (h : IPv4) : Nat := h.tos >>> 2
/-- `ecn` getter, 488-490. -/
def IPv4.ecn (h : IPv4) : Nat := h.tos &&& 0x03
/-- `dscp` setter, 492-496. -/
def IPv4.setDscp (h : IPv4) (v : Int) : Res IPv4 :=
  if 0 ≤ v ∧ v < 64 then .ok { h with tos := (h.tos &&& 0x03) ||| (v.toNat <<< 2) }
  else .error .valueError
/-- `ecn` setter, 498-502 (note the mask). -/
def IPv4.setEcn (h : IPv4) (v : Int) : Res IPv4 :=
  if 0 ≤ v ∧ v < 4 then .ok { h with tos := (h.tos &&& 0xfa) ||| v.toNat }
  else .error .valueError
/-- `ipid` setter, 508-512. -/
def IPv4.setIpid (h : IPv4) (v : Int) : Res IPv4 :=
  if 0 ≤ v ∧ v < 65536 then .ok { h with ipid := v.toNat } else .error .valueError
/-- `protocol` setter, 518-520. -/
def IPv4.setProtocol (h : IPv4) (v : Int) : Res IPv4 :=
  enumOf ipProtocols v >>= fun p => .ok { h with protocol := p }
/-- `src` setter, 526-528. -/
def IPv4.setSrc (h : IPv4) (v : IPArg) : Res IPv4 :=
  ipAddress v >>= fun a => .ok { h with src := a }
/-- `dst` setter, 534-536. -/
def IPv4.setDst (h : IPv4) (v : IPArg) : Res IPv4 :=
  ipAddress v >>= fun a => .ok { h with dst := a }
/-- `flags` setter, 542-544. -/
def IPv4.setFlags (h : IPv4) (v : Int) : Res IPv4 :=
  enumOf ipFragmentFlags v >>= fun f => .ok { h with flags := f }
/-- `fragment_offset` setter, 550-554. -/
def IPv4.setFrag (h : IPv4) (v : Int) : Res IPv4 :=
  if 0 ≤ v ∧ v < 8192 then .ok { h with frag := v.toNat } else .error .valueError

/-- `size`, 406-407. -/
def IPv4.size (h : IPv4) : Res Nat := optsToBytes h.options >>= fun o => .ok (20 + o.length)

/-- `pre_serialize`, 409-410. -/
def IPv4.preSerialize (h : IPv4) (tail : Bytes) : Res IPv4 :=
  h.size >>= fun sz => .ok { h with totallen := sz + tail.length }

/-- The arguments of the two `struct.pack` calls, 413-417 and 562-567. -/
def IPv4.vals (h : IPv4) (b0 csum : Nat) : List Val :=
  [.i b0, .i h.tos, .i h.totallen, .i h.ipid, .i ((h.flags <<< 13) ||| h.frag : Nat), .i h.ttl,
   .i h.protocol, .i csum, .b h.src.packed, .b h.dst.packed]

/-- `checksum` property, 560-570; `hl` is `size() // 4`, 556-558. -/
def IPv4.checksum (h : IPv4) : Res Nat :=
  h.size >>= fun sz =>
  pack IPv4.fmt (h.vals ((4 <<< 4) + sz / 4) 0) >>= fun d =>
  optsToBytes h.options >>= fun o =>
  .ok (SY.checksum (d ++ o))

/-- `to_bytes`, 412-418. -/
def IPv4.toBytes (h : IPv4) : Res Bytes :=
  h.size >>= fun sz =>
  h.checksum >>= fun c =>
  pack IPv4.fmt (h.vals ((4 <<< 4) ||| (sz / 4)) c) >>= fun d =>
  optsToBytes h.options >>= fun o =>
  .ok (d ++ o)

/-- The assignments of `from_bytes`, 431-441, in order. -/
def IPv4.ofFields (tos len ipid ff ttl proto : Int) (src dst optbytes : Bytes) : Res IPv4 :=
  IPv4.default.setTos tos >>= fun h =>
  ({ h with totallen := len.toNat } : IPv4).setIpid ipid >>= fun h =>
  h.setFlags ((ff.toNat >>> 13 : Nat) : Int) >>= fun h =>
  h.setFrag ((ff.toNat &&& 0x1fff : Nat) : Int) >>= fun h =>
  h.setTtl ttl >>= fun h =>
  h.setProtocol proto >>= fun h =>
  h.setSrc (.raw src) >>= fun h =>
  h.setDst (.raw dst) >>= fun h =>
  parseOpts optbytes >>= fun os =>
  .ok { h with options := os }

/-- `from_bytes`, 420-442. -/
def IPv4.fromBytes (raw : Bytes) : Res (IPv4 × Bytes) :=
  if raw.length < 20 then .error .notEnoughData
  else
    unpack IPv4.fmt (raw.take 20) >>= fun fields =>
    match fields with
    | [.i b0, .i tos, .i len, .i ipid, .i ff, .i ttl, .i proto, .i _, .b src, .b dst] =>
      if b0.toNat >>> 4 ≠ 4 then .error .valueError
      else if raw.length < (b0.toNat &&& 0x0f) * 4 then .error .notEnoughData
      else
        IPv4.ofFields tos len ipid ff ttl proto src dst
          ((raw.take ((b0.toNat &&& 0x0f) * 4)).drop 20) >>= fun h =>
        .ok (h, raw.drop ((b0.toNat &&& 0x0f) * 4))
    | _ => .error .structError

/-- `__eq__`, 444-452: total length and options are not compared. -/
def IPv4.eq (h k : IPv4) : Bool :=
  decide (h.tos = k.tos) && decide (h.ipid = k.ipid) && decide (h.flags = k.flags) &&
  decide (h.frag = k.frag) && decide (h.ttl = k.ttl) && decide (h.protocol = k.protocol) &&
  decide (h.src = k.src) && decide (h.dst = k.dst)

/-! ## Facts used by the property files -/

/-- Field ranges of an `IPv4` object (all but the options). -/
def IPv4.WF (h : IPv4) : Prop :=
  h.tos < 256 ∧ h.totallen < 65536 ∧ h.ipid < 65536 ∧ h.flags ∈ ipFragmentFlags ∧
  h.frag < 8192 ∧ h.ttl < 256 ∧ h.protocol ∈ ipProtocols ∧ h.src.isV4 ∧ h.dst.isV4

instance (h : IPv4) : Decidable h.WF := by unfold IPv4.WF; infer_instance

theorem IPv4.setTos_nat (h : IPv4) {v : Nat} (hv : v < 256) :
    h.setTos (v : Int) = .ok { h with tos := v } := by
  unfold IPv4.setTos; rw [if_pos (by omega)]; rfl
theorem IPv4.setTtl_nat (h : IPv4) {v : Nat} (hv : v < 256) :
    h.setTtl (v : Int) = .ok { h with ttl := v } := by
  unfold IPv4.setTtl; rw [if_pos (by omega)]; rfl
theorem IPv4.setIpid_nat (h : IPv4) {v : Nat} (hv : v < 65536) :
    h.setIpid (v : Int) = .ok { h with ipid := v } := by
  unfold IPv4.setIpid; rw [if_pos (by omega)]; rfl
theorem IPv4.setFrag_nat (h : IPv4) {v : Nat} (hv : v < 8192) :
    h.setFrag (v : Int) = .ok { h with frag := v } := by
  unfold IPv4.setFrag; rw [if_pos (by omega)]; rfl

theorem ipProtocols_lt {n : Nat} (h : n ∈ ipProtocols) : n < 256 := by
  have : ∀ n ∈ ipProtocols, n < 256 := by decide
  exact this n h

theorem ipFragmentFlags_lt {n : Nat} (h : n ∈ ipFragmentFlags) : n < 8 := by
  have : ∀ n ∈ ipFragmentFlags, n < 8 := by decide
  exact this n h

theorem ff_eq {p v : Nat} (h : v < 8192) : (p <<< 13) ||| v = p * 8192 + v := by
  rw [Nat.shiftLeft_eq, show p * 2 ^ 13 = 2 ^ 13 * p by omega,
    ← Nat.two_pow_add_eq_or_of_lt (by simpa using h)]

theorem ff_hi (p : Nat) {v : Nat} (h : v < 8192) : ((p <<< 13) ||| v) >>> 13 = p := by
  rw [ff_eq h, Nat.shiftRight_eq_div_pow]; omega

theorem and_1fff (x : Nat) : x &&& 0x1fff = x % 8192 :=
  Nat.and_two_pow_sub_one_eq_mod x 13

theorem and_0f (x : Nat) : x &&& 0x0f = x % 16 := Nat.and_two_pow_sub_one_eq_mod x 4

theorem ff_lo (p : Nat) {v : Nat} (h : v < 8192) : ((p <<< 13) ||| v) &&& 0x1fff = v := by
  rw [ff_eq h, and_1fff]; omega

theorem b0_eq {v : Nat} (h : v < 64) : (4 <<< 4) ||| v = 64 + v := by
  rw [show (4 <<< 4 : Nat) = 2 ^ 6 * 1 from rfl, ← Nat.two_pow_add_eq_or_of_lt (by simpa using h)]

theorem IPv4.fits {h : IPv4} (w : h.WF) {b0 c : Nat} (h0 : b0 < 256) (hc : c < 65536) :
    Fits IPv4.fmt (h.vals b0 c) := by
  obtain ⟨w1, w2, w3, w4, w5, w6, w7, w8, w9⟩ := w
  have h1 := ipProtocols_lt w7
  have h2 := ipFragmentFlags_lt w4
  simp [Fits, IPv4.fmt, IPv4.vals, ff_eq w5, IPAddr.length_packed_v4 w8,
    IPAddr.length_packed_v4 w9]
  omega

theorem optsConcat_ok {os : List IPOpt} (h : ∀ o ∈ os, o.WF) :
    ∃ b, optsConcat os = .ok b ∧ b.length = (os.map IPOpt.length).sum ∧
      (os ≠ [] → 1 ≤ b.length) ∧
      ∀ rest, parseOpts (b ++ rest) = (os ++ ·) <$> parseOpts rest := by
  induction os with
  | nil =>
    refine ⟨[], rfl, rfl, fun h => absurd rfl h, fun rest => ?_⟩
    simp only [List.nil_append]
    cases parseOpts rest <;> rfl
  | cons o os ih =>
    obtain ⟨b, h1, h2, h3, h4⟩ := IPOpt.toBytes_ok (h o (by simp))
    obtain ⟨c, g1, g2, g3, g4⟩ := ih (fun o ho => h o (by simp [ho]))
    refine ⟨b ++ c, by simp [optsConcat, h1, g1], by simp [h2, g2], ?_, fun rest => ?_⟩
    · intro _; simp only [List.length_append]; omega
    · rw [List.append_assoc, parseOpts, scan_append h3 h4]
      have := g4 rest
      rw [parseOpts] at this
      rw [this]
      cases parseOpts rest <;> simp

theorem parseOpts_zeros (n : Nat) : parseOpts (zeros n) = .ok (List.replicate n (.single 0)) := by
  induction n with
  | zero => exact scan_nil _
  | succ n ih =>
    rw [zeros, List.replicate_succ, parseOpts, scan_cons (o := .single 0) (n := 1) (by simp) rfl (by simp)]
    simp only [List.drop_succ_cons, List.drop_zero]
    rw [parseOpts, zeros] at ih
    rw [ih]; rfl

/-- Number of pad bytes the code appends. -/
def padCount (os : List IPOpt) : Nat :=
  if os = [] then 0 else 4 - (os.map IPOpt.length).sum % 4

theorem optsToBytes_ok {os : List IPOpt} (h : ∀ o ∈ os, o.WF) :
    ∃ b, optsToBytes os = .ok b ∧ b.length = (os.map IPOpt.length).sum + padCount os ∧
      b.length % 4 = 0 ∧
      parseOpts b = .ok (os ++ List.replicate (padCount os) (.single 0)) := by
  obtain ⟨b, h1, h2, h3, h4⟩ := optsConcat_ok h
  cases os with
  | nil => exact ⟨[], rfl, rfl, rfl, scan_nil _⟩
  | cons o os =>
    refine ⟨b ++ zeros (4 - b.length % 4), by simp [optsToBytes, h1], ?_, ?_, ?_⟩
    · simp [padCount, h2]
    · simp only [List.length_append, length_zeros]; omega
    · rw [h4, parseOpts_zeros]; simp [padCount, h2]

theorem optsToBytes_mod4 {os : List IPOpt} {b : Bytes} (h : optsToBytes os = .ok b) :
    b.length % 4 = 0 := by
  unfold optsToBytes at h
  split at h
  · cases h; rfl
  · obtain ⟨r, hr, hb⟩ := bind_eq_ok.mp h
    cases hb
    simp only [List.length_append, length_zeros]; omega

/-- Anatomy of a successful serialisation. -/
theorem IPv4.toBytes_inv {h : IPv4} {b : Bytes} (hb : h.toBytes = .ok b) :
    ∃ o d0 d c, optsToBytes h.options = .ok o ∧
      pack IPv4.fmt (h.vals (64 + (20 + o.length) / 4) 0) = .ok d0 ∧
      c = SY.checksum (d0 ++ o) ∧
      pack IPv4.fmt (h.vals (4 <<< 4 ||| ((20 + o.length) / 4)) c) = .ok d ∧ b = d ++ o := by
  unfold IPv4.toBytes at hb
  obtain ⟨sz, hsz, hb⟩ := bind_eq_ok.mp hb
  obtain ⟨c, hc, hb⟩ := bind_eq_ok.mp hb
  obtain ⟨d, hd, hb⟩ := bind_eq_ok.mp hb
  obtain ⟨o, ho, hb⟩ := bind_eq_ok.mp hb
  cases hb
  unfold IPv4.size at hsz
  rw [ho] at hsz; cases hsz
  unfold IPv4.checksum at hc
  rw [IPv4.size, ho] at hc
  simp only [bind_ok] at hc
  obtain ⟨d0, hd0, hc⟩ := bind_eq_ok.mp hc
  cases hc
  exact ⟨o, d0, d, _, ho, hd0, rfl, hd, rfl⟩

/-- A well-formed header with at most 40 bytes of options (padding included) serialises, and
what is parsed back from it is the header with the padding read as end-of-list options. -/
theorem IPv4.toBytes_ok {h : IPv4} (w : h.WF) (wo : ∀ o ∈ h.options, o.WF)
    (hl : (h.options.map IPOpt.length).sum + padCount h.options ≤ 40) :
    ∃ b, h.toBytes = .ok b ∧
      b.length = 20 + ((h.options.map IPOpt.length).sum + padCount h.options) ∧
      ∀ rest, IPv4.fromBytes (b ++ rest) =
        .ok ({ h with options := h.options ++ List.replicate (padCount h.options) (.single 0) }, rest) := by
  obtain ⟨o, ho1, ho2, ho3, ho4⟩ := optsToBytes_ok wo
  rw [← ho2] at hl ⊢
  obtain ⟨k, hk⟩ : ∃ k, k = (20 + o.length) / 4 := ⟨_, rfl⟩
  have hk2 : k * 4 = 20 + o.length := by omega
  have hk3 : k < 16 := by omega
  obtain ⟨d0, hd0⟩ := pack_ok (IPv4.fits w (b0 := (4 <<< 4) + k) (c := 0) (by omega) (by omega))
  have hb0 : (4 <<< 4) ||| k = 64 + k := b0_eq (by omega)
  have hfit := IPv4.fits w (b0 := 64 + k) (c := SY.checksum (d0 ++ o)) (by omega) (checksum_lt _)
  obtain ⟨d, hd⟩ := pack_ok hfit
  have hdl : d.length = 20 := length_pack hd
  refine ⟨d ++ o, ?_, by simp [hdl], fun rest => ?_⟩
  · unfold IPv4.toBytes IPv4.checksum IPv4.size
    simp only [ho1, bind_ok, ← hk, hd0, hb0, hd]
  · obtain ⟨u1, u2⟩ := unpack_take_append hfit hd (o ++ rest)
    have u1' : unpack IPv4.fmt ((d ++ (o ++ rest)).take 20) = .ok (h.vals (64 + k) (SY.checksum (d0 ++ o))) := u1
    obtain ⟨w1, w2, w3, w4, w5, w6, w7, w8, w9⟩ := w
    have h2 := ipFragmentFlags_lt w4
    unfold IPv4.fromBytes
    rw [List.append_assoc, if_neg (by simp [hdl]), u1']
    simp only [IPv4.vals, bind_ok, Int.toNat_natCast]
    have e1 : (64 + k) >>> 4 = 4 := by rw [Nat.shiftRight_eq_div_pow]; omega
    have e2 : (64 + k) &&& 0x0f = k := by
      rw [and_0f]; omega
    rw [e1, e2, if_neg (by simp), if_neg (by simp [hdl]; omega)]
    have e3 : ((d ++ (o ++ rest)).take (k * 4)).drop 20 = o := by
      rw [hk2, List.drop_take, ← hdl]
      simp
    have e4 : (d ++ (o ++ rest)).drop (k * 4) = rest := by
      rw [hk2, ← hdl, ← List.length_append, ← List.append_assoc, List.drop_left]
    have e5 := ff_hi h.flags w5
    have e6 := ff_lo h.flags w5
    rw [e3, e4]
    simp only [IPv4.ofFields, IPv4.setTos_nat _ w1, IPv4.setIpid_nat _ w3, IPv4.setFlags,
      IPv4.setFrag_nat _ w5, IPv4.setTtl_nat _ w6,
      IPv4.setProtocol, IPv4.setSrc, IPv4.setDst, Int.toNat_natCast, e5, e6, ho4,
      ipAddress_packed_v4 w8, ipAddress_packed_v4 w9, enumOf_nat w4, enumOf_nat w7, bind_ok]

theorem tsOf_nd (p f x : Nat) (b : Bytes) (sz : Nat) : tsOf p f x b sz ≠ .error .diverges := by
  unfold tsOf; split <;> simp

theorem tsOf_eaten {p f x : Nat} {b : Bytes} {sz n : Nat} {o : IPOpt}
    (h : tsOf p f x b sz = .ok (o, n)) : n = x := by
  unfold tsOf at h; split at h
  · cases h
  · simp only [Except.ok.injEq, Prod.mk.injEq] at h; exact h.2.symm

theorem optStep_no_diverges (raw : Bytes) : optStep raw ≠ .error .diverges := by
  have hu : ∀ f b, unpack f b ≠ .error .diverges := by
    intro f b; unfold unpack; split <;> simp
  have hb : ∀ b i, byteAt b i ≠ .error .diverges := by
    intro b i; unfold byteAt; split <;> simp
  have he : ∀ t v, enumOf t v ≠ .error .diverges := by
    intro t v; unfold enumOf; split <;> simp
  have hr : ∀ n b, readAddrs n b ≠ .error .diverges := by
    intro n
    induction n with
    | zero => intro b; simp [readAddrs]
    | succ n ih =>
      intro b
      simp only [readAddrs, ipv4OfBytes]
      split
      · simp only [bind_ok]
        cases hq : readAddrs n (b.drop 4) with
        | ok l => simp
        | error e => simp only [bind_error]; intro h; cases h; exact ih _ hq
      · simp
  have bind_nd : ∀ {α β : Type} {x : Res α} {f : α → Res β}, x ≠ .error .diverges →
      (∀ a, f a ≠ .error .diverges) → (x >>= f) ≠ .error .diverges := by
    intro α β x f h1 h2
    cases x with
    | ok a => exact h2 a
    | error e => intro h; simp only [bind_error] at h; cases h; exact h1 rfl
  unfold optStep
  split
  · simp
  · refine bind_nd (he _ _) fun n => ?_
    split
    · simp
    split
    · refine bind_nd (hb _ _) fun _ => bind_nd (hb _ _) fun _ => bind_nd (hr _ _) fun _ => ?_
      split <;> simp
    split
    · refine bind_nd (hu _ _) fun fs => ?_
      split
      · split
        · simp
        · exact tsOf_nd _ _ _ _ _
      · simp
    · refine bind_nd (hu _ _) fun fs => ?_
      split <;> simp

/-- Only a timestamp option with length octet 0 eats nothing. -/
theorem optStep_zero {raw : Bytes} {o : IPOpt} (h : optStep raw = .ok (o, 0)) :
    ∃ t r, raw = t :: 0 :: r ∧ t.toNat &&& 0x1f = 4 := by
  unfold optStep at h
  split at h
  · cases h
  · rename_i t r
    obtain ⟨n, hn, h⟩ := bind_eq_ok.mp h
    obtain ⟨_, hn2⟩ := enumOf_ok hn
    split at h
    · simp at h
    split at h
    · obtain ⟨len, hl, h⟩ := bind_eq_ok.mp h
      obtain ⟨ptr, hp, h⟩ := bind_eq_ok.mp h
      obtain ⟨as, ha, h⟩ := bind_eq_ok.mp h
      split at h
      · rename_i hc
        simp only [Except.ok.injEq, Prod.mk.injEq] at h
        rw [h.2] at ha
        simp only [Nat.zero_sub, Nat.zero_div, readAddrs, Except.ok.injEq] at ha
        subst ha
        simp at hc; omega
      · cases h
    split at h
    · rename_i h4
      obtain ⟨fs, hf, h⟩ := bind_eq_ok.mp h
      unfold unpack at hf
      split at hf
      · rename_i hlen
        obtain ⟨t', u, v, x, hx⟩ : ∃ a b c d, (t :: r).take 4 = [a, b, c, d] := by
          match r with
          | [] => simp [calcsize, Fld.size] at hlen
          | [_] => simp [calcsize, Fld.size] at hlen
          | [_, _] => simp [calcsize, Fld.size] at hlen
          | b :: c :: d :: _ => exact ⟨t, b, c, d, by simp⟩
        rw [hx] at hf
        simp only [unpackGo, Except.ok.injEq] at hf
        subst hf
        simp only [List.take_succ_cons, List.take_zero, List.drop_succ_cons, List.drop_zero, beDec] at h
        split at h
        · cases h
        · have := tsOf_eaten h
          have hu : u = 0 := by
            apply UInt8.toNat_inj.mp
            simp at this; simpa using this.symm
          match r, hx with
          | b :: r', hx =>
            simp at hx
            exact ⟨t, r', by rw [hx.2.1, hu], by omega⟩
      · cases hf
    · obtain ⟨fs, hf, h⟩ := bind_eq_ok.mp h
      split at h
      · simp at h
      · cases h

end SY
