import Verif.IPv4

/-! # UDP (`/repo/switchyard/lib/packet/udp.py`) -/

namespace SY

/-- `UDP` object, udp.py 15.  Port setters (61-67) store any value, so ports are unbounded
integers until `struct.pack` rejects them. -/
structure UDP where
  src : Int
  dst : Int
  len : Nat
  csum : Nat
  deriving DecidableEq, Repr

/-- `_PACKFMT = '!HHHH'`, 16. -/
def UDP.fmt : List Fld := [.u 2, .u 2, .u 2, .u 2]

/-- `UDP()`, 21-25. -/
def UDP.default : UDP := ⟨0, 0, 8, 0⟩

/-- `src` setter, 61-63. -/
def UDP.setSrc (h : UDP) (v : Int) : UDP := { h with src := v }
/-- `dst` setter, 65-67. -/
def UDP.setDst (h : UDP) (v : Int) : UDP := { h with dst := v }

/-- `size`, 27-28. -/
def UDP.size (_ : UDP) : Nat := calcsize UDP.fmt

/-- The values packed by `to_bytes`. -/
def UDP.vals (h : UDP) : List Val := [.i h.src, .i h.dst, .i h.len, .i h.csum]

/-- `to_bytes`, 30-35. -/
def UDP.toBytes (h : UDP) : Res Bytes := pack UDP.fmt h.vals

/-- `from_bytes`, 37-47. -/
def UDP.fromBytes (raw : Bytes) : Res (UDP × Bytes) :=
  if raw.length < 8 then .error .notEnoughData
  else
    unpack UDP.fmt (raw.take 8) >>= fun fields =>
    match fields with
    | [.i s, .i d, .i l, .i c] => .ok (⟨s, d, l.toNat, c.toNat⟩, raw.drop 8)
    | _ => .error .structError

/-- `__eq__` against another UDP header, 49-51: only the ports are compared. -/
def UDP.eq (h k : UDP) : Bool := decide (h.src = k.src) && decide (h.dst = k.dst)

/-- `'!IIxBHHHHH'`, 83. -/
def UDP.pseudoFmt : List Fld := [.u 4, .u 4, .x 1, .u 1, .u 2, .u 2, .u 2, .u 2, .u 2]

/-- `_compute_checksum_ipv4`, 80-86. -/
def UDP.computeChecksum (h : UDP) (ip4 : Option IPv4) (xdata : Bytes) : Res Nat :=
  match ip4 with
  | none => .ok 0
  | some ip =>
    pack UDP.pseudoFmt [.i ip.src.toNat, .i ip.dst.toNat, .i ip.protocol, .i h.len, .i h.src,
      .i h.dst, .i h.len, .i 0] >>= fun xhdr =>
    .ok (checksum (xhdr ++ xdata))

/-- `pre_serialize`, 88-92; `ip4` is `pkt.get_header_by_name('IPv4')`. -/
def UDP.preSerialize (h : UDP) (tail : Bytes) (ip4 : Option IPv4) : Res UDP :=
  let h1 : UDP := { h with len := 8 + tail.length }
  h1.computeChecksum ip4 tail >>= fun c => .ok { h1 with csum := c }

/-! ## Facts used by the property files -/

/-- Sixteen-bit fields. -/
def UDP.WF (h : UDP) : Prop :=
  (0 ≤ h.src ∧ h.src < 65536) ∧ (0 ≤ h.dst ∧ h.dst < 65536) ∧ h.len < 65536 ∧ h.csum < 65536

instance (h : UDP) : Decidable h.WF := by unfold UDP.WF; infer_instance

theorem UDP.fits {h : UDP} (w : h.WF) : Fits UDP.fmt h.vals := by
  obtain ⟨w1, w2, w3, w4⟩ := w
  simp [Fits, UDP.fmt, UDP.vals]; omega

theorem UDP.toBytes_ok {h : UDP} (w : h.WF) : ∃ b, h.toBytes = .ok b ∧ b.length = 8 := by
  obtain ⟨b, hb⟩ := pack_ok (UDP.fits w)
  exact ⟨b, hb, length_pack hb⟩

theorem UDP.fromBytes_toBytes {h : UDP} (w : h.WF) {b : Bytes} (hb : h.toBytes = .ok b)
    (rest : Bytes) : UDP.fromBytes (b ++ rest) = .ok (h, rest) := by
  have hl : b.length = 8 := length_pack hb
  obtain ⟨h1, h2⟩ := unpack_take_append (UDP.fits w) hb rest
  have h1' : unpack UDP.fmt ((b ++ rest).take 8) = .ok h.vals := h1
  have h2' : (b ++ rest).drop 8 = rest := h2
  unfold UDP.fromBytes
  rw [if_neg (by simp [hl]), h1', h2']
  simp only [UDP.vals, bind_ok, Int.toNat_natCast]

/-- Everything of at least 8 bytes parses, to a well-formed header with the wire's values. -/
theorem UDP.fromBytes_ok {raw : Bytes} (hl : 8 ≤ raw.length) :
    ∃ h, UDP.fromBytes raw = .ok (h, raw.drop 8) ∧ h.WF ∧ h.vals = unpackGo UDP.fmt (raw.take 8) := by
  have hl' : (raw.take 8).length = calcsize UDP.fmt := by
    simp [UDP.fmt, calcsize, Fld.size]; omega
  have hfit := fits_unpackGo UDP.fmt (raw.take 8) hl'
  unfold UDP.fromBytes
  rw [if_neg (by omega), unpack, if_pos hl']
  simp only [UDP.fmt, unpackGo, Fits, bind_ok] at hfit ⊢
  obtain ⟨f1, f2, f3, f4, _⟩ := hfit
  refine ⟨_, rfl, ⟨?_, ?_, ?_, ?_⟩, ?_⟩
  · simp only; have := f1.2; omega
  · simp only; have := f2.2; omega
  · simp only; have := f3.2; omega
  · simp only; have := f4.2; omega
  · simp [UDP.vals]

theorem UDP.fromBytes_inv {raw rest : Bytes} {h : UDP} (hp : UDP.fromBytes raw = .ok (h, rest)) :
    8 ≤ raw.length ∧ rest = raw.drop 8 ∧ h.WF ∧ h.vals = unpackGo UDP.fmt (raw.take 8) := by
  by_cases hl : raw.length < 8
  · unfold UDP.fromBytes at hp; rw [if_pos hl] at hp; cases hp
  · obtain ⟨h', h1, h2, h3⟩ := UDP.fromBytes_ok (raw := raw) (by omega)
    rw [h1] at hp; cases hp
    exact ⟨by omega, rfl, h2, h3⟩

/-- Peel one integer item off a successful `pack`. -/
theorem pack_u_inv {w : Nat} {v : Int} {fs : List Fld} {vs : List Val} {r : Bytes}
    (hr : pack (.u w :: fs) (.i v :: vs) = .ok r) :
    (0 ≤ v ∧ v < (256 ^ w : Nat)) ∧ ∃ r', pack fs vs = .ok r' ∧ r = beEnc w v.toNat ++ r' := by
  rw [pack.eq_4] at hr
  split at hr
  · rename_i hv
    obtain ⟨r', h1, h2⟩ := map_eq_ok.mp hr
    exact ⟨hv, r', h1, h2.symm⟩
  · cases hr

theorem pack_x_inv {n : Nat} {fs : List Fld} {vs : List Val} {r : Bytes}
    (hr : pack (.x n :: fs) vs = .ok r) :
    ∃ r', pack fs vs = .ok r' ∧ r = zeros n ++ r' := by
  rw [pack.eq_3] at hr
  obtain ⟨r', h1, h2⟩ := map_eq_ok.mp hr
  exact ⟨r', h1, h2.symm⟩

theorem pack_nil_inv {r : Bytes} (hr : pack [] [] = .ok r) : r = [] := by
  rw [pack_nil] at hr; cases hr; rfl

end SY
