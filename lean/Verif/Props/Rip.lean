import Verif.Rip
import Verif.Props.Udp

/-! # Property C37, C88: RIPv2 -/

namespace SY.Props

/-- What a route entry's wire format can carry: 16-bit family and tag, a 32-bit metric, a network
without host bits. -/
def RouteWF (r : RIPRoute) : Prop :=
  (0 ≤ r.family ∧ r.family < 65536) ∧ (0 ≤ r.tag ∧ r.tag < 65536) ∧ (0 ≤ r.metric ∧ r.metric < 2 ^ 32) ∧
  r.plen ≤ 32 ∧ r.net < 2 ^ 32 ∧ r.net % 2 ^ (32 - r.plen) = 0

instance RouteWF.dec (r : RIPRoute) : Decidable (RouteWF r) := by unfold RouteWF; infer_instance

theorem route_fits {r : RIPRoute} (w : RouteWF r) : Fits RIPRoute.fmt r.vals := by
  obtain ⟨w1, w2, w3, w4, w5, w6⟩ := w
  have h1 := netmask4_lt r.plen
  have h2 := r.nexthop.isLt
  simp only [Fits, RIPRoute.fmt, RIPRoute.vals, and_true]; omega

/-- **C37** (one entry): a route entry survives serialising and parsing. -/
theorem rip_route_roundtrip (r : RIPRoute) (w : RouteWF r) :
    ∃ b, r.toBytes = .ok b ∧ b.length = 20 ∧ RIPRoute.fromBytes b = .ok r := by
  obtain ⟨b, hb⟩ := pack_ok (route_fits w)
  have hl : b.length = 20 := length_pack hb
  refine ⟨b, hb, hl, ?_⟩
  obtain ⟨w1, w2, w3, w4, w5, w6⟩ := w
  have hn : (BitVec.ofNat 32 r.nexthop.toNat) = r.nexthop := by simp
  have hd : r.net / 2 ^ (32 - r.plen) * 2 ^ (32 - r.plen) = r.net := Nat.div_mul_cancel (Nat.dvd_of_mod_eq_zero w6)
  unfold RIPRoute.fromBytes
  rw [if_neg (by simp [hl]), unpack_pack (route_fits ⟨w1, w2, w3, w4, w5, w6⟩) hb]
  simp only [RIPRoute.vals, bind_ok, Int.toNat_natCast, ipv4Network, prefixOfMask_netmask w4, hd, hn]

theorem rip_loop_roundtrip (rs : List RIPRoute) (hw : ∀ r ∈ rs, RouteWF r) :
    ∃ b, routesBytes rs = .ok b ∧ b.length = 20 * rs.length ∧
      ∀ h junk, ripLoop rs.length h (b ++ junk) = ({ h with routes := h.routes ++ rs }, none) := by
  induction rs with
  | nil => exact ⟨[], rfl, rfl, fun h junk => by simp [ripLoop]⟩
  | cons r rs ih =>
    obtain ⟨b, h1, h2, h3⟩ := rip_route_roundtrip r (hw r List.mem_cons_self)
    obtain ⟨t, g1, g2, g3⟩ := ih fun x hx => hw x (List.mem_cons_of_mem _ hx)
    refine ⟨b ++ t, by simp [routesBytes, h1, g1], by simp [h2, g2]; omega, fun h junk => ?_⟩
    simp only [List.length_cons, ripLoop, List.append_assoc]
    rw [List.take_left' h2, List.drop_left' h2, h3, ]
    simp [g3, RIPv2.append]

/-- **C37**: a RIPv2 message with any command and any list of well-formed routes is 4 + 20·n bytes
on the wire and parses back to the same message, routes in order; fewer than 20 extra bytes after
the last route are ignored. -/
theorem rip_roundtrip (h : RIPv2) (hc : h.command = 1 ∨ h.command = 2) (hw : ∀ r ∈ h.routes, RouteWF r) :
    ∃ b, h.toBytes = .ok b ∧ b.length = 4 + 20 * h.routes.length ∧
      ∀ junk : Bytes, junk.length < 20 → RIPv2.fromBytes (b ++ junk) = .ok h := by
  obtain ⟨t, g1, g2, g3⟩ := rip_loop_roundtrip h.routes hw
  have hp : pack [.u 1, .u 1, .x 2] [.i h.command, .i 2] = .ok (beEnc 1 h.command ++ ([2] ++ zeros 2)) := by
    rw [pack_cons_u (by omega), show (2 : Int) = ((2 : Nat) : Int) from rfl, pack_cons_u (by decide),
      pack_cons_x, pack_nil]
    simp [beEnc]
  refine ⟨beEnc 1 h.command ++ ([2] ++ zeros 2) ++ t, by simp only [RIPv2.toBytes, hp, g1, bind_ok],
    by simp [g2]; omega, fun junk hj => ?_⟩
  have hf : Fits [.u 1, .u 1, .x 2] [.i h.command, .i 2] := by simp only [Fits, and_true]; omega
  have u1 := unpack_pack hf hp
  have e1 : (beEnc 1 h.command ++ ([2] ++ zeros 2) ++ t ++ junk).take 4 = beEnc 1 h.command ++ ([2] ++ zeros 2) := by
    rw [List.append_assoc]; exact List.take_left' (by simp)
  have e2 : (beEnc 1 h.command ++ ([2] ++ zeros 2) ++ t ++ junk).drop 4 = t ++ junk := by
    rw [List.append_assoc]; exact List.drop_left' (by simp)
  have e3 : (t ++ junk).length / 20 = h.routes.length := by simp [g2]; omega
  have e4 : RIPv2.default.setCommand (h.command : Int) = .ok ⟨h.command, []⟩ := by
    unfold RIPv2.setCommand
    rw [enumOf_nat (by rcases hc with e | e <;> simp [e])]; rfl
  unfold RIPv2.fromBytes RIPv2.load
  rw [if_neg (by simp; omega), e1, u1]
  simp only [e4, ne_eq, not_true_eq_false, if_false, e2, e3, g3]
  simp

example : ∀ r ∈ [RIPRoute.mk 2 7 0xC0A80000 16 0x0A000001 3, ⟨2, 0, 0, 0, 0, 16⟩], RouteWF r := by decide +kernel

/-- **C37, partial** (any mask): whatever address and mask an entry is built with (any contiguous
netmask or host mask), what it holds is well-formed, so it round-trips. -/
theorem rip_new_wf_partial (a m nh : BitVec 32) (family metric tag : Int) (r : RIPRoute)
    (h : RIPRoute.new a m nh family metric tag = .ok r)
    (hf : 0 ≤ family ∧ family < 65536) (ht : 0 ≤ tag ∧ tag < 65536) (hm : 0 ≤ metric ∧ metric < 2 ^ 32) :
    RouteWF r := by
  unfold RIPRoute.new ipv4Network at h
  obtain ⟨n, hn, h⟩ := bind_eq_ok.mp h
  obtain ⟨p, hp, hn⟩ := bind_eq_ok.mp hn
  cases hn; cases h
  refine ⟨hf, ht, hm, prefixOfMask_le hp, ?_, Nat.mul_mod_left _ _⟩
  exact Nat.lt_of_le_of_lt (Nat.div_mul_le_self _ _) a.isLt

example : ∃ r, RIPRoute.new 0x0A0B0C0D 0x000000FF 1 2 3 0 = .ok r := ⟨⟨2, 0, 0x0A0B0C00, 24, 1, 3⟩, by decide +kernel⟩

/-- **C37 is false** of entries whose tag, family or metric is outside its field: they are accepted
and only serialising raises `struct.error`. -/
theorem rip_unvalidated_violated :
    ∃ r, RIPRoute.new 0 0 0 2 (-1) 0 = .ok r ∧ r.toBytes = .error .structError :=
  ⟨⟨2, 0, 0, 0, 0, -1⟩, by decide +kernel, by decide +kernel⟩

/-! ## C88: parsing replaces the contents -/

/-- The negation of **C88**: `from_bytes` on an object that already holds routes appends to them;
whatever it held before is still there. -/
theorem rip_reparse_violated (h : RIPv2) (raw : Bytes) (hne : (h.load raw).2 = none) :
    ∃ rs, (h.load raw).1.routes = h.routes ++ rs ∧ rs.length = (raw.length - 4) / 20 := by
  unfold RIPv2.load at hne ⊢
  split
  · rename_i hc; rw [if_pos hc] at hne; cases hne
  rename_i hc
  rw [if_neg hc] at hne
  split
  · rename_i c v hu
    rw [hu] at hne
    simp only at hne
    split
    · rename_i h' hs
      rw [hs] at hne
      simp only at hne
      split
      · rename_i hv; rw [if_pos hv] at hne; cases hne
      · rename_i hv
        rw [if_neg hv] at hne
        obtain ⟨rs, h1, h2⟩ := ripLoop_routes ((raw.drop 4).length / 20) h' (raw.drop 4)
        refine ⟨rs, ?_, by rw [h2 hne]; simp⟩
        unfold RIPv2.setCommand at hs
        obtain ⟨x, _, hs⟩ := bind_eq_ok.mp hs
        cases hs
        rw [h1]
    · rename_i e hs; rw [hs] at hne; cases hne
  · rename_i x hx hu
    rw [hu] at hne
    simp at hne
  · rename_i e hu; rw [hu] at hne; cases hne

example : ((⟨2, [⟨2, 0, 0, 0, 0, 1⟩]⟩ : RIPv2).load ([2, 2, 0, 0] ++ zeros 20)).2 = none := by decide +kernel

/-- **C88, partial**: on a new object, parsing gives one route per complete 20 bytes after the first
4; any exception and any other command or version is reported. -/
theorem rip_parse_count_partial (raw : Bytes) (h : RIPv2) (hp : RIPv2.fromBytes raw = .ok h) :
    4 ≤ raw.length ∧ h.routes.length = (raw.length - 4) / 20 ∧ (h.command = 1 ∨ h.command = 2) := by
  unfold RIPv2.fromBytes at hp
  split at hp
  · rename_i h' hl
    cases hp
    have hne : (RIPv2.default.load raw).2 = none := by rw [hl]
    obtain ⟨rs, h1, h2⟩ := rip_reparse_violated RIPv2.default raw hne
    rw [hl] at h1
    refine ⟨?_, by simp only at h1; rw [h1]; simp [RIPv2.default, h2], ?_⟩
    · have := hl
      unfold RIPv2.load at this
      split at this
      · cases this
      · omega
    · have := hl
      unfold RIPv2.load at this
      split at this
      · cases this
      split at this
      · split at this
        · rename_i h'' hs
          split at this
          · cases this
          · obtain ⟨rs, g1, _⟩ := ripLoop_routes ((raw.drop 4).length / 20) h'' (raw.drop 4)
            rw [this] at g1
            simp only at g1
            unfold RIPv2.setCommand at hs
            obtain ⟨x, hx, hs⟩ := bind_eq_ok.mp hs
            cases hs
            have := (enumOf_ok hx).1
            rw [g1]
            simpa using this
        · cases this
      · cases this
      · cases this
  · cases hp

example : RIPv2.fromBytes ([1, 2, 0, 0] ++ zeros 21) = .ok ⟨1, [⟨0, 0, 0, 0, 0, 0⟩]⟩ := by decide +kernel

/-- **C38 is false** for RIPv2: `len()` is the number of routes, never the number of bytes. -/
theorem rip_len_violated (h : RIPv2) (b : Bytes) (hb : h.toBytes = .ok b) : h.size ≠ b.length := by
  unfold RIPv2.toBytes at hb
  obtain ⟨x, hx, hb⟩ := bind_eq_ok.mp hb
  obtain ⟨y, hy, hb⟩ := bind_eq_ok.mp hb
  cases hb
  have hxl : x.length = 4 := length_pack hx
  have key : ∀ (rs : List RIPRoute) (y : Bytes), routesBytes rs = .ok y → y.length = 20 * rs.length := by
    intro rs
    induction rs with
    | nil => intro y hy; cases hy; rfl
    | cons r rs ih =>
      intro y hy
      simp only [routesBytes] at hy
      obtain ⟨u, hu, hy⟩ := bind_eq_ok.mp hy
      obtain ⟨v, hv, hy⟩ := bind_eq_ok.mp hy
      cases hy
      have hul : u.length = 20 := length_pack hu
      simp [hul, ih v hv]; omega
  rw [RIPv2.size, List.length_append, key _ _ hy, hxl]
  omega

example : ∃ b, (⟨2, [⟨2, 0, 0, 0, 0, 1⟩]⟩ : RIPv2).toBytes = .ok b :=
  ⟨[2, 2, 0, 0, 0, 2] ++ zeros 17 ++ [1], by decide +kernel⟩

/-! ## Null header -/

/-- The loopback header round-trips: any 32-bit address family. -/
theorem null_roundtrip (af : Nat) (h : af < 2 ^ 32) (rest : Bytes) :
    ∃ b, nullToBytes af = .ok b ∧ b.length = 4 ∧ nullFromBytes (b ++ rest) = .ok ((af : Int), rest) := by
  refine ⟨(beEnc 4 af).reverse, ?_, by simp, ?_⟩
  · unfold nullToBytes; rw [if_pos (by omega)]; simp
  · unfold nullFromBytes
    rw [if_neg (by simp), List.take_left' (by simp), List.drop_left' (by simp), List.reverse_reverse,
      beDec_beEnc (by omega)]

end SY.Props
