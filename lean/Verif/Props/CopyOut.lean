import Verif.Props.Scenario

/-!
# Properties of test scenarios that copy values from packets sent

C150 (an expectation can deliver a value taken from the packet sent last).
-/

namespace SY.Props

open SY

/-! ## Assigning an attribute by name -/

/-- Two values of the same kind. -/
def SameKind : AVal → AVal → Prop
  | .num _, .num _ => True
  | .bool _, .bool _ => True
  | .proto _, .proto _ => True
  | .eth _, .eth _ => True
  | .ip _, .ip _ => True
  | .data4 _, .data4 _ => True
  | .data6 _, .data6 _ => True
  | _, _ => False

/-- The value is one that the attribute keeps: 12 bits of a VLAN number, priorities up to 3 (larger ones
are stored as 3), and not the congestion bits of IPv4 (the setter mixes old and new bits, C19). -/
def Kept : HdrAttr → AVal → Prop
  | .vlanid, .num v => 0 ≤ v ∧ v < 4096
  | .pcp, .num v => 0 ≤ v ∧ v ≤ 3
  | .ecn, _ => False
  | _, _ => True

theorem map_ok {α β : Type} {f : α → β} {x : Res α} {b : β} (h : f <$> x = .ok b) : ∃ a, x = .ok a ∧ f a = b := by
  cases x with
  | error e => cases h
  | ok a => cases h; exact ⟨a, rfl, rfl⟩

theorem ethArg_eth {a : EthAddr} {b : EthAddr} (h : EthAddr.mk' (PyVal.ethArg (some (.eth a))) = .ok b) : b = a := by
  simp only [PyVal.ethArg, EthAddr.mk', EthAddr.parseArg, bind_ok] at h
  split at h
  · rename_i x y he
    cases he' : a with
    | mk raw => rw [he'] at he; cases he; cases h; rfl
  · cases h

theorem enum_num {tbl : List Nat} {v : Int} {n : Nat} (h : enumOf tbl v = .ok n) : (n : Int) = v := by
  unfold enumOf at h
  split at h
  · cases h; omega
  · cases h

theorem number_num (v : Int) : PyVal.number (some (.num v)) = some v := rfl

theorem proto_set {o : Option Nat} {α : Type} {f : Int → Res α} {x : α} {P : Prop}
    (h : (PyVal.enumArg (some (.proto o)) >>= f) = .ok x) (hp : ∀ n : Nat, o = some n → f n = .ok x → P) : P := by
  cases o with
  | none => cases h
  | some n => exact hp n rfl h

theorem eth_assigned {h h' : Ethernet} {a : HdrAttr} {u v : AVal} (hu : (Hdr.eth h).getattr a = .ok u) (hk : SameKind u v)
    (hs : h.setattr (some v) a = .ok h') : (Hdr.eth h').getattr a = .ok v := by
  unfold Ethernet.setattr at hs
  split at hs <;> simp only [Hdr.getattr, Hdr.attrs, List.lookup, Option.getD] at hu ⊢
  · cases hu
    cases v <;> simp only [SameKind] at hk
    simp only [Ethernet.setSrc] at hs
    obtain ⟨a, h1, h2⟩ := bind_eq_ok.mp hs
    cases h2
    rw [ethArg_eth h1]
    rfl
  · cases hu
    cases v <;> simp only [SameKind] at hk
    simp only [Ethernet.setDst] at hs
    obtain ⟨a, h1, h2⟩ := bind_eq_ok.mp hs
    cases h2
    rw [ethArg_eth h1]
    rfl
  · cases hu
    cases v <;> simp only [SameKind] at hk
    simp only [PyVal.enumArg, PyVal.number, bind_ok, Ethernet.setEthertype] at hs
    obtain ⟨a, h1, h2⟩ := bind_eq_ok.mp hs
    cases h2
    rw [← enum_num h1]
    rfl
  · cases hs

theorem vlan_assigned {h h' : Vlan} {a : HdrAttr} {u v : AVal} (hu : (Hdr.vlan h).getattr a = .ok u) (hk : SameKind u v)
    (hf : Kept a v) (hs : h.setattr (some v) a = .ok h') : (Hdr.vlan h').getattr a = .ok v := by
  unfold Vlan.setattr at hs
  split at hs <;> simp only [Hdr.getattr, Hdr.attrs, List.lookup, Option.getD] at hu ⊢
  · cases hu
    cases v <;> simp only [SameKind] at hk
    simp only [PyVal.intArg, PyVal.rangeArg, PyVal.number, bind_ok, Vlan.setVlanid] at hs
    rename_i v
    obtain ⟨h1, h2⟩ := hf
    cases hs
    have hv : (((v % 4096).toNat : Nat) : Int) = v := by omega
    show Except.ok (AVal.num (((v % 4096).toNat : Nat) : Int)) = _
    rw [hv]
  · cases hu
    cases v <;> simp only [SameKind] at hk
    simp only [PyVal.intArg, PyVal.rangeArg, PyVal.number, bind_ok, Vlan.setPcp] at hs
    rename_i v
    obtain ⟨h1, h2⟩ := hf
    cases hs
    have hv : (((max (min v 3) 0).toNat : Nat) : Int) = v := by omega
    show Except.ok (AVal.num (((max (min v 3) 0).toNat : Nat) : Int)) = _
    rw [hv]
  · cases hu
    cases v <;> simp only [SameKind] at hk
    simp only [PyVal.enumArg, PyVal.number, bind_ok, Vlan.setEthertype] at hs
    obtain ⟨a, h1, h2⟩ := bind_eq_ok.mp hs
    cases h2
    rw [← enum_num h1]
    rfl
  · cases hs

theorem arp_assigned {h h' : Arp} {a : HdrAttr} {u v : AVal} (hu : (Hdr.arp h).getattr a = .ok u) (hk : SameKind u v)
    (hs : h.setattr (some v) a = .ok h') : (Hdr.arp h').getattr a = .ok v := by
  unfold Arp.setattr at hs
  split at hs <;> simp only [Hdr.getattr, Hdr.attrs, List.lookup, Option.getD] at hu ⊢
  · cases hu
    cases v <;> simp only [SameKind] at hk
    simp only [PyVal.enumArg, PyVal.number, bind_ok, Arp.setOperation] at hs
    obtain ⟨a, h1, h2⟩ := bind_eq_ok.mp hs
    cases h2
    rw [← enum_num h1]
    rfl
  · cases hu
    cases v <;> simp only [SameKind] at hk
    simp only [Arp.setSenderHw] at hs
    obtain ⟨a, h1, h2⟩ := bind_eq_ok.mp hs
    cases h2
    rw [ethArg_eth h1]
    rfl
  · cases hu
    cases v <;> simp only [SameKind] at hk
    simp only [PyVal.ipArg, bind_ok, Arp.setSenderProto, ipAddress] at hs
    cases hs
    rfl
  · cases hu
    cases v <;> simp only [SameKind] at hk
    simp only [Arp.setTargetHw] at hs
    obtain ⟨a, h1, h2⟩ := bind_eq_ok.mp hs
    cases h2
    rw [ethArg_eth h1]
    rfl
  · cases hu
    cases v <;> simp only [SameKind] at hk
    simp only [PyVal.ipArg, bind_ok, Arp.setTargetProto, ipAddress] at hs
    cases hs
    rfl
  · cases hs

theorem ip4_assigned {h h' : IPv4} {a : HdrAttr} {u v : AVal} (hu : (Hdr.ip4 h).getattr a = .ok u) (hk : SameKind u v)
    (hf : Kept a v) (hs : h.setattr (some v) a = .ok h') : (Hdr.ip4 h').getattr a = .ok v := by
  unfold IPv4.setattr at hs
  split at hs <;> simp only [Hdr.getattr, Hdr.attrs, List.lookup, Option.getD] at hu ⊢
  · cases hu
    cases v <;> simp only [SameKind] at hk
    simp only [PyVal.intArg, PyVal.rangeArg, PyVal.number, bind_ok, IPv4.setTtl] at hs
    split at hs
    · rename_i hr
      cases hs
      simp only [Int.toNat_of_nonneg hr.1]
      try rfl
    · cases hs
  · cases hu
    cases v <;> simp only [SameKind] at hk
    simp only [PyVal.intArg, PyVal.rangeArg, PyVal.number, bind_ok, IPv4.setTos] at hs
    split at hs
    · rename_i hr
      cases hs
      simp only [Int.toNat_of_nonneg hr.1]
      try rfl
    · cases hs
  · cases hu
    cases v <;> simp only [SameKind] at hk
    rename_i v
    simp only [PyVal.rangeArg, PyVal.number, bind_ok] at hs
    by_cases hr : 0 ≤ v ∧ v < 64
    · obtain ⟨g, h1, h2, _⟩ := ipv4_dscp_independent h v.toNat (by omega)
      rw [Int.toNat_of_nonneg hr.1, hs] at h1
      cases h1
      simp only [IPv4.dscp] at h2
      show Except.ok (AVal.num ((h'.tos >>> 2 : Nat) : Int)) = _
      rw [h2, Int.toNat_of_nonneg hr.1]
    · simp only [IPv4.setDscp, if_neg hr] at hs
      cases hs
  · exact hf.elim
  · cases hu
    cases v <;> simp only [SameKind] at hk
    simp only [PyVal.intArg, PyVal.rangeArg, PyVal.number, bind_ok, IPv4.setIpid] at hs
    split at hs
    · rename_i hr
      cases hs
      simp only [Int.toNat_of_nonneg hr.1]
      try rfl
    · cases hs
  · cases hu
    cases v <;> simp only [SameKind] at hk
    simp only [PyVal.enumArg, PyVal.number, bind_ok, IPv4.setProtocol] at hs
    obtain ⟨a, h1, h2⟩ := bind_eq_ok.mp hs
    cases h2
    rw [← enum_num h1]
    rfl
  · cases hu
    cases v <;> simp only [SameKind] at hk
    simp only [PyVal.ipArg, bind_ok, IPv4.setSrc, ipAddress] at hs
    cases hs
    rfl
  · cases hu
    cases v <;> simp only [SameKind] at hk
    simp only [PyVal.ipArg, bind_ok, IPv4.setDst, ipAddress] at hs
    cases hs
    rfl
  · cases hu
    cases v <;> simp only [SameKind] at hk
    simp only [PyVal.enumArg, PyVal.number, bind_ok, IPv4.setFlags] at hs
    obtain ⟨a, h1, h2⟩ := bind_eq_ok.mp hs
    cases h2
    rw [← enum_num h1]
    rfl
  · cases hu
    cases v <;> simp only [SameKind] at hk
    simp only [PyVal.intArg, PyVal.rangeArg, PyVal.number, bind_ok, IPv4.setFrag] at hs
    split at hs
    · rename_i hr
      cases hs
      simp only [Int.toNat_of_nonneg hr.1]
      try rfl
    · cases hs
  · cases hs

theorem ip6_assigned {h h' : IPv6} {a : HdrAttr} {u v : AVal} (hu : (Hdr.ip6 h).getattr a = .ok u) (hk : SameKind u v)
    (hs : h.setattr (some v) a = .ok h') : (Hdr.ip6 h').getattr a = .ok v := by
  unfold IPv6.setattr at hs
  split at hs <;> simp only [Hdr.getattr, Hdr.attrs, List.lookup, Option.getD] at hu ⊢
  · cases hu
    cases v <;> simp only [SameKind] at hk
    simp only [PyVal.freeArg, PyVal.intArg, PyVal.rangeArg, PyVal.number, bind_ok, IPv6.setTc] at hs
    cases hs
    rfl
  · cases hu
    cases v <;> simp only [SameKind] at hk
    simp only [PyVal.freeArg, PyVal.intArg, PyVal.rangeArg, PyVal.number, bind_ok, IPv6.setFlow] at hs
    cases hs
    rfl
  · cases hu
    cases v <;> simp only [SameKind] at hk
    simp only [PyVal.freeArg, PyVal.intArg, PyVal.rangeArg, PyVal.number, bind_ok, IPv6.setTtl] at hs
    cases hs
    rfl
  · cases hu
    cases v <;> simp only [SameKind] at hk
    simp only [PyVal.freeArg, PyVal.intArg, PyVal.rangeArg, PyVal.number, bind_ok, IPv6.setTtl] at hs
    cases hs
    rfl
  · cases hu
    cases v <;> simp only [SameKind] at hk
    simp only [PyVal.enumArg, PyVal.number, bind_ok, IPv6.setNext] at hs
    obtain ⟨a, h1, h2⟩ := bind_eq_ok.mp hs
    cases h2
    rw [← enum_num h1]
    rfl
  · cases hu
    cases v <;> simp only [SameKind] at hk
    rename_i w
    cases w with
    | v4 w => simp only [PyVal.ipArg, bind_ok, IPv6.setSrc, ipv6Address] at hs; cases hs
    | v6 w =>
      simp only [PyVal.ipArg, bind_ok, IPv6.setSrc, ipv6Address] at hs
      cases hs
      rfl
  · cases hu
    cases v <;> simp only [SameKind] at hk
    rename_i w
    cases w with
    | v4 w => simp only [PyVal.ipArg, bind_ok, IPv6.setDst, ipv6Address] at hs; cases hs
    | v6 w =>
      simp only [PyVal.ipArg, bind_ok, IPv6.setDst, ipv6Address] at hs
      cases hs
      rfl
  · cases hs

theorem route_assigned {h h' : RouteOpt} {a : HdrAttr} {u v : AVal} (hu : (Hdr.route h).getattr a = .ok u) (hk : SameKind u v)
    (hs : h.setattr (some v) a = .ok h') : (Hdr.route h').getattr a = .ok v := by
  unfold RouteOpt.setattr at hs
  split at hs <;> simp only [Hdr.getattr, Hdr.attrs, List.lookup, Option.getD] at hu ⊢
  · cases hu
    cases v <;> simp only [SameKind] at hk
    rename_i o
    cases o with
    | none => cases hs
    | some n =>
      simp only [PyVal.enumArg, PyVal.number, bind_ok, RouteOpt.setNext] at hs
      obtain ⟨a, h1, h2⟩ := bind_eq_ok.mp hs
      cases h2
      have := enum_num h1
      simp only [Int.natCast_inj] at this
      rw [this]
      rfl
  · cases hu
    cases v <;> simp only [SameKind] at hk
    rename_i o
    cases o with
    | none => cases hs
    | some n =>
      simp only [PyVal.enumArg, PyVal.number, bind_ok, RouteOpt.setNext] at hs
      obtain ⟨a, h1, h2⟩ := bind_eq_ok.mp hs
      cases h2
      have := enum_num h1
      simp only [Int.natCast_inj] at this
      rw [this]
      rfl
  · cases hu
    cases v <;> simp only [SameKind] at hk
    rename_i w
    cases w with
    | v4 w => simp only [PyVal.ipArg, bind_ok, RouteOpt.setAddr, ipv6Address] at hs; cases hs
    | v6 w =>
      simp only [PyVal.ipArg, bind_ok, RouteOpt.setAddr, ipv6Address] at hs
      cases hs
      rfl
  · cases hs

theorem frag_assigned {h h' : Fragment} {a : HdrAttr} {u v : AVal} (hu : (Hdr.frag h).getattr a = .ok u) (hk : SameKind u v)
    (hs : h.setattr (some v) a = .ok h') : (Hdr.frag h').getattr a = .ok v := by
  unfold Fragment.setattr at hs
  split at hs <;> simp only [Hdr.getattr, Hdr.attrs, List.lookup, Option.getD] at hu ⊢
  · cases hu
    cases v <;> simp only [SameKind] at hk
    rename_i o
    cases o with
    | none => cases hs
    | some n =>
      simp only [PyVal.enumArg, PyVal.number, bind_ok, Fragment.setNext] at hs
      obtain ⟨a, h1, h2⟩ := bind_eq_ok.mp hs
      cases h2
      have := enum_num h1
      simp only [Int.natCast_inj] at this
      rw [this]
      rfl
  · cases hu
    cases v <;> simp only [SameKind] at hk
    rename_i o
    cases o with
    | none => cases hs
    | some n =>
      simp only [PyVal.enumArg, PyVal.number, bind_ok, Fragment.setNext] at hs
      obtain ⟨a, h1, h2⟩ := bind_eq_ok.mp hs
      cases h2
      have := enum_num h1
      simp only [Int.natCast_inj] at this
      rw [this]
      rfl
  · cases hu
    cases v <;> simp only [SameKind] at hk
    simp only [PyVal.freeArg, PyVal.intArg, PyVal.rangeArg, PyVal.number, bind_ok, Fragment.setId] at hs
    cases hs
    rfl
  · cases hu
    cases v <;> simp only [SameKind] at hk
    simp only [PyVal.freeArg, PyVal.intArg, PyVal.rangeArg, PyVal.number, bind_ok, Fragment.setOffset] at hs
    cases hs
    rfl
  · cases hu
    cases v <;> simp only [SameKind] at hk
    cases hs
    rfl
  · cases hs

theorem hop_assigned {h h' : HopOpt} {a : HdrAttr} {u v : AVal} (hu : (Hdr.hop h).getattr a = .ok u) (hk : SameKind u v)
    (hs : h.setattr false (some v) a = .ok h') : (Hdr.hop h').getattr a = .ok v := by
  unfold HopOpt.setattr at hs
  split at hs <;> simp only [Hdr.getattr, Hdr.attrs, List.lookup, Option.getD] at hu ⊢
  · cases hu
    cases v <;> simp only [SameKind] at hk
    rename_i o
    cases o with
    | none => cases hs
    | some n =>
      simp only [PyVal.enumArg, PyVal.number, bind_ok, HopOpt.setNext] at hs
      obtain ⟨a, h1, h2⟩ := bind_eq_ok.mp hs
      cases h2
      have := enum_num h1
      simp only [Int.natCast_inj] at this
      rw [this]
      rfl
  · cases hu
    cases v <;> simp only [SameKind] at hk
    rename_i o
    cases o with
    | none => cases hs
    | some n =>
      simp only [PyVal.enumArg, PyVal.number, bind_ok, HopOpt.setNext] at hs
      obtain ⟨a, h1, h2⟩ := bind_eq_ok.mp hs
      cases h2
      have := enum_num h1
      simp only [Int.natCast_inj] at this
      rw [this]
      rfl
  · cases hs

theorem dst_assigned {h h' : HopOpt} {a : HdrAttr} {u v : AVal} (hu : (Hdr.dst h).getattr a = .ok u) (hk : SameKind u v)
    (hs : h.setattr true (some v) a = .ok h') : (Hdr.dst h').getattr a = .ok v := by
  unfold HopOpt.setattr at hs
  split at hs <;> simp only [Hdr.getattr, Hdr.attrs, List.lookup, Option.getD] at hu ⊢
  · cases hu
    cases v <;> simp only [SameKind] at hk
    rename_i o
    cases o with
    | none => cases hs
    | some n =>
      simp only [PyVal.enumArg, PyVal.number, bind_ok, HopOpt.setNext] at hs
      obtain ⟨a, h1, h2⟩ := bind_eq_ok.mp hs
      cases h2
      have := enum_num h1
      simp only [Int.natCast_inj] at this
      rw [this]
      rfl
  · cases hu
    cases v <;> simp only [SameKind] at hk
    rename_i o
    cases o with
    | none => cases hs
    | some n =>
      simp only [PyVal.enumArg, PyVal.number, bind_ok, HopOpt.setNext] at hs
      obtain ⟨a, h1, h2⟩ := bind_eq_ok.mp hs
      cases h2
      have := enum_num h1
      simp only [Int.natCast_inj] at this
      rw [this]
      rfl
  · rename_i h1 h2
    revert hu
    cases a <;> first
      | exact absurd rfl h1
      | exact absurd rfl h2
      | (intro hu; cases hu)

theorem udp_assigned {h h' : UDP} {a : HdrAttr} {u v : AVal} (hu : (Hdr.udp h).getattr a = .ok u) (hk : SameKind u v)
    (hs : h.setattr (some v) a = .ok h') : (Hdr.udp h').getattr a = .ok v := by
  unfold UDP.setattr at hs
  split at hs <;> simp only [Hdr.getattr, Hdr.attrs, List.lookup, Option.getD] at hu ⊢
  · cases hu
    cases v <;> simp only [SameKind] at hk
    simp only [PyVal.freeArg, PyVal.intArg, PyVal.rangeArg, PyVal.number, bind_ok, UDP.setSrc] at hs
    cases hs
    rfl
  · cases hu
    cases v <;> simp only [SameKind] at hk
    simp only [PyVal.freeArg, PyVal.intArg, PyVal.rangeArg, PyVal.number, bind_ok, UDP.setDst] at hs
    cases hs
    rfl
  · cases hs


theorem tcp_assigned {h h' : TCP} {a : HdrAttr} {u v : AVal} (hu : (Hdr.tcp h).getattr a = .ok u) (hk : SameKind u v)
    (hs : h.setattr (some v) a = .ok h') : (Hdr.tcp h').getattr a = .ok v := by
  unfold TCP.setattr at hs
  split at hs <;> simp only [Hdr.getattr, Hdr.attrs, tcpFlagOrder, List.map_cons, List.map_nil, List.cons_append,
    List.nil_append, List.lookup] at hu ⊢
  · cases hu
    cases v <;> simp only [SameKind] at hk
    simp only [PyVal.freeArg, PyVal.number, bind_ok] at hs
    cases hs
    rfl
  · cases hu
    cases v <;> simp only [SameKind] at hk
    simp only [PyVal.freeArg, PyVal.number, bind_ok] at hs
    cases hs
    rfl
  · cases hu
    cases v <;> simp only [SameKind] at hk
    simp only [PyVal.freeArg, PyVal.number, bind_ok] at hs
    cases hs
    rfl
  · cases hu
    cases v <;> simp only [SameKind] at hk
    simp only [PyVal.freeArg, PyVal.number, bind_ok] at hs
    cases hs
    rfl
  · cases hu
    cases v <;> simp only [SameKind] at hk
    simp only [PyVal.freeArg, PyVal.number, bind_ok] at hs
    cases hs
    rfl
  · cases hu
    cases v <;> simp only [SameKind] at hk
    simp only [PyVal.freeArg, PyVal.number, bind_ok] at hs
    cases hs
    rfl
  · rename_i f
    cases hs
    have hi := tcp_flag_independent h f f (PyVal.truth (some v))
    rw [if_pos rfl] at hi
    cases f <;> simp only [List.lookup, Option.getD] at hu ⊢ <;> cases hu <;>
      (cases v <;> simp only [SameKind] at hk) <;> (simp only [PyVal.truth] at hi ⊢; exact congrArg (fun b => Except.ok (AVal.bool b)) hi)
  · cases hs

theorem setType_type {D : Type} {K : ICMPKind D} (L : K.Lawful) {h h' : ICMPMsg D} {v : Int}
    (hs : orRaise (K.setType h v) = .ok h') : (h'.type : Int) = v := by
  rw [ICMPKind.setType_eq L] at hs
  rcases he : enumOf K.types v with e | t
  · rw [he] at hs; cases hs
  · rw [he] at hs
    simp only at hs
    split at hs
    · cases hs
    · cases hs; exact enum_num he

theorem setCode_code {D : Type} {K : ICMPKind D} {h h' : ICMPMsg D} {v : Int}
    (hs : orRaise (K.setCode h (PyVal.codeArg (some (.num v)))) = .ok h') : (h'.code : Int) = v := by
  simp only [PyVal.codeArg, PyVal.number, ICMPKind.setCode] at hs
  rcases hc : K.codes h.type with _ | e
  · rw [hc] at hs; cases hs
  · rw [hc] at hs
    simp only at hs
    rcases he : enumOf e.vals v with x | c
    · rw [he] at hs; cases hs
    · rw [he] at hs; cases hs; exact enum_num he

theorem setData_data {D : Type} {K : ICMPKind D} (L : K.Lawful) {h h' : ICMPMsg D} {d : D}
    (hs : orRaise (K.setData h (.obj d)) = .ok h') : h'.data = d := by
  rcases ht : K.typeOf d with _ | t
  · simp only [ICMPKind.setData, ht] at hs
    cases hs
  · rw [ICMPKind.setData_registered L h d t ht] at hs
    cases hs
    rfl

theorem icmp_assigned {h h' : ICMPMsg ICMPData} {a : HdrAttr} {u v : AVal} (hu : (Hdr.icmp h).getattr a = .ok u)
    (hk : SameKind u v) (hs : icmpSetattr h (some v) a = .ok h') : (Hdr.icmp h').getattr a = .ok v := by
  unfold icmpSetattr at hs
  split at hs <;> simp only [Hdr.getattr, Hdr.attrs, List.lookup, Option.getD] at hu ⊢
  · cases hu
    cases v <;> simp only [SameKind] at hk
    simp only [PyVal.enumArg, PyVal.number, bind_ok] at hs
    exact congrArg (fun n => Except.ok (AVal.num n)) (setType_type icmp4_lawful hs)
  · cases hu
    cases v <;> simp only [SameKind] at hk
    exact congrArg (fun n => Except.ok (AVal.num n)) (setCode_code hs)
  · cases hu
    cases v <;> simp only [SameKind] at hk
    exact congrArg (fun n => Except.ok (AVal.data4 n)) (setData_data icmp4_lawful hs)
  · cases hs

theorem icmp6_assigned {h h' : ICMPMsg ICMPv6Data} {a : HdrAttr} {u v : AVal} (hu : (Hdr.icmp6 h).getattr a = .ok u)
    (hk : SameKind u v) (hs : icmp6Setattr h (some v) a = .ok h') : (Hdr.icmp6 h').getattr a = .ok v := by
  unfold icmp6Setattr at hs
  split at hs <;> simp only [Hdr.getattr, Hdr.attrs, List.lookup, Option.getD] at hu ⊢
  · cases hu
    cases v <;> simp only [SameKind] at hk
    simp only [PyVal.enumArg, PyVal.number, bind_ok] at hs
    exact congrArg (fun n => Except.ok (AVal.num n)) (setType_type icmp6_lawful hs)
  · cases hu
    cases v <;> simp only [SameKind] at hk
    simp only [PyVal.enumArg, PyVal.number, bind_ok] at hs
    exact congrArg (fun n => Except.ok (AVal.num n)) (setType_type icmp6_lawful hs)
  · cases hu
    cases v <;> simp only [SameKind] at hk
    exact congrArg (fun n => Except.ok (AVal.num n)) (setCode_code hs)
  · cases hu
    cases v <;> simp only [SameKind] at hk
    exact congrArg (fun n => Except.ok (AVal.num n)) (setCode_code hs)
  · cases hu
    cases v <;> simp only [SameKind] at hk
    exact congrArg (fun n => Except.ok (AVal.data6 n)) (setData_data icmp6_lawful hs)
  · cases hs

theorem rip_assigned {h h' : RIPv2} {a : HdrAttr} {u v : AVal} (hu : (Hdr.rip h).getattr a = .ok u) (hk : SameKind u v)
    (hs : h.setattr (some v) a = .ok h') : (Hdr.rip h').getattr a = .ok v := by
  unfold RIPv2.setattr at hs
  split at hs <;> simp only [Hdr.getattr, Hdr.attrs, List.lookup, Option.getD] at hu ⊢
  · cases hu
    cases v <;> simp only [SameKind] at hk
    simp only [PyVal.enumArg, PyVal.number, bind_ok, RIPv2.setCommand] at hs
    obtain ⟨a, h1, h2⟩ := bind_eq_ok.mp hs
    cases h2
    rw [← enum_num h1]
    rfl
  · cases hs

/-- **C150**: a value of the right kind that was assigned by name is read back, for every attribute of
every header class; the congestion bits of IPv4, VLAN numbers of more than 12 bits and priorities above 3
are excepted. -/
theorem setattr_reads_back_partial (h h' : Hdr) (a : HdrAttr) (u v : AVal) (hu : h.getattr a = .ok u)
    (hk : SameKind u v) (hf : Kept a v) (hs : h.setattr a (some v) = .ok h') : h'.getattr a = .ok v := by
  cases h with
  | eth h => obtain ⟨g, h1, rfl⟩ := map_ok hs; exact eth_assigned hu hk h1
  | vlan h => obtain ⟨g, h1, rfl⟩ := map_ok hs; exact vlan_assigned hu hk hf h1
  | arp h => obtain ⟨g, h1, rfl⟩ := map_ok hs; exact arp_assigned hu hk h1
  | ip4 h => obtain ⟨g, h1, rfl⟩ := map_ok hs; exact ip4_assigned hu hk hf h1
  | ip6 h => obtain ⟨g, h1, rfl⟩ := map_ok hs; exact ip6_assigned hu hk h1
  | route h => obtain ⟨g, h1, rfl⟩ := map_ok hs; exact route_assigned hu hk h1
  | frag h => obtain ⟨g, h1, rfl⟩ := map_ok hs; exact frag_assigned hu hk h1
  | hop h => obtain ⟨g, h1, rfl⟩ := map_ok hs; exact hop_assigned hu hk h1
  | dst h => obtain ⟨g, h1, rfl⟩ := map_ok hs; exact dst_assigned hu hk h1
  | udp h => obtain ⟨g, h1, rfl⟩ := map_ok hs; exact udp_assigned hu hk h1
  | tcp h => obtain ⟨g, h1, rfl⟩ := map_ok hs; exact tcp_assigned hu hk h1
  | icmp h => obtain ⟨g, h1, rfl⟩ := map_ok hs; exact icmp_assigned hu hk h1
  | icmp6 h => obtain ⟨g, h1, rfl⟩ := map_ok hs; exact icmp6_assigned hu hk h1
  | rip h => obtain ⟨g, h1, rfl⟩ := map_ok hs; exact rip_assigned hu hk h1
  | null f =>
    simp only [Hdr.setattr] at hs
    split at hs
    · rename_i ha
      subst ha
      obtain ⟨g, h1, rfl⟩ := map_ok hs
      cases hu
      cases v <;> simp only [SameKind] at hk
      cases h1
      rfl
    · cases hs
  | raw b => cases hs
  | nullHdr => cases hu

/-- Assigning an attribute does not change the class of a header. -/
theorem setattr_cls {h h' : Hdr} {a : HdrAttr} {v : PyVal} (hs : h.setattr a v = .ok h') : h'.cls = h.cls := by
  cases h
  case null =>
    simp only [Hdr.setattr] at hs
    split at hs
    · obtain ⟨g, _, rfl⟩ := map_ok hs; rfl
    · cases hs
  case raw => cases hs
  case nullHdr => cases hs; rfl
  all_goals (obtain ⟨g, _, rfl⟩ := map_ok hs; rfl)

/-- **C150**: assigning an attribute of a header of a packet by class changes the first header of that class
and nothing else: the other headers are the same objects, in the same places. -/
theorem packet_setattr (c : Cls) (a : HdrAttr) (v : PyVal) (q q' : Packet) (hs : q.setattr c a v = .ok q') :
    ∃ pre post h h', q = pre ++ .hdr h :: post ∧ q' = pre ++ .hdr h' :: post ∧ h.setattr a v = .ok h' ∧
      q.getHeader c = some (.hdr h) ∧ q'.getHeader c = some (.hdr h') := by
  induction q generalizing q' with
  | nil => cases hs
  | cons it q ih =>
    simp only [Packet.setattr] at hs
    split at hs
    · rename_i hi
      obtain ⟨it', h1, h2⟩ := bind_eq_ok.mp hs
      cases h2
      cases it with
      | bytes b => cases h1
      | other i => cases h1
      | hdr h =>
        obtain ⟨h', h3, rfl⟩ := map_ok h1
        refine ⟨[], q, h, h', rfl, rfl, h3, ?_, ?_⟩
        · simp [Packet.getHeader, hi]
        · simp only [Item.isA] at hi
          simp [Packet.getHeader, Item.isA, setattr_cls h3, hi]
    · rename_i hi
      obtain ⟨p', h1, h2⟩ := bind_eq_ok.mp hs
      cases h2
      obtain ⟨pre, post, h, h', e1, e2, e3, e4, e5⟩ := ih p' h1
      refine ⟨it :: pre, post, h, h', by rw [e1]; rfl, by rw [e2]; rfl, e3, ?_, ?_⟩
      · simp only [Packet.getHeader, List.find?_cons, Bool.not_eq_true] at e4 hi ⊢; rw [hi]; exact e4
      · simp only [Packet.getHeader, List.find?_cons, Bool.not_eq_true] at e5 hi ⊢; rw [hi]; exact e5

/-! ## Sending a packet and what is kept of it -/

/-- Filling in computed fields changes only lengths and checksums. -/
theorem pre_getattr {h h' : Hdr} {t : Bytes} {ctx : Packet} {a : HdrAttr} (hp : h.pre t ctx = .ok h')
    (h1 : a ≠ .totalLength) (h2 : a ≠ .length) : h'.getattr a = h.getattr a := by
  cases h
  case ip4 h =>
    obtain ⟨g, hg, rfl⟩ := map_ok hp
    simp only [IPv4.preSerialize] at hg
    obtain ⟨n, hn, hg⟩ := bind_eq_ok.mp hg
    cases hg
    cases a <;> first | rfl | exact absurd rfl h1
  case ip6 h => cases hp; cases a <;> rfl
  case udp h =>
    obtain ⟨g, hg, rfl⟩ := map_ok hp
    simp only [UDP.preSerialize] at hg
    obtain ⟨n, hn, hg⟩ := bind_eq_ok.mp hg
    cases hg
    cases a <;> first | rfl | exact absurd rfl h2
  case tcp h =>
    obtain ⟨g, hg, rfl⟩ := map_ok hp
    simp only [TCP.preSerialize] at hg
    obtain ⟨n, hn, hg⟩ := bind_eq_ok.mp hg
    cases hg
    rfl
  case icmp6 h =>
    obtain ⟨g, hg, rfl⟩ := map_ok hp
    unfold icmp6PreSerialize at hg
    split at hg
    · cases hg
    · obtain ⟨n, hn, hg⟩ := bind_eq_ok.mp hg
      cases hg
      rfl
  all_goals (cases hp; rfl)

theorem finish_getHeader {ctx : Packet} {tail : Bytes} {p p' : Packet} {bs : List Bytes} {c : Cls} {g : Hdr}
    (h : finish ctx tail p = .ok (p', bs)) (hg : p.getHeader c = some (.hdr g)) :
    ∃ g' t, p'.getHeader c = some (.hdr g') ∧ g.pre t ctx = .ok g' := by
  induction p generalizing p' bs with
  | nil => cases hg
  | cons x p ih =>
    simp only [finish] at h
    obtain ⟨r, hr, h⟩ := bind_eq_ok.mp h
    obtain ⟨x', hx, h⟩ := bind_eq_ok.mp h
    obtain ⟨b, hb, h⟩ := bind_eq_ok.mp h
    cases h
    cases x with
    | hdr k =>
      simp only [Item.pre] at hx
      obtain ⟨k', hk, rfl⟩ := map_eq_ok.mp hx
      have hc := (Hdr.pre_keys hk).1
      have hi' : (Item.hdr k').isA c = (Item.hdr k).isA c := by simp only [Item.isA, hc]
      simp only [Packet.getHeader, List.find?_cons, hi'] at hg ⊢
      cases hi : (Item.hdr k).isA c with
      | true =>
        rw [hi] at hg
        cases hg
        exact ⟨k', _, rfl, hk⟩
      | false =>
        rw [hi] at hg
        exact ih hr hg
    | _ => cases hx

/-- What a packet shows of itself after it was serialised: the same as before, lengths and checksums
excepted. -/
theorem serialised_attr {s s' : Packet} {b : Bytes} {c : Cls} {g : Hdr} {a : HdrAttr} (hb : s.toBytes = (s', .ok b))
    (hg : s.getHeader c = some (.hdr g)) (h1 : a ≠ .totalLength) (h2 : a ≠ .length) :
    ∃ g', s'.getHeader c = some (.hdr g') ∧ g'.getattr a = g.getattr a := by
  obtain ⟨bs, hf, _⟩ := toBytes_inv hb
  obtain ⟨g', t, h3, h4⟩ := finish_getHeader hf hg
  exact ⟨g', h3, pre_getattr h4 h1 h2⟩

theorem testpass_lastout {s : Scenario} {x : Entry} {xs : List Entry} (h : s.pending = x :: xs) :
    s.testpass.1.lastout = x.event.lastout s.lastout := by
  simp only [Scenario.testpass, h]
  unfold Scenario.armNext Scenario.setTimer
  split
  · rfl
  · split <;> rfl

/-- A packet that the expectation accepts is kept, as it is after being serialised; the packets of the
expectation are what later expectations can copy from once all have been sent. -/
theorem send_accepted {n : TestNet} {x : Entry} {xs : List Entry} {w : Dict (List Char) Matcher}
    {s : Dict (List Char) Sent} {d : List Char} {m : Matcher} {p : Packet} (hp : n.scen.pending = x :: xs)
    (hx : x.event = .output w s) (hm : w.get? d = some m) (ha : Admits m p) :
    ∃ n', perform n (.send d p) = (n', none) ∧ n'.scen.ifaces = n.scen.ifaces ∧
      if w.erase d = [] then n'.scen.pending = xs ∧ n'.scen.lastout = some (s.set d (.pkt p.toBytes.1))
      else n'.scen.pending = { x with event := .output (w.erase d) (s.set d (.pkt p.toBytes.1)) } :: xs := by
  rcases hmm : m.matchPkt p with ⟨m', p', r⟩
  simp only [Admits, hmm] at ha
  subst ha
  have hp' : p' = p.toBytes.1 := by
    have h : (m.matchPkt p).2.1 = p' := by rw [hmm]
    rw [← h]
    unfold Matcher.matchPkt
    rcases hb : p.toBytes with ⟨p1, e | b⟩
    · rfl
    · simp only
      rcases hr : m.ref.toBytes with ⟨r1, e | b'⟩ <;> rfl
  subst hp'
  by_cases hz : w.erase d = []
  · simp only [if_pos hz]
    simp only [perform, TestNet.send, Scenario.done, hp, TestNet.port, TestNet.sendOn, Scenario.next, hx,
      Event.matchOutput, hm, hmm, TestNet.afterMatch, List.isEmpty_cons, Bool.false_eq_true, if_false, hz, if_true, setFirst]
    have hq : (Scenario.pending { n.scen with pending := { x with
      event := Event.output [] (s.set d (.pkt p.toBytes.1)) } :: xs }) = _ :: xs := rfl
    obtain ⟨h1, _, h3⟩ := testpass_lists hq
    exact ⟨_, rfl, h3, h1, testpass_lastout hq⟩
  · simp only [if_neg hz]
    simp only [perform, TestNet.send, Scenario.done, hp, TestNet.port, TestNet.sendOn, Scenario.next, hx,
      Event.matchOutput, hm, hmm, TestNet.afterMatch, List.isEmpty_cons, Bool.false_eq_true, if_false, hz, setFirst]
    exact ⟨_, rfl, rfl, rfl⟩

theorem program_append (n : TestNet) (as bs : List Act) : program n (as ++ bs) =
    match program n as with
    | (n', none) => program n' bs
    | (n', some e) => (n', some e) := by
  induction as generalizing n with
  | nil => rfl
  | cons a as ih =>
    simp only [List.cons_append, program]
    rcases perform n a with ⟨n', _ | e⟩
    · exact ih n'
    · rfl

/-- The calls that send these packets. -/
def sends (l : List (List Char × Packet)) : List Act := l.map fun x => Act.send x.1 x.2

/-- Once all packets of an output expectation have been sent, in any order, exactly they are kept. -/
theorem sends_kept {l : List (List Char × Packet)} {n : TestNet} {x : Entry} {xs : List Entry}
    {w : Dict (List Char) Matcher} {s : Dict (List Char) Sent} (hp : n.scen.pending = x :: xs)
    (hx : x.event = .output w s) (hu : w.Uniq) (hw : w ≠ []) (hc : Covers w l) :
    ∃ n' d, program n (sends l) = (n', none) ∧ n'.scen.pending = xs ∧ n'.scen.ifaces = n.scen.ifaces ∧
      n'.scen.lastout = some d ∧ (∀ y ∈ l, d.get? y.1 = some (.pkt y.2.toBytes.1)) ∧
      ∀ k, k ∉ l.map Prod.fst → d.get? k = s.get? k := by
  induction l generalizing n x w s with
  | nil =>
    have h := hc.1
    cases w with
    | nil => exact absurd rfl hw
    | cons y w => have := h.length_eq; simp [Dict.keys] at this
  | cons y l ih =>
    obtain ⟨dev, p⟩ := y
    obtain ⟨m, hm, _⟩ := hc.2 (dev, p) (by simp)
    obtain ⟨ha, hc'⟩ := (covers_send hu hm p l).mp hc
    have hnd : dev ∉ l.map Prod.fst := by
      have h1 : ((dev, p) :: l).map Prod.fst |>.Nodup := hc.1.symm.nodup hu
      simp only [List.map_cons, List.nodup_cons] at h1
      exact h1.1
    obtain ⟨n1, h1, h2, h3⟩ := send_accepted hp hx hm ha
    by_cases hz : w.erase dev = []
    · rw [if_pos hz] at h3
      have hl : l = [] := by
        rw [hz] at hc'
        have := hc'.1.length_eq
        simp only [Dict.keys, List.map_nil, List.length_map, List.length_nil] at this
        exact List.length_eq_zero_iff.mp this
      subst hl
      refine ⟨n1, _, by simp [sends, program, h1], h3.1, h2, h3.2, ?_, ?_⟩
      · intro y hy
        simp only [List.mem_singleton] at hy
        subst hy
        simp [Dict.get?_set]
      · intro k hk
        simp only [List.map_cons, List.map_nil, List.mem_singleton] at hk
        rw [Dict.get?_set, if_neg (fun h => hk h.symm)]
    · rw [if_neg hz] at h3
      obtain ⟨n2, d, g1, g2, g3, g4, g5, g6⟩ := ih h3 rfl (Dict.uniq_erase hu dev) hz hc'
      refine ⟨n2, d, ?_, g2, by rw [g3, h2], g4, ?_, ?_⟩
      · simp only [sends, List.map_cons, program, h1]
        exact g1
      · intro y hy
        rcases List.mem_cons.mp hy with rfl | hy
        · simp only
          rw [g6 dev hnd, Dict.get?_set, if_pos rfl]
        · exact g5 y hy
      · intro k hk
        simp only [List.map_cons, List.mem_cons, not_or] at hk
        rw [g6 k hk.2, Dict.get?_set, if_neg (fun h => hk.1 h.symm)]

/-- Expectations of packets to be received or of timeouts leave the packets kept as they are. -/
theorem recvs_kept {mid : List Entry} {n : TestNet} {xs : List Entry} (hp : n.scen.pending = mid ++ xs)
    (hm : ∀ y ∈ mid, y.event.isOutput = false ∧ Usable n.scen.ifaces y.event) :
    ∃ n', program n (List.replicate mid.length .recv) = (n', none) ∧ n'.scen.pending = xs ∧
      n'.scen.ifaces = n.scen.ifaces ∧ n'.scen.lastout = n.scen.lastout := by
  induction mid generalizing n with
  | nil => exact ⟨n, rfl, hp, rfl, rfl⟩
  | cons y mid ih =>
    obtain ⟨ho, hu⟩ := hm y (by simp)
    obtain ⟨h1, h2, h3⟩ := recv_input hp ho hu
    have hl : (perform n .recv).1.scen.lastout = n.scen.lastout := by
      have hr : (perform n .recv).1 = n.recv.1 := by
        simp only [perform]
        rcases n.recv with ⟨n1, e | r⟩
        · cases e <;> rfl
        · rfl
      rw [hr]
      simp only [TestNet.recv, Scenario.next, hp, List.cons_append]
      have ht := testpass_lastout hp
      have hy : y.event.lastout n.scen.lastout = n.scen.lastout := by
        rcases he : y.event with t | ⟨dev, p, f, cs⟩ | ⟨w, s⟩
        · rfl
        · rfl
        · rw [he] at ho; cases ho
      rw [hy] at ht
      split
      · exact ht
      · rfl
    obtain ⟨n', g1, g2, g3, g4⟩ := ih (n := (perform n .recv).1) h2 (by
      rw [h3]; exact fun z hz => hm z (by simp [hz]))
    refine ⟨n', ?_, g2, by rw [g3, h3], by rw [g4, hl]⟩
    simp only [List.length_cons, List.replicate_succ, program]
    rcases hpf : perform n .recv with ⟨n1, e⟩
    rw [hpf] at h1 g1
    simp only at h1
    subst h1
    exact g1

/-- A packet that a matcher accepts can be serialised. -/
theorem admits_serialises {m : Matcher} {p : Packet} (h : Admits m p) : ∃ p' b, p.toBytes = (p', .ok b) := by
  unfold Admits Matcher.matchPkt at h
  rcases hb : p.toBytes with ⟨p', e | b⟩
  · rw [hb] at h; cases h
  · exact ⟨p', b, rfl⟩

theorem setattr_first {c : Cls} {a : HdrAttr} {v : PyVal} {q : Packet} {h h' : Hdr}
    (hq : q.getHeader c = some (.hdr h)) (hs : h.setattr a v = .ok h') :
    ∃ pre post, q = pre ++ .hdr h :: post ∧ q.setattr c a v = .ok (pre ++ .hdr h' :: post) := by
  induction q with
  | nil => cases hq
  | cons it q ih =>
    simp only [Packet.getHeader, List.find?_cons] at hq
    cases hi : it.isA c with
    | true =>
      rw [hi] at hq
      cases hq
      refine ⟨[], q, rfl, ?_⟩
      simp only [Packet.setattr, hi, if_true, Item.setattr, hs]
      rfl
    | false =>
      rw [hi] at hq
      obtain ⟨pre, post, h1, h2⟩ := ih hq
      refine ⟨it :: pre, post, by rw [h1]; rfl, ?_⟩
      simp only [Packet.setattr, hi, Bool.false_eq_true, if_false, h2]
      rfl

/-- What is received from an expectation with one value to be copied. -/
theorem recv_copy {n : TestNet} {x : Entry} {xs : List Entry} {dev : List Char} {p p' q q' : Packet} {f : Option Cls}
    {b : Bytes} {c : Copy} {v : PyVal} (hp : n.scen.pending = x :: xs) (hx : x.event = .input dev p f [c])
    (hd : dev ∈ n.scen.ifaces.keys) (hb : p.toBytes = (p', .ok b)) (hq : Packet.parse b f = .ok q)
    (hv : lastoutOf n.scen.lastout c.intf c.outCls c.outAttr = .ok v) (hs : q.setattr c.inCls c.inAttr v = .ok q') :
    n.recv.2 = .ok ⟨n.ts, dev, q'⟩ := by
  obtain ⟨_, _, h3⟩ := testpass_lists hp
  have hl := testpass_lastout hp
  rw [hx] at hl
  simp only [Event.lastout] at hl
  simp [TestNet.recv, Scenario.next, hp, hx, Event.matchInput, Event.generate, h3, hb, hq, deliverOn, applyCopies, hd,
    hl, hv, hs, bind_ok]

/-- **C150**, partial: the program sends the packets of an output expectation, in any order, and receives as
often as the expectations that follow ask for; then an expectation is reached that copies a value from an
interface of that output expectation.  The packet delivered is the one of the expectation but for one
attribute of one header, which has the value that it has in the packet the program sent on the interface.
Excepted are computed attributes (lengths) of the packet sent, and attributes that do not keep every value. -/
theorem copy_delivered_partial (n : TestNet) (o x : Entry) (mid xs : List Entry) (w : Dict (List Char) Matcher)
    (l : List (List Char × Packet)) (dev : List Char) (p p' q s : Packet) (f : Option Cls) (b : Bytes) (c : Copy)
    (g h h' : Hdr) (u v : AVal)
    (hp : n.scen.pending = o :: (mid ++ x :: xs)) (ho : o.event = .output w []) (hu : w.Uniq) (hw : w ≠ [])
    (hl : Covers w l) (hm : ∀ y ∈ mid, y.event.isOutput = false ∧ Usable n.scen.ifaces y.event)
    (hx : x.event = .input dev p f [c]) (hd : dev ∈ n.scen.ifaces.keys) (hb : p.toBytes = (p', .ok b))
    (hq : Packet.parse b f = .ok q) (hs : (c.intf, s) ∈ l) (hg : s.getHeader c.outCls = some (.hdr g))
    (hv : g.getattr c.outAttr = .ok v) (hc1 : c.outAttr ≠ .totalLength) (hc2 : c.outAttr ≠ .length)
    (hh : q.getHeader c.inCls = some (.hdr h)) (hi : h.getattr c.inAttr = .ok u) (hk : SameKind u v)
    (hf : Kept c.inAttr v) (ht : h.setattr c.inAttr (some v) = .ok h') :
    ∃ n' pre post, program n (sends l ++ List.replicate mid.length .recv) = (n', none) ∧
      q = pre ++ .hdr h :: post ∧ n'.recv.2 = .ok ⟨n'.ts, dev, pre ++ .hdr h' :: post⟩ ∧ h'.getattr c.inAttr = .ok v := by
  obtain ⟨n1, d, h1, h2, h3, h4, h5, _⟩ := sends_kept hp ho hu hw hl
  obtain ⟨n2, g1, g2, g3, g4⟩ := recvs_kept h2 (by rw [h3]; exact hm)
  obtain ⟨m, _, hadm⟩ := hl.2 _ hs
  obtain ⟨s', bs, hsb⟩ := admits_serialises hadm
  obtain ⟨g', hg', ha⟩ := serialised_attr hsb hg hc1 hc2
  obtain ⟨pre, post, e1, e2⟩ := setattr_first hh ht
  refine ⟨n2, pre, post, by rw [program_append, h1]; exact g1, e1, ?_, setattr_reads_back_partial h h' _ u v hi hk hf ht⟩
  refine recv_copy g2 hx (by rw [g3, h3]; exact hd) hb hq (v := some v) ?_ e2
  have h6 := h5 _ hs
  rw [hsb] at h6
  rw [g4, h4]
  simp only [lastoutOf, h6, hg', Item.getattr, ha, hv]
  rfl

/-- The negation of **C150**: if the program has meanwhile met another output expectation, in which nothing is
expected on the interface, the value is lost; an Ethernet address is then silently replaced by
00:00:00:00:00:00.  This is so for every such scenario, whatever was sent on the interface before. -/
theorem copy_forgotten_violated (n : TestNet) (o o' x : Entry) (xs : List Entry) (w w' : Dict (List Char) Matcher)
    (l l' : List (List Char × Packet)) (dev : List Char) (p p' q : Packet) (f : Option Cls) (b : Bytes) (c : Copy)
    (e : Ethernet) (hp : n.scen.pending = o :: o' :: x :: xs) (ho : o.event = .output w []) (hu : w.Uniq) (hw : w ≠ [])
    (hl : Covers w l) (ho' : o'.event = .output w' []) (hu' : w'.Uniq) (hw' : w' ≠ []) (hl' : Covers w' l')
    (hx : x.event = .input dev p f [c]) (hd : dev ∈ n.scen.ifaces.keys) (hb : p.toBytes = (p', .ok b))
    (hq : Packet.parse b f = .ok q) (hs : c.intf ∉ l'.map Prod.fst)
    (hh : q.getHeader c.inCls = some (.hdr (.eth e))) (ha : c.inAttr = .dst) :
    ∃ n' pre post, program n (sends l ++ sends l') = (n', none) ∧ q = pre ++ .hdr (.eth e) :: post ∧
      n'.recv.2 = .ok ⟨n'.ts, dev, pre ++ .hdr (.eth { e with dst := ⟨[0, 0, 0, 0, 0, 0]⟩ }) :: post⟩ := by
  obtain ⟨n1, d, h1, h2, h3, h4, h5, _⟩ := sends_kept hp ho hu hw hl
  obtain ⟨n2, d', g1, g2, g3, g4, g5, g6⟩ := sends_kept h2 ho' hu' hw' hl'
  obtain ⟨pre, post, e1, e2⟩ := setattr_first (a := c.inAttr) (v := none)
    (h' := .eth { e with dst := ⟨[0, 0, 0, 0, 0, 0]⟩ }) hh (by rw [ha]; rfl)
  refine ⟨n2, pre, post, by rw [program_append, h1]; exact g1, e1, ?_⟩
  refine recv_copy g2 hx (by rw [g3, h3]; exact hd) hb hq (v := none) ?_ e2
  rw [g4]
  simp only [lastoutOf, g6 _ hs]
  rfl

/-- The negation of **C150**: before any output expectation has been met, or when nothing was expected on the
interface, copying an IPv4 address makes the call to receive raise `ValueError`; the harness then reports that
the program crashed. -/
theorem copy_crash_violated (n : TestNet) (x : Entry) (xs : List Entry) (dev : List Char) (p p' q : Packet)
    (f : Option Cls) (b : Bytes) (c : Copy) (e : IPv4) (hp : n.scen.pending = x :: xs)
    (hx : x.event = .input dev p f [c]) (hd : dev ∈ n.scen.ifaces.keys) (hb : p.toBytes = (p', .ok b))
    (hq : Packet.parse b f = .ok q) (hh : q.getHeader c.inCls = some (.hdr (.ip4 e))) (ha : c.inAttr = .dst)
    (hl : ∀ d, n.scen.lastout = some d → d.get? c.intf = none) (as : List Act) :
    report n (.recv :: as) = .crashed := by
  obtain ⟨_, _, h3⟩ := testpass_lists hp
  have ht := testpass_lastout hp
  rw [hx] at ht
  simp only [Event.lastout] at ht
  have hv : lastoutOf n.scen.lastout c.intf c.outCls c.outAttr = .ok none := by
    unfold lastoutOf
    rcases hn : n.scen.lastout with _ | d
    · rfl
    · simp only [hl d hn]
  have hs : q.setattr c.inCls c.inAttr none = .error .valueError := by
    rw [ha]
    clear hq
    induction q with
    | nil => cases hh
    | cons it q ih =>
      simp only [Packet.getHeader, List.find?_cons] at hh
      cases hi : it.isA c.inCls with
      | true =>
        rw [hi] at hh
        cases hh
        simp only [Packet.setattr, hi, if_true, Item.setattr]
        rfl
      | false =>
        rw [hi] at hh
        simp only [Packet.setattr, hi, Bool.false_eq_true, if_false, ih hh]
        rfl
  have hr : n.recv.2 = .error .valueError := by
    simp [TestNet.recv, Scenario.next, hp, hx, Event.matchInput, Event.generate, h3, hb, hq, deliverOn, applyCopies, hd,
      ht, hv, hs, bind_ok]
  unfold report
  simp only [program, perform]
  rcases hn : n.recv with ⟨n', r⟩
  rw [hn] at hr
  simp only at hr
  subst hr
  rfl

/-- The negation of **C150** for the congestion bits of IPv4: a copied 1 arrives as 3 if the packet to be
delivered has 2. -/
theorem copy_ecn_violated : ∃ h h' : IPv4, h.setattr (some (.num 1)) .ecn = .ok h' ∧
    (Hdr.ip4 h').getattr .ecn = .ok (.num 3) :=
  ⟨{ IPv4.default with tos := 2 }, _, rfl, rfl⟩

/-- The negation of **C150** for the priority of a VLAN header: a copied 5 arrives as 3. -/
theorem copy_pcp_violated : ∃ h h' : Vlan, h.setattr (some (.num 5)) .pcp = .ok h' ∧
    (Hdr.vlan h').getattr .pcp = .ok (.num 3) :=
  ⟨⟨1, 0, 0x0800⟩, _, rfl, rfl⟩

/-- **C150**, the argument `copyfromlastout` itself: leaving it out asks for nothing, a tuple for one value, a
list for each of its members, and what is neither a tuple nor a list is refused. -/
theorem copy_argument (dev : List Char) (p : Packet) (f : Option Cls) (cs : List Copy) (arg : CopyArg)
    (h : Event.mkCopying dev p arg = .ok (.input dev p f cs)) :
    (cs = [] ↔ arg = .none) ∧ (∀ c, cs = [c] ↔ arg = .one c ∨ arg = .many [c]) ∧ arg ≠ .other := by
  cases arg with
  | none => simp [Event.mkCopying, CopyArg.copies, bind_ok, Event.mkInput] at h; simp [← h.2]
  | one c => simp [Event.mkCopying, CopyArg.copies, bind_ok, Event.mkInput] at h; simp [← h.2]
  | many l =>
    cases l with
    | nil => cases h
    | cons c l => simp [Event.mkCopying, CopyArg.copies, bind_ok, Event.mkInput] at h; simp [← h.2]
  | other => cases h

/-- The negation of **C150**: an empty list of values to be copied, which asks for nothing, is refused with
`IndexError`. -/
theorem copy_empty_violated (dev : List Char) (p : Packet) :
    Event.mkCopying dev p (.many []) = .error .indexError := rfl

/-- A copy of the source address of what was sent on a port to the destination address. -/
def exCopy (intf : String) : Copy := ⟨intf.toList, .eth, .src, .eth, .dst⟩

/-- Two packets are expected on two ports, then a packet on another, then a packet arrives with a value
copied from the port named. -/
def exCopyScen (intf : String) : Scenario :=
  { ifaces := exScen.ifaces
    pending := [⟨exOut, "out".toList, 0⟩, ⟨.timeout 1, "wait".toList, 1⟩,
      ⟨Event.mkInput "eth0".toList exPacket [exCopy intf], "in".toList, 2⟩]
    nextTs := 3 }

/-- The destination address received by a program that sends the two packets and times out. -/
def exCopied (intf : String) : Res AVal :=
  match (program { scen := exCopyScen intf } [.send "eth2".toList exOtherPort, .send "eth1".toList exPacket, .recv]).1.recv.2 with
  | .ok r => match r.pkt.getHeader .eth with
    | some it => it.getattr .dst
    | none => .error .attributeError
  | .error e => .error e

/-- `copy_delivered_partial`: the packet sent has source `02:00:00:00:00:01` and the one to be delivered has
destination `01:02:03:04:05:06`; it is delivered with the address of the packet sent. -/
example : (match exPacket with | .hdr (.eth e) :: _ => (some e.src, some e.dst) | _ => (none, none)) =
      (some ⟨[2, 0, 0, 0, 0, 1]⟩, some ⟨[1, 2, 3, 4, 5, 6]⟩) ∧
    exCopied "eth1" = .ok (.eth ⟨[2, 0, 0, 0, 0, 1]⟩) ∧
    exCopied "eth3" = .ok (.eth ⟨[0, 0, 0, 0, 0, 0]⟩) := by decide +kernel

/-- `copy_crash_violated`. -/
example : report { scen := { ifaces := exScen.ifaces, pending := [⟨Event.mkInput "eth0".toList exPacket
      [⟨"eth1".toList, .ip4, .src, .ip4, .dst⟩], "in".toList, 0⟩], nextTs := 1 } } [.recv] = .crashed := by decide +kernel

end SY.Props
