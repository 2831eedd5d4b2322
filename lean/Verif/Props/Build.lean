import Verif.Build
import Verif.Props.AttrFrame

/-! # Constructing headers with keyword arguments -/

namespace SY.Props

/-! ## Assignments that can be exchanged -/

/-- Two attributes that are views of the same thing or follow each other (`Tied`), and the two parts of the
type-of-service byte, which the code mixes up (C160). -/
def Meddle (h : Hdr) (a b : HdrAttr) : Bool :=
  Tied h a b || Tied h b a ||
    (h.cls == .ip4 && ((a == .ecn && b == .dscp) || (a == .dscp && b == .ecn)))

/-- How a successful assignment changes a header of class `Ethernet`. -/
def EthPut (f : Ethernet → Ethernet) : HdrAttr → Prop
  | .src => ∃ x, f = fun g => { g with src := x }
  | .dst => ∃ x, f = fun g => { g with dst := x }
  | .ethertype => ∃ x, f = fun g => { g with ethertype := x }
  | _ => False

theorem eth_put {h h' : Ethernet} {a : HdrAttr} {v : PyVal} (hs : h.setattr v a = .ok h') :
    ∃ f, (∀ g : Ethernet, g.setattr v a = .ok (f g)) ∧ EthPut f a := by
  unfold Ethernet.setattr at hs
  split at hs
  all_goals first
    | (cases hs; done)
    | (obtain ⟨x, hx, _⟩ := bind_eq_ok.mp hs
       exact ⟨_, fun g => by simp only [Ethernet.setattr, Ethernet.setSrc, Ethernet.setDst, Ethernet.setEthertype, hx, bind_ok], x, rfl⟩)
    | (obtain ⟨y, hy, hs⟩ := bind_eq_ok.mp hs
       obtain ⟨x, hx, _⟩ := bind_eq_ok.mp hs
       exact ⟨_, fun g => by simp only [Ethernet.setattr, Ethernet.setSrc, Ethernet.setDst, Ethernet.setEthertype, hy, hx, bind_ok], x, rfl⟩)

theorem eth_puts {f k : Ethernet → Ethernet} {a b : HdrAttr} (hf : EthPut f a) (hk : EthPut k b) (hne : a ≠ b)
    (g : Ethernet) : f (k g) = k (f g) := by
  unfold EthPut at hf
  split at hf
  all_goals first
    | (cases hf; done)
    | (unfold EthPut at hk
       split at hk
       all_goals first
         | (cases hk; done)
         | exact absurd rfl hne
         | (obtain ⟨_, rfl⟩ := hf
            obtain ⟨_, rfl⟩ := hk
            rfl))

/-- How a successful assignment changes a header of class `Vlan`. -/
def VlanPut (f : Vlan → Vlan) : HdrAttr → Prop
  | .vlanid => ∃ n, f = fun g => g.setVlanid n
  | .pcp => ∃ n, f = fun g => g.setPcp n
  | .ethertype => ∃ x, f = fun g => { g with ethertype := x }
  | _ => False

theorem vlan_put {h h' : Vlan} {a : HdrAttr} {v : PyVal} (hs : h.setattr v a = .ok h') :
    ∃ f, (∀ g : Vlan, g.setattr v a = .ok (f g)) ∧ VlanPut f a := by
  unfold Vlan.setattr at hs
  split at hs
  all_goals first
    | (cases hs; done)
    | (obtain ⟨x, hx, _⟩ := bind_eq_ok.mp hs
       exact ⟨_, fun g => by simp only [Vlan.setattr, Vlan.setEthertype, hx, bind_ok], x, rfl⟩)
    | (obtain ⟨y, hy, hs⟩ := bind_eq_ok.mp hs
       obtain ⟨x, hx, _⟩ := bind_eq_ok.mp hs
       exact ⟨_, fun g => by simp only [Vlan.setattr, Vlan.setEthertype, hy, hx, bind_ok], x, rfl⟩)

theorem vlan_puts {f k : Vlan → Vlan} {a b : HdrAttr} (hf : VlanPut f a) (hk : VlanPut k b) (hne : a ≠ b)
    (g : Vlan) : f (k g) = k (f g) := by
  unfold VlanPut at hf
  split at hf
  all_goals first
    | (cases hf; done)
    | (unfold VlanPut at hk
       split at hk
       all_goals first
         | (cases hk; done)
         | exact absurd rfl hne
         | (obtain ⟨_, rfl⟩ := hf
            obtain ⟨_, rfl⟩ := hk
            rfl))

/-- How a successful assignment changes a header of class `Arp`. -/
def ArpPut (f : Arp → Arp) : HdrAttr → Prop
  | .operation => ∃ x, f = fun g => { g with operation := x }
  | .senderhwaddr => ∃ x, f = fun g => { g with senderhwaddr := x }
  | .senderprotoaddr => ∃ x, f = fun g => { g with senderprotoaddr := x }
  | .targethwaddr => ∃ x, f = fun g => { g with targethwaddr := x }
  | .targetprotoaddr => ∃ x, f = fun g => { g with targetprotoaddr := x }
  | _ => False

theorem arp_put {h h' : Arp} {a : HdrAttr} {v : PyVal} (hs : h.setattr v a = .ok h') :
    ∃ f, (∀ g : Arp, g.setattr v a = .ok (f g)) ∧ ArpPut f a := by
  unfold Arp.setattr at hs
  split at hs
  all_goals first
    | (cases hs; done)
    | (obtain ⟨x, hx, _⟩ := bind_eq_ok.mp hs
       exact ⟨_, fun g => by simp only [Arp.setattr, Arp.setOperation, Arp.setSenderHw, Arp.setSenderProto, Arp.setTargetHw, Arp.setTargetProto, hx, bind_ok], x, rfl⟩)
    | (obtain ⟨y, hy, hs⟩ := bind_eq_ok.mp hs
       obtain ⟨x, hx, _⟩ := bind_eq_ok.mp hs
       exact ⟨_, fun g => by simp only [Arp.setattr, Arp.setOperation, Arp.setSenderHw, Arp.setSenderProto, Arp.setTargetHw, Arp.setTargetProto, hy, hx, bind_ok], x, rfl⟩)

theorem arp_puts {f k : Arp → Arp} {a b : HdrAttr} (hf : ArpPut f a) (hk : ArpPut k b) (hne : a ≠ b)
    (g : Arp) : f (k g) = k (f g) := by
  unfold ArpPut at hf
  split at hf
  all_goals first
    | (cases hf; done)
    | (unfold ArpPut at hk
       split at hk
       all_goals first
         | (cases hk; done)
         | exact absurd rfl hne
         | (obtain ⟨_, rfl⟩ := hf
            obtain ⟨_, rfl⟩ := hk
            rfl))

/-- How a successful assignment changes a header of class `IPv4`. -/
def Ip4Put (f : IPv4 → IPv4) : HdrAttr → Prop
  | .ttl => ∃ x, f = fun g => { g with ttl := x }
  | .tos => ∃ k : Nat → Nat, f = fun g => { g with tos := k g.tos }
  | .dscp => ∃ k : Nat → Nat, f = fun g => { g with tos := k g.tos }
  | .ecn => ∃ k : Nat → Nat, f = fun g => { g with tos := k g.tos }
  | .ipid => ∃ x, f = fun g => { g with ipid := x }
  | .protocol => ∃ x, f = fun g => { g with protocol := x }
  | .src => ∃ x, f = fun g => { g with src := x }
  | .dst => ∃ x, f = fun g => { g with dst := x }
  | .flags => ∃ x, f = fun g => { g with flags := x }
  | .fragmentOffset => ∃ x, f = fun g => { g with frag := x }
  | _ => False

theorem ip4_put {h h' : IPv4} {a : HdrAttr} {v : PyVal} (hs : h.setattr v a = .ok h') :
    ∃ f, (∀ g : IPv4, g.setattr v a = .ok (f g)) ∧ Ip4Put f a := by
  unfold IPv4.setattr at hs
  split at hs
  all_goals first
    | (cases hs; done)
    | (obtain ⟨x, hx, _⟩ := bind_eq_ok.mp hs
       exact ⟨_, fun g => by simp only [IPv4.setattr, IPv4.setProtocol, IPv4.setSrc, IPv4.setDst, IPv4.setFlags, hx, bind_ok], x, rfl⟩)
    | (obtain ⟨y, hy, hs⟩ := bind_eq_ok.mp hs
       obtain ⟨x, hx, _⟩ := bind_eq_ok.mp hs
       exact ⟨_, fun g => by simp only [IPv4.setattr, IPv4.setProtocol, IPv4.setSrc, IPv4.setDst, IPv4.setFlags, hy, hx, bind_ok], x, rfl⟩)
    | (obtain ⟨n, hn, h2⟩ := bind_eq_ok.mp hs
       by_cases hr : 0 ≤ n ∧ n ≤ 255
       · exact ⟨_, fun g => by simp only [IPv4.setattr, IPv4.setTtl, hn, bind_ok, if_pos hr], n.toNat, rfl⟩
       · simp only [IPv4.setTtl, if_neg hr] at h2
         cases h2)
    | (obtain ⟨n, hn, h2⟩ := bind_eq_ok.mp hs
       by_cases hr : 0 ≤ n ∧ n < 256
       · exact ⟨_, fun g => by simp only [IPv4.setattr, IPv4.setTos, hn, bind_ok, if_pos hr], fun _ => n.toNat, rfl⟩
       · simp only [IPv4.setTos, if_neg hr] at h2
         cases h2)
    | (obtain ⟨n, hn, h2⟩ := bind_eq_ok.mp hs
       by_cases hr : 0 ≤ n ∧ n < 64
       · exact ⟨_, fun g => by simp only [IPv4.setattr, IPv4.setDscp, hn, bind_ok, if_pos hr],
           fun t => (t &&& 0x03) ||| (n.toNat <<< 2), rfl⟩
       · simp only [IPv4.setDscp, if_neg hr] at h2
         cases h2)
    | (obtain ⟨n, hn, h2⟩ := bind_eq_ok.mp hs
       by_cases hr : 0 ≤ n ∧ n < 4
       · exact ⟨_, fun g => by simp only [IPv4.setattr, IPv4.setEcn, hn, bind_ok, if_pos hr],
           fun t => (t &&& 0xfa) ||| n.toNat, rfl⟩
       · simp only [IPv4.setEcn, if_neg hr] at h2
         cases h2)
    | (obtain ⟨n, hn, h2⟩ := bind_eq_ok.mp hs
       by_cases hr : 0 ≤ n ∧ n < 65536
       · exact ⟨_, fun g => by simp only [IPv4.setattr, IPv4.setIpid, hn, bind_ok, if_pos hr], n.toNat, rfl⟩
       · simp only [IPv4.setIpid, if_neg hr] at h2
         cases h2)
    | (obtain ⟨n, hn, h2⟩ := bind_eq_ok.mp hs
       by_cases hr : 0 ≤ n ∧ n < 8192
       · exact ⟨_, fun g => by simp only [IPv4.setattr, IPv4.setFrag, hn, bind_ok, if_pos hr], n.toNat, rfl⟩
       · simp only [IPv4.setFrag, if_neg hr] at h2
         cases h2)

theorem ip4_puts {f k : IPv4 → IPv4} {a b : HdrAttr} (hf : Ip4Put f a) (hk : Ip4Put k b) (hne : a ≠ b)
    (g : IPv4) (ht : Meddle (.ip4 g) a b = false) : f (k g) = k (f g) := by
  unfold Ip4Put at hf
  split at hf
  all_goals first
    | (cases hf; done)
    | (unfold Ip4Put at hk
       split at hk
       all_goals first
         | (cases hk; done)
         | exact absurd rfl hne
         | (cases ht; done)
         | (obtain ⟨_, rfl⟩ := hf
            obtain ⟨_, rfl⟩ := hk
            rfl))

/-- How a successful assignment changes a header of class `IPv6`. -/
def Ip6Put (f : IPv6 → IPv6) : HdrAttr → Prop
  | .trafficclass => ∃ x, f = fun g => { g with tc := x }
  | .flowlabel => ∃ x, f = fun g => { g with flow := x }
  | .ttl => ∃ x, f = fun g => { g with ttl := x }
  | .hoplimit => ∃ x, f = fun g => { g with ttl := x }
  | .nextheader => ∃ x, f = fun g => { g with next := x }
  | .src => ∃ x, f = fun g => { g with src := x }
  | .dst => ∃ x, f = fun g => { g with dst := x }
  | _ => False

theorem ip6_put {h h' : IPv6} {a : HdrAttr} {v : PyVal} (hs : h.setattr v a = .ok h') :
    ∃ f, (∀ g : IPv6, g.setattr v a = .ok (f g)) ∧ Ip6Put f a := by
  unfold IPv6.setattr at hs
  split at hs
  all_goals first
    | (cases hs; done)
    | (obtain ⟨x, hx, _⟩ := bind_eq_ok.mp hs
       exact ⟨_, fun g => by simp only [IPv6.setattr, IPv6.setTc, IPv6.setFlow, IPv6.setTtl, IPv6.setNext, IPv6.setSrc, IPv6.setDst, hx, bind_ok], x, rfl⟩)
    | (obtain ⟨y, hy, hs⟩ := bind_eq_ok.mp hs
       obtain ⟨x, hx, _⟩ := bind_eq_ok.mp hs
       exact ⟨_, fun g => by simp only [IPv6.setattr, IPv6.setTc, IPv6.setFlow, IPv6.setTtl, IPv6.setNext, IPv6.setSrc, IPv6.setDst, hy, hx, bind_ok], x, rfl⟩)

theorem ip6_puts {f k : IPv6 → IPv6} {a b : HdrAttr} (hf : Ip6Put f a) (hk : Ip6Put k b) (hne : a ≠ b)
    (g : IPv6) (ht : Meddle (.ip6 g) a b = false) : f (k g) = k (f g) := by
  unfold Ip6Put at hf
  split at hf
  all_goals first
    | (cases hf; done)
    | (unfold Ip6Put at hk
       split at hk
       all_goals first
         | (cases hk; done)
         | exact absurd rfl hne
         | (cases ht; done)
         | (obtain ⟨_, rfl⟩ := hf
            obtain ⟨_, rfl⟩ := hk
            rfl))

/-- How a successful assignment changes a header of class `RouteOpt`. -/
def RoutePut (f : RouteOpt → RouteOpt) : HdrAttr → Prop
  | .nextheader => ∃ x, f = fun g => { g with next := x }
  | .protocol => ∃ x, f = fun g => { g with next := x }
  | .address => ∃ x, f = fun g => { g with addr := x }
  | _ => False

theorem route_put {h h' : RouteOpt} {a : HdrAttr} {v : PyVal} (hs : h.setattr v a = .ok h') :
    ∃ f, (∀ g : RouteOpt, g.setattr v a = .ok (f g)) ∧ RoutePut f a := by
  unfold RouteOpt.setattr at hs
  split at hs
  all_goals first
    | (cases hs; done)
    | (obtain ⟨x, hx, _⟩ := bind_eq_ok.mp hs
       exact ⟨_, fun g => by simp only [RouteOpt.setattr, RouteOpt.setNext, RouteOpt.setAddr, hx, bind_ok], x, rfl⟩)
    | (obtain ⟨y, hy, hs⟩ := bind_eq_ok.mp hs
       obtain ⟨x, hx, _⟩ := bind_eq_ok.mp hs
       exact ⟨_, fun g => by simp only [RouteOpt.setattr, RouteOpt.setNext, RouteOpt.setAddr, hy, hx, bind_ok], x, rfl⟩)
    | (obtain ⟨y, hy, hs⟩ := bind_eq_ok.mp hs
       obtain ⟨x, hx, _⟩ := bind_eq_ok.mp hs
       exact ⟨_, fun g => by simp only [RouteOpt.setattr, RouteOpt.setNext, hy, hx, bind_ok], some x, rfl⟩)

theorem route_puts {f k : RouteOpt → RouteOpt} {a b : HdrAttr} (hf : RoutePut f a) (hk : RoutePut k b) (hne : a ≠ b)
    (g : RouteOpt) (ht : Meddle (.route g) a b = false) : f (k g) = k (f g) := by
  unfold RoutePut at hf
  split at hf
  all_goals first
    | (cases hf; done)
    | (unfold RoutePut at hk
       split at hk
       all_goals first
         | (cases hk; done)
         | exact absurd rfl hne
         | (cases ht; done)
         | (obtain ⟨_, rfl⟩ := hf
            obtain ⟨_, rfl⟩ := hk
            rfl))

/-- How a successful assignment changes a header of class `Fragment`. -/
def FragPut (f : Fragment → Fragment) : HdrAttr → Prop
  | .nextheader => ∃ x, f = fun g => { g with next := x }
  | .protocol => ∃ x, f = fun g => { g with next := x }
  | .ident => ∃ x, f = fun g => { g with ident := x }
  | .offset => ∃ x, f = fun g => { g with offset := x }
  | .mf => ∃ x, f = fun g => { g with mf := x }
  | _ => False

theorem frag_put {h h' : Fragment} {a : HdrAttr} {v : PyVal} (hs : h.setattr v a = .ok h') :
    ∃ f, (∀ g : Fragment, g.setattr v a = .ok (f g)) ∧ FragPut f a := by
  unfold Fragment.setattr at hs
  split at hs
  all_goals first
    | (cases hs; done)
    | (obtain ⟨x, hx, _⟩ := bind_eq_ok.mp hs
       exact ⟨_, fun g => by simp only [Fragment.setattr, Fragment.setNext, Fragment.setId, Fragment.setOffset, Fragment.setMf, hx, bind_ok], x, rfl⟩)
    | (obtain ⟨y, hy, hs⟩ := bind_eq_ok.mp hs
       obtain ⟨x, hx, _⟩ := bind_eq_ok.mp hs
       exact ⟨_, fun g => by simp only [Fragment.setattr, Fragment.setNext, Fragment.setId, Fragment.setOffset, Fragment.setMf, hy, hx, bind_ok], x, rfl⟩)
    | (obtain ⟨y, hy, hs⟩ := bind_eq_ok.mp hs
       obtain ⟨x, hx, _⟩ := bind_eq_ok.mp hs
       exact ⟨_, fun g => by simp only [Fragment.setattr, Fragment.setNext, hy, hx, bind_ok], some x, rfl⟩)
    | exact ⟨_, fun g => by simp only [Fragment.setattr, Fragment.setMf], v.truth, rfl⟩

theorem frag_puts {f k : Fragment → Fragment} {a b : HdrAttr} (hf : FragPut f a) (hk : FragPut k b) (hne : a ≠ b)
    (g : Fragment) (ht : Meddle (.frag g) a b = false) : f (k g) = k (f g) := by
  unfold FragPut at hf
  split at hf
  all_goals first
    | (cases hf; done)
    | (unfold FragPut at hk
       split at hk
       all_goals first
         | (cases hk; done)
         | exact absurd rfl hne
         | (cases ht; done)
         | (obtain ⟨_, rfl⟩ := hf
            obtain ⟨_, rfl⟩ := hk
            rfl))

/-- How a successful assignment changes a header of class `UDP`. -/
def UdpPut (f : UDP → UDP) : HdrAttr → Prop
  | .src => ∃ x, f = fun g => { g with src := x }
  | .dst => ∃ x, f = fun g => { g with dst := x }
  | _ => False

theorem udp_put {h h' : UDP} {a : HdrAttr} {v : PyVal} (hs : h.setattr v a = .ok h') :
    ∃ f, (∀ g : UDP, g.setattr v a = .ok (f g)) ∧ UdpPut f a := by
  unfold UDP.setattr at hs
  split at hs
  all_goals first
    | (cases hs; done)
    | (obtain ⟨x, hx, _⟩ := bind_eq_ok.mp hs
       exact ⟨_, fun g => by simp only [UDP.setattr, UDP.setSrc, UDP.setDst, hx, bind_ok], x, rfl⟩)
    | (obtain ⟨y, hy, hs⟩ := bind_eq_ok.mp hs
       obtain ⟨x, hx, _⟩ := bind_eq_ok.mp hs
       exact ⟨_, fun g => by simp only [UDP.setattr, UDP.setSrc, UDP.setDst, hy, hx, bind_ok], x, rfl⟩)

theorem udp_puts {f k : UDP → UDP} {a b : HdrAttr} (hf : UdpPut f a) (hk : UdpPut k b) (hne : a ≠ b)
    (g : UDP) : f (k g) = k (f g) := by
  unfold UdpPut at hf
  split at hf
  all_goals first
    | (cases hf; done)
    | (unfold UdpPut at hk
       split at hk
       all_goals first
         | (cases hk; done)
         | exact absurd rfl hne
         | (obtain ⟨_, rfl⟩ := hf
            obtain ⟨_, rfl⟩ := hk
            rfl))

/-- Different flags can be set in any order. -/
theorem setflag_comm (g : TCP) (f k : TCPFlag) (x y : Bool) (hne : f ≠ k) :
    (g.setflag k y).setflag f x = (g.setflag f x).setflag k y := by
  have hv : f.value ≠ k.value := by cases f <;> cases k <;> first | (intro h; cases h; done) | exact absurd rfl hne
  have e : ∀ (b : Bool) (n : Nat) (h : TCP), h.flags = n → (h.setflag f b).flags = (if b then n ||| 1 <<< f.value else n ^^^ (n &&& 1 <<< f.value)) := by
    intro b n h hn
    unfold TCP.setflag
    subst hn
    cases b <;> rfl
  suffices hs : ∀ a b : Nat, ((g.setflag k y).setflag f x).flags = ((g.setflag f x).setflag k y).flags from by
    have := hs 0 0
    revert this
    unfold TCP.setflag
    cases x <;> cases y <;> simp
  intro _ _
  unfold TCP.setflag
  apply Nat.eq_of_testBit_eq
  intro i
  cases x <;> cases y <;>
    simp only [Bool.false_eq_true, if_false, if_true, Nat.testBit_or, Nat.testBit_xor, Nat.testBit_and, Nat.one_shiftLeft,
      Nat.testBit_two_pow] <;>
    (by_cases h1 : f.value = i <;> by_cases h2 : k.value = i <;>
      first
        | exact absurd (h1.trans h2.symm) hv
        | (simp [h1, h2]))

/-- How a successful assignment changes a header of class `TCP`. -/
def TcpPut (f : TCP → TCP) : HdrAttr → Prop
  | .src => ∃ x, f = fun g => { g with src := x }
  | .dst => ∃ x, f = fun g => { g with dst := x }
  | .seq => ∃ x, f = fun g => { g with seq := x }
  | .ack => ∃ x, f = fun g => { g with ack := x }
  | .window => ∃ x, f = fun g => { g with window := x }
  | .urgentPointer => ∃ x, f = fun g => { g with urg := x }
  | .flag fl => ∃ x, f = fun g => g.setflag fl x
  | _ => False

theorem tcp_put {h h' : TCP} {a : HdrAttr} {v : PyVal} (hs : h.setattr v a = .ok h') :
    ∃ f, (∀ g : TCP, g.setattr v a = .ok (f g)) ∧ TcpPut f a := by
  unfold TCP.setattr at hs
  split at hs
  all_goals first
    | (cases hs; done)
    | (obtain ⟨x, hx, _⟩ := bind_eq_ok.mp hs
       exact ⟨_, fun g => by simp only [TCP.setattr, TCP.setflag, hx, bind_ok], x, rfl⟩)
    | (obtain ⟨y, hy, hs⟩ := bind_eq_ok.mp hs
       obtain ⟨x, hx, _⟩ := bind_eq_ok.mp hs
       exact ⟨_, fun g => by simp only [TCP.setattr, TCP.setflag, hy, hx, bind_ok], x, rfl⟩)
    | exact ⟨_, fun g => by simp only [TCP.setattr], v.truth, rfl⟩

theorem tcp_puts {f k : TCP → TCP} {a b : HdrAttr} (hf : TcpPut f a) (hk : TcpPut k b) (hne : a ≠ b)
    (g : TCP) : f (k g) = k (f g) := by
  unfold TcpPut at hf
  split at hf
  all_goals first
    | (cases hf; done)
    | (unfold TcpPut at hk
       split at hk
       all_goals first
         | (cases hk; done)
         | exact absurd rfl hne
         | (obtain ⟨_, rfl⟩ := hf
            obtain ⟨_, rfl⟩ := hk
            rfl)
         | (obtain ⟨_, rfl⟩ := hf
            obtain ⟨_, rfl⟩ := hk
            simp only [TCP.setflag]
            split <;> rfl)
         | (obtain ⟨_, rfl⟩ := hf
            obtain ⟨_, rfl⟩ := hk
            exact setflag_comm _ _ _ _ _ fun e => hne (by rw [e])))

/-- Two successful assignments to attributes that do not meddle with each other can be exchanged, for every
header, every two attributes and all values. -/
theorem setattr_swap {h h1 h2 : Hdr} {a b : HdrAttr} {v w : PyVal} (h1e : h.setattr a v = .ok h1)
    (h2e : h1.setattr b w = .ok h2) (hne : a ≠ b) (hm : Meddle h a b = false) :
    ∃ g, h.setattr b w = .ok g ∧ g.setattr a v = .ok h2 := by
  have lift : ∀ {X : Type} (c : X → Hdr) (F G : X → Res X) (f k : X → X) (x x1 x2 : X), (∀ g, F g = .ok (f g)) →
      (∀ g, G g = .ok (k g)) → F x = .ok x1 → G x1 = .ok x2 → f (k x) = k (f x) →
      ∃ g, c <$> G x = .ok (c g) ∧ c <$> F g = .ok (c x2) := by
    intro X c F G f k x x1 x2 hF hG e1 e2 hc
    rw [hF] at e1
    cases e1
    rw [hG] at e2
    cases e2
    exact ⟨k x, by rw [hG]; rfl, by rw [hF, hc]; rfl⟩
  cases h
  case null n =>
    simp only [Hdr.setattr] at h1e
    split at h1e
    · rename_i ha
      obtain ⟨_, _, rfl⟩ := map_ok h1e
      simp only [Hdr.setattr] at h2e
      split at h2e
      · rename_i hb
        exact absurd (ha.trans hb.symm) hne
      · cases h2e
    · cases h1e
  case raw => cases h1e
  case nullHdr => cases h1e; cases h2e; exact ⟨_, rfl, rfl⟩
  case hop h =>
    obtain ⟨g1, e1, rfl⟩ := map_ok h1e
    obtain ⟨g2, e2, rfl⟩ := map_ok h2e
    unfold HopOpt.setattr at e1 e2
    cases a <;> first
      | (cases e1; done)
      | (cases b <;> first | (cases e2; done) | (exact absurd rfl hne) | (cases hm; done))
  case dst h =>
    obtain ⟨g1, e1, rfl⟩ := map_ok h1e
    obtain ⟨g2, e2, rfl⟩ := map_ok h2e
    by_cases ha : a = .nextheader ∨ a = .protocol
    · by_cases hb : b = .nextheader ∨ b = .protocol
      · rcases ha with rfl | rfl <;> rcases hb with rfl | rfl <;> first | exact absurd rfl hne | cases hm
      · have ht : ∀ g : HopOpt, g.setattr true w b = .ok g := by
          intro g
          cases b <;> first | rfl | exact absurd (.inl rfl) hb | exact absurd (.inr rfl) hb
        rw [ht] at e2
        cases e2
        exact ⟨.dst h, by simp only [Hdr.setattr, ht]; rfl, h1e⟩
    · have ht : ∀ g : HopOpt, g.setattr true v a = .ok g := by
        intro g
        cases a <;> first | rfl | exact absurd (.inl rfl) ha | exact absurd (.inr rfl) ha
      rw [ht] at e1
      cases e1
      exact ⟨.dst g2, h2e, by simp only [Hdr.setattr, ht]; rfl⟩
  case icmp h =>
    obtain ⟨g1, e1, rfl⟩ := map_ok h1e
    obtain ⟨g2, e2, rfl⟩ := map_ok h2e
    unfold icmpSetattr at e1 e2
    cases a <;> first
      | (cases e1; done)
      | (cases b <;> first | (cases e2; done) | (exact absurd rfl hne) | (cases hm; done))
  case icmp6 h =>
    obtain ⟨g1, e1, rfl⟩ := map_ok h1e
    obtain ⟨g2, e2, rfl⟩ := map_ok h2e
    unfold icmp6Setattr at e1 e2
    cases a <;> first
      | (cases e1; done)
      | (cases b <;> first | (cases e2; done) | (exact absurd rfl hne) | (cases hm; done))
  case rip h =>
    obtain ⟨g1, e1, rfl⟩ := map_ok h1e
    obtain ⟨g2, e2, rfl⟩ := map_ok h2e
    unfold RIPv2.setattr at e1 e2
    cases a <;> first
      | (cases e1; done)
      | (cases b <;> first | (cases e2; done) | (exact absurd rfl hne))
  all_goals
    rename_i h
    obtain ⟨g1, e1, rfl⟩ := map_ok h1e
    obtain ⟨g2, e2, rfl⟩ := map_ok h2e
  case eth =>
    obtain ⟨f, hF, pf⟩ := eth_put e1
    obtain ⟨k, hG, pk⟩ := eth_put e2
    obtain ⟨g, r⟩ := lift .eth _ _ f k h g1 g2 hF hG e1 e2 (eth_puts pf pk hne h)
    exact ⟨_, r⟩
  case vlan =>
    obtain ⟨f, hF, pf⟩ := vlan_put e1
    obtain ⟨k, hG, pk⟩ := vlan_put e2
    obtain ⟨g, r⟩ := lift .vlan _ _ f k h g1 g2 hF hG e1 e2 (vlan_puts pf pk hne h)
    exact ⟨_, r⟩
  case arp =>
    obtain ⟨f, hF, pf⟩ := arp_put e1
    obtain ⟨k, hG, pk⟩ := arp_put e2
    obtain ⟨g, r⟩ := lift .arp _ _ f k h g1 g2 hF hG e1 e2 (arp_puts pf pk hne h)
    exact ⟨_, r⟩
  case ip4 =>
    obtain ⟨f, hF, pf⟩ := ip4_put e1
    obtain ⟨k, hG, pk⟩ := ip4_put e2
    obtain ⟨g, r⟩ := lift .ip4 _ _ f k h g1 g2 hF hG e1 e2 (ip4_puts pf pk hne h hm)
    exact ⟨_, r⟩
  case ip6 =>
    obtain ⟨f, hF, pf⟩ := ip6_put e1
    obtain ⟨k, hG, pk⟩ := ip6_put e2
    obtain ⟨g, r⟩ := lift .ip6 _ _ f k h g1 g2 hF hG e1 e2 (ip6_puts pf pk hne h hm)
    exact ⟨_, r⟩
  case route =>
    obtain ⟨f, hF, pf⟩ := route_put e1
    obtain ⟨k, hG, pk⟩ := route_put e2
    obtain ⟨g, r⟩ := lift .route _ _ f k h g1 g2 hF hG e1 e2 (route_puts pf pk hne h hm)
    exact ⟨_, r⟩
  case frag =>
    obtain ⟨f, hF, pf⟩ := frag_put e1
    obtain ⟨k, hG, pk⟩ := frag_put e2
    obtain ⟨g, r⟩ := lift .frag _ _ f k h g1 g2 hF hG e1 e2 (frag_puts pf pk hne h hm)
    exact ⟨_, r⟩
  case udp =>
    obtain ⟨f, hF, pf⟩ := udp_put e1
    obtain ⟨k, hG, pk⟩ := udp_put e2
    obtain ⟨g, r⟩ := lift .udp _ _ f k h g1 g2 hF hG e1 e2 (udp_puts pf pk hne h)
    exact ⟨_, r⟩
  case tcp =>
    obtain ⟨f, hF, pf⟩ := tcp_put e1
    obtain ⟨k, hG, pk⟩ := tcp_put e2
    obtain ⟨g, r⟩ := lift .tcp _ _ f k h g1 g2 hF hG e1 e2 (tcp_puts pf pk hne h)
    exact ⟨_, r⟩

/-- Which attributes meddle with each other depends on the class of the header only. -/
theorem meddle_cls {h h' : Hdr} (hc : h'.cls = h.cls) (a b : HdrAttr) : Meddle h' a b = Meddle h a b := by
  have tied : ∀ x y, Tied h' x y = Tied h x y := fun x y => by
    cases h <;> cases h' <;> first | rfl | (cases hc; done) | (cases x <;> rfl)
  simp only [Meddle, tied, hc]

/-! ## Constructors of headers that are not ICMP messages -/

/-- Two names of keyword arguments that have nothing to do with each other. -/
def KwApart (h : Hdr) (x y : KwName) : Prop :=
  x ≠ y ∧ ∀ a b, x = .hdr a → y = .hdr b → Meddle h a b = false

/-- The names of keyword arguments are different (Python sees to that), and no two of them are views of the
same thing. -/
def Apart (h : Hdr) (kws : Kws) : Prop := kws.Pairwise (fun x y => KwApart h x.1 y.1)

theorem meddle_symm (h : Hdr) (a b : HdrAttr) : Meddle h a b = Meddle h b a := by
  unfold Meddle
  rw [Bool.or_comm (Tied h a b)]
  cases h.cls == Cls.ip4 <;> simp [Bool.or_comm, Bool.and_comm]

theorem kwApart_symm {h : Hdr} {x y : KwName} (ha : KwApart h x y) : KwApart h y x :=
  ⟨fun e => ha.1 e.symm, fun a b e1 e2 => by rw [meddle_symm]; exact ha.2 b a e2 e1⟩

theorem apart_perm {h : Hdr} {l l' : Kws} (hp : l.Perm l') (ha : Apart h l) : Apart h l' :=
  hp.pairwise ha fun h => kwApart_symm h

theorem setKw_cls {h h' : Hdr} {k : KwName} {v : PyVal} (hs : h.setKw v k = .ok h') : h'.cls = h.cls := by
  cases k with
  | hdr a => exact setattr_cls hs
  | own d =>
    simp only [Hdr.setKw] at hs
    split at hs
    · cases hs; rfl
    · cases hs

theorem kwApart_cls {h h' : Hdr} (hc : h'.cls = h.cls) {x y : KwName} (ha : KwApart h x y) : KwApart h' x y :=
  ⟨ha.1, fun a b e1 e2 => by rw [meddle_cls hc]; exact ha.2 a b e1 e2⟩

theorem apart_cls {h h' : Hdr} (hc : h'.cls = h.cls) {l : Kws} (ha : Apart h l) : Apart h' l :=
  List.Pairwise.imp (fun x => kwApart_cls hc x) ha

theorem setKw_swap {h h1 h2 : Hdr} {x y : KwName} {v w : PyVal} (h1e : h.setKw v x = .ok h1)
    (h2e : h1.setKw w y = .ok h2) (ha : KwApart h x y) : ∃ g, h.setKw w y = .ok g ∧ g.setKw v x = .ok h2 := by
  cases x with
  | own d =>
    simp only [Hdr.setKw] at h1e
    split at h1e
    · rename_i hc
      cases h1e
      refine ⟨h2, h2e, ?_⟩
      simp only [Hdr.setKw]
      rw [if_pos (by rw [setKw_cls h2e]; exact hc)]
    · cases h1e
  | hdr a =>
    cases y with
    | own d =>
      have hc := setKw_cls h1e
      simp only [Hdr.setKw] at h2e
      split at h2e
      · rename_i hd
        cases h2e
        refine ⟨h, ?_, h1e⟩
        simp only [Hdr.setKw]
        rw [if_pos (by rw [← hc]; exact hd)]
      · cases h2e
    | hdr b => exact setattr_swap h1e h2e (fun e => ha.1 (by rw [e])) (ha.2 a b rfl rfl)

/-- Assignments that have nothing to do with each other can be made in any order. -/
theorem setKws_perm {l l' : Kws} (hp : l.Perm l') : ∀ {h g : Hdr}, Apart h l → h.setKws l = .ok g →
    h.setKws l' = .ok g := by
  induction hp with
  | nil => exact fun _ h => h
  | cons x _ ih =>
    intro h g ha hs
    obtain ⟨h1, e1, e2⟩ := bind_eq_ok.mp hs
    exact bind_eq_ok.mpr ⟨h1, e1, ih (apart_cls (setKw_cls e1) (List.Pairwise.of_cons ha)) e2⟩
  | swap x y l =>
    intro h g ha hs
    obtain ⟨h1, e1, e2⟩ := bind_eq_ok.mp hs
    obtain ⟨h2, e2, e3⟩ := bind_eq_ok.mp e2
    obtain ⟨g1, e4, e5⟩ := setKw_swap e1 e2 (List.rel_of_pairwise_cons ha List.mem_cons_self)
    exact bind_eq_ok.mpr ⟨g1, e4, bind_eq_ok.mpr ⟨h2, e5, e3⟩⟩
  | trans p _ ih1 ih2 =>
    intro h g ha hs
    exact ih2 (apart_perm p ha) (ih1 ha hs)

theorem setKws_frame {l : Kws} {a : HdrAttr} : ∀ {h g : Hdr}, (∀ x ∈ l, KwApart h (.hdr a) x.1) → h.setKws l = .ok g →
    g.getattr a = h.getattr a := by
  induction l with
  | nil => intro h g _ hs; cases hs; rfl
  | cons x l ih =>
    intro h g ha hs
    obtain ⟨h1, e1, e2⟩ := bind_eq_ok.mp hs
    rw [ih (fun y hy => kwApart_cls (setKw_cls e1) (ha y (List.mem_cons_of_mem _ hy))) e2]
    obtain ⟨hn, hm⟩ := ha x List.mem_cons_self
    obtain ⟨k, v⟩ := x
    cases k with
    | own d =>
      simp only [Hdr.setKw] at e1
      split at e1
      · cases e1; rfl
      · cases e1
    | hdr b =>
      have hm := hm a b rfl rfl
      have ht : Tied h b a = false := by
        unfold Meddle at hm
        simp only [Bool.or_eq_false_iff] at hm
        exact hm.1.2
      refine setattr_frame_partial h h1 b a v e1 (fun e => hn (by rw [e])) ht ?_
      rintro ⟨hc, rfl, rfl⟩
      unfold Meddle at hm
      rw [hc] at hm
      simp at hm

/-- The classes whose constructors are those of a header that is not an ICMP message. -/
theorem build_start {c : Cls} {h : Hdr} (hs : c.start = some h) (kws : Kws) : c.build kws = h.setKws kws := by
  cases c <;> first | (cases hs; done) | (cases hs; rfl)

/-- **C215**: the order of the keyword arguments of a constructor does not matter, if no two of them are views
of the same thing. -/
theorem build_order {c : Cls} {h g : Hdr} (hs : c.start = some h) {kws kws' : Kws} (hp : kws.Perm kws')
    (ha : Apart h kws) : c.build kws = .ok g ↔ c.build kws' = .ok g := by
  rw [build_start hs, build_start hs]
  exact ⟨setKws_perm hp ha, setKws_perm hp.symm (apart_perm hp ha)⟩

/-- `IPv4(ttl="7", src="10.0.0.1", dscp=3)`: four attributes that are not views of each other. -/
def ipKws : Kws := [(.hdr .ttl, some (.text "7".toList)), (.hdr .src, some (.text "10.0.0.1".toList)), (.hdr .dscp, some (.num 3))]

example : Apart (.ip4 .default) ipKws ∧ (∃ g, Cls.ip4.build ipKws = .ok g ∧ g.getattr .ttl = .ok (.num 7) ∧
    g.getattr .src = .ok (.ip (.v4 0x0a000001))) ∧ Cls.ip4.build ipKws.reverse = Cls.ip4.build ipKws := by
  refine ⟨?_, ⟨_, rfl, by decide, by decide⟩, by decide⟩
  simp [Apart, ipKws, KwApart, Meddle, Tied, Hdr.cls]

/-- **C215**: an attribute that was given to a constructor has the value that assigning it to a header made without
arguments gives it. -/
theorem build_value {c : Cls} {h g : Hdr} (hs : c.start = some h) {kws : Kws} (ha : Apart h kws) {a : HdrAttr} {v : PyVal}
    (hm : (KwName.hdr a, v) ∈ kws) (hb : c.build kws = .ok g) : ∃ h1, h.setattr a v = .ok h1 ∧ g.getattr a = h1.getattr a := by
  have hp := List.perm_cons_erase hm
  rw [build_order hs hp ha, build_start hs] at hb
  have ha := apart_perm hp ha
  obtain ⟨h1, e1, e2⟩ := bind_eq_ok.mp hb
  refine ⟨h1, e1, setKws_frame (fun x hx => kwApart_cls (setKw_cls e1) (List.rel_of_pairwise_cons ha hx)) e2⟩

example : (KwName.hdr .ttl, some (.text "7".toList)) ∈ ipKws ∧ (Hdr.ip4 .default).setattr .ttl (some (.text "7".toList)) =
    .ok (.ip4 { IPv4.default with ttl := 7 }) := by decide

/-- **C215**, partial: an attribute that was given to a constructor has the value given, if it is of the right kind and
one that the attribute keeps (C150), whatever else was given. -/
theorem build_reads_partial {c : Cls} {h g : Hdr} (hs : c.start = some h) {kws : Kws} (ha : Apart h kws) {a : HdrAttr}
    {u v : AVal} (hu : h.getattr a = .ok u) (hk : SameKind u v) (hf : Kept a v) (hm : (KwName.hdr a, some v) ∈ kws)
    (hb : c.build kws = .ok g) : g.getattr a = .ok v := by
  obtain ⟨h1, e1, e2⟩ := build_value hs ha hm hb
  rw [e2]
  exact setattr_reads_back_partial h h1 a u v hu hk hf e1

example : (Hdr.ip4 .default).getattr .dscp = .ok (.num 0) ∧ SameKind (.num 0) (.num 3) ∧ Kept .dscp (.num 3) ∧
    (KwName.hdr .dscp, some (.num 3)) ∈ ipKws := ⟨rfl, by simp [SameKind], by simp [Kept], by decide⟩

/-- **C215**: an attribute that was not given, nor one that is a view of the same thing, has its default. -/
theorem build_default {c : Cls} {h g : Hdr} (hs : c.start = some h) {kws : Kws} {a : HdrAttr}
    (ha : ∀ x ∈ kws, KwApart h (.hdr a) x.1) (hb : c.build kws = .ok g) : g.getattr a = h.getattr a := by
  rw [build_start hs] at hb
  exact setKws_frame ha hb

example : (∀ x ∈ ipKws, KwApart (.ip4 .default) (.hdr .dst) x.1) ∧ (Hdr.ip4 .default).getattr .dst = .ok (.ip (.v4 0)) := by
  refine ⟨?_, rfl⟩
  simp [ipKws, KwApart, Meddle, Tied, Hdr.cls]

/-- Whether an assignment to a header that is not an ICMP message succeeds does not depend on what the header holds. -/
theorem setattr_uniform {h g h1 : Hdr} {a : HdrAttr} {v : PyVal} (hc : g.cls = h.cls) (h4 : h.cls ≠ .icmp) (h6 : h.cls ≠ .icmp6)
    (hs : h.setattr a v = .ok h1) : ∃ g1, g.setattr a v = .ok g1 := by
  cases h <;> cases g <;> first | (cases hc; done) | exact absurd rfl h4 | exact absurd rfl h6 | skip
  case null.null =>
    simp only [Hdr.setattr] at hs ⊢
    split at hs
    · obtain ⟨x, hx, rfl⟩ := map_ok hs
      rename_i ha
      rw [if_pos ha, hx]
      exact ⟨_, rfl⟩
    · cases hs
  case raw.raw => cases hs
  case nullHdr.nullHdr => exact ⟨_, rfl⟩
  case hop.hop h g | dst.dst h g =>
    obtain ⟨x, hx, rfl⟩ := map_ok hs
    simp only [Hdr.setattr]
    unfold HopOpt.setattr at hx ⊢
    split at hx
    · obtain ⟨n, hn, hx⟩ := bind_eq_ok.mp hx
      obtain ⟨m, hm, hx⟩ := bind_eq_ok.mp hx
      simp only [hn, bind_ok, HopOpt.setNext, hm]
      exact ⟨_, rfl⟩
    · obtain ⟨n, hn, hx⟩ := bind_eq_ok.mp hx
      obtain ⟨m, hm, hx⟩ := bind_eq_ok.mp hx
      simp only [hn, bind_ok, HopOpt.setNext, hm]
      exact ⟨_, rfl⟩
    · first
        | (cases hx; done)
        | (simp only [if_true]
           exact ⟨_, rfl⟩)
  case rip.rip h g =>
    obtain ⟨x, hx, rfl⟩ := map_ok hs
    simp only [Hdr.setattr]
    unfold RIPv2.setattr at hx ⊢
    split at hx
    · obtain ⟨n, hn, hx⟩ := bind_eq_ok.mp hx
      obtain ⟨m, hm, hx⟩ := bind_eq_ok.mp hx
      simp only [hn, bind_ok, RIPv2.setCommand, hm]
      exact ⟨_, rfl⟩
    · cases hx
  all_goals
    obtain ⟨x, hx, rfl⟩ := map_ok hs
    simp only [Hdr.setattr]
  case eth.eth => obtain ⟨f, hf, _⟩ := eth_put hx; exact ⟨_, by rw [hf]; rfl⟩
  case vlan.vlan => obtain ⟨f, hf, _⟩ := vlan_put hx; exact ⟨_, by rw [hf]; rfl⟩
  case arp.arp => obtain ⟨f, hf, _⟩ := arp_put hx; exact ⟨_, by rw [hf]; rfl⟩
  case ip4.ip4 => obtain ⟨f, hf, _⟩ := ip4_put hx; exact ⟨_, by rw [hf]; rfl⟩
  case ip6.ip6 => obtain ⟨f, hf, _⟩ := ip6_put hx; exact ⟨_, by rw [hf]; rfl⟩
  case route.route => obtain ⟨f, hf, _⟩ := route_put hx; exact ⟨_, by rw [hf]; rfl⟩
  case frag.frag => obtain ⟨f, hf, _⟩ := frag_put hx; exact ⟨_, by rw [hf]; rfl⟩
  case udp.udp => obtain ⟨f, hf, _⟩ := udp_put hx; exact ⟨_, by rw [hf]; rfl⟩
  case tcp.tcp => obtain ⟨f, hf, _⟩ := tcp_put hx; exact ⟨_, by rw [hf]; rfl⟩

theorem setKw_uniform {h g h1 : Hdr} {k : KwName} {v : PyVal} (hc : g.cls = h.cls) (h4 : h.cls ≠ .icmp) (h6 : h.cls ≠ .icmp6)
    (hs : h.setKw v k = .ok h1) : ∃ g1, g.setKw v k = .ok g1 := by
  cases k with
  | hdr a => exact setattr_uniform hc h4 h6 hs
  | own d =>
    simp only [Hdr.setKw] at hs ⊢
    rw [hc]
    split at hs
    · rename_i hd
      rw [if_pos hd]
      exact ⟨g, rfl⟩
    · cases hs

theorem setKws_ok {l : Kws} : ∀ {h : Hdr}, h.cls ≠ .icmp → h.cls ≠ .icmp6 →
    ((∃ g, h.setKws l = .ok g) ↔ ∀ x ∈ l, ∃ g, h.setKw x.2 x.1 = .ok g) := by
  induction l with
  | nil =>
    intro h _ _
    constructor
    · intro _ x hx
      cases hx
    · intro _
      exact ⟨h, rfl⟩
  | cons x l ih =>
    intro h h4 h6
    constructor
    · rintro ⟨g, hg⟩
      obtain ⟨h1, e1, e2⟩ := bind_eq_ok.mp hg
      have hc := setKw_cls e1
      intro y hy
      rcases List.mem_cons.mp hy with rfl | hy
      · exact ⟨h1, e1⟩
      · obtain ⟨g1, hg1⟩ := (ih (by rw [hc]; exact h4) (by rw [hc]; exact h6)).mp ⟨g, e2⟩ y hy
        exact setKw_uniform hc.symm (by rw [hc]; exact h4) (by rw [hc]; exact h6) hg1
    · intro ha
      obtain ⟨h1, e1⟩ := ha x List.mem_cons_self
      have hc := setKw_cls e1
      obtain ⟨g, hg⟩ := (ih (h := h1) (by rw [hc]; exact h4) (by rw [hc]; exact h6)).mpr fun y hy => by
        obtain ⟨g1, hg1⟩ := ha y (List.mem_cons_of_mem _ hy)
        exact setKw_uniform hc h4 h6 hg1
      exact ⟨g, bind_eq_ok.mpr ⟨h1, e1, hg⟩⟩

/-- **C215**: a constructor succeeds if and only if each of the arguments alone can be assigned to a header made without
arguments; so a name that the class does not have makes it raise. -/
theorem build_accepts {c : Cls} {h : Hdr} (hs : c.start = some h) (kws : Kws) :
    (∃ g, c.build kws = .ok g) ↔ ∀ x ∈ kws, ∃ g, h.setKw x.2 x.1 = .ok g := by
  rw [build_start hs]
  exact setKws_ok (by cases c <;> cases hs <;> decide) (by cases c <;> cases hs <;> decide)

example : Cls.udp.build [(.hdr .src, some (.num 5)), (.hdr .ttl, some (.num 1))] = .error .attributeError ∧
    Cls.udp.build [(.own .identifier, some (.num 5))] = .error .attributeError := by decide

/-- Attributes that hold IP addresses. -/
def AddrAttr : Cls → HdrAttr → Bool
  | .arp, a => [.senderprotoaddr, .targetprotoaddr].contains a
  | .ip4, a | .ip6, a => [.src, .dst].contains a
  | .route, a => a == .address
  | _, _ => false

/-- **C215**: an address can be given as text. -/
theorem setattr_text (h : Hdr) (a : HdrAttr) (ha : AddrAttr h.cls a = true) (s : List Char) (x : IPAddr)
    (hx : ipAddressText s = .ok x) : h.setattr a (some (.text s)) = h.setattr a (some (.ip x)) := by
  have e : ∀ err, PyVal.ipArg err (some (.text s)) = PyVal.ipArg err (some (.ip x)) := fun err => by
    simp only [PyVal.ipArg, hx]
  cases h <;> first | (cases ha; done) | skip
  all_goals cases a <;> first
    | (cases ha; done)
    | (simp only [Hdr.setattr, Arp.setattr, IPv4.setattr, IPv6.setattr, RouteOpt.setattr, e])

example : (Hdr.arp .default).setattr .targetprotoaddr (some (.text "1.2.3.4".toList)) =
    .ok (.arp { Arp.default with targetprotoaddr := .v4 0x01020304 }) := by decide

/-! ## Data of ICMP messages as keyword arguments -/

/-- Reading an attribute of the data of an ICMP message; `none` if there is no such attribute. -/
def _root_.SY.ICMPData.getattr (d : ICMPData) : DataName → Option AVal
  | .payload => some (.bytes d.payload)
  | .own .identifier =>
    match d with
    | .echo _ i _ _ => some (.num i)
    | .mask _ i _ _ _ => some (.num i)
    | _ => none
  | .own .sequence =>
    match d with
    | .echo _ _ s _ => some (.num s)
    | .mask _ _ s _ _ => some (.num s)
    | _ => none
  | .own .redirectto =>
    match d with
    | .redirect a _ => some (.ip (.v4 a))
    | _ => none
  | .own .origdgramlen =>
    match d with
    | .unreach o _ _ => some (.num o)
    | .exceeded o _ => some (.num o)
    | _ => none
  | .own .nexthopmtu =>
    match d with
    | .unreach _ n _ => some (.num n)
    | _ => none
  | .own .addrmask =>
    match d with
    | .mask _ _ _ a _ => some (.ip (.v4 a))
    | _ => none
  | .own _ => none

/-- The same for the data of ICMPv6 messages. -/
def _root_.SY.ICMPv6Data.getattr (d : ICMPv6Data) : DataName → Option AVal
  | .payload => some (.bytes d.payload)
  | .own .identifier =>
    match d with
    | .echo _ i _ _ => some (.num i)
    | _ => none
  | .own .sequence =>
    match d with
    | .echo _ _ s _ => some (.num s)
    | _ => none
  | .own .origdgramlen =>
    match d with
    | .unreach o _ _ => some (.num o)
    | _ => none
  | .own .nexthopmtu =>
    match d with
    | .unreach _ n _ => some (.num n)
    | _ => none
  | .own .targetaddr =>
    match d with
    | .ns a _ _ => some (.ip (.v6 a))
    | .na _ _ _ a _ _ => some (.ip (.v6 a))
    | .redirect a _ _ _ => some (.ip (.v6 a))
    | _ => none
  | .own .destaddr =>
    match d with
    | .redirect _ a _ _ => some (.ip (.v6 a))
    | _ => none
  | .own .r =>
    match d with
    | .na x _ _ _ _ _ => some (.bool x)
    | _ => none
  | .own .s =>
    match d with
    | .na _ x _ _ _ _ => some (.bool x)
    | _ => none
  | .own .o =>
    match d with
    | .na _ _ x _ _ _ => some (.bool x)
    | .ra _ _ x _ _ _ _ _ _ _ => some (.bool x)
    | _ => none
  | .own .m =>
    match d with
    | .ra _ x _ _ _ _ _ _ _ _ => some (.bool x)
    | _ => none
  | .own .h =>
    match d with
    | .ra _ _ _ x _ _ _ _ _ _ => some (.bool x)
    | _ => none
  | .own .p =>
    match d with
    | .ra _ _ _ _ x _ _ _ _ _ => some (.bool x)
    | _ => none
  | .own .curhoplimit =>
    match d with
    | .ra c _ _ _ _ _ _ _ _ _ => some (.num c)
    | _ => none
  | .own .routerLifetime =>
    match d with
    | .ra _ _ _ _ _ x _ _ _ _ => some (.num x)
    | _ => none
  | .own .reachableTime =>
    match d with
    | .ra _ _ _ _ _ _ y _ _ _ => some (.num y)
    | _ => none
  | .own .retransTimer =>
    match d with
    | .ra _ _ _ _ _ _ _ z _ _ => some (.num z)
    | _ => none
  | .own _ => none

/-- What assigning to data has to satisfy for keyword arguments to be independent of each other. -/
structure DataLaws {D : Type} (set : D → PyVal → DataName → Option (Res D)) (get : D → DataName → Option AVal) : Prop where
  swap : ∀ {d d1 d2 : D} {v w : PyVal} {x y : DataName}, set d v x = some (.ok d1) → set d1 w y = some (.ok d2) → x ≠ y →
    ∃ e, set d w y = some (.ok e) ∧ set e v x = some (.ok d2)
  shape : ∀ {d d1 : D} {v : PyVal} {x : DataName}, set d v x = some (.ok d1) → ∀ w y, set d1 w y = none ↔ set d w y = none
  frame : ∀ {d d1 : D} {v : PyVal} {x y : DataName}, set d v x = some (.ok d1) → y ≠ x → get d1 y = get d y

theorem some_bind_ok {α D : Type} {c : Res α} {f : α → D} {d : D}
    (h : some (c >>= fun x => (.ok (f x) : Res D)) = some (.ok d)) : ∃ x, c = .ok x ∧ d = f x := by
  obtain ⟨x, e1, e2⟩ := bind_eq_ok.mp (Option.some.inj h)
  cases e2
  exact ⟨x, e1, rfl⟩

theorem icmp_data_laws : DataLaws ICMPData.setattr ICMPData.getattr where
  swap := by
    intro d d1 d2 v w x y h1 h2 hne
    cases x with
    | payload =>
      obtain ⟨b, e1, rfl⟩ := some_bind_ok h1
      cases y with
      | payload => exact absurd rfl hne
      | own y =>
        cases d <;> cases y <;> first
          | (cases h2; done)
          | (obtain ⟨c, e2, rfl⟩ := some_bind_ok h2
             exact ⟨_, by simp only [ICMPData.setattr, e2, bind_ok] <;> rfl, by simp only [ICMPData.setattr, e1, bind_ok] <;> rfl⟩)
    | own x =>
      cases y with
      | payload =>
        obtain ⟨c, e2, rfl⟩ := some_bind_ok h2
        cases d <;> cases x <;> first
          | (cases h1; done)
          | (obtain ⟨b, e1, rfl⟩ := some_bind_ok h1
             exact ⟨_, by simp only [ICMPData.setattr, e2, bind_ok] <;> rfl, by simp only [ICMPData.setattr, e1, bind_ok] <;> rfl⟩)
      | own y =>
        cases d <;> cases x <;> first
          | (cases h1; done)
          | (obtain ⟨b, e1, rfl⟩ := some_bind_ok h1
             cases y <;> first
               | (cases h2; done)
               | exact absurd rfl hne
               | (obtain ⟨c, e2, rfl⟩ := some_bind_ok h2
                  exact ⟨_, by simp only [ICMPData.setattr, e2, bind_ok] <;> rfl, by simp only [ICMPData.setattr, e1, bind_ok] <;> rfl⟩))
  shape := by
    intro d d1 v x h1 w y
    cases x with
    | payload =>
      obtain ⟨b, e1, rfl⟩ := some_bind_ok h1
      cases y with
      | payload => (constructor <;> intro h <;> cases h)
      | own y => cases d <;> cases y <;> (constructor <;> intro h <;> first | rfl | (cases h; done))
    | own x =>
      cases d <;> cases x <;> first
        | (cases h1; done)
        | (obtain ⟨b, e1, rfl⟩ := some_bind_ok h1
           cases y with
           | payload => (constructor <;> intro h <;> cases h)
           | own y => cases y <;> (constructor <;> intro h <;> first | rfl | (cases h; done)))
  frame := by
    intro d d1 v x y h1 hne
    cases x with
    | payload =>
      obtain ⟨b, e1, rfl⟩ := some_bind_ok h1
      cases y with
      | payload => exact absurd rfl hne
      | own y => cases d <;> cases y <;> rfl
    | own x =>
      cases d <;> cases x <;> first
        | (cases h1; done)
        | (obtain ⟨b, e1, rfl⟩ := some_bind_ok h1
           cases y with
           | payload => rfl
           | own y => cases y <;> first | rfl | exact absurd rfl hne)

theorem icmp6_data_laws : DataLaws ICMPv6Data.setattr ICMPv6Data.getattr where
  swap := by
    intro d d1 d2 v w x y h1 h2 hne
    cases x with
    | payload =>
      obtain ⟨b, e1, rfl⟩ := some_bind_ok h1
      cases y with
      | payload => exact absurd rfl hne
      | own y =>
        cases d <;> cases y <;> first
          | (cases h2; done)
          | (obtain ⟨c, e2, rfl⟩ := some_bind_ok h2
             exact ⟨_, by simp only [ICMPv6Data.setattr, e2, bind_ok] <;> rfl, by simp only [ICMPv6Data.setattr, e1, bind_ok] <;> rfl⟩)
    | own x =>
      cases y with
      | payload =>
        obtain ⟨c, e2, rfl⟩ := some_bind_ok h2
        cases d <;> cases x <;> first
          | (cases h1; done)
          | (obtain ⟨b, e1, rfl⟩ := some_bind_ok h1
             exact ⟨_, by simp only [ICMPv6Data.setattr, e2, bind_ok] <;> rfl, by simp only [ICMPv6Data.setattr, e1, bind_ok] <;> rfl⟩)
      | own y =>
        cases d <;> cases x <;> first
          | (cases h1; done)
          | (obtain ⟨b, e1, rfl⟩ := some_bind_ok h1
             cases y <;> first
               | (cases h2; done)
               | exact absurd rfl hne
               | (obtain ⟨c, e2, rfl⟩ := some_bind_ok h2
                  exact ⟨_, by simp only [ICMPv6Data.setattr, e2, bind_ok] <;> rfl, by simp only [ICMPv6Data.setattr, e1, bind_ok] <;> rfl⟩))
  shape := by
    intro d d1 v x h1 w y
    cases x with
    | payload =>
      obtain ⟨b, e1, rfl⟩ := some_bind_ok h1
      cases y with
      | payload => (constructor <;> intro h <;> cases h)
      | own y => cases d <;> cases y <;> (constructor <;> intro h <;> first | rfl | (cases h; done))
    | own x =>
      cases d <;> cases x <;> first
        | (cases h1; done)
        | (obtain ⟨b, e1, rfl⟩ := some_bind_ok h1
           cases y with
           | payload => (constructor <;> intro h <;> cases h)
           | own y => cases y <;> (constructor <;> intro h <;> first | rfl | (cases h; done)))
  frame := by
    intro d d1 v x y h1 hne
    cases x with
    | payload =>
      obtain ⟨b, e1, rfl⟩ := some_bind_ok h1
      cases y with
      | payload => exact absurd rfl hne
      | own y => cases d <;> cases y <;> rfl
    | own x =>
      cases d <;> cases x <;> first
        | (cases h1; done)
        | (obtain ⟨b, e1, rfl⟩ := some_bind_ok h1
           cases y with
           | payload => rfl
           | own y => cases y <;> first | rfl | exact absurd rfl hne)

/-! ## Constructors of ICMP messages -/

theorem dataName_inj {x y : KwName} {n : DataName} (hx : x.dataName = some n) (hy : y.dataName = some n) : x = y := by
  cases n with
  | payload =>
    have key : ∀ z : KwName, z.dataName = some .payload → z = .hdr .data := by
      intro z hz
      cases z with
      | own d => cases hz
      | hdr a => cases a <;> first | rfl | (cases hz; done)
    rw [key x hx, key y hy]
  | own d =>
    have key : ∀ z : KwName, z.dataName = some (.own d) → z = .own d := by
      intro z hz
      cases z with
      | own d => cases hz; rfl
      | hdr a => cases a <;> (cases hz; done)
    rw [key x hx, key y hy]

section
variable {D : Type} {set : D → PyVal → DataName → Option (Res D)} {get : D → DataName → Option AVal}

theorem dataKws_sublist {l : Kws} : ∀ {d d' : D} {r : Kws}, dataKws set d l = .ok (d', r) → r.Sublist l := by
  induction l with
  | nil => intro d d' r h; cases h; exact List.Sublist.refl _
  | cons x l ih =>
    intro d d' r h
    obtain ⟨k, v⟩ := x
    simp only [dataKws] at h
    split at h
    · obtain ⟨d1, e1, e2⟩ := bind_eq_ok.mp h
      exact (ih e2).cons _
    · obtain ⟨y, e1, e2⟩ := bind_eq_ok.mp h
      cases e2
      exact (ih e1).cons_cons _

/-- The loop for the first argument: an attribute of the data or not. -/
theorem dataKws_cons {k : KwName} {v : PyVal} {l : Kws} {d d' : D} {r : Kws} (h : dataKws set d ((k, v) :: l) = .ok (d', r)) :
    (∃ n d1, k.dataName = some n ∧ set d v n = some (.ok d1) ∧ dataKws set d1 l = .ok (d', r)) ∨
    (∃ r', k.dataName.bind (set d v) = none ∧ dataKws set d l = .ok (d', r') ∧ r = (k, v) :: r') := by
  simp only [dataKws] at h
  split at h
  · rename_i q hq
    obtain ⟨d1, e1, e2⟩ := bind_eq_ok.mp h
    obtain ⟨n, hn, hs⟩ := Option.bind_eq_some_iff.mp hq
    exact .inl ⟨n, d1, hn, by rw [hs, e1], e2⟩
  · rename_i hq
    obtain ⟨y, e1, e2⟩ := bind_eq_ok.mp h
    cases e2
    exact .inr ⟨y.2, hq, e1, rfl⟩

/-- An argument that is no attribute of data remains. -/
theorem dataKws_left {l : Kws} {x : KwName × PyVal} : ∀ {d d' : D} {r : Kws}, dataKws set d l = .ok (d', r) → x ∈ l →
    x.1.dataName = none → x ∈ r := by
  induction l with
  | nil => intro d d' r _ hx; cases hx
  | cons y l ih =>
    intro d d' r h hx hn
    obtain ⟨k, v⟩ := y
    rcases dataKws_cons h with ⟨n, d1, h1, h2, h3⟩ | ⟨r1, h1, h2, rfl⟩
    · rcases List.mem_cons.mp hx with rfl | hx
      · simp only at hn; rw [hn] at h1; cases h1
      · exact ih h3 hx hn
    · rcases List.mem_cons.mp hx with rfl | hx
      · exact List.mem_cons_self
      · exact List.mem_cons_of_mem _ (ih h2 hx hn)

theorem dataKws_attr {k : KwName} {v : PyVal} {l : Kws} {d d1 : D} {n : DataName} (hn : k.dataName = some n)
    (hs : set d v n = some (.ok d1)) : dataKws set d ((k, v) :: l) = dataKws set d1 l := by
  simp only [dataKws, hn, Option.bind_some, hs, bind_ok]

theorem dataKws_other {k : KwName} {v : PyVal} {l : Kws} {d d' : D} {r : Kws} (hn : k.dataName.bind (set d v) = none)
    (h : dataKws set d l = .ok (d', r)) : dataKws set d ((k, v) :: l) = .ok (d', (k, v) :: r) := by
  simp only [dataKws, hn, h, bind_ok]

theorem other_shape (L : DataLaws set get) {d d1 : D} {v w : PyVal} {n : DataName} {k : KwName} (hs : set d v n = some (.ok d1)) :
    k.dataName.bind (set d1 w) = none ↔ k.dataName.bind (set d w) = none := by
  cases hk : k.dataName with
  | none => exact ⟨fun _ => rfl, fun _ => rfl⟩
  | some m =>
    simp only [Option.bind_some]
    exact L.shape hs w m

/-- Arguments with different names can be given in any order as far as the data is concerned. -/
theorem dataKws_perm (L : DataLaws set get) {l l' : Kws} (hp : l.Perm l') : ∀ {d d' : D} {r : Kws}, (l.map (·.1)).Nodup →
    dataKws set d l = .ok (d', r) → ∃ r', dataKws set d l' = .ok (d', r') ∧ r.Perm r' := by
  induction hp with
  | nil => intro d d' r _ h; exact ⟨r, h, List.Perm.refl _⟩
  | cons x _ ih =>
    intro d d' r hn h
    obtain ⟨k, v⟩ := x
    have hn := (List.nodup_cons.mp hn).2
    rcases dataKws_cons h with ⟨n, d1, h1, h2, h3⟩ | ⟨r1, h1, h2, rfl⟩
    · obtain ⟨r', e1, e2⟩ := ih hn h3
      exact ⟨r', by rw [dataKws_attr h1 h2]; exact e1, e2⟩
    · obtain ⟨r', e1, e2⟩ := ih hn h2
      exact ⟨_, dataKws_other h1 e1, e2.cons _⟩
  | swap x y l =>
    intro d d' r hn h
    obtain ⟨k, v⟩ := y
    obtain ⟨k2, v2⟩ := x
    have hne : k ≠ k2 := fun e => (List.nodup_cons.mp hn).1 (by rw [e]; exact List.mem_cons_self)
    rcases dataKws_cons h with ⟨n, d1, h1, h2, h3⟩ | ⟨r1, h1, h2, rfl⟩
    · rcases dataKws_cons h3 with ⟨m, d2, h4, h5, h6⟩ | ⟨r2, h4, h5, rfl⟩
      · have hnm : n ≠ m := fun e => hne (dataName_inj h1 (by rw [h4, e]))
        obtain ⟨e, e1, e2⟩ := L.swap h2 h5 hnm
        exact ⟨r, by rw [dataKws_attr h4 e1, dataKws_attr h1 e2]; exact h6, List.Perm.refl _⟩
      · exact ⟨_, dataKws_other ((other_shape L h2).mp h4) (by rw [dataKws_attr h1 h2]; exact h5), List.Perm.refl _⟩
    · rcases dataKws_cons h2 with ⟨m, d2, h4, h5, h6⟩ | ⟨r2, h4, h5, rfl⟩
      · exact ⟨_, by rw [dataKws_attr h4 h5]; exact dataKws_other ((other_shape L h5).mpr h1) h6, List.Perm.refl _⟩
      · exact ⟨_, dataKws_other h4 (dataKws_other h1 h5), List.Perm.swap _ _ _⟩
  | trans p _ ih1 ih2 =>
    intro d d' r hn h
    obtain ⟨r1, e1, e2⟩ := ih1 hn h
    obtain ⟨r2, e3, e4⟩ := ih2 ((p.map _).nodup hn) e1
    exact ⟨r2, e3, e2.trans e4⟩

theorem dataKws_frame (L : DataLaws set get) {n : DataName} {l : Kws} : ∀ {d d' : D} {r : Kws},
    (∀ x ∈ l, x.1.dataName ≠ some n) → dataKws set d l = .ok (d', r) → get d' n = get d n := by
  induction l with
  | nil => intro d d' r _ h; cases h; rfl
  | cons x l ih =>
    intro d d' r hn h
    obtain ⟨k, v⟩ := x
    rcases dataKws_cons h with ⟨m, d1, h1, h2, h3⟩ | ⟨r1, h1, h2, rfl⟩
    · rw [ih (fun y hy => hn y (List.mem_cons_of_mem _ hy)) h3]
      exact L.frame h2 fun e => hn (k, v) List.mem_cons_self (by rw [h1, e])
    · exact ih (fun y hy => hn y (List.mem_cons_of_mem _ hy)) h2

/-- An attribute of the data that was given is what assigning it to the data the constructor starts from makes it; a name
that is none of its attributes remains. -/
theorem dataKws_value (L : DataLaws set get) {l : Kws} (hn : (l.map (·.1)).Nodup) {k : KwName} {v : PyVal} {n : DataName}
    (hm : (k, v) ∈ l) (hk : k.dataName = some n) {d d' : D} {r : Kws} (h : dataKws set d l = .ok (d', r)) :
    (∃ d1, set d v n = some (.ok d1) ∧ get d' n = get d1 n) ∨ (k, v) ∈ r := by
  have hp := List.perm_cons_erase hm
  obtain ⟨r', e1, e2⟩ := dataKws_perm L hp hn h
  rcases dataKws_cons e1 with ⟨m, d1, h1, h2, h3⟩ | ⟨r1, h1, h2, rfl⟩
  · rw [hk] at h1
    cases h1
    refine .inl ⟨d1, h2, dataKws_frame L (fun x hx e => ?_) h3⟩
    have hn' := (List.nodup_cons.mp ((hp.map _).nodup hn)).1
    exact hn' (List.mem_map.mpr ⟨x, hx, dataName_inj e hk⟩)
  · exact .inr (e2.mem_iff.mpr List.mem_cons_self)

end

theorem type?_mem {l : Kws} {v : PyVal} (h : Kws.type? l = some v) : (KwName.hdr .icmptype, v) ∈ l := by
  induction l with
  | nil => cases h
  | cons x l ih =>
    obtain ⟨k, w⟩ := x
    simp only [Kws.type?] at h
    split at h
    · rename_i hk
      cases h
      rw [hk]
      exact List.mem_cons_self
    · exact List.mem_cons_of_mem _ (ih h)

theorem type?_of_mem {l : Kws} (hn : (l.map (·.1)).Nodup) {v : PyVal} (hm : (KwName.hdr .icmptype, v) ∈ l) :
    Kws.type? l = some v := by
  induction l with
  | nil => cases hm
  | cons x l ih =>
    obtain ⟨k, w⟩ := x
    simp only [Kws.type?]
    rcases List.mem_cons.mp hm with e | hm
    · cases e
      rw [if_pos rfl]
    · have hk : k ≠ .hdr .icmptype := fun e => (List.nodup_cons.mp hn).1 (List.mem_map.mpr ⟨_, hm, e.symm⟩)
      rw [if_neg hk]
      exact ih (List.nodup_cons.mp hn).2 hm

theorem type?_none {l : Kws} (h : Kws.type? l = none) : ∀ x ∈ l, x.1 ≠ .hdr .icmptype := by
  induction l with
  | nil => intro x hx; cases hx
  | cons y l ih =>
    obtain ⟨k, w⟩ := y
    simp only [Kws.type?] at h
    split at h
    · cases h
    · rename_i hk
      intro x hx
      rcases List.mem_cons.mp hx with rfl | hx
      · exact hk
      · exact ih h x hx

theorem type?_perm {l l' : Kws} (hp : l.Perm l') (hn : (l.map (·.1)).Nodup) : Kws.type? l = Kws.type? l' := by
  cases h : Kws.type? l with
  | none =>
    cases h' : Kws.type? l' with
    | none => rfl
    | some v => exact absurd rfl (type?_none h _ (hp.mem_iff.mpr (type?_mem h')))
  | some v => exact (type?_of_mem ((hp.map _).nodup hn) (hp.mem_iff.mp (type?_mem h))).symm

theorem untyped_mem {l : Kws} {x : KwName × PyVal} : x ∈ Kws.untyped l ↔ x ∈ l ∧ x.1 ≠ .hdr .icmptype := by
  simp [Kws.untyped]

theorem untyped_nodup {l : Kws} (hn : (l.map (·.1)).Nodup) : ((Kws.untyped l).map (·.1)).Nodup :=
  (List.filter_sublist.map _).nodup hn

/-- No two arguments have the same name (Python rejects that) and the data itself is not among them. -/
def Parts (kws : Kws) : Prop := (kws.map (·.1)).Nodup ∧ ∀ x ∈ kws, x.1 ≠ .hdr .icmpdata

theorem rest_apart {m : ICMPMsg ICMPData} {r : Kws} (hn : (r.map (·.1)).Nodup)
    (hr : ∀ x ∈ r, x.1 ≠ .hdr .icmptype ∧ x.1 ≠ .hdr .icmpdata) : Apart (.icmp m) r := by
  have h1 : List.Pairwise (fun x y : KwName × PyVal => x.1 ≠ y.1) r := List.pairwise_map.mp hn
  refine List.Pairwise.imp_of_mem (fun {x y} hx hy hne => ⟨hne, fun a b ea eb => ?_⟩) h1
  have ha := hr x hx
  have hb := hr y hy
  rw [ea] at ha
  rw [eb] at hb
  have ha1 : (a == HdrAttr.icmptype) = false := beq_false_of_ne fun e => ha.1 (by rw [e])
  have ha2 : (a == HdrAttr.icmpdata) = false := beq_false_of_ne fun e => ha.2 (by rw [e])
  have hb1 : (b == HdrAttr.icmptype) = false := beq_false_of_ne fun e => hb.1 (by rw [e])
  have hb2 : (b == HdrAttr.icmpdata) = false := beq_false_of_ne fun e => hb.2 (by rw [e])
  simp [Meddle, Tied, List.contains, List.elem, ha1, ha2, hb1, hb2, Hdr.cls]

/-- **C215**: the order of the keyword arguments of `ICMP` does not matter, type, code and attributes of the data alike. -/
theorem icmp_build_order {kws kws' : Kws} (hp : kws.Perm kws') (hk : Parts kws) {g : Hdr} :
    Cls.icmp.build kws = .ok g ↔ Cls.icmp.build kws' = .ok g := by
  have key : ∀ {l l' : Kws}, l.Perm l' → Parts l → icmpBuild l = .ok g → icmpBuild l' = .ok g := by
    intro l l' hp hk h
    obtain ⟨m, e1, h⟩ := bind_eq_ok.mp h
    obtain ⟨x, e2, h⟩ := bind_eq_ok.mp h
    obtain ⟨r', e3, e4⟩ := dataKws_perm icmp_data_laws (hp.filter _) (untyped_nodup hk.1) e2
    have hsub := dataKws_sublist e2
    have ha : Apart (.icmp { m with data := x.1 }) x.2 := by
      refine rest_apart ((hsub.map _).nodup (untyped_nodup hk.1)) fun y hy => ?_
      obtain ⟨h1, h2⟩ := untyped_mem.mp (hsub.subset hy)
      exact ⟨h2, hk.2 y h1⟩
    refine bind_eq_ok.mpr ⟨m, by rw [← type?_perm hp hk.1]; exact e1, bind_eq_ok.mpr ⟨_, e3, ?_⟩⟩
    exact setKws_perm e4 ha h
  have hk' : Parts kws' := ⟨(hp.map _).nodup hk.1, fun x hx => hk.2 x (hp.mem_iff.mpr hx)⟩
  exact ⟨key hp hk, key hp.symm hk'⟩

/-- `ICMP(identifier=7, data="hi", icmpcode=0, icmptype=EchoReply)`. -/
def icmpKws : Kws := [(.own .identifier, some (.num 7)), (.hdr .data, some (.text "hi".toList)), (.hdr .icmpcode, some (.num 0)),
  (.hdr .icmptype, some (.num 0))]

example : Parts icmpKws ∧ Cls.icmp.build icmpKws = .ok (.icmp ⟨0, 0, .echo true 7 0 [104, 105], 0⟩) ∧
    Cls.icmp.build icmpKws.reverse = Cls.icmp.build icmpKws := by
  refine ⟨⟨by decide, by decide⟩, by decide, by decide⟩

theorem icmpTyped_eq {o : Option PyVal} {m : ICMPMsg ICMPData} (h : icmpTyped o = .ok m) :
    ∃ t D, ICMPData.new t = some D ∧ m = ⟨t, 0, D, 0⟩ ∧
      (o = none → t = 8) ∧ ∀ v, o = some v → v.enumArg = .ok (t : Int) := by
  cases o with
  | none =>
    cases h
    exact ⟨8, .echo false 0 0 [], rfl, rfl, fun _ => rfl, fun v hv => (by cases hv)⟩
  | some v =>
    obtain ⟨n, e1, h⟩ := bind_eq_ok.mp h
    rw [ICMPKind.setType_eq icmp4_lawful] at h
    cases he : enumOf icmp4.types n with
    | error e => rw [he] at h; cases h
    | ok t =>
      rw [he] at h
      have hnt : n = (t : Int) := by
        unfold enumOf at he
        split at he
        · rename_i hh
          cases he
          omega
        · cases he
      cases hd : icmp4.new t with
      | none => simp only [hd] at h; cases h
      | some D =>
        simp only [hd] at h
        cases h
        refine ⟨t, D, hd, ?_, fun h => (by cases h), fun w hw => (by cases hw; rw [e1, hnt])⟩
        by_cases hi : icmp4.isA (ICMPData.echo false 0 0 []) t = true
        · have : t = 8 := by
            have := hi
            simp only [icmp4] at this
            revert hd this
            simp only [icmp4]
            intro hd this
            unfold ICMPData.new at hd
            split at hd <;> first | rfl | (cases hd; done) | (cases this; done)
          subst this
          cases hd
          rfl
        · simp only [ICMPMsg.default4, hi]
          rfl

theorem icmp_code {m m' : ICMPMsg ICMPData} {v : PyVal} (h : icmpSetattr m v .icmpcode = .ok m') :
    ∃ c, m' = { m with code := c } ∧ (∀ n, v.number = some n → (c : Int) = n ∧ ∃ e, icmp4.codes m.type = some e ∧ c ∈ e.vals) ∧
      (v.number = none → c = m.code) := by
  simp only [icmpSetattr, PyVal.codeArg] at h
  cases hv : v.number with
  | none =>
    rw [hv] at h
    cases h
    exact ⟨_, rfl, fun n hn => (by cases hn), fun _ => rfl⟩
  | some n =>
    rw [hv] at h
    cases hc : icmp4.codes m.type with
    | none => simp only [ICMPKind.setCode, hc, orRaise] at h; cases h
    | some e =>
      simp only [ICMPKind.setCode, hc] at h
      cases he : enumOf e.vals n with
      | error x => rw [he] at h; cases h
      | ok c =>
        rw [he] at h
        cases h
        unfold enumOf at he
        split at he
        · rename_i hh
          cases he
          refine ⟨_, rfl, fun n' hn => ?_, fun hn => (by cases hn)⟩
          cases hn
          exact ⟨by omega, e, rfl, hh.2⟩
        · cases he

theorem icmp_rest {m : ICMPMsg ICMPData} {r : Kws} {g : Hdr} (hn : (r.map (·.1)).Nodup)
    (hr : ∀ x ∈ r, x.1 ≠ .hdr .icmptype ∧ x.1 ≠ .hdr .icmpdata) (h : (Hdr.icmp m).setKws r = .ok g) :
    (r = [] ∧ g = .icmp m) ∨ ∃ v m', r = [(.hdr .icmpcode, v)] ∧ icmpSetattr m v .icmpcode = .ok m' ∧ g = .icmp m' := by
  have code : ∀ {m : ICMPMsg ICMPData} {k : KwName} {v : PyVal} {h : Hdr}, k ≠ .hdr .icmptype → k ≠ .hdr .icmpdata →
      (Hdr.icmp m).setKw v k = .ok h → k = .hdr .icmpcode ∧ ∃ m', icmpSetattr m v .icmpcode = .ok m' ∧ h = .icmp m' := by
    intro m k v h h1 h2 hs
    cases k with
    | own d =>
      simp only [Hdr.setKw] at hs
      rw [if_neg (by simp [Hdr.cls])] at hs
      cases hs
    | hdr a =>
      obtain ⟨m', e1, rfl⟩ := map_ok hs
      cases a <;> first
        | (cases e1; done)
        | exact ⟨rfl, m', e1, rfl⟩
        | exact absurd rfl h1
        | exact absurd rfl h2
  cases r with
  | nil => cases h; exact .inl ⟨rfl, rfl⟩
  | cons x r =>
    obtain ⟨k, v⟩ := x
    obtain ⟨h1, e1, e2⟩ := bind_eq_ok.mp h
    have hx := hr _ List.mem_cons_self
    obtain ⟨rfl, m', e3, rfl⟩ := code hx.1 hx.2 e1
    cases r with
    | nil => cases e2; exact .inr ⟨v, m', rfl, e3, rfl⟩
    | cons y r =>
      obtain ⟨h2, e4, e5⟩ := bind_eq_ok.mp e2
      have hy := hr y (List.mem_cons_of_mem _ List.mem_cons_self)
      obtain ⟨ey, _⟩ := code hy.1 hy.2 e4
      exact absurd (by rw [List.map_cons, ey]; exact List.mem_cons_self) (List.nodup_cons.mp hn).1

/-- **C215**: what `ICMP(…)` makes.  The message has the type given, or is an echo request; the code given, which must be one
of the type, or zero; and of the data that a new message of the type has, each attribute given is what assigning it to
that data makes it, and the others are as they were. -/
theorem icmp_build_message {kws : Kws} (hk : Parts kws) {g : Hdr} (h : Cls.icmp.build kws = .ok g) :
    ∃ (t c : Nat) (D d : ICMPData), g = .icmp ⟨t, c, d, 0⟩ ∧ ICMPData.new t = some D ∧
      (∀ v, (KwName.hdr .icmptype, v) ∈ kws → v.enumArg = .ok (t : Int)) ∧
      ((∀ x ∈ kws, x.1 ≠ .hdr .icmptype) → t = 8) ∧
      (∀ v n, (KwName.hdr .icmpcode, v) ∈ kws → v.number = some n → (c : Int) = n ∧ ∃ e, icmp4.codes t = some e ∧ c ∈ e.vals) ∧
      ((∀ x ∈ kws, x.1 ≠ .hdr .icmpcode) → c = 0) ∧
      (∀ k v n, (k, v) ∈ kws → k.dataName = some n → ∃ D', D.setattr v n = some (.ok D') ∧ d.getattr n = D'.getattr n) ∧
      (∀ n, (∀ x ∈ kws, x.1.dataName ≠ some n) → d.getattr n = D.getattr n) ∧
      (∀ x ∈ kws, x.1 = .hdr .icmptype ∨ x.1 = .hdr .icmpcode ∨ ∃ n, x.1.dataName = some n) := by
  obtain ⟨m, e1, h⟩ := bind_eq_ok.mp h
  obtain ⟨⟨d, r⟩, e2, h⟩ := bind_eq_ok.mp h
  obtain ⟨t, D, hD, rfl, ht⟩ := icmpTyped_eq e1
  simp only at e2 h
  have hsub := dataKws_sublist e2
  have hrn := (hsub.map _).nodup (untyped_nodup hk.1)
  have hrs : ∀ x ∈ r, x.1 ≠ .hdr .icmptype ∧ x.1 ≠ .hdr .icmpdata := fun y hy => by
    obtain ⟨h1, h2⟩ := untyped_mem.mp (hsub.subset hy)
    exact ⟨h2, hk.2 y h1⟩
  have htype : ∀ v, (KwName.hdr .icmptype, v) ∈ kws → v.enumArg = .ok (t : Int) := fun v hv => by
    exact ht.2 v (type?_of_mem hk.1 hv)
  have htype0 : (∀ x ∈ kws, x.1 ≠ .hdr .icmptype) → t = 8 := fun hv => by
    cases ho : Kws.type? kws with
    | none => exact ht.1 ho
    | some v => exact absurd rfl (hv _ (type?_mem ho))
  have hattr : ∀ k v n, (k, v) ∈ kws → k.dataName = some n → (k, v) ∉ r →
      ∃ D', D.setattr v n = some (.ok D') ∧ d.getattr n = D'.getattr n := fun k v n hm hn hr => by
    have hu : (k, v) ∈ Kws.untyped kws := untyped_mem.mpr ⟨hm, fun e => by simp only at e; rw [e] at hn; cases hn⟩
    rcases dataKws_value icmp_data_laws (untyped_nodup hk.1) hu hn e2 with h1 | h1
    · exact h1
    · exact absurd h1 hr
  have hdef : ∀ n, (∀ x ∈ kws, x.1.dataName ≠ some n) → d.getattr n = D.getattr n := fun n hn =>
    dataKws_frame icmp_data_laws (fun x hx => hn x (untyped_mem.mp hx).1) e2
  have hleft : ∀ x ∈ kws, x.1.dataName = none → x.1 ≠ .hdr .icmptype → x ∈ r := fun x hx hn hne => by
    exact dataKws_left e2 (untyped_mem.mpr ⟨hx, hne⟩) hn
  rcases icmp_rest hrn hrs h with ⟨rfl, rfl⟩ | ⟨v, m', rfl, e3, rfl⟩
  · refine ⟨t, 0, D, d, rfl, hD, htype, htype0, fun v n hv _ => ?_, fun _ => rfl, fun k v n hm hn => hattr k v n hm hn (by simp), hdef, ?_⟩
    · exact absurd (hleft _ hv rfl (by simp)) (by simp)
    · intro x hx
      by_cases ht : x.1 = .hdr .icmptype
      · exact .inl ht
      · cases hn : x.1.dataName with
        | none => exact absurd (hleft x hx hn ht) (by simp)
        | some n => exact .inr (.inr ⟨n, rfl⟩)
  · obtain ⟨c, rfl, hc, hc0⟩ := icmp_code e3
    have hmem : (KwName.hdr .icmpcode, v) ∈ kws := (untyped_mem.mp (hsub.subset List.mem_cons_self)).1
    refine ⟨t, c, D, d, rfl, hD, htype, htype0, fun w n hw hn => ?_, fun hno => absurd rfl (hno _ hmem), fun k w n hm hn => ?_, hdef, ?_⟩
    · have hw := hleft _ hw rfl (by simp)
      simp only [List.mem_singleton, Prod.mk.injEq, true_and] at hw
      rw [hw] at hn
      exact hc n hn
    · refine hattr k w n hm hn fun hr => ?_
      simp only [List.mem_singleton, Prod.mk.injEq] at hr
      rw [hr.1] at hn
      cases hn
    · intro x hx
      by_cases ht : x.1 = .hdr .icmptype
      · exact .inl ht
      · cases hn : x.1.dataName with
        | none =>
          have := hleft x hx hn ht
          rw [List.mem_singleton] at this
          rw [this]
          exact .inr (.inl rfl)
        | some n => exact .inr (.inr ⟨n, rfl⟩)

example : Cls.icmp.build [(.hdr .icmpcode, some (.num 4)), (.own .nexthopmtu, some (.num 1400)), (.hdr .icmptype, some (.num 3))] =
    .ok (.icmp ⟨3, 4, .unreach 0 1400 [], 0⟩) ∧
    Cls.icmp.build [(.hdr .icmptype, some (.num 11)), (.own .nexthopmtu, some (.num 1400))] = .error .attributeError := by decide

/-! ### ICMPv6 -/

theorem icmp6_echo {l : Kws} : ∀ {i s : Int} {p : Bytes} {d : ICMPv6Data} {r : Kws},
    dataKws ICMPv6Data.setattr (.echo false i s p) l = .ok (d, r) → ∃ i' s' p', d = .echo false i' s' p' := by
  induction l with
  | nil => intro i s p d r h; cases h; exact ⟨_, _, _, rfl⟩
  | cons x l ih =>
    intro i s p d r h
    obtain ⟨k, v⟩ := x
    rcases dataKws_cons h with ⟨n, d1, h1, h2, h3⟩ | ⟨r1, h1, h2, rfl⟩
    · have : ∃ i' s' p', d1 = .echo false i' s' p' := by
        cases n with
        | payload =>
          obtain ⟨c, _, e3⟩ := bind_eq_ok.mp (Option.some.inj h2)
          cases e3
          exact ⟨_, _, _, rfl⟩
        | own x =>
          cases x <;> first
            | (simp only [ICMPv6Data.setattr] at h2; cases h2; done)
            | (simp only [ICMPv6Data.setattr] at h2
               obtain ⟨c, _, e3⟩ := bind_eq_ok.mp (Option.some.inj h2)
               cases e3
               exact ⟨_, _, _, rfl⟩)
      obtain ⟨i', s', p', rfl⟩ := this
      exact ih h3
    · exact ih h2

/-- A name that an ICMPv6 message does not have. -/
theorem icmp6_name {m : ICMPMsg ICMPv6Data} {k : KwName} {v : PyVal} {h : Hdr} (hs : (Hdr.icmp6 m).setKw v k = .ok h) :
    ∃ a, k = .hdr a ∧ ∃ m', icmp6Setattr m v a = .ok m' ∧ h = .icmp6 m' ∧
      (a = .icmptype ∨ a = .icmp6type ∨ a = .icmpcode ∨ a = .icmp6code ∨ a = .icmpdata) := by
  cases k with
  | own d =>
    simp only [Hdr.setKw] at hs
    rw [if_neg (by simp [Hdr.cls])] at hs
    cases hs
  | hdr a =>
    obtain ⟨m', e1, rfl⟩ := map_ok hs
    refine ⟨a, rfl, m', e1, rfl, ?_⟩
    cases a <;> first | (cases e1; done) | simp

/-- No two arguments have the same name, and neither the type nor the data itself is among them. -/
def Parts6 (kws : Kws) : Prop :=
  (kws.map (·.1)).Nodup ∧ ∀ x ∈ kws, x.1 ≠ .hdr .icmptype ∧ x.1 ≠ .hdr .icmp6type ∧ x.1 ≠ .hdr .icmpdata

theorem icmp6_rest {d : ICMPv6Data} {r : Kws} {g : Hdr}
    (hr : ∀ x ∈ r, x.1 ≠ .hdr .icmptype ∧ x.1 ≠ .hdr .icmp6type ∧ x.1 ≠ .hdr .icmpdata) :
    (Hdr.icmp6 ⟨128, 0, d, 0⟩).setKws r = .ok g ↔
      g = .icmp6 ⟨128, 0, d, 0⟩ ∧ ∀ x ∈ r, (Hdr.icmp6 ⟨128, 0, d, 0⟩).setKw x.2 x.1 = .ok (.icmp6 ⟨128, 0, d, 0⟩) := by
  have code : ∀ {v : PyVal} {m' : ICMPMsg ICMPv6Data}, orRaise (icmp6.setCode ⟨128, 0, d, 0⟩ v.codeArg) = .ok m' →
      m' = ⟨128, 0, d, 0⟩ := by
    intro v m' h
    unfold PyVal.codeArg at h
    cases hv : v.number with
    | none => rw [hv] at h; cases h; rfl
    | some n =>
      rw [hv] at h
      simp only [ICMPKind.setCode] at h
      split at h
      · rename_i hc; cases hc
      · cases h
      · rename_i hc _; cases hc
      · rename_i n' e' hc he'
        cases hc
        have he : e'.vals = [0] := by
          have : icmp6.codes 128 = some e' := he'
          have h2 : (icmp6.codes 128).map CodeEnum.vals = some [0] := by decide
          rw [this] at h2
          exact Option.some.inj h2
        rw [he] at h
        unfold enumOf at h
        split at h
        · rename_i heq
          split at heq
          · rename_i hh
            have hz : n.toNat = 0 := by simpa using hh.2
            cases heq
            cases h
            rw [hz]
          · cases heq
        · cases h
  have one : ∀ {x : KwName × PyVal} {h : Hdr}, x.1 ≠ .hdr .icmptype ∧ x.1 ≠ .hdr .icmp6type ∧ x.1 ≠ .hdr .icmpdata →
      (Hdr.icmp6 ⟨128, 0, d, 0⟩).setKw x.2 x.1 = .ok h → h = .icmp6 ⟨128, 0, d, 0⟩ := by
    intro x h hx hs
    obtain ⟨a, ea, m', e1, rfl, ha⟩ := icmp6_name hs
    rw [ea] at hx
    rcases ha with rfl | rfl | rfl | rfl | rfl
    · exact absurd rfl hx.1
    · exact absurd rfl hx.2.1
    · rw [code e1]
    · rw [code e1]
    · exact absurd rfl hx.2.2
  induction r with
  | nil =>
    constructor
    · intro h; cases h; exact ⟨rfl, fun x hx => (by cases hx)⟩
    · rintro ⟨rfl, _⟩; rfl
  | cons x r ih =>
    have ih := ih fun y hy => hr y (List.mem_cons_of_mem _ hy)
    constructor
    · intro h
      obtain ⟨h1, e1, e2⟩ := bind_eq_ok.mp h
      have := one (hr x List.mem_cons_self) e1
      subst this
      obtain ⟨rfl, h3⟩ := ih.mp e2
      refine ⟨rfl, fun y hy => ?_⟩
      rcases List.mem_cons.mp hy with rfl | hy
      · exact e1
      · exact h3 y hy
    · rintro ⟨hg, hall⟩
      exact bind_eq_ok.mpr ⟨_, hall x List.mem_cons_self, ih.mpr ⟨hg, fun y hy => hall y (List.mem_cons_of_mem _ hy)⟩⟩

/-- **C215**, partial: what `ICMPv6(…)` makes if neither the type nor the data is given: an echo request whose data has the
attributes given, in whatever order they are.  Missing: a type (`icmp6_build_lost_violated`). -/
theorem icmp6_build_message_partial {kws : Kws} (hk : Parts6 kws) {g : Hdr} (h : Cls.icmp6.build kws = .ok g) :
    ∃ d : ICMPv6Data, g = .icmp6 ⟨128, 0, d, 0⟩ ∧
      (∀ k v n, (k, v) ∈ kws → k.dataName = some n →
        ∃ D', (ICMPv6Data.echo false 0 0 []).setattr v n = some (.ok D') ∧ d.getattr n = D'.getattr n) ∧
      (∀ n, (∀ x ∈ kws, x.1.dataName ≠ some n) → d.getattr n = (ICMPv6Data.echo false 0 0 []).getattr n) ∧
      (∀ kws', kws.Perm kws' → Cls.icmp6.build kws' = .ok g) := by
  obtain ⟨⟨d, r⟩, e2, h⟩ := bind_eq_ok.mp h
  have hsub := dataKws_sublist e2
  have hr : ∀ x ∈ r, x.1 ≠ .hdr .icmptype ∧ x.1 ≠ .hdr .icmp6type ∧ x.1 ≠ .hdr .icmpdata := fun x hx => hk.2 x (hsub.subset hx)
  obtain ⟨rfl, h3⟩ := (icmp6_rest hr).mp h
  refine ⟨d, rfl, fun k v n hm hn => ?_, fun n hn => dataKws_frame icmp6_data_laws hn e2, fun kws' hp => ?_⟩
  · rcases dataKws_value icmp6_data_laws hk.1 hm hn e2 with h1 | h1
    · exact h1
    · obtain ⟨a, ea, m', _, _, ha⟩ := icmp6_name (h3 _ h1)
      simp only at ea
      rw [ea] at hn
      rcases ha with rfl | rfl | rfl | rfl | rfl <;> cases hn
  · obtain ⟨r', e3, e4⟩ := dataKws_perm icmp6_data_laws hp hk.1 e2
    exact bind_eq_ok.mpr ⟨_, e3, (icmp6_rest fun x hx => hr x (e4.mem_iff.mpr hx)).mpr
      ⟨rfl, fun x hx => h3 x (e4.mem_iff.mpr hx)⟩⟩

example : Parts6 [(.own .identifier, some (.num 7)), (.hdr .icmpcode, some (.num 0))] ∧
    Cls.icmp6.build [(.own .identifier, some (.num 7)), (.hdr .icmpcode, some (.num 0))] =
      .ok (.icmp6 ⟨128, 0, .echo false 7 0 [], 0⟩) := ⟨⟨by decide, by decide⟩, by decide⟩

/-- **C215 is false**: whatever attributes of the data are given along with a type to `ICMPv6`, if it is not that of an echo
request the message has new data: what was given is lost, and so the constructor takes no attribute that only data of
that type has. -/
theorem icmp6_build_lost_violated {kws : Kws} (hn : (kws.map (·.1)).Nodup) {v : PyVal} {t : Nat} (ht : v.enumArg = .ok (t : Int))
    (h128 : t ≠ 128) (hv : (KwName.hdr .icmptype, v) ∈ kws)
    (hk : ∀ x ∈ kws, x.1 = .hdr .icmptype ∨ ∃ n, x.1.dataName = some n) {g : Hdr} (h : Cls.icmp6.build kws = .ok g) :
    (∃ D, ICMPv6Data.new t = some D ∧ g = .icmp6 ⟨t, 0, D, 0⟩) ∧
      ∀ x ∈ kws, x.1 = .hdr .icmptype ∨ x.1 = .hdr .data ∨ x.1 = .own .identifier ∨ x.1 = .own .sequence := by
  obtain ⟨⟨d, r⟩, e2, h⟩ := bind_eq_ok.mp h
  have hsub := dataKws_sublist e2
  obtain ⟨i, s, p, rfl⟩ := icmp6_echo e2
  have hin := dataKws_left e2 hv rfl
  have only : ∀ {m : ICMPMsg ICMPv6Data} {x : KwName × PyVal} {h : Hdr}, x ∈ r → (Hdr.icmp6 m).setKw x.2 x.1 = .ok h →
      x.1 = .hdr .icmptype := by
    intro m x h hx hs
    rcases hk x (hsub.subset hx) with e | ⟨n, e⟩
    · exact e
    · obtain ⟨a, ea, m', _, _, ha⟩ := icmp6_name hs
      rw [ea] at e
      rcases ha with rfl | rfl | rfl | rfl | rfl <;> cases e
  have hrn := (hsub.map _).nodup hn
  have hr : r = [(.hdr .icmptype, v)] := by
    cases r with
    | nil => cases hin
    | cons y r =>
      obtain ⟨h1, e1, e3⟩ := bind_eq_ok.mp h
      have ey := only List.mem_cons_self e1
      obtain ⟨a, ea, m1, _, rfl, _⟩ := icmp6_name e1
      cases r with
      | nil => rw [List.mem_singleton.mp hin]
      | cons z r =>
        obtain ⟨h2, e4, _⟩ := bind_eq_ok.mp e3
        have ez := only (List.mem_cons_of_mem _ List.mem_cons_self) e4
        exact absurd (by simp only [ey, ez, List.map_cons]; exact List.mem_cons_self) (List.nodup_cons.mp hrn).1
  subst hr
  constructor
  · obtain ⟨h1, e1, e3⟩ := bind_eq_ok.mp h
    cases e3
    obtain ⟨a, ea, m', e4, rfl, _⟩ := icmp6_name e1
    cases ea
    simp only [icmp6Setattr, ht, bind_ok, ICMPKind.setType_eq icmp6_lawful] at e4
    cases he : enumOf icmp6.types (t : Int) with
    | error x => rw [he] at e4; cases e4
    | ok t' =>
      have htt : t' = t := by
        unfold enumOf at he
        split at he
        · cases he; omega
        · cases he
      subst htt
      rw [he] at e4
      cases hd : icmp6.new t' with
      | none => simp only [hd] at e4; cases e4
      | some D =>
        simp only [hd] at e4
        have hA : icmp6.isA (ICMPv6Data.echo false i s p) t' = false := by
          simp only [icmp6, ICMPv6Data.isA, ICMPv6Data.typeOf]
          simpa using fun e => h128 e.symm
        rw [hA] at e4
        cases e4
        exact ⟨D, hd, rfl⟩
  · intro x hx
    rcases hk x hx with e | ⟨n, e⟩
    · exact .inl e
    · rcases dataKws_value icmp6_data_laws hn hx e e2 with ⟨d1, h1, _⟩ | h1
      · cases n with
        | payload => exact .inr (.inl (dataName_inj e rfl))
        | own y =>
          cases y <;> first
            | (simp only [ICMPMsg.default6, ICMPv6Data.setattr] at h1; cases h1; done)
            | exact .inr (.inr (.inl (dataName_inj e rfl)))
            | exact .inr (.inr (.inr (dataName_inj e rfl)))
      · exact .inl (congrArg Prod.fst (List.mem_singleton.mp h1))

example : Cls.icmp6.build [(.own .identifier, some (.num 7)), (.hdr .icmptype, some (.num 129))] =
    .ok (.icmp6 ⟨129, 0, .echo true 0 0 [], 0⟩) ∧
    Cls.icmp6.build [(.hdr .icmptype, some (.num 135)), (.own .targetaddr, some (.text "::1".toList))] =
      .error .attributeError := by decide

/-- **C215 is false**: a code given before the type is checked against the codes of an echo request. -/
theorem icmp6_build_code_violated (t c : Nat) (hc : c ≠ 0) (rest : Kws)
    (hr : ∀ x ∈ rest, x.1 = .hdr .icmptype ∨ x.1 = .hdr .icmp6type ∨ x.1 = .hdr .icmpcode ∨ x.1 = .hdr .icmp6code ∨ x.1 = .hdr .icmpdata) :
    Cls.icmp6.build ((.hdr .icmpcode, some (.num c)) :: (.hdr .icmptype, some (.num t)) :: rest) = .error .valueError := by
  have hnone : ∀ {l : Kws} {d : ICMPv6Data}, (∀ x ∈ l, x.1.dataName = none) → dataKws ICMPv6Data.setattr d l = .ok (d, l) := by
    intro l
    induction l with
    | nil => intro d _; rfl
    | cons x l ih =>
      intro d hl
      obtain ⟨k, v⟩ := x
      exact dataKws_other (by rw [hl (k, v) List.mem_cons_self]; rfl) (ih fun y hy => hl y (List.mem_cons_of_mem _ hy))
  simp only [Cls.build, icmp6Build]
  rw [hnone]
  · simp only [bind_ok, Hdr.setKws, Hdr.setKw, Hdr.setattr, icmp6Setattr, PyVal.codeArg, PyVal.number, ICMPMsg.default6]
    have : icmp6.setCode (⟨128, 0, .echo false 0 0 [], 0⟩ : ICMPMsg ICMPv6Data) (.int (c : Int)) =
        (⟨128, 0, .echo false 0 0 [], 0⟩, some .valueError) := by
      simp only [ICMPKind.setCode]
      have hcodes : ∃ e, icmp6.codes 128 = some e ∧ e.vals = [0] := ⟨_, rfl, rfl⟩
      obtain ⟨e, he, hv⟩ := hcodes
      rw [he]
      simp only [hv, enumOf]
      rw [if_neg (by simp; omega)]
    rw [this]
    rfl
  · intro x hx
    rcases List.mem_cons.mp hx with rfl | hx
    · rfl
    · rcases List.mem_cons.mp hx with rfl | hx
      · rfl
      · rcases hr x hx with e | e | e | e | e <;> rw [e] <;> rfl

example : Cls.icmp6.build [(.hdr .icmptype, some (.num 1)), (.hdr .icmpcode, some (.num 4))] =
    .ok (.icmp6 ⟨1, 4, .unreach 0 0 [], 0⟩) := by decide

/-- **C215 is false**: an attribute of the data, given before data that replaces it, is lost. -/
theorem icmp_build_lost_violated (i : Int) (d : ICMPData) (t : Nat) (ht : d.typeOf = some t) :
    Cls.icmp.build [(.own .identifier, some (.num i)), (.hdr .icmpdata, some (.data4 d))] = .ok (.icmp ⟨t, 0, d, 0⟩) ∧
    Cls.icmp.build [(.hdr .icmpdata, some (.data4 d)), (.own .identifier, some (.num i))] = .ok (.icmp ⟨t, 0, d, 0⟩) := by
  have h := ICMPKind.setData_registered icmp4_lawful ⟨8, 0, .echo false i 0 [], 0⟩ d t ht
  have key : (Hdr.icmp ⟨8, 0, .echo false i 0 [], 0⟩).setattr .icmpdata (some (.data4 d)) = .ok (.icmp ⟨t, 0, d, 0⟩) := by
    simp only [Hdr.setattr, icmpSetattr, h, orRaise]
    rfl
  constructor
  · exact bind_eq_ok.mpr ⟨_, rfl, bind_eq_ok.mpr ⟨_, rfl, bind_eq_ok.mpr ⟨_, key, rfl⟩⟩⟩
  · exact bind_eq_ok.mpr ⟨_, rfl, bind_eq_ok.mpr ⟨_, rfl, bind_eq_ok.mpr ⟨_, key, rfl⟩⟩⟩

example : (ICMPData.echo true 1 2 []).typeOf = some 0 := rfl

/-- **C215 is false**: giving the data after the code resets the code, giving it before does not. -/
theorem icmp_build_code_violated (o n : Int) (p : Bytes) (c : Nat) (hc : c < 16) :
    Cls.icmp.build [(.hdr .icmptype, some (.num 3)), (.hdr .icmpcode, some (.num c)), (.hdr .icmpdata, some (.data4 (.unreach o n p)))] =
      .ok (.icmp ⟨3, 0, .unreach o n p, 0⟩) ∧
    Cls.icmp.build [(.hdr .icmptype, some (.num 3)), (.hdr .icmpdata, some (.data4 (.unreach o n p))), (.hdr .icmpcode, some (.num c))] =
      .ok (.icmp ⟨3, c, .unreach o n p, 0⟩) := by
  have hk : ∀ d : ICMPData, (Hdr.icmp ⟨3, 0, d, 0⟩).setattr .icmpcode (some (.num c)) = .ok (.icmp ⟨3, c, d, 0⟩) := by
    intro d
    have hcodes : ∃ e, icmp4.codes 3 = some e ∧ e.vals = List.range 16 := ⟨_, rfl, by decide⟩
    obtain ⟨e, he, hv⟩ := hcodes
    simp only [Hdr.setattr, icmpSetattr, PyVal.codeArg, PyVal.number, ICMPKind.setCode, he, hv]
    have : enumOf (List.range 16) (c : Int) = .ok c := enumOf_nat (by simpa using hc)
    rw [this]
    rfl
  have hd : ∀ (c : Nat) (d : ICMPData), (Hdr.icmp ⟨3, c, d, 0⟩).setattr .icmpdata (some (.data4 (.unreach o n p))) =
      .ok (.icmp ⟨3, 0, .unreach o n p, 0⟩) := by
    intro c d
    simp only [Hdr.setattr, icmpSetattr, ICMPKind.setData_registered icmp4_lawful ⟨3, c, d, 0⟩ (.unreach o n p) 3 rfl, orRaise]
    rfl
  constructor
  · exact bind_eq_ok.mpr ⟨⟨3, 0, .unreach 0 0 [], 0⟩, rfl, bind_eq_ok.mpr ⟨_, rfl,
      bind_eq_ok.mpr ⟨_, hk _, bind_eq_ok.mpr ⟨_, hd _ _, rfl⟩⟩⟩⟩
  · exact bind_eq_ok.mpr ⟨⟨3, 0, .unreach 0 0 [], 0⟩, rfl, bind_eq_ok.mpr ⟨_, rfl,
      bind_eq_ok.mpr ⟨_, hd _ _, bind_eq_ok.mpr ⟨_, hk _, rfl⟩⟩⟩⟩

/-- **C215 is false**: of an odd `dscp` given before `ecn`, the lowest bit is lost; given after it, it is kept. -/
theorem build_dscp_violated (d : Nat) (hd : d < 64) (hodd : d % 2 = 1) (e : Nat) (he : e < 4) :
    (Cls.ip4.build [(.hdr .dscp, some (.num d)), (.hdr .ecn, some (.num e))] >>= fun g => g.getattr .dscp) = .ok (.num (d - 1 : Nat)) ∧
    (Cls.ip4.build [(.hdr .ecn, some (.num e)), (.hdr .dscp, some (.num d))] >>= fun g => g.getattr .dscp) = .ok (.num d) := by
  have key : ∀ d : Fin 64, ∀ e : Fin 4, d.val % 2 = 1 →
      (Cls.ip4.build [(.hdr .dscp, some (.num d.val)), (.hdr .ecn, some (.num e.val))] >>= fun g => g.getattr .dscp) =
        .ok (.num (d.val - 1 : Nat)) ∧
      (Cls.ip4.build [(.hdr .ecn, some (.num e.val)), (.hdr .dscp, some (.num d.val))] >>= fun g => g.getattr .dscp) =
        .ok (.num d.val) := by
    decide +kernel
  exact key ⟨d, hd⟩ ⟨e, he⟩ hodd

end SY.Props
