import Verif.Props.CopyOut

/-! # Attributes of headers and each other -/

namespace SY.Props

/-! ## Assigning one attribute and reading another -/

/-- Attributes that are documented to be views of the same thing, or to follow the assigned one: the type-of-service
byte and its two parts; `ttl` and `hoplimit`; `nextheader` and `protocol` of extension headers; the flags of TCP as bits
and as text; type, code and data of ICMP messages. -/
def Tied : Hdr → HdrAttr → HdrAttr → Bool
  | .ip4 _, a, b => (a == .tos && [.dscp, .ecn].contains b) || (b == .tos && [.dscp, .ecn].contains a)
  | .ip6 _, a, b => [.ttl, .hoplimit].contains a && [.ttl, .hoplimit].contains b
  | .route _, a, b | .frag _, a, b | .hop _, a, b | .dst _, a, b =>
    [.nextheader, .protocol].contains a && [.nextheader, .protocol].contains b
  | .tcp _, .flag _, b => b == .flags || b == .flagstr
  | .icmp _, a, b => [.icmptype, .icmpdata].contains a && [.icmptype, .icmpcode, .icmpdata].contains b
  | .icmp6 _, a, b =>
    ([.icmptype, .icmp6type, .icmpdata].contains a && [.icmptype, .icmp6type, .icmpcode, .icmp6code, .icmpdata].contains b) ||
    ([.icmpcode, .icmp6code].contains a && [.icmpcode, .icmp6code].contains b)
  | _, _, _ => false

theorem eth_frame {h h' : Ethernet} {a b : HdrAttr} {v : PyVal} (hs : h.setattr v a = .ok h') (hne : b ≠ a) :
    (Hdr.eth h').getattr b = (Hdr.eth h).getattr b := by
  unfold Ethernet.setattr at hs
  split at hs
  · obtain ⟨_, _, h2⟩ := bind_eq_ok.mp hs
    cases h2
    cases b <;> first | rfl | exact absurd rfl hne
  · obtain ⟨_, _, h2⟩ := bind_eq_ok.mp hs
    cases h2
    cases b <;> first | rfl | exact absurd rfl hne
  · obtain ⟨_, _, h2⟩ := bind_eq_ok.mp hs
    obtain ⟨_, _, h2⟩ := bind_eq_ok.mp h2
    cases h2
    cases b <;> first | rfl | exact absurd rfl hne
  · cases hs

theorem vlan_frame {h h' : Vlan} {a b : HdrAttr} {v : PyVal} (hs : h.setattr v a = .ok h') (hne : b ≠ a) :
    (Hdr.vlan h').getattr b = (Hdr.vlan h).getattr b := by
  unfold Vlan.setattr at hs
  split at hs
  · obtain ⟨_, _, h2⟩ := bind_eq_ok.mp hs
    cases h2
    cases b <;> first | rfl | exact absurd rfl hne
  · obtain ⟨_, _, h2⟩ := bind_eq_ok.mp hs
    cases h2
    cases b <;> first | rfl | exact absurd rfl hne
  · obtain ⟨_, _, h2⟩ := bind_eq_ok.mp hs
    obtain ⟨_, _, h2⟩ := bind_eq_ok.mp h2
    cases h2
    cases b <;> first | rfl | exact absurd rfl hne
  · cases hs

theorem arp_frame {h h' : Arp} {a b : HdrAttr} {v : PyVal} (hs : h.setattr v a = .ok h') (hne : b ≠ a) :
    (Hdr.arp h').getattr b = (Hdr.arp h).getattr b := by
  unfold Arp.setattr at hs
  split at hs
  all_goals first
    | (cases hs; done)
    | (obtain ⟨_, _, h2⟩ := bind_eq_ok.mp hs
       obtain ⟨_, _, h2⟩ := bind_eq_ok.mp h2
       cases h2
       cases b <;> first | rfl | exact absurd rfl hne)
    | (obtain ⟨_, _, h2⟩ := bind_eq_ok.mp hs
       cases h2
       cases b <;> first | rfl | exact absurd rfl hne)

theorem ip6_frame {h h' : IPv6} {a b : HdrAttr} {v : PyVal} (hs : h.setattr v a = .ok h') (hne : b ≠ a)
    (ht : Tied (.ip6 h) a b = false) : (Hdr.ip6 h').getattr b = (Hdr.ip6 h).getattr b := by
  unfold IPv6.setattr at hs
  split at hs
  all_goals first
    | (cases hs; done)
    | (obtain ⟨_, _, h2⟩ := bind_eq_ok.mp hs
       obtain ⟨_, _, h2⟩ := bind_eq_ok.mp h2
       cases h2
       cases b <;> first | rfl | exact absurd rfl hne | (cases ht; done))
    | (obtain ⟨_, _, h2⟩ := bind_eq_ok.mp hs
       cases h2
       cases b <;> first | rfl | exact absurd rfl hne | (cases ht; done))

theorem route_frame {h h' : RouteOpt} {a b : HdrAttr} {v : PyVal} (hs : h.setattr v a = .ok h') (hne : b ≠ a)
    (ht : Tied (.route h) a b = false) : (Hdr.route h').getattr b = (Hdr.route h).getattr b := by
  unfold RouteOpt.setattr at hs
  split at hs
  all_goals first
    | (cases hs; done)
    | (obtain ⟨_, _, h2⟩ := bind_eq_ok.mp hs
       obtain ⟨_, _, h2⟩ := bind_eq_ok.mp h2
       cases h2
       cases b <;> first | rfl | exact absurd rfl hne | (cases ht; done))

theorem frag_frame {h h' : Fragment} {a b : HdrAttr} {v : PyVal} (hs : h.setattr v a = .ok h') (hne : b ≠ a)
    (ht : Tied (.frag h) a b = false) : (Hdr.frag h').getattr b = (Hdr.frag h).getattr b := by
  unfold Fragment.setattr at hs
  split at hs
  all_goals first
    | (cases hs; done)
    | (obtain ⟨_, _, h2⟩ := bind_eq_ok.mp hs
       obtain ⟨_, _, h2⟩ := bind_eq_ok.mp h2
       cases h2
       cases b <;> first | rfl | exact absurd rfl hne | (cases ht; done))
    | (obtain ⟨_, _, h2⟩ := bind_eq_ok.mp hs
       cases h2
       cases b <;> first | rfl | exact absurd rfl hne | (cases ht; done))
    | (cases hs
       cases b <;> first | rfl | exact absurd rfl hne | (cases ht; done))

theorem hop_next {loose : Bool} {h h' : HopOpt} {a : HdrAttr} {v : PyVal} (hs : h.setattr loose v a = .ok h') :
    (a = .nextheader ∨ a = .protocol) ∨ h' = h := by
  unfold HopOpt.setattr at hs
  split at hs
  · exact .inl (.inl rfl)
  · exact .inl (.inr rfl)
  · split at hs <;> cases hs
    exact .inr rfl

theorem udp_frame {h h' : UDP} {a b : HdrAttr} {v : PyVal} (hs : h.setattr v a = .ok h') (hne : b ≠ a) :
    (Hdr.udp h').getattr b = (Hdr.udp h).getattr b := by
  unfold UDP.setattr at hs
  split at hs
  all_goals first
    | (cases hs; done)
    | (obtain ⟨_, _, h2⟩ := bind_eq_ok.mp hs
       cases h2
       cases b <;> first | rfl | exact absurd rfl hne)

theorem rip_frame {h h' : RIPv2} {a b : HdrAttr} {v : PyVal} (hs : h.setattr v a = .ok h') (hne : b ≠ a) :
    (Hdr.rip h').getattr b = (Hdr.rip h).getattr b := by
  unfold RIPv2.setattr at hs
  split at hs
  · obtain ⟨_, _, h2⟩ := bind_eq_ok.mp hs
    obtain ⟨_, _, h2⟩ := bind_eq_ok.mp h2
    cases h2
    cases b <;> first | rfl | exact absurd rfl hne
  · cases hs

theorem tcp_frame {h h' : TCP} {a b : HdrAttr} {v : PyVal} (hs : h.setattr v a = .ok h') (hne : b ≠ a)
    (ht : Tied (.tcp h) a b = false) : (Hdr.tcp h').getattr b = (Hdr.tcp h).getattr b := by
  unfold TCP.setattr at hs
  split at hs
  all_goals first
    | (cases hs; done)
    | (obtain ⟨_, _, h2⟩ := bind_eq_ok.mp hs
       cases h2
       cases b with
       | flag f => cases f <;> rfl
       | _ => first | rfl | exact absurd rfl hne | (cases ht; done))
    | (rename_i f
       cases hs
       have key : ∀ g, g ≠ f → (Except.ok (AVal.bool ((h.setflag f (PyVal.truth v)).isset g)) : Res AVal) = .ok (.bool (h.isset g)) := fun g hg => by
         rw [tcp_flag_independent, if_neg hg]
       have other : ∀ x : TCP, x = h.setflag f (PyVal.truth v) → x = { h with flags := x.flags } := by
         intro x hx
         rw [hx]
         unfold TCP.setflag
         split <;> rfl
       have hx := other _ rfl
       cases b with
       | flag g =>
         have hg : g ≠ f := fun e => hne (by rw [e])
         have := key g hg
         cases g <;> exact this
       | _ => first
         | (rw [hx]; rfl)
         | exact absurd rfl hne
         | (cases ht; done))

theorem ip4_frame {h h' : IPv4} {a b : HdrAttr} {v : PyVal} (hs : h.setattr v a = .ok h') (hne : b ≠ a)
    (ht : Tied (.ip4 h) a b = false) (he : ¬ (a = .ecn ∧ b = .dscp)) : (Hdr.ip4 h').getattr b = (Hdr.ip4 h).getattr b := by
  unfold IPv4.setattr at hs
  split at hs
  case h_3 =>
    obtain ⟨n, _, hs⟩ := bind_eq_ok.mp hs
    have hr : 0 ≤ n ∧ n < 64 := by
      unfold IPv4.setDscp at hs
      split at hs
      · assumption
      · cases hs
    obtain ⟨g, h1, _, h3, h4⟩ := ipv4_dscp_independent h n.toNat (by omega)
    rw [Int.toNat_of_nonneg hr.1, hs] at h1
    cases h1
    rw [h4]
    cases b <;> first
      | rfl
      | exact absurd rfl hne
      | (cases ht; done)
      | exact congrArg (fun n : Nat => (Except.ok (AVal.num n) : Res AVal)) h3
  case h_4 =>
    obtain ⟨n, _, hs⟩ := bind_eq_ok.mp hs
    unfold IPv4.setEcn at hs
    split at hs
    · cases hs
      cases b <;> first | rfl | exact absurd rfl hne | (cases ht; done) | exact absurd ⟨rfl, rfl⟩ he
    · cases hs
  all_goals first
    | (cases hs; done)
    | (obtain ⟨n, _, h2⟩ := bind_eq_ok.mp hs
       obtain ⟨_, _, h2⟩ := bind_eq_ok.mp h2
       cases h2
       cases b <;> first | rfl | exact absurd rfl hne | (cases ht; done))
    | (obtain ⟨n, _, h2⟩ := bind_eq_ok.mp hs
       simp only [IPv4.setTtl, IPv4.setTos, IPv4.setIpid, IPv4.setFrag] at h2
       split at h2
       · cases h2
         cases b <;> first | rfl | exact absurd rfl hne | (cases ht; done)
       · cases h2)

/-- Assigning a code changes neither type nor data. -/
theorem setCode_frame {D : Type} {K : ICMPKind D} {h h' : ICMPMsg D} {c : CodeArg} (hs : orRaise (K.setCode h c) = .ok h') :
    h'.type = h.type ∧ h'.data = h.data := by
  unfold orRaise at hs
  split at hs
  · cases hs
    unfold ICMPKind.setCode
    repeat' split
    all_goals exact ⟨rfl, rfl⟩
  · cases hs

theorem icmp_frame {h h' : ICMPMsg ICMPData} {a b : HdrAttr} {v : PyVal} (hs : icmpSetattr h v a = .ok h') (hne : b ≠ a)
    (ht : Tied (.icmp h) a b = false) : (Hdr.icmp h').getattr b = (Hdr.icmp h).getattr b := by
  unfold icmpSetattr at hs
  split at hs
  · cases b <;> first | rfl | exact absurd rfl hne | (cases ht; done)
  · obtain ⟨h1, h2⟩ := setCode_frame hs
    cases b <;> first
      | rfl
      | exact absurd rfl hne
      | exact congrArg (fun n : Nat => (Except.ok (AVal.num n) : Res AVal)) h1
      | exact congrArg (fun d => (Except.ok (AVal.data4 d) : Res AVal)) h2
  · cases b <;> first | rfl | exact absurd rfl hne | (cases ht; done)
  · cases hs

theorem icmp6_frame {h h' : ICMPMsg ICMPv6Data} {a b : HdrAttr} {v : PyVal} (hs : icmp6Setattr h v a = .ok h')
    (hne : b ≠ a) (ht : Tied (.icmp6 h) a b = false) : (Hdr.icmp6 h').getattr b = (Hdr.icmp6 h).getattr b := by
  unfold icmp6Setattr at hs
  split at hs
  case h_3 | h_4 =>
    obtain ⟨h1, h2⟩ := setCode_frame hs
    cases b <;> first
      | rfl
      | exact absurd rfl hne
      | (cases ht; done)
      | exact congrArg (fun n : Nat => (Except.ok (AVal.num n) : Res AVal)) h1
      | exact congrArg (fun d => (Except.ok (AVal.data6 d) : Res AVal)) h2
  case h_6 => cases hs
  all_goals cases b <;> first | rfl | exact absurd rfl hne | (cases ht; done)

/-- **C160**, partial: a successful assignment changes no attribute but the assigned one and those tied to it, for every
header, attribute and value, except that assigning `ecn` may change `dscp` (`ecn_changes_dscp_violated`). -/
theorem setattr_frame_partial (h h' : Hdr) (a b : HdrAttr) (v : PyVal) (hs : h.setattr a v = .ok h') (hne : b ≠ a)
    (ht : Tied h a b = false) (he : ¬ (h.cls = .ip4 ∧ a = .ecn ∧ b = .dscp)) : h'.getattr b = h.getattr b := by
  cases h
  case null =>
    simp only [Hdr.setattr] at hs
    split at hs
    · rename_i ha
      subst ha
      obtain ⟨g, _, rfl⟩ := map_ok hs
      cases b <;> first | rfl | exact absurd rfl hne
    · cases hs
  case raw => cases hs
  case nullHdr => cases hs; rfl
  case hop h | dst h =>
    obtain ⟨g, hg, rfl⟩ := map_ok hs
    rcases hop_next hg with (rfl | rfl) | rfl
    · cases b <;> first | rfl | exact absurd rfl hne | (cases ht; done)
    · cases b <;> first | rfl | exact absurd rfl hne | (cases ht; done)
    · rfl
  all_goals
    obtain ⟨g, hg, rfl⟩ := map_ok hs
    first
      | exact eth_frame hg hne
      | exact vlan_frame hg hne
      | exact arp_frame hg hne
      | exact ip4_frame hg hne ht (fun e => he ⟨rfl, e⟩)
      | exact ip6_frame hg hne ht
      | exact route_frame hg hne ht
      | exact frag_frame hg hne ht
      | exact udp_frame hg hne
      | exact tcp_frame hg hne ht
      | exact icmp_frame hg hne ht
      | exact icmp6_frame hg hne ht
      | exact rip_frame hg hne

/-- **C160** is false of the code: for every IPv4 header with an odd DSCP and every congestion value, assigning `ecn`
makes the DSCP another one. -/
theorem ecn_changes_dscp_violated (h : IPv4) (ht : h.tos < 256) (hd : h.dscp % 2 = 1) (v : Int) (hv : 0 ≤ v ∧ v < 4) :
    ∃ h' x y, (Hdr.ip4 h).setattr .ecn (some (.num v)) = .ok h' ∧ (Hdr.ip4 h).getattr .dscp = .ok x ∧
      h'.getattr .dscp = .ok y ∧ x ≠ y := by
  refine ⟨.ip4 { h with tos := (h.tos &&& 0xfa) ||| v.toNat }, .num h.dscp, .num (((h.tos &&& 0xfa) ||| v.toNat) >>> 2 : Nat),
    ?_, rfl, rfl, ?_⟩
  · simp only [Hdr.setattr, IPv4.setattr, PyVal.rangeArg, PyVal.number, bind_ok, IPv4.setEcn, if_pos hv]
    rfl
  · intro e
    obtain ⟨n, rfl⟩ := Int.eq_ofNat_of_zero_le hv.1
    have hn : n < 4 := by omega
    have key : ∀ t, t < 256 → ∀ n, n < 4 → (t >>> 2) % 2 = 1 → t >>> 2 ≠ ((t &&& 0xfa) ||| n) >>> 2 := by decide +kernel
    refine key h.tos ht n hn hd ?_
    exact Int.ofNat_inj.mp (AVal.num.inj e)

/-! ## Attributes a header does not have -/

/-- **C161**, partial: assigning an attribute that a header does not have raises `AttributeError` and changes nothing, for
every header but destination options and `NullPacketHeader`. -/
theorem unknown_attr_partial (h : Hdr) (a : HdrAttr) (v : PyVal) (ha : h.attrs.lookup a = none) (h1 : h.cls ≠ .dst)
    (h2 : h.cls ≠ .nullHdr) : h.setattr a v = .error .attributeError := by
  cases h
  case dst => exact absurd rfl h1
  case nullHdr => exact absurd rfl h2
  case raw => rfl
  all_goals cases a <;> first | rfl | (cases ha; done) | skip
  all_goals (rename_i f; cases f <;> cases ha)

/-- **C161** is false of the code: destination options and the null header take every name and every value, and nothing
changes. -/
theorem unknown_attr_violated (h : Hdr) (a : HdrAttr) (v : PyVal) (ha : h.attrs.lookup a = none)
    (hc : h.cls = .dst ∨ h.cls = .nullHdr) : h.setattr a v = .ok h := by
  cases h <;> first | (rcases hc with hc | hc <;> cases hc; done) | skip
  · cases a <;> first | rfl | (cases ha; done)
  · rfl

/-! ## Several values copied from a packet sent -/

/-- What copying values from the packets sent (`l`) makes of a packet: for each of them in turn, the attribute of the
first header of the class is replaced by the value in the packet sent on the interface; everything else stays. -/
inductive Copied (l : List (List Char × Packet)) : Packet → List Copy → Packet → Prop
  | nil (q : Packet) : Copied l q [] q
  | cons (q q' : Packet) (c : Copy) (cs : List Copy) (s : Packet) (g h h' : Hdr) (v : AVal) (pre post : Packet)
      (hs : (c.intf, s) ∈ l) (hg : s.getHeader c.outCls = some (.hdr g)) (hv : g.getattr c.outAttr = .ok v)
      (h1 : c.outAttr ≠ .totalLength) (h2 : c.outAttr ≠ .length) (hq : q = pre ++ .hdr h :: post)
      (hn : ∀ it ∈ pre, it.isA c.inCls = false) (hh : (Item.hdr h).isA c.inCls = true)
      (ht : h.setattr c.inAttr (some v) = .ok h') (rest : Copied l (pre ++ .hdr h' :: post) cs q') :
      Copied l q (c :: cs) q'

theorem setattr_at {c : Cls} {a : HdrAttr} {v : PyVal} {pre post : Packet} {h h' : Hdr}
    (hn : ∀ it ∈ pre, it.isA c = false) (hh : (Item.hdr h).isA c = true) (ht : h.setattr a v = .ok h') :
    Packet.setattr c a v (pre ++ .hdr h :: post) = .ok (pre ++ .hdr h' :: post) := by
  induction pre with
  | nil => simp only [List.nil_append, Packet.setattr, hh, if_true, Item.setattr, ht]; rfl
  | cons it pre ih =>
    simp only [List.cons_append, Packet.setattr, hn it List.mem_cons_self, Bool.false_eq_true, if_false,
      ih fun x hx => hn x (List.mem_cons_of_mem _ hx)]
    rfl

/-- **C150**, partial: as `copy_delivered_partial`, for any number of values: the packet delivered is the one of the
expectation with each of the values copied in turn. -/
theorem copies_delivered_partial (n : TestNet) (o x : Entry) (mid xs : List Entry) (w : Dict (List Char) Matcher)
    (l : List (List Char × Packet)) (dev : List Char) (p p' q q' : Packet) (f : Option Cls) (b : Bytes) (cs : List Copy)
    (hp : n.scen.pending = o :: (mid ++ x :: xs)) (ho : o.event = .output w []) (hu : w.Uniq) (hw : w ≠ [])
    (hl : Covers w l) (hm : ∀ y ∈ mid, y.event.isOutput = false ∧ Usable n.scen.ifaces y.event)
    (hx : x.event = .input dev p f cs) (hd : dev ∈ n.scen.ifaces.keys) (hb : p.toBytes = (p', .ok b))
    (hq : Packet.parse b f = .ok q) (hc : Copied l q cs q') :
    ∃ n', program n (sends l ++ List.replicate mid.length .recv) = (n', none) ∧ n'.recv.2 = .ok ⟨n'.ts, dev, q'⟩ := by
  obtain ⟨n1, d, h1, h2, h3, h4, h5, _⟩ := sends_kept hp ho hu hw hl
  obtain ⟨n2, g1, g2, g3, g4⟩ := recvs_kept h2 (by rw [h3]; exact hm)
  refine ⟨n2, by rw [program_append, h1]; exact g1, ?_⟩
  have key : applyCopies n2.scen.lastout cs q = (q', none) := by
    rw [g4, h4]
    clear hq hx
    induction hc with
    | nil q => rfl
    | cons q q' c cs s g h h' v pre post hs hg hv e1 e2 hq hn hh ht rest ih =>
      obtain ⟨m, _, hadm⟩ := hl.2 _ hs
      obtain ⟨s', bs, hsb⟩ := admits_serialises hadm
      obtain ⟨g', hg', ha⟩ := serialised_attr hsb hg e1 e2
      have h6 := h5 _ hs
      rw [hsb] at h6
      have hlast : lastoutOf (some d) c.intf c.outCls c.outAttr = .ok (some v) := by
        simp only [lastoutOf, h6, hg', Item.getattr, ha, hv]
        rfl
      unfold applyCopies
      rw [hlast, bind_ok, hq, setattr_at hn hh ht]
      exact ih
  obtain ⟨_, _, h3'⟩ := testpass_lists g2
  have hl' := testpass_lastout g2
  rw [hx] at hl'
  simp only [Event.lastout] at hl'
  simp [TestNet.recv, Scenario.next, g2, hx, Event.matchInput, Event.generate, h3', hb, hq, deliverOn, g3, h3, hd, hl', key]

-- two values: source and destination exchanged
example (e e0 : Ethernet) (h1 : e.src.raw ≠ []) (h2 : e.dst.raw ≠ []) :
    Copied [("r0".toList, [.hdr (.eth e)])] [.hdr (.eth e0)]
      [⟨"r0".toList, .eth, .src, .eth, .dst⟩, ⟨"r0".toList, .eth, .dst, .eth, .src⟩]
      [.hdr (.eth ⟨e.src, e.dst, e0.ethertype⟩)] :=
  .cons _ _ _ _ [.hdr (.eth e)] (.eth e) (.eth e0) (.eth { e0 with dst := e.src }) (.eth e.src) [] [] (by simp) rfl rfl
    (by decide) (by decide) rfl (by simp) rfl
    (by simp [Hdr.setattr, Ethernet.setattr, PyVal.ethArg, Ethernet.setDst, EthAddr.mk'_addr h1, bind_ok, map_ok])
    (.cons _ _ _ _ [.hdr (.eth e)] (.eth e) (.eth { e0 with dst := e.src }) (.eth ⟨e.src, e.dst, e0.ethertype⟩) (.eth e.dst)
      [] [] (by simp) rfl rfl (by decide) (by decide) rfl (by simp) rfl
      (by simp [Hdr.setattr, Ethernet.setattr, PyVal.ethArg, Ethernet.setSrc, EthAddr.mk'_addr h2, bind_ok, map_ok])
      (.nil _))

/-! ## Booleans -/

/-- A boolean is assigned like the number 0 or 1, to every attribute of every header. -/
theorem setattr_bool (h : Hdr) (a : HdrAttr) (b : Bool) :
    h.setattr a (some (.bool b)) = h.setattr a (some (.num b.toNat)) := by
  cases b <;> cases h <;> cases a <;> rfl

example (h : TCP) : Tied (.tcp h) (.flag .SYN) (.flag .ACK) = false := rfl
example (h : IPv4) : Tied (.ip4 h) .dscp .ecn = false ∧ Tied (.ip4 h) .tos .dscp = true := ⟨rfl, rfl⟩
example (h : IPv4) : (Hdr.ip4 h).attrs.lookup .seq = none := rfl

end SY.Props
