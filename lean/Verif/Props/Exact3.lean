import Verif.Props.Exact
import Verif.Props.Host
import Verif.IPv6

/-! # Further exact results, found missing by editing the model -/

namespace SY.Props

open SY

variable {α : Type}

/-! ## C143: what the words of `monitor` ask for -/

/-- The monitor a user asks for with the word `w` and the words after it: a prefix of `dump`, `pcap` or `file` asks for a
capture (with the next word, if any, in the file's name), a prefix of `debug`, `inspect` or `trace` for inspection. -/
inductive Asks (w : Name) (ws : List Name) : (Name → Name → Mon) → MonHow → Prop
  | capture (k : String) : k ∈ ["dump", "pcap", "file"] → w <+: k.toList →
      Asks w ws (fun n i => .pcap (pcapName n i (ws.head?.getD []))) (.pcap (ws.head?.getD []))
  | inspect (k : String) : (∀ c ∈ ["dump", "pcap", "file"], ¬ w <+: String.toList c) → k ∈ ["debug", "inspect", "trace"] →
      w <+: k.toList → Asks w ws (fun _ _ => .debug) .debug

theorem asks_how {w : Name} {ws : List Name} {m : Name → Name → Mon} {how : MonHow} (h : Asks w ws m how) :
    monitorHow (w :: ws) = some how := by
  simp only [monitorHow]
  cases h with
  | capture k hk hw =>
    rw [if_pos]
    simp only [Bool.or_eq_true, pre_iff]
    simp only [List.mem_cons, List.not_mem_nil, or_false] at hk
    rcases hk with rfl | rfl | rfl
    · exact .inl (.inl hw)
    · exact .inl (.inr hw)
    · exact .inr hw
  | inspect k hn hk hw =>
    rw [if_neg, if_pos]
    · simp only [Bool.or_eq_true, pre_iff]
      simp only [List.mem_cons, List.not_mem_nil, or_false] at hk
      rcases hk with rfl | rfl | rfl
      · exact .inl (.inl hw)
      · exact .inl (.inr hw)
      · exact .inr hw
    · simp only [Bool.or_eq_true, pre_iff, not_or]
      exact ⟨⟨hn _ (by simp), hn _ (by simp)⟩, hn _ (by simp)⟩

/-- What `addMonitor` does to the interfaces of a node that is not stopped, as a user sees it. -/
theorem eachPlace_add (co : Name → Bool) (how : MonHow) (m : Name → Name → Mon) (ps : List (Name × Name)) (g : Glue α)
    (hm : ∀ g : Glue α, ∀ p ∈ ps, ∀ x, g.xnode.get? p.1 = some x → x.phase ≠ .stopped →
      ∃ c, g.addMonitor co p.1 p.2 how = (⟨g.xnode.set p.1 { x with mons := x.mons.set p.2 (m p.1 p.2) },
        g.mons.set p c, g.registered ++ [.made (m p.1 p.2)]⟩, none))
    (h : ∀ p ∈ ps, ∃ x, g.xnode.get? p.1 = some x ∧ x.phase ≠ .stopped) :
    (eachPlace (fun g n i => g.addMonitor co n i how) g ps).2 = false ∧
    ∀ n x, g.xnode.get? n = some x → ∃ y, (eachPlace (fun g n i => g.addMonitor co n i how) g ps).1.xnode.get? n = some y ∧
      y.phase = x.phase ∧ ∀ i, y.mons.get? i = if (n, i) ∈ ps then some (m n i) else x.mons.get? i := by
  induction ps generalizing g with
  | nil => exact ⟨rfl, fun n x hx => ⟨x, hx, rfl, by simp⟩⟩
  | cons p ps ih =>
    obtain ⟨n, i⟩ := p
    obtain ⟨x, hx, hp⟩ := h (n, i) (by simp)
    obtain ⟨c, e⟩ := hm g (n, i) (by simp) x hx hp
    simp only at hx e
    have hg : ∀ q ∈ ps, ∃ x, (g.addMonitor co n i how).1.xnode.get? q.1 = some x ∧ x.phase ≠ .stopped := by
      intro q hq
      obtain ⟨z, hz, hzp⟩ := h q (by simp [hq])
      rw [e]
      simp only [Dict.get?_set]
      by_cases hn : n = q.1
      · refine ⟨_, by rw [if_pos hn], ?_⟩
        exact hp
      · exact ⟨z, by rw [if_neg hn]; exact hz, hzp⟩
    obtain ⟨h1, h2⟩ := ih _ (fun g q hq => hm g q (by simp [hq])) hg
    refine ⟨by simp only [eachPlace]; rw [h1, e]; rfl, ?_⟩
    intro k z hz
    simp only [eachPlace]
    by_cases hn : n = k
    · subst hn
      rw [hx] at hz
      cases hz
      obtain ⟨y, hy1, hy2, hy3⟩ := h2 n { x with mons := x.mons.set i (m n i) } (by rw [e]; simp [Dict.get?_set])
      refine ⟨y, hy1, hy2, fun j => ?_⟩
      rw [hy3 j]
      simp only [Dict.get?_set, List.mem_cons, Prod.mk.injEq, true_and]
      by_cases hj : (n, j) ∈ ps
      · simp [hj]
      · by_cases hij : i = j
        · subst hij; simp [hj]
        · simp [hj, hij, Ne.symm hij]
    · obtain ⟨y, hy1, hy2, hy3⟩ := h2 k z (by rw [e]; simpa [Dict.get?_set, hn] using hz)
      refine ⟨y, hy1, hy2, fun j => ?_⟩
      rw [hy3 j]
      simp [Ne.symm hn]

/-- **C143**: `monitor` in a steady simulation, with words naming places and then a way of monitoring, attaches such a monitor
at exactly these places (files permitting) and complains about nothing. -/
theorem monitor_command (c : Cli α) (env : CliEnv α) (line arg : Name) (ws : List Name) (hl : cliCall line = .run .monitor arg)
    (hws : splitWords [] arg = ws) (ps : List (Name × Name)) (w : Name) (rest : List Name)
    (hp : monitorWhere c.topo ws = some (ps, w :: rest)) (m : Name → Name → Mon) (how : MonHow) (ha : Asks w rest m how)
    (hx : ∀ p ∈ ps, ∃ x, c.glue.xnode.get? p.1 = some x ∧ x.phase ≠ .stopped)
    (hf : ∀ p ∈ ps, ∀ f, m p.1 p.2 = .pcap f → env.canOpen f = true) :
    (c.onecmd env line).2 = .done false ∧ (c.onecmd env line).1.topo = c.topo ∧
    ∀ n x, c.glue.xnode.get? n = some x → ∃ y, (c.onecmd env line).1.glue.xnode.get? n = some y ∧
      ∀ i, y.mons.get? i = if (n, i) ∈ ps then some (m n i) else x.mons.get? i := by
  have e : c.onecmd env line = c.doMonitor env ws := by simp only [Cli.onecmd, hl, Cli.command, hws]
  have e2 : c.doMonitor env ws = ({ c with glue := (eachPlace (fun g n i => g.addMonitor env.canOpen n i how) c.glue ps).1 },
     .done (eachPlace (fun g n i => g.addMonitor env.canOpen n i how) c.glue ps).2) := by
    simp only [Cli.doMonitor, hp, asks_how ha]
  obtain ⟨h1, h2⟩ := eachPlace_add env.canOpen how m ps c.glue (by
    intro g p hpm x hx hst
    cases ha with
    | capture k hk hw =>
      have := hf p hpm _ rfl
      exact ⟨.pcapMonitor, by simp [Glue.addMonitor, MonHow.cls, hx, Glue.attachNew, MonHow.make, this, Glue.registerMon,
        Glue.onNode, NodeExec.attach, hst]⟩
    | inspect k hn hk hw =>
      exact ⟨.interactiveMonitor, by simp [Glue.addMonitor, MonHow.cls, hx, Glue.attachNew, MonHow.make, Glue.registerMon,
        Glue.onNode, NodeExec.attach, hst]⟩) hx
  rw [e, e2]
  refine ⟨by rw [h1], rfl, fun n x hn => ?_⟩
  obtain ⟨y, hy1, _, hy3⟩ := h2 n x hn
  exact ⟨y, hy1, hy3⟩

example : cliCall "monitor h0 eth0 file x".toList = .run .monitor "h0 eth0 file x".toList ∧
    monitorWhere simTopo ["h0".toList, "eth0".toList, "file".toList, "x".toList] =
      some ([("h0".toList, "eth0".toList)], ["file".toList, "x".toList]) := by decide +kernel

example : Asks "file".toList ["x".toList] (fun n i => .pcap (pcapName n i "x".toList)) (.pcap "x".toList) :=
  .capture "file" (by simp) (by exact List.prefix_refl _)

/-! ## C55: rules added on macOS -/

/-- **C55**: on macOS, when its process can be started, a rule that is added is loaded: the anchor holds its lines and
nothing else, which is why rules added before are lost. -/
theorem mac_rule_loaded (env : HostEnv) (h : FwHost) (fw : MacFirewall) (r : List Char) (rs : List PfRule)
    (hr : macParseRule fw.interfaces r = .ok rs) :
    (env.spawns h.ran = true →
      Firewall.addRule env ⟨h, some (some (.mac fw))⟩ r =
        (⟨⟨h.machine, rs, h.refs, h.ran + 1⟩, some (some (.mac { fw with rules := fw.rules ++ rs }))⟩, none)) ∧
    (env.spawns h.ran = false →
      (Firewall.addRule env ⟨h, some (some (.mac fw))⟩ r).1.host.anchor = h.anchor ∧
      (Firewall.addRule env ⟨h, some (some (.mac fw))⟩ r).2 = some .attributeError) := by
  constructor <;> intro hs <;> simp [Firewall.addRule, Delegate.addRule, hr, runCmd, hs, SY.errOf]

/-! ## C83: integers as IPv6 addresses -/

/-- **C83**: an integer is an IPv6 address exactly if it has at most 128 bits and no sign. -/
theorem ipv6_address_int (v : Int) (a : BitVec 128) : ipv6Address (.int v) = .ok a ↔ v = (a.toNat : Int) := by
  simp only [ipv6Address]
  constructor
  · intro h
    split at h
    · rename_i hv
      cases h
      rw [BitVec.toNat_ofNat, Nat.mod_eq_of_lt (by omega)]
      omega
    · cases h
  · rintro rfl
    have := a.isLt
    rw [if_pos ⟨by omega, by omega⟩]
    simp

theorem ipv6_address_int_refused (v : Int) (h : v < 0 ∨ (2 ^ 128 : Int) ≤ v) : ipv6Address (.int v) = .error .addressValue := by
  simp only [ipv6Address]
  rw [if_neg]
  intro hv
  have : ((2 ^ 128 : Nat) : Int) = (2 ^ 128 : Int) := by rfl
  omega

example : ipv6Address (.int (2 ^ 128)) = .error .addressValue ∧ ipv6Address (.int (2 ^ 128 - 1)) = .ok (BitVec.allOnes 128) := by
  decide +kernel

/-! ## C44: subclasses -/

/-- The class statements `class c(d)` of the packet library. -/
inductive Extends : Cls → Cls → Prop
  | icmp6 : Extends .icmp6 .icmp
  | dst : Extends .dst .hop
  | hop : Extends .hop .ext
  | route : Extends .route .ext
  | frag : Extends .frag .ext
  | direct (c : Cls) : c ∈ [Cls.eth, .vlan, .arp, .ip4, .ip6, .ext, .udp, .tcp, .icmp, .rip, .null, .raw, .nullHdr] → Extends c .base

/-- A class is a subclass of itself and of what its superclasses are subclasses of. -/
inductive Derives : Cls → Cls → Prop
  | refl (c : Cls) : Derives c c
  | step {c d e : Cls} : Extends c d → Derives d e → Derives c e

/-- **C44**: a header counts as one of a class exactly if its class derives from that class. -/
theorem header_isa (h : Hdr) (c : Cls) : (Item.hdr h).isA c = true ↔ Derives h.cls c := by
  constructor
  · intro hh
    have key : ∀ a b : Cls, a.isSub b = true → Derives a b := by
      have hb : ∀ a : Cls, Derives a .base := by
        have dir : ∀ a ∈ [Cls.eth, .vlan, .arp, .ip4, .ip6, .ext, .udp, .tcp, .icmp, .rip, .null, .raw, .nullHdr], Derives a .base :=
          fun a ha => .step (.direct a ha) (.refl _)
        intro a
        cases a with
        | base => exact .refl _
        | icmp6 => exact .step .icmp6 (dir _ (by decide))
        | dst => exact .step .dst (.step .hop (dir _ (by decide)))
        | hop => exact .step .hop (dir _ (by decide))
        | route => exact .step .route (dir _ (by decide))
        | frag => exact .step .frag (dir _ (by decide))
        | _ => exact dir _ (by decide)
      intro a b hs
      by_cases hab : a = b
      · exact hab ▸ .refl _
      · cases b with
        | base => exact hb a
        | ext =>
          cases a with
          | dst => exact .step .dst (.step .hop (.refl _))
          | hop => exact .step .hop (.refl _)
          | route => exact .step .route (.refl _)
          | frag => exact .step .frag (.refl _)
          | _ => first | exact absurd rfl hab | exact absurd hs (by decide)
        | hop =>
          cases a with
          | dst => exact .step .dst (.refl _)
          | _ => first | exact absurd rfl hab | exact absurd hs (by decide)
        | icmp =>
          cases a with
          | icmp6 => exact .step .icmp6 (.refl _)
          | _ => first | exact absurd rfl hab | exact absurd hs (by decide)
        | _ => cases a <;> first | exact absurd rfl hab | exact absurd hs (by decide)
    exact key _ _ hh
  · intro hd
    show h.cls.isSub c = true
    generalize h.cls = a at hd
    induction hd with
    | refl c => simp [Cls.isSub]
    | @step c d e hx _ ih =>
      revert ih
      cases hx with
      | direct a ha =>
        cases e <;> first | exact fun h => absurd h (by decide) | (intro _; simp [Cls.isSub])
      | _ => cases e <;> decide

example (h : HopOpt) : (Item.hdr (.dst h)).isA .ext = true ∧ (Item.hdr (.dst h)).isA .hop = true ∧ (Item.hdr (.dst h)).isA .frag = false :=
  ⟨rfl, rfl, rfl⟩

end SY.Props
