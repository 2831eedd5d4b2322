import Verif.Props.PacketRT

/-! # Property C41 for packets with IPv4 options -/

namespace SY.Props

/-- A storable header, or an IPv4 header with options that fit, padding included. -/
def StorableOpt (h : Hdr) : Prop :=
  Storable h ∨ ∃ a, h = .ip4 a ∧ IPv4.WF { a with totallen := 0 } ∧ (∀ o ∈ a.options, o.WF) ∧
    (a.options.map IPOpt.length).sum + padCount a.options ≤ 40

/-- As `Stack`, with options. -/
def StackOpt : Cls → Packet → Prop
  | c, .hdr h :: rest => h.cls = c ∧ StorableOpt h ∧
      match h.next with
      | .ok (some c') => StackOpt c' rest
      | .ok none => rest = [] ∨ (¬ Swallows h ∧ ∃ x xs, rest = [.hdr (.raw (x :: xs))])
      | .error _ => False
  | _, _ => False

/-- Options with their padding: one end-of-list option for every byte that is missing to the next multiple of
four, and four if none is missing; none without options. -/
def padOpts (l : List IPOpt) : List IPOpt :=
  l ++ List.replicate (if l = [] then 0 else 4 - (l.map IPOpt.length).sum % 4) (.single 0)

/-- The header with its padding among its options. -/
def padHdr : Hdr → Hdr
  | .ip4 a => .ip4 { a with options := padOpts a.options }
  | h => h

def padItem : Item → Item
  | .hdr h => .hdr (padHdr h)
  | x => x

theorem storableOpt_other {h : Hdr} (hs : StorableOpt h) (hn : ∀ a, h ≠ .ip4 a) : Storable h := by
  rcases hs with hs | ⟨a, rfl, _⟩
  · exact hs
  · exact absurd rfl (hn a)

theorem padHdr_other {h : Hdr} (hn : ∀ a, h ≠ .ip4 a) : padHdr h = h := by
  cases h <;> first | rfl | exact (hn _ rfl).elim

theorem pre_class {h h' : Hdr} {t : Bytes} {ctx : Packet} (e : h.pre t ctx = .ok h') (hn : ∀ a, h ≠ .ip4 a) : ∀ a, h' ≠ .ip4 a := by
  intro a ha
  have := (Hdr.pre_keys e).1
  subst ha
  cases h <;> simp only [Hdr.cls, reduceCtorEq] at this
  exact hn _ rfl

/-- Parsing the bytes of a finalised header, whatever follows, gives the header back with its padding. -/
theorem hdr_roundtrip_opt {h h' : Hdr} {t b : Bytes} {ctx : Packet} (hs : StorableOpt h) (hp : h.pre t ctx = .ok h')
    (hb : h'.toBytes = .ok b) (rest : Bytes) (hr : Swallows h → rest = []) :
    ∃ h'' r, h.cls.fromBytes (b ++ rest) = .ok (h'', r) ∧ r.getD [] = rest ∧ (¬ Swallows h → r = some rest) ∧
      unsum h'' = unsum (padHdr h') ∧ h''.next = h.next := by
  by_cases hn : ∃ a, h = .ip4 a
  · obtain ⟨a, rfl⟩ := hn
    have hw : IPv4.WF { a with totallen := 0 } ∧ (∀ o ∈ a.options, o.WF) ∧
        (a.options.map IPOpt.length).sum + padCount a.options ≤ 40 := by
      rcases hs with hs | ⟨a', ha, h1, h2, h3⟩
      · exact ⟨hs.1, by simp [hs.2], by simp [hs.2, padCount]⟩
      · cases ha; exact ⟨h1, h2, h3⟩
    obtain ⟨hw1, hw2, hw3⟩ := hw
    simp only [Hdr.pre] at hp
    obtain ⟨a', ha, rfl⟩ := map_eq_ok.mp hp
    unfold IPv4.preSerialize at ha
    obtain ⟨n, _, ha⟩ := bind_eq_ok.mp ha
    cases ha
    simp only [Hdr.toBytes] at hb
    obtain ⟨o, d0, d, c, _, hd0, _, _, _⟩ := IPv4.toBytes_inv hb
    have hi := pack_ints hd0
    simp only [IntsFit, IPv4.fmt, IPv4.vals] at hi
    have hw : IPv4.WF { a with totallen := n + t.length } := by
      obtain ⟨w1, w2, w3, w4, w5, w6, w7, w8, w9⟩ := hw1
      exact ⟨w1, by simp only; omega, w3, w4, w5, w6, w7, w8, w9⟩
    obtain ⟨b', hb', _, hf⟩ := IPv4.toBytes_ok hw hw2 hw3
    rw [hb] at hb'
    cases hb'
    refine ⟨.ip4 { a with totallen := n + t.length, options := padOpts a.options }, some rest, ?_, rfl, fun _ => rfl, rfl, rfl⟩
    have hf' := hf rest
    simp only [Hdr.cls, Cls.fromBytes, hf']
    rfl
  · have hn' : ∀ a, h ≠ .ip4 a := fun a ha => hn ⟨a, ha⟩
    obtain ⟨h'', r, g1, g2, g3, g4, g5⟩ := hdr_roundtrip (storableOpt_other hs hn') hp hb rest hr
    exact ⟨h'', r, g1, g2, g3, by rw [padHdr_other (pre_class hp hn')]; exact g4, g5⟩

theorem stackOpt_parse {p : Packet} {c : Cls} {ctx p' : Packet} {bs : List Bytes} (hs : StackOpt c p)
    (hf : finish ctx [] p = .ok (p', bs)) (acc : Packet) :
    ∃ q, parseLoop p.length c bs.flatten acc = some (.ok (acc ++ q)) ∧ q.map unsumItem = p'.map fun x => unsumItem (padItem x) := by
  induction p generalizing c p' bs acc with
  | nil => cases hs
  | cons x rest ih =>
    cases x with
    | bytes _ => cases hs
    | other _ => cases hs
    | hdr h =>
      simp only [StackOpt] at hs
      obtain ⟨hc, hst, hn⟩ := hs
      simp only [finish] at hf
      obtain ⟨r, hr, hf⟩ := bind_eq_ok.mp hf
      obtain ⟨x', hx, hf⟩ := bind_eq_ok.mp hf
      obtain ⟨b, hb, hf⟩ := bind_eq_ok.mp hf
      cases hf
      simp only [Item.pre] at hx
      obtain ⟨h', hx', rfl⟩ := map_eq_ok.mp hx
      clear hx
      replace hx := hx'
      simp only [Item.toBytes] at hb
      simp only [List.append_nil] at hx
      have hsw : Swallows h → r.2.flatten = [] := by
        intro hw
        cases hq : h.next with
        | error e => rw [hq] at hn; cases hn
        | ok o =>
          cases o with
          | none =>
            rw [hq] at hn
            rcases hn with rfl | ⟨hnw, _⟩
            · cases hr; rfl
            · exact absurd hw hnw
          | some c' =>
            exfalso
            rcases hw with hw | hw | hw <;>
              (cases h <;> simp only [Hdr.cls, reduceCtorEq] at hw; simp [Hdr.next] at hq)
      obtain ⟨h'', o, g1, g2, g3, g4, g5⟩ := hdr_roundtrip_opt hst hx hb r.2.flatten hsw
      rw [hc] at g1
      simp only [List.length_cons, List.flatten_cons, parseLoop, g1, g5]
      cases hq : h.next with
      | error e => rw [hq] at hn; cases hn
      | ok k =>
        rw [hq] at hn
        cases k with
        | none =>
          simp only at hn ⊢
          rcases hn with rfl | ⟨hnw, y, ys, rfl⟩
          · cases hr
            refine ⟨[.hdr h''], ?_, by simp [unsumItem, padItem, padHdr, g4]⟩
            simp only [List.flatten_nil] at g2
            cases o with
            | none => rfl
            | some w => simp only [Option.getD_some] at g2; subst g2; rfl
          · simp only [finish, bind_ok, Item.pre, Hdr.pre, map_ok, Item.toBytes, Hdr.toBytes] at hr
            cases hr
            rw [g3 hnw]
            exact ⟨[.hdr h'', .hdr (.raw (y :: ys))], by simp [parseEnd], by simp [unsumItem, padItem, padHdr, g4]⟩
        | some c' =>
          simp only at hn ⊢
          obtain ⟨q, k1, k2⟩ := ih hn hr (acc ++ [.hdr h''])
          rw [g2]
          exact ⟨.hdr h'' :: q, by rw [k1]; simp, by simp [unsumItem, padItem, g4, k2]⟩

/-- The headers of a finalised stack can be compared, and the stack compares equal to the original. -/
theorem stackOpt_comparable {c : Cls} {p ctx p' : Packet} {tail : Bytes} {bs : List Bytes} (hs : StackOpt c p)
    (hf : finish ctx tail p = .ok (p', bs)) :
    AllComparable p' ∧ AllComparable p ∧ p'.map itemCls = p.map itemCls ∧ p'.map itemKey = p.map itemKey := by
  induction p generalizing c p' bs with
  | nil => cases hs
  | cons x rest ih =>
    cases x with
    | bytes _ => cases hs
    | other _ => cases hs
    | hdr h =>
      simp only [StackOpt] at hs
      obtain ⟨hc, hst, hn⟩ := hs
      simp only [finish] at hf
      obtain ⟨r, hr, hf⟩ := bind_eq_ok.mp hf
      obtain ⟨x', hx, hf⟩ := bind_eq_ok.mp hf
      obtain ⟨b, hb, hf⟩ := bind_eq_ok.mp hf
      cases hf
      simp only [Item.pre] at hx
      obtain ⟨h', hx', rfl⟩ := map_eq_ok.mp hx
      clear hx
      replace hx := hx'
      simp only [Item.toBytes] at hb
      obtain ⟨d1, _, d3⟩ := pre_derived hx
      obtain ⟨d4, _⟩ := Hdr.pre_keys hx
      have hcomp : Comparable h := by
        cases h with
        | icmp m => exact (storableOpt_other hst (by rintro _ ⟨⟩)).1.2
        | icmp6 m => exact (storableOpt_other hst (by rintro _ ⟨⟩)).1.2
        | route a => cases hx; exact ⟨b, hb⟩
        | frag a => cases hx; exact ⟨b, hb⟩
        | hop a => cases hx; exact ⟨b, hb⟩
        | dst a => cases hx; exact ⟨b, hb⟩
        | rip a => cases hx; exact ⟨b, hb⟩
        | _ => trivial
      have hrest : AllComparable r.1 ∧ AllComparable rest ∧ r.1.map itemCls = rest.map itemCls ∧
          r.1.map itemKey = rest.map itemKey := by
        cases hq : h.next with
        | error e => rw [hq] at hn; cases hn
        | ok k =>
          rw [hq] at hn
          cases k with
          | some c' => exact ih hn hr
          | none =>
            rcases hn with rfl | ⟨_, y, ys, rfl⟩
            · cases hr
              exact ⟨fun a ha => (by cases ha), fun a ha => (by cases ha), rfl, rfl⟩
            · simp only [finish, bind_ok, Item.pre, Hdr.pre, map_ok, Item.toBytes, Hdr.toBytes] at hr
              cases hr
              refine ⟨?_, ?_, rfl, rfl⟩ <;>
              · intro a ha
                simp only [List.mem_cons, List.not_mem_nil, or_false, Item.hdr.injEq] at ha
                subst ha; trivial
      obtain ⟨q1, q2, q3, q4⟩ := hrest
      refine ⟨?_, ?_, by simp [itemCls, d4, q3], by simp [itemKey, d1, q4]⟩
      · intro a ha
        rcases List.mem_cons.mp ha with ha | ha
        · cases ha; exact d3 hcomp
        · exact q1 a ha
      · intro a ha
        rcases List.mem_cons.mp ha with ha | ha
        · cases ha; exact hcomp
        · exact q2 a ha

/-- **C41**, partial, with IPv4 options: for every stack of such headers that serialises, parsing the bytes from the class of the
first header gives the same headers in the same order with the same contents, except that options are followed by
their padding, read as end-of-list options (and that the TCP checksum is forgotten and ICMP's is filled in); the result
compares equal to the packet.  Missing: what is missing in `packet_roundtrip_partial` apart from options; with options
the bytes of the result are others (`packet_options_violated`). -/
theorem packet_roundtrip_options_partial (c : Cls) (p p' : Packet) (b : Bytes) (hs : StackOpt c p) (h : p.toBytes = (p', .ok b)) :
    ∃ q, Packet.parse b (some c) = .ok q ∧ q.map unsumItem = (p'.map padItem).map unsumItem ∧ q.eq p = .ok true := by
  obtain ⟨bs, hf, rfl⟩ := toBytes_inv h
  obtain ⟨q, hq1, hq2⟩ := stackOpt_parse hs hf []
  rw [List.nil_append] at hq1
  have hne : bs.flatten ≠ [] := by
    intro he
    have hcn : c ≠ .nullHdr := by
      rintro rfl
      cases p with
      | nil => cases hs
      | cons x p =>
        cases x with
        | hdr a =>
          have hs1 := hs.1
          cases a <;> simp only [Hdr.cls, reduceCtorEq] at hs1
          exact storableOpt_other hs.2.1 (by rintro _ ⟨⟩)
        | _ => cases hs
    obtain ⟨e, hx⟩ := fromBytes_nil c hcn
    cases p with
    | nil => cases hs
    | cons x p => simp [he, parseLoop, hx] at hq1
  have hq3 : q.map unsumItem = (p'.map padItem).map unsumItem := by rw [hq2, List.map_map]; rfl
  refine ⟨q, parse_of_loop hne hq1, hq3, ?_⟩
  obtain ⟨c1, c2, c3, c4⟩ := stackOpt_comparable hs hf
  have hkey : ∀ h : Hdr, hdrKey (padHdr h) = hdrKey h ∧ (padHdr h).cls = h.cls ∧ (Comparable h → Comparable (padHdr h)) := by
    intro h
    cases h <;> exact ⟨rfl, rfl, id⟩
  have hmap : ∀ {q p' : Packet}, q.map unsumItem = p'.map (fun x => unsumItem (padItem x)) → AllComparable p' →
      AllComparable q ∧ q.map itemCls = p'.map itemCls ∧ q.map itemKey = p'.map itemKey := by
    intro q
    induction q with
    | nil =>
      intro p' hm _
      cases p' with
      | nil => exact ⟨fun a ha => (by cases ha), rfl, rfl⟩
      | cons y p' => simp at hm
    | cons x q ih =>
      intro p' hm ha
      cases p' with
      | nil => simp at hm
      | cons y p' =>
        simp only [List.map_cons, List.cons.injEq] at hm
        obtain ⟨i1, i2, i3⟩ := ih hm.2 (fun a h => ha a (List.mem_cons_of_mem _ h))
        cases x <;> cases y <;> simp only [unsumItem, padItem, reduceCtorEq, Item.hdr.injEq, false_and] at hm
        case hdr.hdr a b =>
          obtain ⟨k1, k2, k3, _⟩ := unsum_key hm.1
          obtain ⟨e1, e2, e3⟩ := hkey b
          refine ⟨?_, by simp [itemCls, k2, e2, i2], by simp [itemKey, k1, e1, i3]⟩
          intro z hz
          rcases List.mem_cons.mp hz with hz | hz
          · cases hz; exact k3 (e3 (ha b (by simp)))
          · exact i1 z hz
        all_goals
          refine ⟨?_, by simp_all [itemCls], by simp_all [itemKey]⟩
          intro z hz
          rcases List.mem_cons.mp hz with hz | hz
          · cases hz
          · exact i1 z hz
  obtain ⟨m1, m2, m3⟩ := hmap hq2 c1
  rw [packet_eq_partial q p (m2.trans c3) m1 c2, m3.trans c4]
  simp

/-- A packet with a record-route option. -/
def optPacket : Packet :=
  [.hdr (.eth ⟨⟨[1, 2, 3, 4, 5, 6]⟩, ⟨[2, 0, 0, 0, 0, 1]⟩, 0x0800⟩),
   .hdr (.ip4 ⟨0, 0, 7, 2, 0, 64, 17, .v4 0x0a000001, .v4 0x0a000002, [.routing 7 4 [0, 0]]⟩),
   .hdr (.udp ⟨5353, 53, 0, 0⟩), .hdr (.raw [104, 105])]

theorem optPacket_stack : StackOpt .eth optPacket := by
  refine ⟨rfl, .inl ⟨by decide, by decide⟩, rfl, .inr ⟨_, rfl, by decide, ?_, by decide⟩, rfl, .inl (by show UDP.WF _; decide),
    .inr ⟨?_, 104, [105], rfl⟩⟩
  · intro o ho
    rw [List.mem_singleton.mp ho]
    simp [IPOpt.WF]
  · intro h; rcases h with h | h | h <;> cases h

example : StackOpt .eth optPacket ∧ ∃ b, optPacket.toBytes.2 = .ok b :=
  ⟨optPacket_stack, by
    obtain ⟨b, hb, _⟩ := Except.of_test (r := optPacket.toBytes.2) (p := fun _ => true) (by decide +kernel)
    exact ⟨b, hb⟩⟩

/-- The negation of **C41** with options: what is parsed is written with four more bytes. -/
theorem packet_options_violated :
    ∃ (b : Bytes) (q : Packet) (b' : Bytes), optPacket.toBytes.2 = .ok b ∧ Packet.parse b (some .eth) = .ok q ∧
      q.toBytes.2 = .ok b' ∧ b'.length = b.length + 4 := by
  obtain ⟨b, hb, hb2⟩ := Except.of_test (r := optPacket.toBytes.2) (p := fun b =>
    Except.test (Packet.parse b (some .eth)) fun q => Except.test q.toBytes.2 fun b' => decide (b'.length = b.length + 4))
    (by decide +kernel)
  obtain ⟨q, hq, hq2⟩ := Except.of_test hb2
  obtain ⟨b', hb', hl⟩ := Except.of_test hq2
  exact ⟨b, q, b', hb, hq, hb', by simpa using hl⟩

end SY.Props
