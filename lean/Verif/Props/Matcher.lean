import Verif.Matcher
import Verif.Props.PacketRT

/-! # Properties C53, C101, C102: packet matchers -/

namespace SY.Props

/-! ## The specification -/

/-- The fields of each header that a user can read and that an exact match is documented to compare:
everything but the checksum. -/
def fieldsOf : Cls → List HdrAttr
  | .eth => [.dst, .ethertype, .src]
  | .vlan => [.ethertype, .pcp, .vlanid]
  | .arp => [.hardwaretype, .operation, .protocoltype, .senderhwaddr, .senderprotoaddr, .targethwaddr,
      .targetprotoaddr]
  | .ip4 => [.dscp, .dst, .ecn, .flags, .fragmentOffset, .hl, .ipid, .options, .protocol, .src, .tos,
      .totalLength, .ttl]
  | .ip6 => [.dst, .flowlabel, .hoplimit, .nextheader, .src, .trafficclass, .ttl]
  | .route => [.address, .nextheader, .protocol]
  | .frag => [.ident, .mf, .nextheader, .offset, .protocol]
  | .hop | .dst => [.nextheader, .protocol]
  | .udp => [.dst, .length, .src]
  | .tcp => [.flag .ACK, .flag .CWR, .flag .ECE, .flag .FIN, .flag .NS, .flag .PSH, .flag .RST, .flag .SYN,
      .flag .URG, .ack, .dst, .flags, .flagstr, .offset, .options, .seq, .src, .urgentPointer, .window]
  | .icmp => [.icmpcode, .icmpdata, .icmptype]
  | .icmp6 => [.icmp6code, .icmp6type, .icmpcode, .icmpdata, .icmptype]
  | .rip => [.command, .version]
  | .null => [.af]
  | .raw => [.data]
  | .nullHdr | .base | .ext => []

/-- The fields that an inexact match compares: addresses, ports and protocol numbers. -/
def essentialOf : Cls → List HdrAttr
  | .eth => [.src, .dst, .ethertype]
  | .arp => [.targetprotoaddr, .senderprotoaddr, .targethwaddr, .senderhwaddr]
  | .ip4 => [.src, .dst, .protocol]
  | .ip6 => [.src, .dst, .nextheader]
  | .tcp => [.src, .dst]
  | .udp => [.src, .dst]
  | .icmp => [.icmptype, .icmpcode]
  | .icmp6 => [.icmptype, .icmpcode]
  | .vlan => [.vlanid, .ethertype]
  | _ => []

/-- The field is to be compared in headers of the class. -/
def Compared (exact : Bool) (wild : List (Cls × HdrAttr)) (c : Cls) (a : HdrAttr) : Prop :=
  a ∈ (if exact then fieldsOf c else essentialOf c) ∧ (c, a) ∉ wild

/-- Both headers have the field, with equal values. -/
def Agree (x y : Hdr) (a : HdrAttr) : Prop :=
  ∃ u v, x.getattr a = .ok u ∧ y.getattr a = .ok v ∧ u.eq v = .ok true

/-- The packet looks like the reference: the same header types in the same order, and each pair of
headers agrees in every field to be compared. -/
def LooksLike (exact : Bool) (wild : List (Cls × HdrAttr)) : Packet → Packet → Prop
  | [], [] => True
  | .hdr x :: r, .hdr y :: p => x.cls = y.cls ∧ (∀ a, Compared exact wild x.cls a → Agree x y a) ∧
      LooksLike exact wild r p
  | _, _ => False

/-! ## The lists of attributes -/

theorem attrs_names (h : Hdr) : h.attrs.map Prod.fst = fieldsOf h.cls := by cases h <;> rfl

theorem readAll_ok {xs : List (HdrAttr × Res AVal)} {l : List HdrAttr} (h : readAll xs = .ok l) : l = xs.map Prod.fst := by
  induction xs generalizing l with
  | nil => cases h; rfl
  | cons x xs ih =>
    simp only [readAll] at h
    obtain ⟨_, _, h⟩ := bind_eq_ok.mp h
    obtain ⟨l', hl, h⟩ := bind_eq_ok.mp h
    cases h
    rw [ih hl]; rfl

theorem fieldsOf_nodup (c : Cls) : (fieldsOf c).Nodup := by cases c <;> decide
theorem essentialOf_nodup (c : Cls) : (essentialOf c).Nodup := by cases c <;> decide

theorem essential_sub (c : Cls) : ∀ a ∈ essentialOf c, a ∈ fieldsOf c := by cases c <;> decide

theorem collectAll_get {p : Packet} {d e : Dict Klass (List HdrAttr)} (h : collectAll p d = .ok e) (c : Cls) :
    e.get? (.hdr c) = if .hdr c ∈ p.map Item.klass then some (fieldsOf c) else d.get? (.hdr c) := by
  induction p generalizing d with
  | nil => cases h; simp
  | cons it p ih =>
    simp only [collectAll] at h
    obtain ⟨l, hl, h'⟩ := bind_eq_ok.mp h
    clear h
    rw [ih h', Dict.get?_set, List.map_cons]
    by_cases h1 : Klass.hdr c ∈ p.map Item.klass
    · rw [if_pos h1, if_pos (List.mem_cons_of_mem _ h1)]
    · rw [if_neg h1]
      by_cases h2 : it.klass = .hdr c
      · cases it with
        | hdr x =>
          have hn : l = fieldsOf x.cls := by rw [← attrs_names]; exact readAll_ok hl
          cases h2
          simp only [Item.klass, if_true, List.mem_cons, true_or, hn]
        | _ => cases h2
      · rw [if_neg h2, if_neg (by
          intro h3
          rcases List.mem_cons.mp h3 with h3 | h3
          · exact h2 h3.symm
          · exact h1 h3)]

theorem table_get (c : Cls) : (inexactTable.get? (.hdr c)).getD [] = essentialOf c := by cases c <;> rfl

theorem filter_get {κ ν : Type} [DecidableEq κ] (d : Dict κ ν) (f : κ → Bool) (k : κ) :
    Dict.get? (d.filter fun e => f e.1) k = if f k then d.get? k else none := by
  induction d with
  | nil => simp
  | cons e d ih =>
    obtain ⟨k', v⟩ := e
    by_cases hk : k' = k
    · subst hk
      cases hf : f k' <;> simp [List.filter_cons, hf, Dict.get?_cons, ih]
    · cases hf : f k' <;> simp [List.filter_cons, hf, Dict.get?_cons, ih, hk]

theorem wildcards_get (ws : List (Cls × HdrAttr)) (d : Dict Klass (List HdrAttr)) (c : Cls) (hn : ∀ l, d.get? (.hdr c) = some l → l.Nodup) :
    (∀ a, a ∈ ((filterWildcards ws d).get? (.hdr c)).getD [] ↔ a ∈ (d.get? (.hdr c)).getD [] ∧ (c, a) ∉ ws) := by
  induction ws generalizing d with
  | nil => simp [filterWildcards]
  | cons w ws ih =>
    obtain ⟨c', a'⟩ := w
    intro a
    simp only [filterWildcards]
    cases hd : d.get? (.hdr c') with
    | none =>
      simp only
      rw [ih d hn a]
      simp only [List.mem_cons, Prod.mk.injEq, not_or]
      constructor
      · rintro ⟨h1, h2⟩
        refine ⟨h1, ?_, h2⟩
        rintro ⟨rfl, rfl⟩
        rw [hd] at h1; simp at h1
      · rintro ⟨h1, _, h2⟩
        exact ⟨h1, h2⟩
    | some l =>
      simp only
      by_cases hc : c' = c
      · subst hc
        have hl := hn l hd
        rw [ih _ ?_ a, Dict.get?_set, if_pos rfl, hd]
        · simp only [Option.getD_some, List.mem_cons, Prod.mk.injEq, not_or]
          rw [hl.mem_erase_iff]
          grind
        · intro l' hl'
          rw [Dict.get?_set, if_pos rfl] at hl'
          cases hl'
          exact hl.erase a'
      · have hne : (Klass.hdr c' = Klass.hdr c) = False := by simp [hc]
        rw [ih _ ?_ a, Dict.get?_set, if_neg (by simp [hc])]
        · simp only [List.mem_cons, Prod.mk.injEq, not_or]
          grind
        · intro l' hl'
          rw [Dict.get?_set, if_neg (by simp [hc])] at hl'
          exact hn l' hl'

/-- What a matcher compares is what the specification says, for the headers of its packet. -/
theorem compared_iff {ref : Packet} {exact : Bool} {wild : List (Cls × HdrAttr)} {d : Dict Klass (List HdrAttr)}
    (h : comparisonAttrs ref exact wild = .ok d) (x : Hdr) (hx : .hdr x ∈ ref) (a : HdrAttr) :
    a ∈ (d.get? (.hdr x.cls)).getD [] ↔ Compared exact wild x.cls a := by
  unfold comparisonAttrs at h
  obtain ⟨e, he, h⟩ := bind_eq_ok.mp h
  cases h
  cases exact with
  | true =>
    simp only [if_true] at he
    have hg := collectAll_get he x.cls
    rw [if_pos (show Klass.hdr x.cls ∈ ref.map Item.klass from List.mem_map.mpr ⟨_, hx, rfl⟩)] at hg
    rw [wildcards_get wild e x.cls (by intro l hl; rw [hg] at hl; cases hl; exact fieldsOf_nodup _) a, hg]
    simp [Compared]
  | false =>
    simp only [Bool.false_eq_true, if_false] at he
    cases he
    have hg : (computeInexact ref).get? (.hdr x.cls) = inexactTable.get? (.hdr x.cls) := by
      unfold computeInexact
      rw [filter_get (f := fun k => (ref.map Item.klass).contains k), if_pos]
      simp only [List.contains_eq_mem, decide_eq_true_eq]
      exact List.mem_map.mpr ⟨_, hx, rfl⟩
    have hn : ∀ l, (computeInexact ref).get? (.hdr x.cls) = some l → l.Nodup := by
      intro l hl
      rw [hg] at hl
      have := table_get x.cls
      rw [hl] at this
      simp only [Option.getD_some] at this
      rw [this]; exact essentialOf_nodup _
    rw [wildcards_get wild _ x.cls hn a, hg, table_get]
    simp [Compared]

/-! ## The comparison -/

theorem compareAttrs_true (x y : Hdr) (l : List HdrAttr) :
    compareAttrs (.hdr x) (.hdr y) l = .ok true ↔ ∀ a ∈ l, Agree x y a := by
  induction l with
  | nil => simp [compareAttrs]
  | cons a l ih =>
    simp only [compareAttrs, Item.getattr, List.mem_cons, forall_eq_or_imp, ← ih]
    constructor
    · intro h
      obtain ⟨u, hu, h⟩ := bind_eq_ok.mp h
      obtain ⟨v, hv, h⟩ := bind_eq_ok.mp h
      obtain ⟨e, he, h⟩ := bind_eq_ok.mp h
      obtain ⟨_, _, h⟩ := bind_eq_ok.mp h
      obtain ⟨r, hr, h⟩ := bind_eq_ok.mp h
      simp only [Except.ok.injEq, Bool.and_eq_true] at h
      obtain ⟨rfl, rfl⟩ := h
      exact ⟨⟨u, v, hu, hv, he⟩, hr⟩
    · rintro ⟨⟨u, v, hu, hv, he⟩, hr⟩
      simp only [hu, hv, he, hr, bind_ok, shown, if_true]; rfl

theorem compare_true {d : Dict Klass (List HdrAttr)} {exact : Bool} {wild : List (Cls × HdrAttr)} (r p : Packet)
    (hr : ∀ it ∈ r, ∃ x, it = .hdr x) (hp : ∀ it ∈ p, ∃ x, it = .hdr x)
    (hd : ∀ x, .hdr x ∈ r → ∀ a, a ∈ (d.get? (.hdr x.cls)).getD [] ↔ Compared exact wild x.cls a) :
    (sameTypes r p = true ∧ compareHeaders d r p = .ok true) ↔ LooksLike exact wild r p := by
  induction r generalizing p with
  | nil =>
    cases p with
    | nil => simp [sameTypes, compareHeaders, LooksLike]
    | cons y p => simp [sameTypes, LooksLike]
  | cons x r ih =>
    obtain ⟨x, rfl⟩ := hr _ List.mem_cons_self
    cases p with
    | nil => simp [sameTypes, LooksLike]
    | cons y p =>
      obtain ⟨y, rfl⟩ := hp _ List.mem_cons_self
      have ih := ih p (fun it h => hr it (List.mem_cons_of_mem _ h)) (fun it h => hp it (List.mem_cons_of_mem _ h))
        (fun z h => hd z (List.mem_cons_of_mem _ h))
      have key : compareHeaders d (.hdr x :: r) (.hdr y :: p) = .ok true ↔
          (∀ a, Compared exact wild x.cls a → Agree x y a) ∧ compareHeaders d r p = .ok true := by
        simp only [compareHeaders]
        have h0 := compareAttrs_true x y ((d.get? (.hdr x.cls)).getD [])
        have h1 : (∀ a ∈ (d.get? (.hdr x.cls)).getD [], Agree x y a) ↔ (∀ a, Compared exact wild x.cls a → Agree x y a) :=
          forall_congr' fun a => by rw [hd x List.mem_cons_self a]
        rw [h1] at h0
        rw [← h0]
        constructor
        · intro h
          obtain ⟨b, hb, h⟩ := bind_eq_ok.mp h
          obtain ⟨c, hc, h⟩ := bind_eq_ok.mp h
          simp only [Except.ok.injEq, Bool.and_eq_true] at h
          obtain ⟨rfl, rfl⟩ := h
          exact ⟨hb, hc⟩
        · rintro ⟨hb, hc⟩
          simp only [Item.klass, hb, hc, bind_ok]; rfl
      rw [key]
      simp only [sameTypes, Item.klass, Bool.and_eq_true, beq_iff_eq, Klass.hdr.injEq, LooksLike]
      rw [← ih]
      grind

theorem evalPreds_all (p : Packet) (fs : List (Packet → Res Bool)) :
    (∃ bs, evalPreds p fs = .ok bs ∧ bs.all id = true) ↔ ∀ f ∈ fs, f p = .ok true := by
  induction fs with
  | nil => simp [evalPreds]
  | cons f fs ih =>
    simp only [evalPreds, List.mem_cons, forall_eq_or_imp, ← ih]
    constructor
    · rintro ⟨bs, h, ha⟩
      obtain ⟨b, hb, h⟩ := bind_eq_ok.mp h
      obtain ⟨bs', hbs, h⟩ := bind_eq_ok.mp h
      cases h
      simp only [List.all_cons, id, Bool.and_eq_true] at ha
      exact ⟨by rw [hb, ha.1], bs', hbs, ha.2⟩
    · rintro ⟨hb, bs', hbs, ha⟩
      exact ⟨true :: bs', by simp only [hb, hbs, bind_ok], by simpa using ha⟩

theorem finish_headers {ctx : Packet} {tail : Bytes} {p p' : Packet} {bs : List Bytes}
    (h : finish ctx tail p = .ok (p', bs)) : (∀ it ∈ p, ∃ x, it = .hdr x) ∧ (∀ it ∈ p', ∃ x, it = .hdr x) ∧
      p'.map Item.klass = p.map Item.klass := by
  induction p generalizing p' bs with
  | nil => cases h; simp
  | cons x p ih =>
    simp only [finish] at h
    obtain ⟨r, hr, h⟩ := bind_eq_ok.mp h
    obtain ⟨x', hx, h⟩ := bind_eq_ok.mp h
    obtain ⟨b, hb, h⟩ := bind_eq_ok.mp h
    cases h
    obtain ⟨i1, i2, i3⟩ := ih hr
    cases x with
    | hdr k =>
      simp only [Item.pre] at hx
      obtain ⟨k', hk, rfl⟩ := map_eq_ok.mp hx
      have := (Hdr.pre_keys hk).1
      refine ⟨?_, ?_, by simp [Item.klass, this, i3]⟩
      · intro it hit
        rcases List.mem_cons.mp hit with rfl | hit
        · exact ⟨k, rfl⟩
        · exact i1 it hit
      · intro it hit
        rcases List.mem_cons.mp hit with rfl | hit
        · exact ⟨k', rfl⟩
        · exact i2 it hit
    | _ => cases hx

theorem mem_klass {p p' : Packet} (h : p'.map Item.klass = p.map Item.klass) (x : Hdr) (hx : .hdr x ∈ p') :
    ∃ y, .hdr y ∈ p ∧ y.cls = x.cls := by
  have : Item.klass (.hdr x) ∈ p'.map Item.klass := List.mem_map.mpr ⟨_, hx, rfl⟩
  rw [h] at this
  obtain ⟨y, hy, he⟩ := List.mem_map.mp this
  cases y with
  | hdr y => exact ⟨y, hy, by simpa [Item.klass] using he⟩
  | _ => cases he

/-! ## C53: what a matcher accepts -/

/-- **C53**: a matcher for the packet `ref` accepts a packet exactly when both can be serialised, the
packet (with its computed fields filled in) has the same header types as the reference in the same
order and agrees with it in every field that is to be compared, and every predicate holds.
(The computed fields are the lengths; checksums are never compared.) -/
theorem matcher_accepts (ref : Packet) (exact : Bool) (wild : List (Cls × HdrAttr)) (preds : List (Packet → Res Bool))
    (m : Matcher) (hm : Matcher.new ref exact wild preds = .ok m) (p : Packet) :
    (m.matchPkt p).2.2 = .ok true ↔
      ∃ p' b r b', p.toBytes = (p', .ok b) ∧ ref.toBytes = (r, .ok b') ∧ LooksLike exact wild r p' ∧
        ∀ f ∈ preds, f p' = .ok true := by
  unfold Matcher.new at hm
  obtain ⟨d, hd, hm⟩ := bind_eq_ok.mp hm
  obtain ⟨n, _, hm⟩ := bind_eq_ok.mp hm
  cases hm
  unfold Matcher.matchPkt
  rcases hp : p.toBytes with ⟨p', rp⟩
  cases rp with
  | error e =>
    simp only [reduceCtorEq, false_iff]
    rintro ⟨q, b, r, b', h, _⟩
    cases h
  | ok b =>
    rcases hr : ref.toBytes with ⟨r, rr⟩
    cases rr with
    | error e =>
      simp only [hr, reduceCtorEq, false_iff]
      rintro ⟨q, b, r, b', _, h, _⟩
      cases h
    | ok b' =>
      simp only [hr]
      obtain ⟨bs, hf, _⟩ := toBytes_inv hp
      obtain ⟨bs', hf', _⟩ := toBytes_inv hr
      obtain ⟨_, hp2, _⟩ := finish_headers hf
      obtain ⟨_, hr2, hr3⟩ := finish_headers hf'
      have hc := compare_true (d := d) (exact := exact) (wild := wild) r p' hr2 hp2 (by
        intro x hx a
        obtain ⟨y, hy, he⟩ := mem_klass hr3 x hx
        rw [← he]
        exact compared_iff hd y hy a)
      have hv : Matcher.verdict ⟨exact, r, preds, d, firstHeader ref n⟩ p' = .ok true ↔
          (sameTypes r p' = true ∧ compareHeaders d r p' = .ok true) ∧ ∀ f ∈ preds, f p' = .ok true := by
        rw [← evalPreds_all]
        unfold Matcher.verdict Matcher.compare
        simp only
        constructor
        · intro h
          obtain ⟨c, hc, h'⟩ := bind_eq_ok.mp h
          obtain ⟨bs, hbs, h⟩ := bind_eq_ok.mp h'
          clear h'
          simp only [Except.ok.injEq, Bool.and_eq_true] at h
          obtain ⟨rfl, h⟩ := h
          split at hc
          · rename_i hs
            exact ⟨⟨hs, hc⟩, bs, hbs, h⟩
          · cases hc
        · rintro ⟨⟨h1, h2⟩, bs, hbs, h3⟩
          rw [if_pos h1]
          simp only [h2, hbs, bind_ok, h3]; rfl
      rw [hv, hc]
      constructor
      · rintro ⟨h1, h2⟩
        exact ⟨p', b, r, b', rfl, rfl, h1, h2⟩
      · rintro ⟨q, b1, r1, b2, e1, e2, h1, h2⟩
        cases e1; cases e2
        exact ⟨h1, h2⟩

theorem looksLike_mono {exact exact' : Bool} {wild wild' : List (Cls × HdrAttr)}
    (h : ∀ c a, Compared exact' wild' c a → Compared exact wild c a) {r p : Packet} :
    LooksLike exact wild r p → LooksLike exact' wild' r p := by
  induction r generalizing p with
  | nil => cases p <;> simp [LooksLike]
  | cons x r ih =>
    cases p with
    | nil => cases x <;> simp [LooksLike]
    | cons y p =>
      cases x <;> cases y <;> simp only [LooksLike, imp_self]
      rintro ⟨h1, h2, h3⟩
      exact ⟨h1, fun a ha => h2 a (h _ a ha), ih h3⟩

/-- **C53**: wildcarding more fields, or passing from an exact to an inexact match, never rejects a
packet that was accepted before. -/
theorem matcher_monotone (ref : Packet) (exact exact' : Bool) (wild wild' : List (Cls × HdrAttr))
    (preds : List (Packet → Res Bool)) (m m' : Matcher) (hm : Matcher.new ref exact wild preds = .ok m)
    (hm' : Matcher.new ref exact' wild' preds = .ok m') (he : exact' = true → exact = true)
    (hw : ∀ x ∈ wild, x ∈ wild') (p : Packet) (h : (m.matchPkt p).2.2 = .ok true) :
    (m'.matchPkt p).2.2 = .ok true := by
  rw [matcher_accepts _ _ _ _ _ hm] at h
  rw [matcher_accepts _ _ _ _ _ hm']
  obtain ⟨p', b, r, b', h1, h2, h3, h4⟩ := h
  refine ⟨p', b, r, b', h1, h2, looksLike_mono ?_ h3, h4⟩
  rintro c a ⟨k1, k2⟩
  refine ⟨?_, fun hh => k2 (hw _ hh)⟩
  cases exact' with
  | true => rw [he rfl]; exact k1
  | false =>
    cases exact with
    | true => exact essential_sub c a k1
    | false => exact k1

/-! ## C101: a matcher accepts its own packet -/

theorem iopt_eq_refl (o : IPOpt) : o.eq o = .ok true := by cases o <;> simp [IPOpt.eq, IPOpt.optnum]

theorem optsEq_refl (os : List IPOpt) : optsEq os os = .ok true := by
  simp only [optsEq, ne_eq, not_true_eq_false, if_false]
  induction os with
  | nil => rfl
  | cons o os ih => simp only [optsEqLoop, iopt_eq_refl, bind_ok, if_true, ih]

theorem aval_eq_refl (u : AVal) : u.eq u = .ok true := by
  cases u with
  | opts os => exact optsEq_refl os
  | data4 d => cases d <;> simp [AVal.eq, ICMPData.eq]
  | data6 d => cases d <;> simp [AVal.eq, ICMPv6Data.eq]
  | _ => simp [AVal.eq]

theorem getattr_ok {h : Hdr} {b : Bytes} (hb : h.toBytes = .ok b) (a : HdrAttr) (ha : a ∈ fieldsOf h.cls) :
    ∃ u, h.getattr a = .ok u := by
  cases h with
  | ip4 k =>
    obtain ⟨o, _, _, _, ho, _⟩ := IPv4.toBytes_inv hb
    simp only [Hdr.cls, fieldsOf, List.mem_cons, List.not_mem_nil, or_false] at ha
    rcases ha with rfl | rfl | rfl | rfl | rfl | rfl | rfl | rfl | rfl | rfl | rfl | rfl | rfl
    case inr.inr.inr.inr.inr.inl =>
      exact ⟨.num ((20 + o.length) / 4 : Nat), by
        simp only [Hdr.getattr, Hdr.attrs, List.lookup, Option.getD, IPv4.size, ho, bind_ok,
          show (HdrAttr.hl == HdrAttr.dscp) = false from rfl, show (HdrAttr.hl == HdrAttr.dst) = false from rfl,
          show (HdrAttr.hl == HdrAttr.ecn) = false from rfl, show (HdrAttr.hl == HdrAttr.flags) = false from rfl,
          show (HdrAttr.hl == HdrAttr.fragmentOffset) = false from rfl, show (HdrAttr.hl == HdrAttr.hl) = true from rfl]⟩
    all_goals exact ⟨_, rfl⟩
  | tcp k =>
    simp only [Hdr.cls, fieldsOf, List.mem_cons, List.not_mem_nil, or_false] at ha
    rcases ha with rfl | rfl | rfl | rfl | rfl | rfl | rfl | rfl | rfl | rfl | rfl | rfl | rfl | rfl | rfl | rfl |
      rfl | rfl | rfl <;> exact ⟨_, rfl⟩
  | _ =>
    simp only [Hdr.cls, fieldsOf, List.mem_cons, List.not_mem_nil, or_false] at ha
    all_goals first
      | (rcases ha with rfl | rfl | rfl | rfl | rfl | rfl | rfl <;> exact ⟨_, rfl⟩)
      | (rcases ha with rfl | rfl | rfl | rfl | rfl <;> exact ⟨_, rfl⟩)
      | (rcases ha with rfl | rfl | rfl <;> exact ⟨_, rfl⟩)
      | (rcases ha with rfl | rfl <;> exact ⟨_, rfl⟩)
      | (rcases ha with rfl; exact ⟨_, rfl⟩)
      | exact ha.elim

theorem looksLike_self {ctx : Packet} {tail : Bytes} {p p' : Packet} {bs : List Bytes}
    (h : finish ctx tail p = .ok (p', bs)) (exact : Bool) (wild : List (Cls × HdrAttr)) : LooksLike exact wild p' p' := by
  induction p generalizing p' bs with
  | nil => cases h; simp [LooksLike]
  | cons x p ih =>
    simp only [finish] at h
    obtain ⟨r, hr, h⟩ := bind_eq_ok.mp h
    obtain ⟨x', hx, h⟩ := bind_eq_ok.mp h
    obtain ⟨b, hb, h⟩ := bind_eq_ok.mp h
    cases h
    cases x' with
    | hdr k =>
      refine ⟨rfl, ?_, ih hr⟩
      rintro a ⟨ha, _⟩
      have : a ∈ fieldsOf k.cls := by
        cases exact with
        | true => exact ha
        | false => exact essential_sub _ a ha
      obtain ⟨u, hu⟩ := getattr_ok hb a this
      exact ⟨u, u, hu, hu, aval_eq_refl u⟩
    | _ => cases hb

/-- **C101**: a matcher accepts the packet it was made from, and any later version of it that differs
only in computed fields, provided it can be serialised and its predicates hold of it. -/
theorem matcher_accepts_own (p : Packet) (exact : Bool) (wild : List (Cls × HdrAttr)) (preds : List (Packet → Res Bool))
    (m : Matcher) (hm : Matcher.new p exact wild preds = .ok m) (p' : Packet) (b : Bytes)
    (hb : p.toBytes = (p', .ok b)) (hp : ∀ f ∈ preds, f p' = .ok true) :
    (m.matchPkt p).2.2 = .ok true ∧ (m.matchPkt p').2.2 = .ok true := by
  obtain ⟨bs, hf, _⟩ := toBytes_inv hb
  have hl := looksLike_self hf exact wild
  rw [matcher_accepts _ _ _ _ _ hm, matcher_accepts _ _ _ _ _ hm]
  exact ⟨⟨p', b, p', b, hb, hb, hl, hp⟩, ⟨p', b, p', b, packet_idempotent p p' b hb, hb, hl, hp⟩⟩

/-- Matching leaves nothing behind that changes a later answer: once a packet has been matched, the
updated matcher gives for the updated packet the same answer. -/
theorem match_repeatable (m : Matcher) (p p' r : Packet) (b b' : Bytes) (hp : p.toBytes = (p', .ok b))
    (hr : m.ref.toBytes = (r, .ok b')) :
    (m.matchPkt p).1 = { m with ref := r } ∧ (m.matchPkt p).2.1 = p' ∧
      ((m.matchPkt p).1.matchPkt p').2.2 = (m.matchPkt p).2.2 := by
  have e1 : m.matchPkt p = ({ m with ref := r }, p', Matcher.verdict { m with ref := r } p') := by
    simp only [Matcher.matchPkt, hp, hr]
  have e2 : Matcher.matchPkt { m with ref := r } p' =
      ({ m with ref := r }, p', Matcher.verdict { m with ref := r } p') := by
    simp only [Matcher.matchPkt, packet_idempotent _ _ _ hp, packet_idempotent _ _ _ hr]
  rw [e1, e2]
  exact ⟨rfl, rfl, rfl⟩

/-! ## C102: saving and restoring a matcher -/

theorem unsum_wire' {x y y' : Hdr} {t b : Bytes} {ctx : Packet} (h : unsum x = unsum y)
    (hp : y.pre t ctx = .ok y') (hb : y'.toBytes = .ok b) :
    ∃ x', x.pre t ctx = .ok x' ∧ x'.toBytes = .ok b ∧ unsum x' = unsum y' := by
  cases y with
  | tcp a =>
    cases x <;> simp only [unsum, reduceCtorEq] at h
    rename_i a'
    obtain ⟨a1, a2, a3, a4, a5, a6, a7, a8⟩ := a
    obtain ⟨b1, b2, b3, b4, b5, b6, b7, b8⟩ := a'
    simp only [Hdr.tcp.injEq, TCP.mk.injEq] at h
    obtain ⟨rfl, rfl, rfl, rfl, rfl, rfl, rfl, _⟩ := h
    exact ⟨y', hp, hb, rfl⟩
  | icmp a =>
    cases x <;> simp only [unsum, reduceCtorEq] at h
    rename_i a'
    obtain ⟨a1, a2, a3, a4⟩ := a
    obtain ⟨b1, b2, b3, b4⟩ := a'
    simp only [Hdr.icmp.injEq, ICMPMsg.mk.injEq] at h
    obtain ⟨rfl, rfl, rfl, _⟩ := h
    cases hp
    exact ⟨_, rfl, hb, rfl⟩
  | _ =>
    cases x <;> simp only [unsum, reduceCtorEq] at h
    all_goals (cases h; exact ⟨y', hp, hb, rfl⟩)

theorem unsum_finish' {ctx : Packet} {tail : Bytes} {q p p' : Packet} {bs : List Bytes}
    (h : q.map unsumItem = p.map unsumItem) (hf : finish ctx tail p = .ok (p', bs)) :
    ∃ q', finish ctx tail q = .ok (q', bs) ∧ q'.map unsumItem = p'.map unsumItem := by
  induction q generalizing p p' bs with
  | nil => cases p with
    | nil => cases hf; exact ⟨[], rfl, rfl⟩
    | cons y p => simp at h
  | cons x q ih =>
    cases p with
    | nil => simp at h
    | cons y p =>
      simp only [List.map_cons, List.cons.injEq] at h
      simp only [finish] at hf ⊢
      obtain ⟨r, hr, hf⟩ := bind_eq_ok.mp hf
      obtain ⟨y', hy, hf⟩ := bind_eq_ok.mp hf
      obtain ⟨b, hb, hf⟩ := bind_eq_ok.mp hf
      cases hf
      obtain ⟨q', hq, hq2⟩ := ih h.2 hr
      cases y with
      | hdr k =>
        simp only [Item.pre] at hy
        obtain ⟨k', hk, rfl⟩ := map_eq_ok.mp hy
        cases x <;> simp only [unsumItem, reduceCtorEq, Item.hdr.injEq, false_and] at h
        obtain ⟨x', hx1, hx2, hx3⟩ := unsum_wire' h.1 hk hb
        simp only [hq, bind_ok, Item.pre, hx1, map_ok, Item.toBytes, hx2]
        exact ⟨_, rfl, by simp [unsumItem, hx3, hq2]⟩
      | _ => cases hy

theorem getattr_unsum (x : Item) (a : HdrAttr) : (unsumItem x).getattr a = x.getattr a := by
  cases x with
  | hdr h => cases h <;> rfl
  | _ => rfl

theorem klass_unsum (x : Item) : (unsumItem x).klass = x.klass := by
  cases x with
  | hdr h => cases h <;> rfl
  | _ => rfl

theorem compareAttrs_unsum (x y : Item) (l : List HdrAttr) : compareAttrs (unsumItem x) y l = compareAttrs x y l := by
  induction l with
  | nil => rfl
  | cons a l ih => simp only [compareAttrs, getattr_unsum, ih]

theorem sameTypes_unsum (r p : Packet) : sameTypes (r.map unsumItem) p = sameTypes r p := by
  induction r generalizing p with
  | nil => rfl
  | cons x r ih => cases p <;> simp [sameTypes, klass_unsum, ih]

theorem compareHeaders_unsum (d : Dict Klass (List HdrAttr)) (r p : Packet) :
    compareHeaders d (r.map unsumItem) p = compareHeaders d r p := by
  induction r generalizing p with
  | nil => rfl
  | cons x r ih => cases p <;> simp [compareHeaders, klass_unsum, compareAttrs_unsum, ih]

theorem verdict_unsum (m : Matcher) (q r p : Packet) (h : q.map unsumItem = r.map unsumItem) :
    Matcher.verdict { m with ref := q } p = Matcher.verdict { m with ref := r } p := by
  simp only [Matcher.verdict, Matcher.compare]
  rw [← sameTypes_unsum q, ← sameTypes_unsum r, ← compareHeaders_unsum _ q, ← compareHeaders_unsum _ r, h]

/-- **C102**, partial: a matcher whose reference packet is a stack of storable headers that announce
one another can be saved and restored, and the restored matcher treats every packet (and every error)
exactly as the original.  Missing: the reference packets excluded by `Stack`
(`matcher_restore_violated`). -/
theorem matcher_restore_partial (m : Matcher) (c : Cls) (hs : Stack c m.ref) (hc : m.first = some c) (r : Packet)
    (b : Bytes) (hb : m.ref.toBytes = (r, .ok b)) :
    ∃ s m', m.save = .ok s ∧ s.restore = .ok m' ∧ ∀ p, (m'.matchPkt p).2 = (m.matchPkt p).2 := by
  obtain ⟨q, hq1, hq2, _, _⟩ := packet_roundtrip_partial c m.ref r b hs hb
  refine ⟨⟨m.exact, b, m.preds, m.attrs, m.first⟩, { m with ref := q }, by simp only [Matcher.save, hb, bind_ok],
    by simp only [SavedMatcher.restore, hc, hq1, bind_ok], fun p => ?_⟩
  obtain ⟨bs, hf, rfl⟩ := toBytes_inv hb
  have hidem := finish_idem hf
  have hctx : SameCtx m.ref q := by
    have h1 : SameCtx m.ref r := finish_sameCtx hf []
    obtain ⟨i4, i6⟩ := unsum_ctx hq2
    exact h1.trans ⟨by rw [i4], by rw [i6]⟩
  obtain ⟨q', hq', hu⟩ := unsum_finish' hq2 hidem
  rw [finish_ctx hctx] at hq'
  have ht := toBytes_of_finish hq'
  simp only [Matcher.matchPkt]
  rcases hp : p.toBytes with ⟨p', rp⟩
  cases rp with
  | error e => rfl
  | ok bp =>
    simp only [ht, hb]
    rw [verdict_unsum m q' r p' hu]

/-! ## C103: what an exact match guarantees about the bytes on the wire -/

/-- Options of the library's classes, which fix their numbers, without the timestamp option. -/
def OptVisible : IPOpt → Prop
  | .single n => n = 0 ∨ n = 1
  | .routing n _ _ => n = 3 ∨ n = 7 ∨ n = 9
  | .timestamp .. => False
  | .fourB n _ _ => n = 11 ∨ n = 12 ∨ n = 20

/-- Headers all of whose contents a matcher can see. -/
def Visible : Hdr → Prop
  | .eth _ | .vlan _ | .ip6 _ | .udp _ | .tcp _ | .null _ | .raw _ | .nullHdr => True
  | .arp h => h.hwaddrlen = 6 ∧ h.protoaddrlen = 4
  | .ip4 h => ∀ o ∈ h.options, OptVisible o
  | .frag h => h.optlen = 0
  | .icmp m => m.data.typeOf = some m.type ∧ (m.type ∈ [0, 4, 8, 9, 10, 12, 13, 14, 15, 16])
  | .icmp6 m => m.data.typeOf = some m.type ∧ (m.type = 128 ∨ m.type = 129)
  | .route _ | .hop _ | .dst _ | .rip _ => False

/-- A header without the fields that every serialisation computes afresh and a matcher does not see. -/
def bare : Hdr → Hdr
  | .udp h => .udp { h with csum := 0 }
  | .tcp h => .tcp { h with csum := 0 }
  | .icmp m => .icmp { m with csum := 0 }
  | .icmp6 m => .icmp6 { m with csum := 0 }
  | .ip6 h => .ip6 { h with plen := 0 }
  | h => h

def bareItem : Item → Item
  | .hdr h => .hdr (bare h)
  | x => x

theorem optsEqLoop_true {as bs : List IPOpt} (ha : ∀ o ∈ as, OptVisible o) (hb : ∀ o ∈ bs, OptVisible o)
    (h : optsEqLoop as bs = .ok true) : as = bs := by
  induction as generalizing bs with
  | nil => cases bs with
    | nil => rfl
    | cons b bs => simp [optsEqLoop] at h
  | cons a as ih =>
    cases bs with
    | nil => simp [optsEqLoop] at h
    | cons b bs =>
      simp only [optsEqLoop] at h
      obtain ⟨r, hr, h'⟩ := bind_eq_ok.mp h
      clear h
      have h4 := ha a List.mem_cons_self
      have h5 := hb b List.mem_cons_self
      cases r with
      | false => cases h'
      | true =>
        rw [if_pos rfl] at h'
        rw [ih (fun o ho => ha o (List.mem_cons_of_mem _ ho)) (fun o ho => hb o (List.mem_cons_of_mem _ ho)) h']
        congr 1
        clear ih ha hb h'
        cases a <;> cases b <;> simp only [OptVisible] at h4 h5 <;>
          simp [IPOpt.eq, IPOpt.optnum] at hr ⊢ <;> grind

theorem data4_agree {d e : ICMPData} {t : Nat} (h : d.eq e = .ok true) (hd : d.typeOf = some t) (he : e.typeOf = some t)
    (ht : t ∈ [0, 4, 8, 9, 10, 12, 13, 14, 15, 16]) : d = e := by
  have hx : d.typeOf = e.typeOf := hd.trans he.symm
  cases d with
  | plain c p =>
    cases e with
    | plain c' p' =>
      have hp : p = p' := of_decide_eq_true (Except.ok.inj h)
      cases c <;> cases c' <;> simp [ICMPData.typeOf, PlainICMP.type] at hx <;> rw [hp]
    | echo r i s p' => cases c <;> cases r <;> simp [ICMPData.typeOf, PlainICMP.type] at hx
    | mask r i s p' => cases c <;> cases r <;> simp [ICMPData.typeOf, PlainICMP.type] at hx
    | _ => cases c <;> simp [ICMPData.typeOf, PlainICMP.type] at hx
  | quench p =>
    cases e with
    | plain c' p' => cases c' <;> simp [ICMPData.typeOf, PlainICMP.type] at hx
    | quench p' =>
      have hp : p = p' := of_decide_eq_true (Except.ok.inj h)
      rw [hp]
    | echo r i s p' => cases r <;> simp [ICMPData.typeOf] at hx
    | mask r i s p' => cases r <;> simp [ICMPData.typeOf] at hx
    | _ => simp [ICMPData.typeOf] at hx
  | echo r i s p =>
    cases e with
    | plain c' p' => cases r <;> cases c' <;> simp [ICMPData.typeOf, PlainICMP.type] at hx
    | echo r' i' s' p' =>
      simp [ICMPData.eq] at h
      cases r <;> cases r' <;> simp [ICMPData.typeOf] at hx <;> simp [h]
    | mask r' i s p' => cases r <;> cases r' <;> simp [ICMPData.typeOf] at hx
    | _ => cases r <;> simp [ICMPData.typeOf] at hx
  | other p => cases hd
  | redirect a p => cases hd; simp at ht
  | unreach a b p => cases hd; simp at ht
  | exceeded a p => cases hd; simp at ht
  | mask r a b c p => cases r <;> cases hd <;> simp at ht

theorem data6_agree {d e : ICMPv6Data} {t : Nat} (h : d.eq e = .ok true) (hd : d.typeOf = some t) (he : e.typeOf = some t)
    (ht : t = 128 ∨ t = 129) : d = e := by
  have echo : ∀ {d : ICMPv6Data} {t : Nat}, d.typeOf = some t → (t = 128 ∨ t = 129) →
      ∃ r i s p, d = .echo r i s p ∧ (r = true ↔ t = 129) := by
    intro d t h1 h2
    cases d with
    | echo r i s p => exact ⟨r, i, s, p, rfl, by cases r <;> simp [ICMPv6Data.typeOf] at h1 <;> simp <;> omega⟩
    | plain c o p => cases c <;> simp [ICMPv6Data.typeOf, PlainICMPv6.type] at h1 <;> omega
    | other p => cases h1
    | _ => simp [ICMPv6Data.typeOf] at h1; omega
  obtain ⟨r, i, s, p, rfl, e1⟩ := echo hd ht
  obtain ⟨r', i', s', p', rfl, e2⟩ := echo he ht
  have hr : r = r' := by
    rw [Bool.eq_iff_iff, e1, e2]
  simp [ICMPv6Data.eq] at h
  simp [h, hr]

theorem agree_bare {x y : Hdr} (hc : x.cls = y.cls) (hx : Visible x) (hy : Visible y)
    (h : ∀ a ∈ fieldsOf x.cls, Agree x y a) : bare x = bare y := by
  have num : ∀ {a : HdrAttr} {u v : AVal}, Agree x y a → x.getattr a = .ok u → y.getattr a = .ok v → u.eq v = .ok true := by
    rintro a u v ⟨u', v', h1, h2, h3⟩ h4 h5
    rw [h4] at h1; rw [h5] at h2
    cases h1; cases h2; exact h3
  cases x <;> cases y <;> simp only [Hdr.cls, reduceCtorEq] at hc <;>
    simp only [Hdr.cls, fieldsOf, List.mem_cons, List.not_mem_nil, or_false, forall_eq_or_imp, forall_eq] at h
  case eth.eth a b =>
    have h1 := num h.1 rfl rfl
    have h2 := num h.2.1 rfl rfl
    have h3 := num h.2.2 rfl rfl
    cases a; cases b
    simp [AVal.eq] at h1 h2 h3
    clear num
    simp [bare]
    grind
  case vlan.vlan a b =>
    have h1 := num h.1 rfl rfl
    have h2 := num h.2.1 rfl rfl
    have h3 := num h.2.2 rfl rfl
    cases a; cases b
    simp [AVal.eq] at h1 h2 h3
    clear num
    simp [bare]
    grind
  case arp.arp a b =>
    obtain ⟨h1, h2, h3, h4, h5, h6, h7⟩ := h
    have h1 := num h1 rfl rfl
    have h2 := num h2 rfl rfl
    have h3 := num h3 rfl rfl
    have h4 := num h4 rfl rfl
    have h5 := num h5 rfl rfl
    have h6 := num h6 rfl rfl
    have h7 := num h7 rfl rfl
    cases a; cases b
    simp [AVal.eq] at h1 h2 h3 h4 h5 h6 h7
    simp [Visible] at hx hy
    clear num
    simp [bare]
    grind
  case ip4.ip4 a b =>
    obtain ⟨_, h1, _, h2, h3, _, h4, h5, h6, h7, h8, h9, h10⟩ := h
    have h1 := num h1 rfl rfl
    have h2 := num h2 rfl rfl
    have h3 := num h3 rfl rfl
    have h4 := num h4 rfl rfl
    have h5 := num h5 rfl rfl
    have h6 := num h6 rfl rfl
    have h7 := num h7 rfl rfl
    have h8 := num h8 rfl rfl
    have h9 := num h9 rfl rfl
    have h10 := num h10 rfl rfl
    have ho : a.options = b.options := by
      simp only [AVal.eq, optsEq] at h5
      split at h5
      · cases h5
      · exact optsEqLoop_true hx hy h5
    cases a; cases b
    simp [AVal.eq] at h1 h2 h3 h4 h6 h7 h8 h9 h10
    simp at ho
    clear num
    simp [bare]
    grind
  case ip6.ip6 a b =>
    obtain ⟨h1, h2, h3, h4, h5, h6, h7⟩ := h
    have h1 := num h1 rfl rfl
    have h2 := num h2 rfl rfl
    have h3 := num h3 rfl rfl
    have h4 := num h4 rfl rfl
    have h5 := num h5 rfl rfl
    have h6 := num h6 rfl rfl
    cases a; cases b
    simp [AVal.eq] at h1 h2 h3 h4 h5 h6
    clear num
    simp [bare]
    grind
  case route.route a b => exact hx.elim
  case hop.hop a b => exact hx.elim
  case dst.dst a b => exact hx.elim
  case rip.rip a b => exact hx.elim
  case frag.frag a b =>
    obtain ⟨h1, h2, h3, h4, h5⟩ := h
    have h1 := num h1 rfl rfl
    have h2 := num h2 rfl rfl
    have h3 := num h3 rfl rfl
    have h4 := num h4 rfl rfl
    cases a; cases b
    simp [AVal.eq] at h1 h2 h3 h4
    simp [Visible] at hx hy
    clear num
    simp [bare]
    grind
  case udp.udp a b =>
    obtain ⟨h1, h2, h3⟩ := h
    have h1 := num h1 rfl rfl
    have h2 := num h2 rfl rfl
    have h3 := num h3 rfl rfl
    cases a; cases b
    simp [AVal.eq] at h1 h2 h3
    clear num
    simp [bare]
    grind
  case tcp.tcp a b =>
    obtain ⟨_, _, _, _, _, _, _, _, _, h1, h2, h3, _, _, _, h4, h5, h6, h7⟩ := h
    have h1 := num h1 rfl rfl
    have h2 := num h2 rfl rfl
    have h3 := num h3 rfl rfl
    have h4 := num h4 rfl rfl
    have h5 := num h5 rfl rfl
    have h6 := num h6 rfl rfl
    have h7 := num h7 rfl rfl
    cases a; cases b
    simp [AVal.eq] at h1 h2 h3 h4 h5 h6 h7
    clear num
    simp [bare]
    grind
  case icmp.icmp a b =>
    obtain ⟨h1, h2, h3⟩ := h
    have g1 := num h1 rfl rfl
    have g2 := num h2 rfl rfl
    have g3 := num h3 rfl rfl
    clear num h1 h2 h3
    obtain ⟨at', ac, ad, acs⟩ := a
    obtain ⟨bt, bc, bd, bcs⟩ := b
    simp [AVal.eq] at g1 g3
    have e1 : at' = bt := by omega
    have e2 : ac = bc := by omega
    subst e1 e2
    have := data4_agree g2 hx.1 hy.1 hx.2
    subst this
    rfl
  case icmp6.icmp6 a b =>
    obtain ⟨h1, h2, _, h3, _⟩ := h
    have g1 := num h1 rfl rfl
    have g2 := num h2 rfl rfl
    have g3 := num h3 rfl rfl
    clear num h1 h2 h3
    obtain ⟨at', ac, ad, acs⟩ := a
    obtain ⟨bt, bc, bd, bcs⟩ := b
    simp [AVal.eq] at g1 g2
    have e1 : at' = bt := by omega
    have e2 : ac = bc := by omega
    subst e1 e2
    have := data6_agree g3 hx.1 hy.1 hx.2
    subst this
    rfl
  case null.null a b =>
    have h1 := num h rfl rfl
    simp [AVal.eq] at h1
    clear num
    simp [bare]
    grind
  case raw.raw a b =>
    have h1 := num h rfl rfl
    simp [AVal.eq] at h1
    clear num
    simp [bare]
    grind
  case nullHdr.nullHdr => rfl

theorem bare_wire {x y x' y' : Hdr} {t b b' : Bytes} {ctx : Packet} (h : bare x = bare y)
    (hp : y.pre t ctx = .ok y') (hb : y'.toBytes = .ok b) (hp' : x.pre t ctx = .ok x') (hb' : x'.toBytes = .ok b') :
    b = b' := by
  have same : x.pre t ctx = y.pre t ctx → b = b' := by
    intro e
    rw [hp, hp'] at e
    cases e
    rw [hb] at hb'
    cases hb'; rfl
  cases y with
  | tcp a =>
    cases x <;> simp only [bare, reduceCtorEq] at h
    rename_i a'
    obtain ⟨a1, a2, a3, a4, a5, a6, a7, a8⟩ := a
    obtain ⟨b1, b2, b3, b4, b5, b6, b7, b8⟩ := a'
    simp only [Hdr.tcp.injEq, TCP.mk.injEq] at h
    obtain ⟨rfl, rfl, rfl, rfl, rfl, rfl, rfl, _⟩ := h
    exact same rfl
  | udp a =>
    cases x <;> simp only [bare, reduceCtorEq] at h
    rename_i a'
    obtain ⟨a1, a2, a3, a4⟩ := a
    obtain ⟨b1, b2, b3, b4⟩ := a'
    simp only [Hdr.udp.injEq, UDP.mk.injEq] at h
    obtain ⟨rfl, rfl, rfl, _⟩ := h
    exact same rfl
  | ip6 a =>
    cases x <;> simp only [bare, reduceCtorEq] at h
    rename_i a'
    cases a; cases a'
    simp only [Hdr.ip6.injEq, IPv6.mk.injEq] at h
    obtain ⟨rfl, rfl, rfl, rfl, _, rfl, rfl⟩ := h
    exact same rfl
  | icmp6 a =>
    cases x <;> simp only [bare, reduceCtorEq] at h
    rename_i a'
    obtain ⟨a1, a2, a3, a4⟩ := a
    obtain ⟨b1, b2, b3, b4⟩ := a'
    simp only [Hdr.icmp6.injEq, ICMPMsg.mk.injEq] at h
    obtain ⟨rfl, rfl, rfl, _⟩ := h
    exact same rfl
  | icmp a =>
    cases x <;> simp only [bare, reduceCtorEq] at h
    rename_i a'
    obtain ⟨a1, a2, a3, a4⟩ := a
    obtain ⟨b1, b2, b3, b4⟩ := a'
    simp only [Hdr.icmp.injEq, ICMPMsg.mk.injEq] at h
    obtain ⟨rfl, rfl, rfl, _⟩ := h
    cases hp; cases hp'
    exact Except.ok.inj (hb.symm.trans hb')
  | _ =>
    cases x <;> simp only [bare, reduceCtorEq] at h
    all_goals (cases h; exact same rfl)

theorem bare_cls {x y : Hdr} (h : bare x = bare y) : x.cls = y.cls := by
  cases x <;> cases y <;> simp only [bare, reduceCtorEq] at h <;> rfl

theorem bare_ctx {q p : Packet} (h : q.map bareItem = p.map bareItem) : SameCtx q p := by
  induction q generalizing p with
  | nil => cases p with
    | nil => exact SameCtx.refl _
    | cons y p => simp at h
  | cons x q ih =>
    cases p with
    | nil => simp at h
    | cons y p =>
      simp only [List.map_cons, List.cons.injEq] at h
      obtain ⟨i4, i6⟩ := ih h.2
      have e4 : ∀ (z : Item) (l : Packet), Packet.ip4? (z :: l) = (Packet.ip4? [z]).or (Packet.ip4? l) :=
        fun z l => ip4?_append [z] l
      have e6 : ∀ (z : Item) (l : Packet), Packet.ip6? (z :: l) = (Packet.ip6? [z]).or (Packet.ip6? l) :=
        fun z l => ip6?_append [z] l
      have key : (Packet.ip4? [x]).map key4 = (Packet.ip4? [y]).map key4 ∧
          (Packet.ip6? [x]).map key6 = (Packet.ip6? [y]).map key6 := by
        cases x <;> cases y <;> simp only [bareItem, reduceCtorEq, Item.hdr.injEq, false_and] at h
        case hdr.hdr a b =>
          have hc := bare_cls h.1
          cases a <;> cases b <;> simp only [Hdr.cls, reduceCtorEq] at hc
          case ip4.ip4 u v => cases h.1; exact ⟨rfl, rfl⟩
          case ip6.ip6 u v =>
            have h1 := h.1
            cases u; cases v
            simp only [bare, Hdr.ip6.injEq, IPv6.mk.injEq] at h1
            obtain ⟨rfl, rfl, rfl, rfl, _, rfl, rfl⟩ := h1
            exact ⟨rfl, rfl⟩
          all_goals exact ⟨rfl, rfl⟩
        all_goals exact ⟨rfl, rfl⟩
      have or_map : ∀ {α β : Type} (f : α → β) (a b : Option α), (a.or b).map f = (a.map f).or (b.map f) := by
        intro α β f a b; cases a <;> rfl
      constructor
      · rw [e4 x, e4 y, or_map, or_map, key.1, i4]
      · rw [e6 x, e6 y, or_map, or_map, key.2, i6]

theorem bare_finish {ctx : Packet} {tail : Bytes} {q p q' p' : Packet} {bs bs' : List Bytes}
    (h : q.map bareItem = p.map bareItem) (hf : finish ctx tail p = .ok (p', bs)) (hf' : finish ctx tail q = .ok (q', bs')) :
    bs = bs' := by
  induction q generalizing p p' bs q' bs' with
  | nil => cases p with
    | nil => cases hf; cases hf'; rfl
    | cons y p => simp at h
  | cons x q ih =>
    cases p with
    | nil => simp at h
    | cons y p =>
      simp only [List.map_cons, List.cons.injEq] at h
      simp only [finish] at hf hf'
      obtain ⟨r, hr, hf⟩ := bind_eq_ok.mp hf
      obtain ⟨y', hy, hf⟩ := bind_eq_ok.mp hf
      obtain ⟨b, hb, hf⟩ := bind_eq_ok.mp hf
      cases hf
      obtain ⟨s, hs, hf'⟩ := bind_eq_ok.mp hf'
      obtain ⟨x', hx, hf'⟩ := bind_eq_ok.mp hf'
      obtain ⟨c, hc, hf'⟩ := bind_eq_ok.mp hf'
      cases hf'
      have hi := ih h.2 hr hs
      cases y with
      | hdr k =>
        cases x <;> simp only [bareItem, reduceCtorEq, Item.hdr.injEq, false_and] at h
        simp only [Item.pre] at hy hx
        obtain ⟨k', hk, rfl⟩ := map_eq_ok.mp hy
        obtain ⟨l', hl, rfl⟩ := map_eq_ok.mp hx
        rw [← hi] at hl
        rw [hi, bare_wire h.1 hk hb hl hc]
      | _ => cases hy

theorem looksLike_bare {r p : Packet} (h : LooksLike true [] r p) (hr : ∀ x, .hdr x ∈ r → Visible x)
    (hp : ∀ x, .hdr x ∈ p → Visible x) : r.map bareItem = p.map bareItem := by
  induction r generalizing p with
  | nil => cases p with
    | nil => rfl
    | cons y p => cases h
  | cons x r ih =>
    cases p with
    | nil => cases x <;> cases h
    | cons y p =>
      cases x <;> cases y <;> simp only [LooksLike] at h
      obtain ⟨h1, h2, h3⟩ := h
      rw [List.map_cons, List.map_cons, ih h3 (fun x hx => hr x (List.mem_cons_of_mem _ hx))
        (fun x hx => hp x (List.mem_cons_of_mem _ hx))]
      simp only [bareItem]
      rw [agree_bare h1 (hr _ List.mem_cons_self) (hp _ List.mem_cons_self)
        (fun a ha => h2 a ⟨ha, by simp⟩)]

theorem pre_visible {x x' : Hdr} {t : Bytes} {ctx : Packet} (h : x.pre t ctx = .ok x') (hv : Visible x) : Visible x' := by
  cases x <;> simp only [Hdr.pre] at h
  case ip4 k =>
    obtain ⟨k', hk, rfl⟩ := map_eq_ok.mp h
    unfold IPv4.preSerialize at hk
    obtain ⟨n, _, hk⟩ := bind_eq_ok.mp hk
    cases hk; exact hv
  case ip6 k => cases h; trivial
  case udp k => obtain ⟨k', hk, rfl⟩ := map_eq_ok.mp h; trivial
  case tcp k => obtain ⟨k', hk, rfl⟩ := map_eq_ok.mp h; trivial
  case icmp6 k =>
    obtain ⟨k', hk, rfl⟩ := map_eq_ok.mp h
    unfold icmp6PreSerialize at hk
    split at hk
    · cases hk
    · obtain ⟨c, _, hk⟩ := bind_eq_ok.mp hk
      cases hk; exact hv
  all_goals (cases h; exact hv)

theorem finish_visible {ctx : Packet} {tail : Bytes} {p p' : Packet} {bs : List Bytes}
    (h : finish ctx tail p = .ok (p', bs)) (hv : ∀ x, .hdr x ∈ p → Visible x) : ∀ x, .hdr x ∈ p' → Visible x := by
  induction p generalizing p' bs with
  | nil => cases h; simp
  | cons y p ih =>
    simp only [finish] at h
    obtain ⟨r, hr, h⟩ := bind_eq_ok.mp h
    obtain ⟨y', hy, h⟩ := bind_eq_ok.mp h
    obtain ⟨b, hb, h⟩ := bind_eq_ok.mp h
    cases h
    intro x hx
    rcases List.mem_cons.mp hx with hx | hx
    · subst hx
      cases y with
      | hdr k =>
        simp only [Item.pre] at hy
        obtain ⟨k', hk, e⟩ := map_eq_ok.mp hy
        cases e
        exact pre_visible hk (hv k List.mem_cons_self)
      | _ => cases hy
    · exact ih hr (fun z hz => hv z (List.mem_cons_of_mem _ hz)) x hx

/-- **C103**, partial: a packet that an exact matcher without wildcards accepts has the same bytes on
the wire as the reference packet, if all contents of the headers of both are visible to the matcher.
Missing: the headers excluded by `Visible`, for which it is false (`exact_bytes_violated`). -/
theorem exact_same_bytes_partial (ref p : Packet) (preds : List (Packet → Res Bool)) (m : Matcher)
    (hm : Matcher.new ref true [] preds = .ok m) (hr : ∀ x, .hdr x ∈ ref → Visible x)
    (hp : ∀ x, .hdr x ∈ p → Visible x) (h : (m.matchPkt p).2.2 = .ok true) :
    ∃ b, ref.toBytes.2 = .ok b ∧ p.toBytes.2 = .ok b := by
  rw [matcher_accepts _ _ _ _ _ hm] at h
  obtain ⟨p', b, r, b', h1, h2, h3, _⟩ := h
  obtain ⟨bs, hf, rfl⟩ := toBytes_inv h1
  obtain ⟨bs', hf', rfl⟩ := toBytes_inv h2
  have hb := looksLike_bare h3 (finish_visible hf' hr) (finish_visible hf hp)
  have i1 := finish_idem hf
  have i2 := finish_idem hf'
  have hctx : SameCtx ref p :=
    ((finish_sameCtx hf' []).trans (bare_ctx hb)).trans (finish_sameCtx hf []).symm
  rw [finish_ctx hctx] at i2
  have := bare_finish hb i1 i2
  exact ⟨bs'.flatten, by rw [h2], by rw [h1, this]⟩

/-! ## Cases -/

/-- The answer of a new matcher for a packet. -/
def ask (ref : Packet) (exact : Bool) (wild : List (Cls × HdrAttr)) (p : Packet) : Res Bool :=
  Matcher.new ref exact wild [] >>= fun m => (m.matchPkt p).2.2

/-- The UDP packet of C39 with another destination port. -/
def exOtherPort : Packet :=
  exPacket.map fun
    | .hdr (.udp h) => .hdr (.udp { h with dst := 54 })
    | x => x

/-- `matcher_accepts`, `matcher_monotone`: another destination port is refused unless the field is wildcarded. -/
example : ask exPacket true [] exPacket = .ok true ∧ ask exPacket true [] exOtherPort = .ok false ∧
    ask exPacket false [] exOtherPort = .ok false ∧ ask exPacket true [(.udp, .dst)] exOtherPort = .ok true := by
  refine ⟨?_, ?_, ?_, ?_⟩ <;> decide +kernel

/-- `matcher_accepts_own`, `match_repeatable`: the packet can be serialised. -/
example : ∃ p' b m, exPacket.toBytes = (p', .ok b) ∧ Matcher.new exPacket true [] [] = .ok m ∧ m.ref = exPacket := by
  obtain ⟨p', b, h, _⟩ := exPacket_ok
  exact ⟨p', b, _, h, rfl, rfl⟩

/-- `exact_same_bytes_partial`: all of the packet is visible. -/
example : (∀ x, .hdr x ∈ exPacket → Visible x) ∧ ask exPacket true [] exPacket = .ok true := by
  refine ⟨?_, by decide +kernel⟩
  intro x hx
  simp only [exPacket, List.mem_cons, List.not_mem_nil, or_false, Item.hdr.injEq] at hx
  rcases hx with rfl | rfl | rfl | rfl
  · trivial
  · intro o ho; simp at ho
  · trivial
  · trivial

/-- `matcher_restore_partial`: the packet is a stack and its matcher knows its first header. -/
example : Stack .eth exPacket ∧ ∃ m, Matcher.new exPacket true [] [] = .ok m ∧ m.ref = exPacket ∧ m.first = some .eth := by
  refine ⟨⟨rfl, ⟨by decide, by decide⟩, rfl, ⟨by decide, rfl⟩, rfl, by show UDP.WF _; decide, .inr ⟨?_, 104, [105], rfl⟩⟩,
    _, rfl, rfl, by decide +kernel⟩
  intro h; rcases h with h | h | h <;> cases h

/-! ## What is false -/

def exIp6 (next : Nat) : Item := .hdr (.ip6 ⟨0, 0, 64, next, 0, 1, 2⟩)
def exIp4 (os : List IPOpt) : Item := .hdr (.ip4 ⟨0, 0, 7, 2, 0, 64, 1, .v4 0x0a000001, .v4 0x0a000002, os⟩)

/-- Pairs of packets that differ only in contents a matcher does not see: the options of hop-by-hop and
destination headers, the segments-left count of a routing header, the routes of a RIP message, the
pointer of an IPv4 timestamp option, the next-hop MTU of an ICMP unreachable message, the address of an
ICMP redirect, and the address lengths of an ARP message. -/
def blindSpots : List (Packet × Packet) :=
  [([exIp6 0, .hdr (.hop ⟨some 59, [.jumbo 70000]⟩)], [exIp6 0, .hdr (.hop ⟨some 59, [.jumbo 80000]⟩)]),
   ([exIp6 60, .hdr (.dst ⟨some 59, [.jumbo 70000]⟩)], [exIp6 60, .hdr (.dst ⟨some 59, [.jumbo 80000]⟩)]),
   ([exIp6 43, .hdr (.route ⟨some 59, 2, 2, 1, 5⟩)], [exIp6 43, .hdr (.route ⟨some 59, 2, 2, 0, 5⟩)]),
   ([exIp4 [.timestamp 5 0 [(none, 0)]]], [exIp4 [.timestamp 9 0 [(none, 0)]]]),
   ([exIp4 [], .hdr (.icmp ⟨3, 4, .unreach 0 1500 [], 0⟩)], [exIp4 [], .hdr (.icmp ⟨3, 4, .unreach 0 576 [], 0⟩)]),
   ([exIp4 [], .hdr (.icmp ⟨5, 0, .redirect 1 [], 0⟩)], [exIp4 [], .hdr (.icmp ⟨5, 0, .redirect 2 [], 0⟩)]),
   ([.hdr (.rip ⟨2, [⟨2, 0, 0x0a000000, 8, 0, 1⟩]⟩)], [.hdr (.rip ⟨2, [⟨2, 0, 0x0a000000, 8, 0, 16⟩]⟩)]),
   ([.hdr (.arp ⟨1, 0x800, 6, 4, 1, ⟨[1, 2, 3, 4, 5, 6]⟩, .v4 1, ⟨[0, 0, 0, 0, 0, 0]⟩, .v4 2⟩)],
    [.hdr (.arp ⟨1, 0x800, 7, 9, 1, ⟨[1, 2, 3, 4, 5, 6]⟩, .v4 1, ⟨[0, 0, 0, 0, 0, 0]⟩, .v4 2⟩)])]

/-- The negation of **C103** in general: an exact matcher without wildcards accepts packets with other
bytes than the reference packet. -/
theorem exact_bytes_violated :
    ∀ x ∈ blindSpots, ask x.1 true [] x.2 = .ok true ∧
      ∃ b c, x.1.toBytes.2 = .ok b ∧ x.2.toBytes.2 = .ok c ∧ b ≠ c := by
  intro x hx
  have key : ∀ x ∈ blindSpots, (decide (ask x.1 true [] x.2 = .ok true) &&
      Except.test x.1.toBytes.2 fun b => Except.test x.2.toBytes.2 fun c => decide (b ≠ c)) = true := by
    decide +kernel
  have h := key x hx
  rw [Bool.and_eq_true] at h
  obtain ⟨b, hb, h2⟩ := Except.of_test h.2
  obtain ⟨c, hc, h3⟩ := Except.of_test h2
  exact ⟨of_decide_eq_true h.1, b, c, hb, hc, of_decide_eq_true h3⟩

/-- A matcher for an ICMP echo request does not refuse an ICMP message of another type: the comparison
raises `AttributeError`, although the types already differ. -/
theorem matcher_refuses_violated :
    ask [exIp4 [], .hdr (.icmp ⟨8, 0, .echo false 1 1 [], 0⟩)] true []
      [exIp4 [], .hdr (.icmp ⟨3, 1, .unreach 0 0 [], 0⟩)] = .error .attributeError := by decide +kernel

/-- If the reference or the packet is a router advertisement and the payloads differ, the comparison raises
`AttributeError` instead of refusing the packet: the difference cannot be put into words, since a router advertisement
cannot be printed. -/
theorem advertisement_refused_violated (x y : ICMPMsg ICMPv6Data) (l : List HdrAttr) (hd : x.data.eq y.data = .ok false)
    (hop rl re rt : Int) (f o h p : Bool) (os : List NDOpt) (pl : Bytes)
    (hr : x.data = .ra hop f o h p rl re rt os pl ∨ y.data = .ra hop f o h p rl re rt os pl) :
    compareAttrs (.hdr (.icmp6 x)) (.hdr (.icmp6 y)) (.icmpdata :: l) = .error .attributeError := by
  have hx : (Item.hdr (.icmp6 x)).getattr .icmpdata = .ok (.data6 x.data) := rfl
  have hy : (Item.hdr (.icmp6 y)).getattr .icmpdata = .ok (.data6 y.data) := rfl
  simp only [compareAttrs, hx, hy, bind_ok, AVal.eq, hd, shown, Bool.false_eq_true, if_false]
  rcases hr with hr | hr
  · rw [hr]
    cases hs : (AVal.data6 y.data).str with
    | ok t => rfl
    | error e =>
      have : e = .attributeError := by
        revert hs
        cases y.data <;> simp [AVal.str, ICMPv6Data.str] <;> exact fun h => h.symm
      subst this; rfl
  · rw [hr]; rfl

/-- Its case, with the whole matcher: a router advertisement is expected and a multicast listener query comes. -/
example : ask [exIp6 58, .hdr (.icmp6 ⟨134, 0, .ra 64 false false false false 1800 0 0 [] [], 0⟩)] true []
    [exIp6 58, .hdr (.icmp6 ⟨130, 0, .plain .mlQuery [] [1, 2], 0⟩)] = .error .attributeError := by
  decide +kernel

/-- Predicates are evaluated even when the comparison has failed: a predicate that is only defined for
packets that look like the reference raises for every other packet. -/
theorem predicate_guard_violated (ref : Packet) (exact : Bool) (wild : List (Cls × HdrAttr)) (m : Matcher) (e : PyErr)
    (f : Packet → Res Bool) (hm : Matcher.new ref exact wild [f] = .ok m) (p p' r : Packet) (b b' : Bytes)
    (hp : p.toBytes = (p', .ok b)) (hr : ref.toBytes = (r, .ok b')) (ht : sameTypes r p' = false)
    (hf : f p' = .error e) : (m.matchPkt p).2.2 = .error e := by
  unfold Matcher.new at hm
  obtain ⟨d, hd, hm⟩ := bind_eq_ok.mp hm
  obtain ⟨n, _, hm⟩ := bind_eq_ok.mp hm
  cases hm
  simp only [Matcher.matchPkt, hp, hr, Matcher.verdict, Matcher.compare, ht, Bool.false_eq_true, if_false, bind_ok,
    evalPreds, hf, bind_error]

/-- Its case: a predicate on the third header, and a packet with two headers. -/
example : (Matcher.new exPacket true [] [fun p => match p[2]? with | some _ => .ok true | none => .error .indexError] >>=
    fun m => (m.matchPkt (exPacket.take 2)).2.2) = .error .indexError := by decide +kernel

/-- The negation of **C102** in general: with an empty payload in the reference packet, the restored
matcher refuses the packet it was made from. -/
theorem matcher_restore_violated :
    let p : Packet :=
      [.hdr (.eth ⟨⟨[1, 2, 3, 4, 5, 6]⟩, ⟨[2, 0, 0, 0, 0, 1]⟩, 0x0800⟩),
       .hdr (.ip4 ⟨0, 0, 7, 2, 0, 64, 17, .v4 0x0a000001, .v4 0x0a000002, []⟩),
       .hdr (.udp ⟨5353, 53, 0, 0⟩), .hdr (.raw [])]
    ask p true [] p = .ok true ∧
      (Matcher.new p true [] [] >>= fun m => m.save >>= fun s => s.restore >>= fun m' => (m'.matchPkt p).2.2) = .ok false := by
  constructor <;> decide +kernel

/-! ## C104: refusing without raising -/

/-- Headers whose comparison with another header of the class cannot raise, however the other one looks. -/
def Comparing : Hdr → Prop
  | .icmp m => ∀ r i s p, m.data ≠ .echo r i s p
  | .icmp6 m => ∀ r i s p, m.data ≠ .echo r i s p
  | .ip4 h => ∀ o ∈ h.options, OptVisible o
  | _ => True

/-- Headers whose attributes can all be shown as text: all but router advertisements. -/
def Showing : Hdr → Prop
  | .icmp6 m => ∀ hop f o h p rl re rt os b, m.data ≠ .ra hop f o h p rl re rt os b
  | _ => True

theorem mem_of_lookup {α β : Type} [BEq α] [LawfulBEq α] {l : List (α × β)} {a : α} {b : β} (h : l.lookup a = some b) :
    (a, b) ∈ l := by
  induction l with
  | nil => cases h
  | cons x l ih =>
    obtain ⟨c, d⟩ := x
    simp only [List.lookup] at h
    split at h
    · rename_i e
      cases h
      rw [eq_of_beq e]; exact List.mem_cons_self
    · exact List.mem_cons_of_mem _ (ih h)

theorem getattr_mem {x : Hdr} {a : HdrAttr} {u : AVal} (h : x.getattr a = .ok u) : (a, .ok u) ∈ x.attrs := by
  unfold Hdr.getattr at h
  cases hl : x.attrs.lookup a with
  | none => rw [hl] at h; cases h
  | some r =>
    rw [hl] at h
    have h : r = .ok u := h
    rw [← h]
    exact mem_of_lookup hl

theorem optEq_total {a b : IPOpt} (ha : OptVisible a) (hb : OptVisible b) : ∃ r, a.eq b = .ok r := by
  cases a <;> cases b <;> simp only [OptVisible] at ha hb <;> simp only [IPOpt.eq, IPOpt.optnum] <;>
    first
      | exact ⟨_, rfl⟩
      | (rename_i n _ _ k _ _; by_cases e : n = k <;> first | (simp [e]; done) | omega)
      | (refine ⟨false, if_neg ?_⟩; omega)

theorem optsEq_total {as bs : List IPOpt} (ha : ∀ o ∈ as, OptVisible o) (hb : ∀ o ∈ bs, OptVisible o) :
    ∃ r, optsEq as bs = .ok r := by
  unfold optsEq
  split
  · exact ⟨_, rfl⟩
  · rename_i hl
    simp only [ne_eq, Decidable.not_not] at hl
    induction as generalizing bs with
    | nil => cases bs with
      | nil => exact ⟨_, rfl⟩
      | cons b bs => simp at hl
    | cons a as ih =>
      cases bs with
      | nil => simp at hl
      | cons b bs =>
        obtain ⟨r, hr⟩ := optEq_total (ha a List.mem_cons_self) (hb b List.mem_cons_self)
        simp only [optsEqLoop, hr, bind_ok]
        cases r with
        | false => exact ⟨_, rfl⟩
        | true =>
          exact ih (fun o ho => ha o (List.mem_cons_of_mem _ ho)) (fun o ho => hb o (List.mem_cons_of_mem _ ho))
            (by simpa using hl)

theorem avalEq_total {x y : Hdr} {a : HdrAttr} {u v : AVal} (hc : x.cls = y.cls) (hx : Comparing x)
    (hy : ∀ h, y = .ip4 h → Comparing y)
    (hu : x.getattr a = .ok u) (hv : y.getattr a = .ok v) : ∃ r, u.eq v = .ok r := by
  have mu := getattr_mem hu
  have mv := getattr_mem hv
  cases u with
  | data4 d =>
    cases v with
    | data4 e =>
      have hd : ∀ r i s p, d ≠ .echo r i s p := by
        cases x <;> simp [Hdr.attrs, tcpFlagsByName] at mu
        · obtain ⟨n, _, h⟩ := bind_eq_ok.mp mu.2.symm
          cases h
        · rw [mu.2]; exact hx
      cases d with
      | echo r i s p => exact absurd rfl (hd r i s p)
      | _ => exact ⟨_, rfl⟩
    | _ => exact ⟨_, rfl⟩
  | data6 d =>
    cases v with
    | data6 e =>
      have hd : ∀ r i s p, d ≠ .echo r i s p := by
        cases x <;> simp [Hdr.attrs, tcpFlagsByName] at mu
        · obtain ⟨n, _, h⟩ := bind_eq_ok.mp mu.2.symm
          cases h
        · rw [mu.2]; exact hx
      cases d with
      | echo r i s p => exact absurd rfl (hd r i s p)
      | _ => exact ⟨_, rfl⟩
    | _ => exact ⟨_, rfl⟩
  | opts os =>
    cases v with
    | opts os' =>
      have opts : ∀ {z : Hdr} {os : List IPOpt}, (a, Except.ok (AVal.opts os)) ∈ z.attrs → ∃ h, z = .ip4 h ∧ os = h.options := by
        intro z os mu
        cases z <;> simp [Hdr.attrs, tcpFlagsByName] at mu
        case ip4 h =>
          refine ⟨h, rfl, ?_⟩
          rcases mu with ⟨_, h⟩ | h
          · obtain ⟨n, _, h⟩ := bind_eq_ok.mp h.symm
            cases h
          · exact h.2
      obtain ⟨h, rfl, rfl⟩ := opts mu
      obtain ⟨k, rfl, rfl⟩ := opts mv
      exact optsEq_total hx (hy k rfl)
    | _ => exact ⟨_, rfl⟩
  | _ => exact ⟨_, rfl⟩

theorem aval_str_total {x : Hdr} {a : HdrAttr} {u : AVal} (hx : Showing x) (hu : x.getattr a = .ok u) :
    ∃ t, u.str = .ok t := by
  have mu := getattr_mem hu
  cases u with
  | data6 d =>
    have hd : ∀ hop f o h p rl re rt os b, d ≠ .ra hop f o h p rl re rt os b := by
      cases x <;> simp [Hdr.attrs, tcpFlagsByName] at mu
      · obtain ⟨n, _, h⟩ := bind_eq_ok.mp mu.2.symm
        cases h
      · rw [mu.2]; exact hx
    cases d with
    | ra hop f o h p rl re rt os b => exact absurd rfl (hd hop f o h p rl re rt os b)
    | _ => exact ⟨_, rfl⟩
  | proto o => cases o <;> exact ⟨_, rfl⟩
  | _ => exact ⟨_, rfl⟩

theorem pre_showing {x x' : Hdr} {t : Bytes} {ctx : Packet} (h : x.pre t ctx = .ok x') (hv : Showing x) : Showing x' := by
  cases x <;> simp only [Hdr.pre] at h
  case ip4 k => obtain ⟨k', hk, rfl⟩ := map_eq_ok.mp h; trivial
  case ip6 k => cases h; trivial
  case udp k => obtain ⟨k', hk, rfl⟩ := map_eq_ok.mp h; trivial
  case tcp k => obtain ⟨k', hk, rfl⟩ := map_eq_ok.mp h; trivial
  case icmp6 k =>
    obtain ⟨k', hk, rfl⟩ := map_eq_ok.mp h
    unfold icmp6PreSerialize at hk
    split at hk
    · cases hk
    · obtain ⟨c, _, hk⟩ := bind_eq_ok.mp hk
      cases hk; exact hv
  all_goals (cases h; exact hv)

theorem finish_toBytes {ctx : Packet} {tail : Bytes} {p p' : Packet} {bs : List Bytes}
    (h : finish ctx tail p = .ok (p', bs)) : ∀ x, .hdr x ∈ p' → ∃ b, x.toBytes = .ok b := by
  induction p generalizing p' bs with
  | nil => cases h; simp
  | cons y p ih =>
    simp only [finish] at h
    obtain ⟨r, hr, h⟩ := bind_eq_ok.mp h
    obtain ⟨y', hy, h⟩ := bind_eq_ok.mp h
    obtain ⟨b, hb, h⟩ := bind_eq_ok.mp h
    cases h
    intro x hx
    rcases List.mem_cons.mp hx with hx | hx
    · subst hx; exact ⟨b, hb⟩
    · exact ih hr x hx

theorem pre_comparing {x x' : Hdr} {t : Bytes} {ctx : Packet} (h : x.pre t ctx = .ok x') (hv : Comparing x) : Comparing x' := by
  cases x <;> simp only [Hdr.pre] at h
  case ip4 k =>
    obtain ⟨k', hk, rfl⟩ := map_eq_ok.mp h
    unfold IPv4.preSerialize at hk
    obtain ⟨n, _, hk⟩ := bind_eq_ok.mp hk
    cases hk; exact hv
  case ip6 k => cases h; trivial
  case udp k => obtain ⟨k', hk, rfl⟩ := map_eq_ok.mp h; trivial
  case tcp k => obtain ⟨k', hk, rfl⟩ := map_eq_ok.mp h; trivial
  case icmp6 k =>
    obtain ⟨k', hk, rfl⟩ := map_eq_ok.mp h
    unfold icmp6PreSerialize at hk
    split at hk
    · cases hk
    · obtain ⟨c, _, hk⟩ := bind_eq_ok.mp hk
      cases hk; exact hv
  all_goals (cases h; exact hv)

theorem pre_ip4 {x x' : Hdr} {t : Bytes} {ctx : Packet} (h : x.pre t ctx = .ok x') (h' : IPv4) (e : x' = .ip4 h') :
    ∃ k, x = .ip4 k := by
  have := (Hdr.pre_keys h).1
  cases x <;> subst e <;> simp only [Hdr.cls, reduceCtorEq] at this
  exact ⟨_, rfl⟩

theorem finish_comparing {ctx : Packet} {tail : Bytes} {p p' : Packet} {bs : List Bytes}
    (h : finish ctx tail p = .ok (p', bs)) (P : Hdr → Prop)
    (hP : ∀ x x' t, x.pre t ctx = .ok x' → P x → P x') (hv : ∀ x, .hdr x ∈ p → P x) :
    ∀ x, .hdr x ∈ p' → P x := by
  induction p generalizing p' bs with
  | nil => cases h; simp
  | cons y p ih =>
    simp only [finish] at h
    obtain ⟨r, hr, h⟩ := bind_eq_ok.mp h
    obtain ⟨y', hy, h⟩ := bind_eq_ok.mp h
    obtain ⟨b, hb, h⟩ := bind_eq_ok.mp h
    cases h
    intro x hx
    rcases List.mem_cons.mp hx with hx | hx
    · subst hx
      cases y with
      | hdr k =>
        simp only [Item.pre] at hy
        obtain ⟨k', hk, e⟩ := map_eq_ok.mp hy
        cases e
        exact hP _ _ _ hk (hv k List.mem_cons_self)
      | _ => cases hy
    · exact ih hr (fun z hz => hv z (List.mem_cons_of_mem _ hz)) x hx

theorem compareAttrs_total {x y : Hdr} {b c : Bytes} (hc : x.cls = y.cls) (hx : Comparing x)
    (hy : ∀ h, y = .ip4 h → Comparing y) (hb : x.toBytes = .ok b) (hb' : y.toBytes = .ok c) (l : List HdrAttr)
    (sx : Showing x) (sy : Showing y)
    (hl : ∀ a ∈ l, a ∈ fieldsOf x.cls) : ∃ r, compareAttrs (.hdr x) (.hdr y) l = .ok r := by
  induction l with
  | nil => exact ⟨_, rfl⟩
  | cons a l ih =>
    obtain ⟨r, hr⟩ := ih (fun a h => hl a (List.mem_cons_of_mem _ h))
    have ha := hl a List.mem_cons_self
    obtain ⟨u, hu⟩ := getattr_ok hb a ha
    obtain ⟨v, hv⟩ := getattr_ok hb' a (hc ▸ ha)
    obtain ⟨e, he⟩ := avalEq_total hc hx hy hu hv
    obtain ⟨s, hs⟩ := aval_str_total sx hu
    obtain ⟨t, ht⟩ := aval_str_total sy hv
    have hsh : shown e u v = .ok () := by cases e <;> simp [shown, hs, ht, bind_ok]
    exact ⟨e && r, by simp only [compareAttrs, Item.getattr, hu, hv, he, hsh, hr, bind_ok]⟩

theorem compareHeaders_total {d : Dict Klass (List HdrAttr)} (r p : Packet)
    (hr : ∀ it ∈ r, ∃ x, it = .hdr x) (hp : ∀ it ∈ p, ∃ x, it = .hdr x)
    (hd : ∀ x, .hdr x ∈ r → ∀ a, a ∈ (d.get? (.hdr x.cls)).getD [] → a ∈ fieldsOf x.cls)
    (cr : ∀ x, .hdr x ∈ r → Comparing x) (cp : ∀ x, .hdr x ∈ p → ∀ h, x = .ip4 h → Comparing x)
    (br : ∀ x, .hdr x ∈ r → ∃ b, x.toBytes = .ok b) (bp : ∀ x, .hdr x ∈ p → ∃ b, x.toBytes = .ok b)
    (sr : ∀ x, .hdr x ∈ r → Showing x) (sp : ∀ x, .hdr x ∈ p → Showing x)
    (hs : sameTypes r p = true) : ∃ b, compareHeaders d r p = .ok b := by
  induction r generalizing p with
  | nil => exact ⟨true, by cases p <;> rfl⟩
  | cons x r ih =>
    obtain ⟨x, rfl⟩ := hr _ List.mem_cons_self
    cases p with
    | nil => exact ⟨true, rfl⟩
    | cons y p =>
      obtain ⟨y, rfl⟩ := hp _ List.mem_cons_self
      simp only [sameTypes, Item.klass, Bool.and_eq_true, beq_iff_eq, Klass.hdr.injEq] at hs
      obtain ⟨b1, h1⟩ := br x List.mem_cons_self
      obtain ⟨b2, h2⟩ := bp y List.mem_cons_self
      obtain ⟨e, he⟩ := compareAttrs_total hs.1 (cr x List.mem_cons_self) (cp y List.mem_cons_self) h1 h2 _
        (sr x List.mem_cons_self) (sp y List.mem_cons_self) (hd x List.mem_cons_self)
      obtain ⟨f, hf⟩ := ih p (fun it h => hr it (List.mem_cons_of_mem _ h)) (fun it h => hp it (List.mem_cons_of_mem _ h))
        (fun z h => hd z (List.mem_cons_of_mem _ h)) (fun z h => cr z (List.mem_cons_of_mem _ h))
        (fun z h => cp z (List.mem_cons_of_mem _ h)) (fun z h => br z (List.mem_cons_of_mem _ h))
        (fun z h => bp z (List.mem_cons_of_mem _ h)) (fun z h => sr z (List.mem_cons_of_mem _ h))
        (fun z h => sp z (List.mem_cons_of_mem _ h)) hs.2
      exact ⟨e && f, by simp only [compareHeaders, Item.klass, he, hf, bind_ok]⟩

/-- **C104**, partial: for a reference packet without ICMP echo messages, a matcher without predicates
answers yes or no for every packet that can be serialised; it does not raise.  (Option lists, on both
sides, hold options of the library's classes other than the timestamp, and neither packet is a router
advertisement.)  Missing: echo messages in the reference (`matcher_refuses_violated`), predicates
(`predicate_guard_violated`) and router advertisements, which raise whenever the payloads differ
(`advertisement_refused_violated`). -/
theorem matcher_answers_partial (ref p p' r : Packet) (exact : Bool) (wild : List (Cls × HdrAttr)) (b b' : Bytes)
    (m : Matcher) (hm : Matcher.new ref exact wild [] = .ok m) (hp : p.toBytes = (p', .ok b))
    (hr : ref.toBytes = (r, .ok b')) (cr : ∀ x, .hdr x ∈ ref → Comparing x)
    (cp : ∀ x, .hdr x ∈ p → ∀ h, x = .ip4 h → Comparing x)
    (sr : ∀ x, .hdr x ∈ ref → Showing x) (sp : ∀ x, .hdr x ∈ p → Showing x) :
    ∃ a, (m.matchPkt p).2.2 = .ok a := by
  unfold Matcher.new at hm
  obtain ⟨d, hd, hm⟩ := bind_eq_ok.mp hm
  obtain ⟨n, _, hm⟩ := bind_eq_ok.mp hm
  cases hm
  obtain ⟨bs, hf, _⟩ := toBytes_inv hp
  obtain ⟨bs', hf', _⟩ := toBytes_inv hr
  obtain ⟨_, hp2, _⟩ := finish_headers hf
  obtain ⟨_, hr2, hr3⟩ := finish_headers hf'
  have total : sameTypes r p' = true → ∃ c, compareHeaders d r p' = .ok c := by
    apply compareHeaders_total r p' hr2 hp2
    · intro x hx a ha
      obtain ⟨y, hy, he⟩ := mem_klass hr3 x hx
      rw [← he] at ha ⊢
      have := ((compared_iff hd y hy a).mp ha).1
      cases exact with
      | true => exact this
      | false => exact essential_sub _ _ this
    · exact finish_comparing hf' Comparing (fun _ _ _ => pre_comparing) cr
    · exact finish_comparing hf (fun x => ∀ h, x = .ip4 h → Comparing x)
        (fun x x' t hx hc h e => by
          obtain ⟨k, hk⟩ := pre_ip4 hx h e
          exact pre_comparing hx (hc k hk)) cp
    · exact finish_toBytes hf'
    · exact finish_toBytes hf
    · exact finish_comparing hf' Showing (fun _ _ _ => pre_showing) sr
    · exact finish_comparing hf Showing (fun _ _ _ => pre_showing) sp
  simp only [Matcher.matchPkt, hp, hr, Matcher.verdict, Matcher.compare, evalPreds, bind_ok]
  split
  · rename_i hs
    obtain ⟨c, hc⟩ := total hs
    exact ⟨_, by rw [hc, bind_ok]⟩
  · exact ⟨_, rfl⟩

/-- Its case: the UDP packet of C39, against itself and against an ICMP message. -/
example : (∀ x, .hdr x ∈ exPacket → Comparing x ∧ Showing x) ∧
    ask exPacket true [] [exIp4 [], .hdr (.icmp ⟨8, 0, .echo false 1 1 [], 0⟩)] = .ok false := by
  refine ⟨?_, by decide +kernel⟩
  intro x hx
  simp only [exPacket, List.mem_cons, List.not_mem_nil, or_false, Item.hdr.injEq] at hx
  rcases hx with rfl | rfl | rfl | rfl
  · exact ⟨trivial, trivial⟩
  · exact ⟨by intro o ho; simp at ho, trivial⟩
  · exact ⟨trivial, trivial⟩
  · exact ⟨trivial, trivial⟩

/-! ## Details of the above -/

theorem storable_size {h : Hdr} (hs : Storable h) (hg : goodLen h) {n : Nat} (hn : h.size = .ok n) : 0 < n := by
  cases h with
  | ip4 h =>
    obtain ⟨o, _, hn⟩ := bind_eq_ok.mp hn
    cases hn; omega
  | icmp m =>
    obtain ⟨d, _, hn⟩ := bind_eq_ok.mp hn
    cases hn
    exact Nat.lt_of_lt_of_le (by decide : 0 < calcsize ICMPKind.fmt) (Nat.le_add_right _ _)
  | icmp6 m =>
    obtain ⟨d, _, hn⟩ := bind_eq_ok.mp hn
    cases hn
    exact Nat.lt_of_lt_of_le (by decide : 0 < calcsize ICMPKind.fmt) (Nat.le_add_right _ _)
  | route _ => exact hg.elim
  | frag _ => exact hg.elim
  | hop _ => exact hg.elim
  | dst _ => exact hg.elim
  | rip _ => exact hg.elim
  | raw _ => exact hs.elim
  | nullHdr => exact hs.elim
  | null _ => cases hn; decide
  | eth _ => cases hn; exact (by decide : 0 < calcsize Ethernet.fmt)
  | vlan _ => cases hn; exact (by decide : 0 < calcsize Vlan.fmt)
  | arp _ => cases hn; exact (by decide : 0 < calcsize Arp.fmt)
  | ip6 _ => cases hn; exact (by decide : 0 < 40)
  | udp _ => cases hn; exact (by decide : 0 < calcsize UDP.fmt)
  | tcp _ => cases hn; exact (by decide : 0 < calcsize TCP.fmt)

/-- **C102**: a new matcher remembers the class of the first header of its packet. -/
theorem matcher_first (h : Hdr) (rest : Packet) (exact : Bool) (wild : List (Cls × HdrAttr))
    (preds : List (Packet → Res Bool)) (m : Matcher) (hs : Storable h) (hg : goodLen h)
    (hm : Matcher.new (.hdr h :: rest) exact wild preds = .ok m) :
    m.first = some h.cls ∧ m.ref = .hdr h :: rest ∧ m.exact = exact ∧ m.preds = preds := by
  obtain ⟨d, _, hm⟩ := bind_eq_ok.mp hm
  obtain ⟨n, hn, hm⟩ := bind_eq_ok.mp hm
  cases hm
  obtain ⟨k, hk, hn⟩ := bind_eq_ok.mp hn
  obtain ⟨j, _, hn⟩ := bind_eq_ok.mp hn
  cases hn
  have := storable_size hs hg hk
  exact ⟨by simp only [firstHeader]; rw [if_neg (by omega)], rfl, rfl, rfl⟩

/-- **C102**, partial: so a new matcher for a packet that serialises can be saved and restored, if its
packet is a stack of storable headers; for the first header see `goodLen`. -/
theorem matcher_new_restore_partial (h : Hdr) (rest r : Packet) (b : Bytes) (exact : Bool) (wild : List (Cls × HdrAttr))
    (preds : List (Packet → Res Bool)) (m : Matcher) (hs : Stack h.cls (.hdr h :: rest)) (hg : goodLen h)
    (hb : Packet.toBytes (.hdr h :: rest) = (r, .ok b)) (hm : Matcher.new (.hdr h :: rest) exact wild preds = .ok m) :
    ∃ s m', m.save = .ok s ∧ s.restore = .ok m' ∧ ∀ p, (m'.matchPkt p).2 = (m.matchPkt p).2 := by
  obtain ⟨h1, h2, _⟩ := matcher_first h rest exact wild preds m hs.2.1 hg hm
  exact matcher_restore_partial m h.cls (by rw [h2]; exact hs) h1 r b (by rw [h2]; exact hb)

/-- NOP-like options are the same if their numbers are, routes if number, pointer and addresses are,
timestamps if flag and entries are. -/
def SameOption : IPOpt → IPOpt → Prop
  | .single n, o => n = o.optnum
  | .routing n p as, .routing n' p' as' => n = n' ∧ p = p' ∧ as = as'
  | .timestamp _ f es, .timestamp _ f' es' => f = f' ∧ es = es'
  | .fourB n v c, .fourB n' v' c' => n = n' ∧ v = v' ∧ c = c'
  | _, _ => False

/-- **C103**: what equality of IPv4 options means. -/
theorem option_equality (a b : IPOpt) : a.eq b = .ok true ↔ SameOption a b := by
  cases a with
  | single n => simp [IPOpt.eq, SameOption]
  | routing n p as =>
    cases b with
    | routing n' p' as' => by_cases e : n = n' <;> simp [IPOpt.eq, IPOpt.optnum, SameOption, e]
    | _ =>
      simp only [IPOpt.eq, SameOption, iff_false]
      split <;> simp
  | timestamp p f es => cases b <;> simp [IPOpt.eq, SameOption, and_comm]
  | fourB n v c =>
    cases b with
    | fourB n' v' c' => by_cases e : n = n' <;> simp [IPOpt.eq, IPOpt.optnum, SameOption, e]
    | _ =>
      simp only [IPOpt.eq, SameOption, iff_false]
      split <;> simp

/-- **C25**: the text of the flags of a serialised TCP header lists, in the order of the bits, the
letter of every bit set. -/
theorem tcp_flagstr (h : TCP) (w : h.WF) (b : Bytes) (hb : h.toBytes = .ok b) :
    h.flagstr = (("FSRPAUECN".toList.zipIdx).filter fun x => (beDec ((b.drop 12).take 2)).testBit x.2).map (·.1) := by
  have e : "FSRPAUECN".toList.zipIdx = tcpFlagOrder.map fun f => (f.letter, rfcFlagBit f) := by decide
  rw [e, List.filter_map, List.map_map]
  unfold TCP.flagstr
  rw [List.filter_congr (fun f _ => tcp_flag_wire h w b hb f)]
  rfl

end SY.Props
