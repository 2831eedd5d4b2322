import Verif.Props.IPText
import Verif.Props.Socket
import Verif.Props.Live
import Verif.Props.Topo

/-!
# C112–C116: texts of IPv4 addresses, addresses of interfaces, new sockets, links of a topology
-/

namespace SY.Props

open SY

/-! ## C112: IPv4 addresses as text -/

theorem digit_digitChar {c : Char} (h : c.isDigit = true) : c.toNat - 48 < 10 ∧ (c.toNat - 48).digitChar = c := by
  have h1 : 48 ≤ c.toNat ∧ c.toNat ≤ 57 := by
    simp only [Char.isDigit, Bool.and_eq_true, decide_eq_true_eq] at h
    exact ⟨by simpa using UInt32.le_iff_toNat_le.mp h.1, by simpa using UInt32.le_iff_toNat_le.mp h.2⟩
  refine ⟨by omega, ?_⟩
  have key : ∀ k : Fin 10, (Char.ofNat (k.val + 48)) = k.val.digitChar := by decide
  have := key ⟨c.toNat - 48, by omega⟩
  simp only at this
  rw [← this, show c.toNat - 48 + 48 = c.toNat by omega, Char.ofNat_toNat]

theorem snoc_induction {α : Type} {P : List α → Prop} (h0 : P []) (hs : ∀ t c, P t → P (t ++ [c])) (s : List α) : P s := by
  rw [← List.reverse_reverse s]
  induction s.reverse with
  | nil => exact h0
  | cons c t ih => rw [List.reverse_cons]; exact hs _ _ ih

theorem join_splitChar (c : Char) (s : List Char) : joinChar c (splitChar c s) = s := by
  induction s with
  | nil => rfl
  | cons d s ih =>
    have hne : splitChar c s ≠ [] := by
      intro h; have := congrArg List.length h; rw [length_splitChar] at this; simp at this
    obtain ⟨p, ps, hp⟩ := List.exists_cons_of_ne_nil hne
    rw [hp] at ih
    unfold splitChar
    by_cases hd : d = c
    · subst hd
      rw [if_pos rfl, hp]
      simp only [joinChar, List.nil_append]
      rw [ih]
    · rw [if_neg hd, hp]
      cases ps with
      | nil => simp only [joinChar] at ih ⊢; rw [ih]
      | cons q ps => simp only [joinChar, List.cons_append] at ih ⊢; rw [ih]

theorem digitsVal_snoc (s : List Char) (c : Char) : digitsVal (s ++ [c]) = 10 * digitsVal s + (c.toNat - 48) := by
  simp [digitsVal, Nat.ofDigitChars_append, Nat.ofDigitChars_cons]

theorem digitsVal_pos (s : List Char) : s.all Char.isDigit = true → s ≠ [] → s.head? ≠ some '0' → 0 < digitsVal s := by
  refine snoc_induction (P := fun s => s.all Char.isDigit = true → s ≠ [] → s.head? ≠ some '0' → 0 < digitsVal s)
    (by simp) ?_ s
  intro t c ih hd _ hh
  rw [digitsVal_snoc]
  simp only [List.all_append, Bool.and_eq_true, List.all_cons, List.all_nil, Bool.and_true] at hd
  by_cases ht : t = []
  · subst ht
    have := digit_digitChar hd.2
    rcases Nat.eq_zero_or_pos (c.toNat - 48) with h0 | h0
    · exfalso
      apply hh
      rw [h0] at this
      simp [← this.2]
    · omega
  · have : t.head? ≠ some '0' := by
      obtain ⟨x, t', rfl⟩ := List.exists_cons_of_ne_nil ht
      simpa using hh
    have := ih hd.1 ht this
    omega

/-- A text of digits without a needless zero in front is the text of its number. -/
theorem natText_digitsVal (s : List Char) : s.all Char.isDigit = true → s ≠ [] → (s.length = 1 ∨ s.head? ≠ some '0') →
    natText (digitsVal s) = s := by
  refine snoc_induction (P := fun s => s.all Char.isDigit = true → s ≠ [] → (s.length = 1 ∨ s.head? ≠ some '0') →
    natText (digitsVal s) = s) (by simp) ?_ s
  intro t c ih hd _ hh
  rw [digitsVal_snoc]
  simp only [List.all_append, Bool.and_eq_true, List.all_cons, List.all_nil, Bool.and_true] at hd
  obtain ⟨hc1, hc2⟩ := digit_digitChar hd.2
  by_cases ht : t = []
  · subst ht
    have h0 : digitsVal [] = 0 := rfl
    rw [h0]
    unfold natText
    rw [Nat.toDigits_of_lt_base (by omega)]
    simp [hc2]
  · have hh' : t.head? ≠ some '0' := by
      obtain ⟨x, t', rfl⟩ := List.exists_cons_of_ne_nil ht
      rcases hh with hh | hh
      · simp at hh
      · simpa using hh
    have hp := digitsVal_pos t hd.1 ht hh'
    have := ih hd.1 ht (.inr hh')
    unfold natText at this ⊢
    rw [Nat.toDigits_of_base_le (by omega) (by omega)]
    rw [show (10 * digitsVal t + (c.toNat - 48)) / 10 = digitsVal t by omega,
      show (10 * digitsVal t + (c.toNat - 48)) % 10 = c.toNat - 48 by omega, this, hc2]

theorem octetVal_inv {s : List Char} {b : UInt8} (h : octetVal s = some b) : s = natText b.toNat := by
  unfold octetVal at h
  split at h
  · rename_i hc
    cases h
    obtain ⟨h1, h2, h3, h4, h5⟩ := hc
    have : (UInt8.ofNat (digitsVal s)).toNat = digitsVal s := by
      simp [UInt8.toNat_ofNat']; omega
    rw [this]
    exact (natText_digitsVal s h2 h1 h4).symm
  · cases h

theorem octetVals_inv {ss : List (List Char)} : ∀ {bs : Bytes}, octetVals ss = some bs → ss = bs.map fun x => natText x.toNat := by
  induction ss with
  | nil => intro bs h; cases h; rfl
  | cons s ss ih =>
    intro bs h
    simp only [octetVals] at h
    cases hs : octetVal s with
    | none => simp [hs] at h
    | some b =>
      cases hss : octetVals ss with
      | none => simp [hs, hss] at h
      | some bs' =>
        simp [hs, hss] at h
        subst h
        rw [octetVal_inv hs, ih hss]; rfl

/-- A text is accepted as an IPv4 address exactly if it is the dotted-quad text of one, and then it is
that address. -/
theorem ipv4_text_iff (s : List Char) (a : BitVec 32) : ipv4Parse s = some a ↔ s = ipv4Text a := by
  refine ⟨fun h => ?_, fun h => by rw [h]; exact ipv4Parse_text a⟩
  unfold ipv4Parse at h
  split at h
  case isFalse => cases h
  rename_i hl
  cases hv : octetVals (splitChar '.' s) with
  | none => simp [hv] at h
  | some bs =>
    simp [hv] at h
    subst h
    have hs := octetVals_inv hv
    have hbl : bs.length = 4 := by have := congrArg List.length hs; simpa [hl] using this.symm
    unfold ipv4Text
    rw [BitVec.toNat_ofNat]
    have hlt : beDec bs < 2 ^ 32 := by have := beDec_lt bs; rw [hbl] at this; simpa using this
    rw [Nat.mod_eq_of_lt hlt]
    have : beEnc 4 (beDec bs) = bs := by rw [← hbl]; exact beEnc_beDec bs
    rw [this, ← hs]
    exact (join_splitChar '.' s).symm

example : ipv4Parse "10.0.0.255".toList = some 0x0a0000ff ∧ ipv4Parse "10.0.0.256".toList = none ∧
    ipv4Parse "10.0.0.01".toList = none := by decide +kernel

theorem plenOfMask_iff (m p : Nat) (hm : m < 2 ^ 32) : plenOfMask m = some p ↔
    p ≤ 32 ∧ (m = 2 ^ 32 - 2 ^ (32 - p) ∨ (m = 2 ^ (32 - p) - 1 ∧ 0 < p ∧ p < 32)) := by
  have hle : ∀ q, 2 ^ (32 - q) ≤ 2 ^ 32 := fun q => Nat.pow_le_pow_right (by omega) (by omega)
  have hpos : ∀ q, 0 < 2 ^ (32 - q) := fun q => Nat.two_pow_pos _
  constructor
  · intro h
    unfold plenOfMask at h
    split at h
    · rename_i q hq
      cases h
      have h1 := List.mem_of_find?_eq_some hq
      have h2 := List.find?_some hq
      have h3 : maskOf p = m := of_decide_eq_true h2
      have h4 : p < 33 := by simpa using h1
      exact ⟨by omega, .inl h3.symm⟩
    · rename_i hn
      have h1 := List.mem_of_find?_eq_some h
      have h2 := List.find?_some h
      rw [List.find?_eq_none] at hn
      have h2 : maskOf p = 2 ^ 32 - 1 - m := of_decide_eq_true h2
      simp only [List.mem_range, decide_eq_true_eq, maskOf] at h1 h2 hn
      have := hle p
      have := hpos p
      refine ⟨by omega, .inr ⟨by omega, ?_, ?_⟩⟩
      · rcases Nat.eq_zero_or_pos p with h0 | h0
        · exfalso
          subst h0
          apply hn 32 (by omega)
          simp at h2 ⊢; omega
        · exact h0
      · rcases Nat.lt_or_ge p 32 with h0 | h0
        · exact h0
        · exfalso
          have : p = 32 := by omega
          subst this
          apply hn 0 (by omega)
          simp at h2 ⊢; omega
  · have k1 : ∀ p : Fin 33, plenOfMask (2 ^ 32 - 2 ^ (32 - p.val)) = some p.val := by decide +kernel
    have k2 : ∀ p : Fin 33, 0 < p.val → p.val < 32 → plenOfMask (2 ^ (32 - p.val) - 1) = some p.val := by decide +kernel
    rintro ⟨hp, rfl | ⟨rfl, h1, h2⟩⟩
    · exact k1 ⟨p, by omega⟩
    · exact k2 ⟨p, by omega⟩ h1 h2

theorem ipv4Text_not_digits (a : BitVec 32) : (ipv4Text a).all Char.isDigit = false := by
  rw [Bool.eq_false_iff]
  intro h
  rw [List.all_eq_true] at h
  have hm : '.' ∈ ipv4Text a := by
    have hl := length_beEnc 4 a.toNat
    unfold ipv4Text
    match beEnc 4 a.toNat, hl with
    | [_, _, _, _], _ => simp [joinChar]
  exact absurd (h _ hm) (by decide)

/-- A text is accepted as an IPv4 interface address exactly if it is a dotted quad alone (and then the
prefix length is 32), or followed by a slash and a number up to 32, a netmask, or a host mask. -/
theorem ipv4_iface_text_iff (s : List Char) (i : IPIface) : ipv4IfaceParse s = some i ↔
    ∃ a, (s = ipv4Text a ∧ i = ⟨.v4 a, 32⟩) ∨
      (∃ d, s = ipv4Text a ++ '/' :: d ∧ d ≠ [] ∧ (∀ c ∈ d, c.isDigit = true) ∧ digitsVal d ≤ 32 ∧ i = ⟨.v4 a, digitsVal d⟩) ∨
      (∃ (m : BitVec 32) (p : Nat), s = ipv4Text a ++ '/' :: ipv4Text m ∧ p ≤ 32 ∧ i = ⟨.v4 a, p⟩ ∧
        (m.toNat = 2 ^ 32 - 2 ^ (32 - p) ∨ (m.toNat = 2 ^ (32 - p) - 1 ∧ 0 < p ∧ p < 32))) := by
  have nos : ∀ a : BitVec 32, '/' ∉ ipv4Text a := fun a => ipv4Text_not_mem a '/' (by decide) (by decide)
  constructor
  · intro h
    have hj := join_splitChar '/' s
    unfold ipv4IfaceParse at h
    split at h
    · rename_i x hx
      rw [hx] at hj
      simp only [joinChar] at hj
      subst hj
      cases ha : ipv4Parse x with
      | none => simp [ha] at h
      | some a =>
        simp [ha] at h
        exact ⟨a, .inl ⟨(ipv4_text_iff _ _).mp ha, h.symm⟩⟩
    · rename_i x p hx
      rw [hx] at hj
      simp only [joinChar] at hj
      cases ha : ipv4Parse x with
      | none => simp [ha] at h
      | some a =>
        have hxa := (ipv4_text_iff _ _).mp ha
        simp only [ha, Option.bind_some, Option.map_eq_some_iff] at h
        obtain ⟨n, hn, rfl⟩ := h
        unfold plenParse at hn
        split at hn
        · rename_i hc
          cases hn
          exact ⟨a, .inr (.inl ⟨p, by rw [← hxa]; exact hj.symm, hc.1, List.all_eq_true.mp hc.2.1, hc.2.2, rfl⟩)⟩
        · cases hm : ipv4Parse p with
          | none => simp [hm] at hn
          | some m =>
            simp [hm] at hn
            have hpm := (ipv4_text_iff _ _).mp hm
            have := (plenOfMask_iff m.toNat n m.isLt).mp hn
            exact ⟨a, .inr (.inr ⟨m, n, by rw [← hxa, ← hpm]; exact hj.symm, this.1, rfl, this.2⟩)⟩
    · cases h
  · rintro ⟨a, ⟨rfl, rfl⟩ | ⟨d, rfl, h1, h2, h3, rfl⟩ | ⟨m, p, rfl, h1, rfl, h2⟩⟩
    · unfold ipv4IfaceParse
      rw [splitChar_nosep '/' _ (nos a)]
      simp [ipv4Parse_text]
    · unfold ipv4IfaceParse
      rw [splitChar_append '/' _ _ (nos a), splitChar_nosep '/' d (fun h => by have := h2 _ h; revert this; decide)]
      simp only [ipv4Parse_text, Option.bind_some, plenParse]
      rw [if_pos ⟨h1, List.all_eq_true.mpr h2, h3⟩]
      rfl
    · unfold ipv4IfaceParse
      rw [splitChar_append '/' _ _ (nos a), splitChar_nosep '/' _ (nos m)]
      simp only [ipv4Parse_text, Option.bind_some, plenParse]
      rw [if_neg (by rw [ipv4Text_not_digits]; simp)]
      rw [(plenOfMask_iff m.toNat p m.isLt).mpr ⟨h1, h2⟩]
      rfl

example : ipv4IfaceParse "10.0.0.1/255.255.255.0".toList = some ⟨.v4 0x0a000001, 24⟩ ∧
    ipv4IfaceParse "10.0.0.1/0.0.0.255".toList = some ⟨.v4 0x0a000001, 24⟩ ∧
    ipv4IfaceParse "10.0.0.1/024".toList = some ⟨.v4 0x0a000001, 24⟩ ∧
    ipv4IfaceParse "10.0.0.1/33".toList = none := by decide +kernel

/-! ## C113: what an interface takes as address -/

/-- `assign_ipaddr` adds the interface address it is given, an address with all its bits as prefix, what
the text denotes, and 0.0.0.0/32 for `None`; a text that denotes none raises `ValueError`, any other
object raises, and then nothing changes. -/
theorem assign_ipaddr_argument (i : Iface) (y : IPIface) :
    (∀ x, y ∈ (i.assignIp (.iface x)).1.ips ↔ y ∈ i.ips ∨ y = x) ∧
    (∀ a, y ∈ (i.assignIp (.addr (.v4 a))).1.ips ↔ y ∈ i.ips ∨ y = ⟨.v4 a, 32⟩) ∧
    (∀ a, y ∈ (i.assignIp (.addr (.v6 a))).1.ips ↔ y ∈ i.ips ∨ y = ⟨.v6 a, 128⟩) ∧
    (y ∈ (i.assignIp .none).1.ips ↔ y ∈ i.ips ∨ y = ⟨.v4 0, 32⟩) ∧
    (∀ s x, ifaceParse s = some x → (y ∈ (i.assignIp (.text s)).1.ips ↔ y ∈ i.ips ∨ y = x)) ∧
    (∀ s, ifaceParse s = none → i.assignIp (.text s) = (i, some .valueError)) ∧
    i.assignIp .other = (i, some .generic) := by
  refine ⟨fun x => ?_, fun a => ?_, fun a => ?_, ?_, fun s x h => ?_, fun s h => ?_, ?_⟩
  · exact ((assign_ipaddr_mem i (.iface x)).1 x rfl).2 y
  · exact ((assign_ipaddr_mem i (.addr (.v4 a))).1 _ rfl).2 y
  · exact ((assign_ipaddr_mem i (.addr (.v6 a))).1 _ rfl).2 y
  · exact ((assign_ipaddr_mem i .none).1 _ rfl).2 y
  · exact ((assign_ipaddr_mem i (.text s)).1 x (by simp [assignedIp, ipInterface, h])).2 y
  · exact (assign_ipaddr_mem i (.text s)).2 _ (by simp [assignedIp, ipInterface, h])
  · exact (assign_ipaddr_mem i .other).2 _ rfl

example : ((exIf "eth0" 1 0x0a000001).assignIp .none).1.ips.length = (exIf "eth0" 1 0x0a000001).ips.length + 1 := by
  decide +kernel

theorem assembleMac_last (l1 l2 : List AddrInfo) (t : List Char) (h2 : ∀ u, AddrInfo.link u ∉ l2) :
    ∀ m a, assembleMac m (l1 ++ .link t :: l2) = .ok a → EthAddr.mk' (.text t) = .ok a := by
  have none : ∀ (l : List AddrInfo), (∀ u, AddrInfo.link u ∉ l) → ∀ m, assembleMac m l = .ok m := by
    intro l
    induction l with
    | nil => exact fun _ _ => rfl
    | cons x l ih =>
      intro h m
      cases x with
      | link t => exact absurd (List.mem_cons_self ..) (h t)
      | inet a p => exact ih (fun u hu => h u (List.mem_cons_of_mem _ hu)) m
      | inet6 a p => exact ih (fun u hu => h u (List.mem_cons_of_mem _ hu)) m
  induction l1 with
  | nil =>
    intro m a h
    simp only [List.nil_append, assembleMac] at h
    obtain ⟨b, hb, h⟩ := bind_eq_ok.mp h
    rw [none l2 h2 b] at h
    cases h
    exact hb
  | cons x l1 ih =>
    intro m a h
    cases x with
    | link u =>
      simp only [List.cons_append, assembleMac] at h
      obtain ⟨b, hb, h⟩ := bind_eq_ok.mp h
      exact ih b a h
    | inet x p => exact ih m a h
    | inet6 x p => exact ih m a h

/-- The Ethernet address of an interface made for a device is the last link-layer address the system
reports. -/
theorem assembled_mac (dev : List Char) (num : Int) (ty : IfType) (l1 l2 : List AddrInfo) (t : List Char) (i : Iface)
    (h2 : ∀ u, AddrInfo.link u ∉ l2) (h : assembleIntf dev num ty (l1 ++ .link t :: l2) = .ok i) :
    EthAddr.mk' (.text t) = .ok i.ethaddr := by
  unfold assembleIntf at h
  obtain ⟨mac, hm, h'⟩ := bind_eq_ok.mp h
  clear h
  have he : ∀ (xs : List IPIface) (i : Iface), (xs.foldl Iface.addIp i).ethaddr = i.ethaddr := by
    intro xs
    induction xs with
    | nil => exact fun _ => rfl
    | cons x xs ih => intro i; rw [List.foldl_cons, ih]; unfold Iface.addIp; split <;> rfl
  have := assembleMac_last l1 l2 t h2 _ _ hm
  cases h'
  rw [he]
  exact this

example : ∃ i, assembleIntf "eth0".toList 1 .wired
    ([.link "00:00:00:00:00:01".toList, .inet 0x0a000001 0] ++ .link "00:00:00:00:00:02".toList :: []) = .ok i ∧
    i.ethaddr = ⟨[0, 0, 0, 0, 0, 2]⟩ := ⟨⟨"eth0".toList, ⟨[0, 0, 0, 0, 0, 2]⟩, [⟨.v4 0x0a000001, 32⟩], 1, .wired⟩, by decide +kernel⟩

/-! ## C114: new sockets -/

/-- A new socket has the protocol asked for (UDP if none), the default timeout, blocks, is not
connected, is bound to 0.0.0.0 and has received nothing; the other sockets are as they were. -/
theorem socket_new_state (st : SockState) (p : Int) (sys draws : List Int) (fw : Option PyErr) (i : Nat)
    (hn : (st.step (.new p sys draws fw)).2 = .sock i) :
    ∃ s, (st.step (.new p sys draws fw)).1.socks = st.socks ++ [s] ∧ i = st.socks.length ∧
      (s.proto : Int) = (if p = 0 then 17 else p) ∧ s.timeout = st.defTimeout ∧ s.block = true ∧ s.remote = none ∧
      s.localAddr.1 = .v4 0 ∧ s.inbox = [] ∧ (st.step (.new p sys draws fw)).1.fromApp = st.fromApp ∧
      (st.step (.new p sys draws fw)).1.defTimeout = st.defTimeout := by
  simp only [SockState.step, SockState.new] at hn ⊢
  split at hn
  · cases hn
  · rename_i q hq
    split at hn
    · cases hn
    · split at hn
      · cases hn
      · rename_i pr hpr
        cases hn
        refine ⟨_, rfl, rfl, ?_, rfl, rfl, rfl, rfl, rfl, rfl, rfl⟩
        have := (enumOf_ok hpr).2
        simp only
        rw [← this]
        by_cases h0 : p = 0 <;> simp [h0]

example : ((SockState.init.step (.new 0 [] [40000] none)).2 = .sock 0) ∧
    (SockState.init.step (.new 0 [] [40000] none)).1.socks = [⟨17, none, true, none, (.v4 0, 40000), []⟩] := by decide +kernel

/-! ## C115, C116: links of a topology -/

/-- Removing a link removes exactly it: the other links, their attributes and all nodes stay.  If there
is none an exception is raised and nothing changes. -/
theorem topology_remove_link (t : Topo) (a b : Name) :
    (t.hasLink a b = false → t.removeLink a b = (t, some .generic)) ∧
    (t.hasLink a b = true →
      (t.removeLink a b).2 = none ∧ (t.removeLink a b).1.nodes = t.nodes ∧
      (∀ x y, (t.removeLink a b).1.hasLink x y = true ↔
        t.hasLink x y = true ∧ ¬ (x = a ∧ y = b ∨ x = b ∧ y = a)) ∧
      (∀ x y k, ¬ (x = a ∧ y = b ∨ x = b ∧ y = a) → (t.removeLink a b).1.attr? x y k = t.attr? x y k)) := by
  constructor
  · intro h; simp [Topo.removeLink, h]
  · intro h
    simp only [Topo.removeLink, h, if_true]
    have key : ∀ (e : Edge) x y, e.joins x y = true → (e.joins a b = true ↔ (x = a ∧ y = b ∨ x = b ∧ y = a)) := by
      intro e x y h
      simp only [Edge.joins, Bool.or_eq_true, Bool.and_eq_true, decide_eq_true_eq] at h ⊢
      rcases h with ⟨rfl, rfl⟩ | ⟨rfl, rfl⟩
      · rfl
      · exact ⟨fun h => h.elim (fun h => .inr ⟨h.2, h.1⟩) (fun h => .inl ⟨h.2, h.1⟩),
          fun h => h.elim (fun h => .inr ⟨h.2, h.1⟩) (fun h => .inl ⟨h.2, h.1⟩)⟩
    refine ⟨trivial, trivial, ?_, ?_⟩
    · intro x y
      simp only [Topo.hasLink, List.any_eq_true, List.mem_filter]
      constructor
      · rintro ⟨e, ⟨he, hn⟩, hj⟩
        refine ⟨⟨e, he, hj⟩, fun hc => ?_⟩
        rw [(key e x y hj).mpr hc] at hn
        cases hn
      · rintro ⟨⟨e, he, hj⟩, hc⟩
        refine ⟨e, ⟨he, ?_⟩, hj⟩
        rw [Bool.not_eq_true', Bool.eq_false_iff]
        exact fun h => hc ((key e x y hj).mp h)
    · intro x y k hc
      simp only [Topo.attr?, List.find?_filter]
      congr 2
      funext e
      rw [Bool.eq_iff_iff]
      simp only [Bool.not_eq_true', decide_eq_true_eq]
      refine ⟨fun h => h.2, fun h => ⟨?_, h⟩⟩
      rw [Bool.eq_false_iff]
      exact fun h' => hc ((key e x y h).mp h')

example : exTopo.hasLink "h0".toList "s0".toList = true ∧
    (exTopo.removeLink "s0".toList "h0".toList).1.links = [("h1".toList, "s0".toList)] := by decide +kernel

/-- The neighbours of a node are exactly the nodes it has a link with. -/
theorem topology_neighbors (t : Topo) (n m : Name) : m ∈ t.neighbors n ↔ t.hasLink n m = true := by
  simp only [Topo.neighbors, List.mem_filterMap, Topo.hasLink, List.any_eq_true, Edge.joins, Bool.or_eq_true,
    Bool.and_eq_true, decide_eq_true_eq]
  constructor
  · rintro ⟨e, he, h⟩
    refine ⟨e, he, ?_⟩
    split at h
    · cases h; exact .inl ⟨by assumption, rfl⟩
    · split at h
      · cases h; exact .inr ⟨rfl, by assumption⟩
      · cases h
  · rintro ⟨e, he, ⟨rfl, rfl⟩ | ⟨rfl, rfl⟩⟩
    · exact ⟨e, he, by simp⟩
    · refine ⟨e, he, ?_⟩
      by_cases h : e.a = e.b
      · rw [if_pos h, h]
      · rw [if_neg h, if_pos rfl]

example : exTopo.neighbors "s0".toList = ["h0".toList, "h1".toList] := by decide +kernel

theorem attr?_setAttr (t : Topo) (a b k : Name) (v : Attr) (x y k' : Name) : (t.setAttr a b k v).attr? x y k' =
    if (x = a ∧ y = b ∨ x = b ∧ y = a) ∧ t.hasLink a b = true ∧ k' = k then some v else t.attr? x y k' := by
  have key : ∀ (e : Edge), e.joins x y = true → (e.joins a b = true ↔ (x = a ∧ y = b ∨ x = b ∧ y = a)) := by
    intro e h
    simp only [Edge.joins, Bool.or_eq_true, Bool.and_eq_true, decide_eq_true_eq] at h ⊢
    rcases h with ⟨rfl, rfl⟩ | ⟨rfl, rfl⟩
    · rfl
    · exact ⟨fun h => h.elim (fun h => .inr ⟨h.2, h.1⟩) (fun h => .inl ⟨h.2, h.1⟩),
        fun h => h.elim (fun h => .inr ⟨h.2, h.1⟩) (fun h => .inl ⟨h.2, h.1⟩)⟩
  simp only [Topo.attr?, Topo.setAttr, List.find?_map]
  have hc : ((fun e => Edge.joins e x y) ∘ fun e : Edge => if e.joins a b then { e with attrs := e.attrs.set k v } else e) =
      fun e => Edge.joins e x y := by
    funext e; simp only [Function.comp]; split <;> rfl
  rw [hc]
  cases hf : t.edges.find? (fun e => e.joins x y) with
  | none =>
    simp only [Option.map_none, Option.bind_none]
    split
    · rename_i h
      obtain ⟨h1, h2, -⟩ := h
      rw [List.find?_eq_none] at hf
      simp only [Topo.hasLink, List.any_eq_true] at h2
      obtain ⟨e, he, h2⟩ := h2
      exfalso
      apply hf e he
      rcases h1 with ⟨rfl, rfl⟩ | ⟨rfl, rfl⟩
      · exact h2
      · simpa [Edge.joins, Bool.or_comm] using h2
    · rfl
  | some e =>
    have hj : e.joins x y = true := by simpa using List.find?_some hf
    simp only [Option.map_some, Option.bind_some]
    by_cases h : (x = a ∧ y = b ∨ x = b ∧ y = a)
    · have hl : t.hasLink a b = true := by
        simp only [Topo.hasLink, List.any_eq_true]
        exact ⟨e, List.mem_of_find?_eq_some hf, (key e hj).mpr h⟩
      rw [if_pos ((key e hj).mpr h)]
      rw [Dict.get?_set]
      by_cases hk : k = k'
      · rw [if_pos hk, if_pos ⟨h, hl, hk.symm⟩]
      · rw [if_neg hk, if_neg (fun h' => hk h'.2.2.symm)]
    · rw [if_neg (fun h' => h ((key e hj).mp h')), if_neg (fun h' => h h'.1)]

theorem attr?_setIfGiven {α : Type} (t : Topo) (a b k : Name) (mk : α → Attr) (v : Option α) (x y k' : Name)
    (hl : t.hasLink a b = true) : (t.setIfGiven a b k mk v).attr? x y k' =
      match v with
      | some v => if (x = a ∧ y = b ∨ x = b ∧ y = a) ∧ k' = k then some (mk v) else t.attr? x y k'
      | none => t.attr? x y k' := by
  cases v with
  | none => rfl
  | some v => simp only [Topo.setIfGiven, attr?_setAttr, hl, true_and]

theorem hasLink_setAttr (t : Topo) (a b k : Name) (v : Attr) (x y : Name) : (t.setAttr a b k v).hasLink x y = t.hasLink x y := by
  simp only [Topo.hasLink, Topo.setAttr, List.any_map]
  congr 1
  funext e
  simp only [Function.comp]
  split <;> rfl

theorem hasLink_setIfGiven {α : Type} (t : Topo) (a b k : Name) (mk : α → Attr) (v : Option α) (x y : Name) :
    (t.setIfGiven a b k mk v).hasLink x y = t.hasLink x y := by
  cases v with
  | none => rfl
  | some v => exact hasLink_setAttr ..

/-- The attributes of the links after `setLinkCharacteristics`. -/
theorem setLink_attr (t : Topo) (a b : Name) (c : CapArg) (d : DelayArg) (cv : Option (Option Int))
    (dv : Option (Option (Int × Nat))) (hl : t.hasLink a b = true) (hc : c.parse = .ok cv) (hd : d.parse = .ok dv)
    (x y k : Name) (hk : k ≠ labelKey ∨ ¬ (x = a ∧ y = b ∨ x = b ∧ y = a)) : (t.setLink a b c d).1.attr? x y k =
      ((t.setIfGiven a b capacityKey .cap cv).setIfGiven a b delayKey .delay dv).attr? x y k := by
  simp only [Topo.setLink, hl, if_true, hc, hd, Topo.setLabel]
  split
  · rfl
  · split
    · rfl
    · rw [attr?_setAttr, if_neg]
      rintro ⟨h1, -, h2⟩
      exact hk.elim (fun h => h h2) (fun h => h h1)

/-- A capacity of so many bits per second is what is recorded for the link, whatever the delay; no capacity, zero
and the empty text leave the recorded one. -/
theorem topology_capacity (t : Topo) (a b : Name) (d : DelayArg) (hl : t.hasLink a b = true) :
    (∀ n : Int, n ≠ 0 → (t.setLink a b (.int n) d).1.attr? a b capacityKey = some (.cap (some n))) ∧
    (∀ s v, s ≠ [] → unhumanizeBandwidth s = .ok (some v) →
      (t.setLink a b (.text s) d).1.attr? a b capacityKey = some (.cap (some (v : Int)))) ∧
    (∀ c, c = .none ∨ c = .int 0 ∨ c = .text [] →
      (t.setLink a b c d).1.attr? a b capacityKey = t.attr? a b capacityKey) := by
  have key : ∀ (c : CapArg) cv, c.parse = .ok cv → (t.setLink a b c d).1.attr? a b capacityKey =
      (t.setIfGiven a b capacityKey .cap cv).attr? a b capacityKey := by
    intro c cv hc
    cases hd : d.parse with
    | error e => simp only [Topo.setLink, hl, if_true, hc, hd]
    | ok dv =>
      rw [setLink_attr t a b c d cv dv hl hc hd a b _ (.inl (by decide)), attr?_setIfGiven _ _ _ _ _ _ _ _ _ (by rw [hasLink_setIfGiven]; exact hl)]
      cases dv with
      | none => rfl
      | some v => simp only; rw [if_neg]; rintro ⟨-, h⟩; revert h; decide
  refine ⟨fun n hn => ?_, fun s v hs hv => ?_, fun c hc => ?_⟩
  · rw [key (.int n) (some (some n)) (by simp [CapArg.parse, hn]), attr?_setIfGiven _ _ _ _ _ _ _ _ _ hl]; simp
  · rw [key (.text s) (some (some (v : Int))) (by simp [CapArg.parse, hs, hv]), attr?_setIfGiven _ _ _ _ _ _ _ _ _ hl]; simp
  · rw [key c none (by rcases hc with rfl | rfl | rfl <;> simp [CapArg.parse])]; rfl

/-- The same for a delay, if the capacity is one that is accepted. -/
theorem topology_delay (t : Topo) (a b : Name) (c : CapArg) (hl : t.hasLink a b = true) (hc : ∃ cv, c.parse = .ok cv) :
    (∀ (p : Int) (q : Nat), p ≠ 0 → (t.setLink a b c (.float p q)).1.attr? a b delayKey = some (.delay (some (p, q)))) ∧
    (∀ s p q, s ≠ [] → unhumanizeDelay s = .ok (some (p, q)) →
      (t.setLink a b c (.text s)).1.attr? a b delayKey = some (.delay (some ((p : Int), q)))) ∧
    (∀ d, d = .none ∨ (∃ q, d = .float 0 q) ∨ d = .text [] →
      (t.setLink a b c d).1.attr? a b delayKey = t.attr? a b delayKey) := by
  obtain ⟨cv, hc⟩ := hc
  have hl' : (t.setIfGiven a b capacityKey .cap cv).hasLink a b = true := by rw [hasLink_setIfGiven]; exact hl
  have key : ∀ (d : DelayArg) dv, d.parse = .ok dv → (t.setLink a b c d).1.attr? a b delayKey =
      match dv with
      | some v => some (.delay v)
      | none => t.attr? a b delayKey := by
    intro d dv hd
    rw [setLink_attr t a b c d cv dv hl hc hd a b _ (.inl (by decide)), attr?_setIfGiven _ _ _ _ _ _ _ _ _ hl']
    cases dv with
    | some v => simp
    | none =>
      simp only
      rw [attr?_setIfGiven _ _ _ _ _ _ _ _ _ hl]
      cases cv with
      | none => rfl
      | some v => simp only; rw [if_neg]; rintro ⟨-, h⟩; revert h; decide
  refine ⟨fun p q hp => ?_, fun s p q hs hv => ?_, fun d hd => ?_⟩
  · rw [key (.float p q) (some (some (p, q))) (by simp [DelayArg.parse, hp])]
  · rw [key (.text s) (some (some ((p : Int), q))) (by simp [DelayArg.parse, hs, hv])]
  · rw [key d none (by rcases hd with rfl | ⟨q, rfl⟩ | rfl <;> simp [DelayArg.parse])]

/-- Setting the characteristics of a link changes no other link, adds and removes none, and changes no
node. -/
theorem topology_characteristics_local (t : Topo) (a b : Name) (c : CapArg) (d : DelayArg) :
    (t.setLink a b c d).1.nodes = t.nodes ∧ (∀ x y, (t.setLink a b c d).1.hasLink x y = t.hasLink x y) ∧
    (∀ x y k, ¬ (x = a ∧ y = b ∨ x = b ∧ y = a) → (t.setLink a b c d).1.attr? x y k = t.attr? x y k) ∧
    (t.hasLink a b = false → t.setLink a b c d = (t, some .generic)) := by
  have g1 : ∀ {α : Type} (t : Topo) k (mk : α → Attr) v, (t.setIfGiven a b k mk v).nodes = t.nodes := by
    intro α t k mk v; cases v <;> rfl
  by_cases hl : t.hasLink a b = true
  case neg => simp [Topo.setLink, hl]
  refine ⟨?_, ?_, ?_, fun h => by rw [hl] at h; cases h⟩
  · simp only [Topo.setLink, hl, if_true, Topo.setLabel]
    split
    · rfl
    · split
      · exact g1 ..
      · split
        · simp only [g1]
        · split <;> simp only [Topo.setAttr, g1]
  · intro x y
    simp only [Topo.setLink, hl, if_true, Topo.setLabel]
    split
    · rfl
    · split
      · simp only [hasLink_setIfGiven]
      · split
        · simp only [hasLink_setIfGiven]
        · split <;> simp only [hasLink_setAttr, hasLink_setIfGiven]
  · intro x y k hn
    have g2 : ∀ {α : Type} (t : Topo) k' (mk : α → Attr) v, (t.setIfGiven a b k' mk v).attr? x y k = t.attr? x y k := by
      intro α t k' mk v
      cases v with
      | none => rfl
      | some v => simp only [Topo.setIfGiven, attr?_setAttr]; rw [if_neg (fun h => hn h.1)]
    cases hc : c.parse with
    | error e => simp only [Topo.setLink, hl, if_true, hc]
    | ok cv =>
      cases hd : d.parse with
      | error e => simp only [Topo.setLink, hl, if_true, hc, hd, g2]
      | ok dv => rw [setLink_attr t a b c d cv dv hl hc hd x y k (.inr hn), g2, g2]

/-- With a capacity and a delay the call succeeds exactly if the capacity is below 10^15 bits per second: above
that the text of the capacity for the label cannot be made, and the call raises although both have been
recorded. -/
theorem topology_characteristics_succeed (t : Topo) (a b : Name) (n p : Int) (q : Nat) (hl : t.hasLink a b = true)
    (hn : n ≠ 0) (hp : p ≠ 0) :
    ((t.setLink a b (.int n) (.float p q)).2 = none ↔ n < 10 ^ 15) := by
  have hc : CapArg.parse (.int n) = .ok (some (some n)) := by simp [CapArg.parse, hn]
  have hd : DelayArg.parse (.float p q) = .ok (some (some (p, q))) := by simp [DelayArg.parse, hp]
  have hl' : (t.setIfGiven a b capacityKey .cap (some (some n))).hasLink a b = true := by rw [hasLink_setIfGiven]; exact hl
  have h1 : ((t.setIfGiven a b capacityKey .cap (some (some n))).setIfGiven a b delayKey .delay (some (some (p, q)))).attr? a b
      capacityKey = some (.cap (some n)) := by
    rw [attr?_setIfGiven _ _ _ _ _ _ _ _ _ hl']
    simp only
    rw [if_neg (by rintro ⟨-, h⟩; revert h; decide), attr?_setIfGiven _ _ _ _ _ _ _ _ _ hl]
    simp
  have h2 : ((t.setIfGiven a b capacityKey .cap (some (some n))).setIfGiven a b delayKey .delay (some (some (p, q)))).attr? a b
      delayKey = some (.delay (some (p, q))) := by
    rw [attr?_setIfGiven _ _ _ _ _ _ _ _ _ hl']
    simp
  simp only [Topo.setLink, hl, if_true, hc, hd, Topo.setLabel, h1, h2, humanCap, humanDelay]
  by_cases hb : n < 1000000000000000
  · simp [hb]
  · simp [hb]

example : exTopo.hasLink "h0".toList "s0".toList = true ∧
    (exTopo.setLink "h0".toList "s0".toList (.int 1000) (.float 1 4)).2 = none ∧
    (exTopo.setLink "h0".toList "s0".toList (.int 1000) (.float 1 4)).1.attr? "s0".toList "h0".toList delayKey =
      some (.delay (some (1, 4))) := by decide +kernel

end SY.Props
