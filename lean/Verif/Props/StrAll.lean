import Verif.Props.Str
import Verif.Props.Exact

/-! # C163 for every header that can be printed

The text of a packet is cut back into the texts of its headers, although those of raw contents, of ICMP payloads and of
ICMPv6 messages with options may contain the separator. -/

namespace SY.Props

open SY

/-! ## Cutting texts -/

theorem cut_lit {c : Char} {w a b x y : Text} (ha : c ∉ a) (hb : c ∉ b) (h : a ++ (c :: w ++ x) = b ++ (c :: w ++ y)) :
    a = b ∧ x = y := by
  obtain ⟨h1, h2⟩ := cut_at ha hb h
  exact ⟨h1, List.append_cancel_left h2⟩

/-- Two texts that differ at a place both have. -/
def clash : Text → Text → Bool
  | a :: as, b :: bs => a != b || clash as bs
  | _, _ => false

theorem clash_ne {P Q : Text} (h : clash P Q = true) (a b : Text) : P ++ a ≠ Q ++ b := by
  induction P generalizing Q with
  | nil => cases Q <;> cases h
  | cons p P ih =>
    cases Q with
    | nil => cases h
    | cons q Q =>
      simp only [clash, Bool.or_eq_true, bne_iff_ne] at h
      intro e
      rcases h with h | h
      · exact h (List.cons.inj e).1
      · exact ih h (List.cons.inj e).2

theorem joinText_inj {u v : Text} {c : Char} (hu : c ∉ u) {l m : List Text} (hl : ∀ t ∈ l, c ∉ t ∧ t ≠ [])
    (hm : ∀ t ∈ m, c ∉ t ∧ t ≠ []) (h : joinText (u ++ c :: v) l = joinText (u ++ c :: v) m) : l = m := by
  have sp : ∀ (a b : Text), a ++ (u ++ c :: v) ++ b = (a ++ u) ++ c :: (v ++ b) := fun a b => by simp
  have ns : ∀ a : Text, c ∉ a → c ∉ a ++ u := fun a ha => by simp [ha, hu]
  induction l generalizing m with
  | nil =>
    match m with
    | [] => rfl
    | [x] => exact absurd (show x = [] from h.symm) (hm x List.mem_cons_self).2
    | x :: y :: r =>
      rw [joinText, joinText, sp] at h
      exact absurd h (by simp)
  | cons a l ih =>
    match l, m with
    | [], [] => exact absurd (show a = [] from h) (hl a List.mem_cons_self).2
    | [], [x] => rw [show a = x from h]
    | [], x :: y :: r =>
      rw [joinText, joinText, sp] at h
      exact absurd (h ▸ by simp) (hl a List.mem_cons_self).1
    | b :: l, [] =>
      rw [joinText, joinText, sp] at h
      exact absurd h (by simp)
    | b :: l, [x] =>
      rw [joinText, joinText, sp] at h
      exact absurd (h ▸ by simp) (hm x List.mem_cons_self).1
    | b :: l, x :: y :: r =>
      rw [joinText, joinText, sp, sp] at h
      obtain ⟨h1, h2⟩ := cut_at (ns _ (hl a List.mem_cons_self).1) (ns _ (hm x List.mem_cons_self).1) h
      rw [List.append_cancel_right h1, ih (m := y :: r) (fun t ht => hl t (List.mem_cons_of_mem _ ht))
        (fun t ht => hm t (List.mem_cons_of_mem _ ht)) (List.append_cancel_left h2)]

theorem joinText_not_mem {sep : Text} {c : Char} (hs : c ∉ sep) {l : List Text} (hl : ∀ t ∈ l, c ∉ t) : c ∉ joinText sep l := by
  induction l with
  | nil => simp [joinText]
  | cons a l ih =>
    have ha := hl a List.mem_cons_self
    have ih := ih fun t ht => hl t (List.mem_cons_of_mem _ ht)
    cases l with
    | nil => simpa [joinText] using ha
    | cons b l => simp only [joinText, List.mem_append, not_or]; exact ⟨⟨ha, hs⟩, ih⟩

/-! ## Bytes -/

/-- The value of two hexadecimal digits. -/
def hexPair : Text → Nat
  | a :: b :: _ =>
    (if a.isDigit then a.toNat - 48 else a.toNat - 87) * 16 + (if b.isDigit then b.toNat - 48 else b.toNat - 87)
  | _ => 0

/-- The byte a `repr` begins with. -/
def reprByte : Text → Nat
  | [] => 0
  | [c] => c.toNat
  | c :: d :: r =>
    if c ≠ '\\' then c.toNat
    else if d = 'x' then hexPair r
    else if d = 't' then 9 else if d = 'n' then 10 else if d = 'r' then 13 else d.toNat

/-- The shapes of the text of a byte. -/
def reprShape : Text → Bool
  | ['\\', 'x', _, _] => true
  | ['\\', c] => c != 'x'
  | [c] => c != '\\'
  | _ => false

theorem reprByte_append {l : Text} (h : reprShape l = true) (s : Text) : reprByte (l ++ s) = reprByte l := by
  unfold reprShape at h
  split at h
  · rfl
  · rename_i c
    have hx : c ≠ 'x' := by simpa using h
    simp [reprByte, hx]
  · rename_i c
    have hx : c ≠ '\\' := by simpa using h
    cases s <;> simp [reprByte, hx]
  · cases h

theorem repr_facts : ∀ q ∈ ['\'', '"'], ∀ n : Fin 256, reprShape (byteRepr q (UInt8.ofNat n.val)) = true ∧
    reprByte (byteRepr q (UInt8.ofNat n.val)) = n.val ∧ (byteRepr q (UInt8.ofNat n.val)).head? ≠ some q := by decide +kernel

theorem repr_fact {q : Char} (hq : q ∈ ['\'', '"']) (x : UInt8) : reprShape (byteRepr q x) = true ∧
    reprByte (byteRepr q x) = x.toNat ∧ (byteRepr q x).head? ≠ some q := by
  have := repr_facts q hq ⟨x.toNat, x.toNat_lt⟩
  simpa using this

theorem bytes_cut {q : Char} (hq : q ∈ ['\'', '"']) {a b : Bytes} {s t : Text}
    (h : a.flatMap (byteRepr q) ++ q :: s = b.flatMap (byteRepr q) ++ q :: t) : a = b ∧ s = t := by
  have hne : ∀ (x : UInt8) (r u : Text), byteRepr q x ++ r ≠ q :: u := by
    intro x r u e
    obtain ⟨h1, _, h3⟩ := repr_fact hq x
    cases hb : byteRepr q x with
    | nil => rw [hb] at h1; cases h1
    | cons c l =>
      rw [hb] at e h3
      exact h3 (by rw [(List.cons.inj e).1]; rfl)
  induction a generalizing b with
  | nil =>
    cases b with
    | nil => exact ⟨rfl, (List.cons.inj h).2⟩
    | cons y b =>
      simp only [List.flatMap_cons, List.flatMap_nil, List.nil_append, List.append_assoc] at h
      exact absurd h.symm (hne _ _ _)
  | cons x a ih =>
    cases b with
    | nil =>
      simp only [List.flatMap_cons, List.flatMap_nil, List.nil_append, List.append_assoc] at h
      exact absurd h (hne _ _ _)
    | cons y b =>
      simp only [List.flatMap_cons, List.append_assoc] at h
      have hx := repr_fact hq x
      have hy := repr_fact hq y
      have e := congrArg reprByte h
      rw [reprByte_append hx.1, reprByte_append hy.1, hx.2.1, hy.2.1] at e
      have : x = y := UInt8.toNat_inj.mp e
      subst this
      obtain ⟨h1, h2⟩ := ih (List.append_cancel_left h)
      exact ⟨by rw [h1], h2⟩

theorem bytesQuote_mem (b : Bytes) : bytesQuote b ∈ ['\'', '"'] := by unfold bytesQuote; split <;> simp

/-- The `repr` of bytes ends where it can be seen to end. -/
theorem repr_cut {a b : Bytes} {s t : Text} (h : bytesRepr a ++ s = bytesRepr b ++ t) : a = b ∧ s = t := by
  unfold bytesRepr at h
  simp only [List.cons_append, List.append_assoc, List.cons.injEq, true_and] at h
  obtain ⟨hq, h⟩ := h
  rw [hq] at h
  simp only [List.nil_append] at h
  exact bytes_cut (bytesQuote_mem b) h

/-! ## Headers and what follows them -/

/-- How the text of a header begins. -/
def strHead : Hdr → Text
  | .eth _ => "Ethernet ".toList | .vlan _ => "Vlan ".toList | .arp _ => "Arp ".toList | .ip4 _ => "IPv4 ".toList
  | .ip6 _ => "IPv6 ".toList | .route _ => "IPv6RouteOption ".toList | .frag _ => "IPv6Fragment ".toList
  | .hop _ => "IPv6HopOption/".toList | .dst _ => "IPv6DestinationOption/".toList | .udp _ => "UDP ".toList
  | .tcp _ => "TCP ".toList | .icmp _ => "ICMP ".toList | .icmp6 _ => "ICMPv6 ".toList | .rip _ => "RIPv2 ".toList
  | .null _ => "Null: ".toList | .raw _ => "RawPacketContents ".toList | .nullHdr => "NullPacketHeader".toList

def strHeads : List Text :=
  ["Ethernet ".toList, "Vlan ".toList, "Arp ".toList, "IPv4 ".toList, "IPv6 ".toList, "IPv6RouteOption ".toList,
   "IPv6Fragment ".toList, "IPv6HopOption/".toList, "IPv6DestinationOption/".toList, "UDP ".toList, "TCP ".toList,
   "ICMP ".toList, "ICMPv6 ".toList, "RIPv2 ".toList, "Null: ".toList, "RawPacketContents ".toList,
   "NullPacketHeader".toList]

theorem strHead_mem (x : Hdr) : strHead x ∈ strHeads := by
  have h : ∀ i : Fin 17, strHeads[i] ∈ strHeads := fun i => List.getElem_mem _
  cases x with
  | eth => exact h 0
  | vlan => exact h 1
  | arp => exact h 2
  | ip4 => exact h 3
  | ip6 => exact h 4
  | route => exact h 5
  | frag => exact h 6
  | hop => exact h 7
  | dst => exact h 8
  | udp => exact h 9
  | tcp => exact h 10
  | icmp => exact h 11
  | icmp6 => exact h 12
  | rip => exact h 13
  | null => exact h 14
  | raw => exact h 15
  | nullHdr => exact h 16

theorem strHeads_clash : ∀ P ∈ strHeads, ∀ Q ∈ strHeads, P = Q ∨ clash P Q = true := by decide +kernel

theorem strHeads_list : ∀ P ∈ strHeads, clash P "ICMPv6OptionList (".toList = true := by decide +kernel

theorem str_head {x : Hdr} {t : Text} (h : x.str = .ok t) : ∃ r, t = strHead x ++ r := by
  suffices ht : t.take (strHead x).length = strHead x from
    ⟨t.drop (strHead x).length, by
      have := List.take_append_drop (strHead x).length t
      rw [ht] at this
      exact this.symm⟩
  cases x <;> simp only [Hdr.str] at h
  case hop k =>
    unfold HopOpt.str at h
    obtain ⟨l, _, h⟩ := bind_eq_ok.mp h
    cases h; rfl
  case dst k =>
    unfold HopOpt.str at h
    obtain ⟨l, _, h⟩ := bind_eq_ok.mp h
    cases h; rfl
  case icmp6 k =>
    unfold icmp6Str at h
    obtain ⟨l, _, h⟩ := bind_eq_ok.mp h
    cases h; rfl
  all_goals (cases h; rfl)

/-- What can follow the text of a header in the text of a packet. -/
def Tail (s : Text) : Prop := s = [] ∨ ∃ P ∈ strHeads, ∃ r, s = " | ".toList ++ (P ++ r)

theorem nobar_cut {a b s t : Text} (ha : '|' ∉ a) (hb : '|' ∉ b) (hs : Tail s) (ht : Tail t) (h : a ++ s = b ++ t) :
    a = b ∧ s = t := by
  have sp : ∀ (a r : Text), a ++ (" | ".toList ++ r) = (a ++ [' ']) ++ '|' :: (' ' :: r) := fun a b => by simp
  have ns : ∀ a : Text, '|' ∉ a → '|' ∉ a ++ [' '] := fun a ha => by simp [ha]
  rcases hs with rfl | ⟨P, _, r, rfl⟩ <;> rcases ht with rfl | ⟨Q, _, u, rfl⟩
  · simpa using h
  · rw [sp] at h
    exact absurd (by rw [← List.append_nil a, h]; simp) ha
  · rw [sp] at h
    exact absurd (by rw [← List.append_nil b, ← h]; simp) hb
  · rw [sp, sp] at h
    obtain ⟨h1, h2⟩ := cut_at (ns _ ha) (ns _ hb) h
    refine ⟨List.append_cancel_right h1, ?_⟩
    rw [(List.cons.inj h2).2]

theorem natText_int (n : Nat) : natText n = intText n := by simp [intText]

theorem intText_head (v : Int) : ∃ c r, intText v = c :: r ∧ (c.isDigit = true ∨ c = '-') := by
  unfold intText
  split
  · cases h : natText v.toNat with
    | nil => exact absurd h (natText_ne_nil _)
    | cons c r => exact ⟨c, r, rfl, .inl (natText_digits v.toNat c (by rw [h]; simp))⟩
  · exact ⟨_, _, rfl, .inr rfl⟩

/-- A number is not a word. -/
theorem int_ne {v : Int} {s t : Text} {c : Char} (hc : c.isDigit = false) (hm : c ≠ '-') : intText v ++ s ≠ c :: t := by
  obtain ⟨d, r, h, hd⟩ := intText_head v
  rw [h]
  intro e
  have := (List.cons.inj e).1
  subst this
  rcases hd with hd | hd
  · rw [hc] at hd; cases hd
  · exact hm hd

theorem ipv4_head (a : BitVec 32) : ∃ c r, ipv4Text a = c :: r ∧ c.isDigit = true := by
  have h4 : ∃ x l, (beEnc 4 a.toNat) = x :: l := by
    cases h : beEnc 4 a.toNat with
    | nil => have := congrArg List.length h; simp at this
    | cons x l => exact ⟨x, l, rfl⟩
  obtain ⟨x, l, hx⟩ := h4
  unfold ipv4Text
  rw [hx]
  cases h : natText x.toNat with
  | nil => exact absurd h (natText_ne_nil _)
  | cons c r =>
    have hd := natText_digits x.toNat c (by rw [h]; simp)
    cases l with
    | nil => exact ⟨c, r, by simp [joinChar, h], hd⟩
    | cons y l => exact ⟨c, r ++ '.' :: joinChar '.' ((y :: l).map fun x => natText x.toNat), by simp only [List.map_cons, joinChar, h, List.cons_append], hd⟩

/-! ## ICMP data -/

/-- What is shown after a payload. -/
inductive Extra
  | none
  | address (a : BitVec 32)
  | mtu (m : Int)
  | length (n : Int)
  deriving DecidableEq, Repr

/-- What is shown of ICMP data: of a payload its length, its first ten bytes and one more value; of an echo the identifier,
the sequence number and the length of the data; of an address mask the identifier, the sequence number and the mask. -/
inductive ShownData
  | payload (len : Nat) (start : Bytes) (extra : Extra)
  | echo (ident seq : Int) (len : Nat)
  | mask (ident seq : Int) (addr : BitVec 32)
  deriving DecidableEq, Repr

def _root_.SY.ICMPData.shown : ICMPData → ShownData
  | .other b | .plain _ b | .quench b => .payload b.length (b.take 10) .none
  | .redirect a b => .payload b.length (b.take 10) (.address a)
  | .unreach _ m b => .payload b.length (b.take 10) (.mtu m)
  | .exceeded o b => .payload b.length (b.take 10) (.length o)
  | .echo _ i s b => .echo i s b.length
  | .mask _ i s a _ => .mask i s a

/-! The literals between the parts. -/
def tRedirect : Text := " RedirectAddress: ".toList
def tMtu : Text := " NextHopMTU: ".toList
def tLength : Text := " OrigDgramLen: ".toList
def tRaw : Text := " bytes of raw payload (".toList
def tClose : Text := ")".toList
def tOpen : Text := " (".toList
def tData : Text := " data bytes)".toList
def tSpace : Text := " ".toList
def tBar : Text := " | ".toList

def extraText : Extra → Text
  | .none => []
  | .address a => tRedirect ++ ipv4Text a
  | .mtu m => tMtu ++ intText m
  | .length n => tLength ++ intText n

def dataText : ShownData → Text
  | .payload n b e => intText n ++ (tRaw ++ (bytesRepr b ++ (tClose ++ extraText e)))
  | .echo i s n => intText i ++ (tSpace ++ (intText s ++ (tOpen ++ (intText n ++ tData))))
  | .mask i s a => intText i ++ (tSpace ++ (intText s ++ (tSpace ++ ipv4Text a)))

theorem payload_text (b : Bytes) (e : Extra) : payloadStr b ++ extraText e = dataText (.payload b.length (b.take 10) e) := by
  have h : payloadStr b = intText b.length ++ tRaw ++ bytesRepr (b.take 10) ++ tClose := by
    rw [← natText_int]; rfl
  rw [h]
  simp only [dataText, List.append_assoc]

theorem data4_text (d : ICMPData) : d.str = dataText d.shown := by
  cases d with
  | other b => rw [ICMPData.shown, ← payload_text]; exact (List.append_nil _).symm
  | plain _ b => rw [ICMPData.shown, ← payload_text]; exact (List.append_nil _).symm
  | quench b => rw [ICMPData.shown, ← payload_text]; exact (List.append_nil _).symm
  | redirect a b => rw [ICMPData.shown, ← payload_text]; exact List.append_assoc _ _ _
  | unreach _ m b => rw [ICMPData.shown, ← payload_text]; exact List.append_assoc _ _ _
  | exceeded o b => rw [ICMPData.shown, ← payload_text]; exact List.append_assoc _ _ _
  | echo _ i s b =>
    have h : ICMPData.str (.echo false i s b) = intText i ++ tSpace ++ intText s ++ tOpen ++ natText b.length ++ tData := rfl
    refine h.trans ?_
    simp only [ICMPData.shown, dataText, List.append_assoc, natText_int]
  | mask _ i s a b =>
    have h : ICMPData.str (.mask false i s a b) = intText i ++ tSpace ++ intText s ++ tSpace ++ ipv4Text a := rfl
    refine h.trans ?_
    simp only [ICMPData.shown, dataText, List.append_assoc]

theorem intNoSpace (v : Int) : ' ' ∉ intText v := intText_not_mem _ _ (by decide) (by decide)
theorem intNoBar (v : Int) : '|' ∉ intText v := intText_not_mem _ _ (by decide) (by decide)
theorem ip4NoBar (a : BitVec 32) : '|' ∉ ipv4Text a := ipv4Text_not_mem _ _ (by decide) (by decide)
theorem ip4_inj {a b : BitVec 32} (h : ipv4Text a = ipv4Text b) : a = b := by
  have := ipText_inj (a := .v4 a) (b := .v4 b) h
  cases this; rfl

theorem tail_clash {s : Text} (hs : Tail s) {w x : Text} (hc : clash tBar w = true) : s ≠ w ++ x := by
  rcases hs with rfl | ⟨P, _, r, rfl⟩
  · intro e
    cases w with
    | nil => revert hc; simp [clash]
    | cons c w => cases e
  · exact clash_ne hc _ _

theorem extra_cut {e f : Extra} {s t : Text} (hs : Tail s) (ht : Tail t) (h : extraText e ++ s = extraText f ++ t) : e = f := by
  have c1 : clash tBar tRedirect = true := by decide +kernel
  have c2 : clash tBar tMtu = true := by decide +kernel
  have c3 : clash tBar tLength = true := by decide +kernel
  have c4 : clash tRedirect tMtu = true := by decide +kernel
  have c5 : clash tRedirect tLength = true := by decide +kernel
  have c6 : clash tMtu tLength = true := by decide +kernel
  cases e <;> cases f <;> simp only [extraText, List.nil_append, List.append_assoc] at h
  · rfl
  · exact absurd h (tail_clash hs c1)
  · exact absurd h (tail_clash hs c2)
  · exact absurd h (tail_clash hs c3)
  · exact absurd h.symm (tail_clash ht c1)
  · rw [ip4_inj (nobar_cut (ip4NoBar _) (ip4NoBar _) hs ht (List.append_cancel_left h)).1]
  · exact absurd h (clash_ne c4 _ _)
  · exact absurd h (clash_ne c5 _ _)
  · exact absurd h.symm (tail_clash ht c2)
  · exact absurd h.symm (clash_ne c4 _ _)
  · rw [intText_inj (nobar_cut (intNoBar _) (intNoBar _) hs ht (List.append_cancel_left h)).1]
  · exact absurd h (clash_ne c6 _ _)
  · exact absurd h.symm (tail_clash ht c3)
  · exact absurd h.symm (clash_ne c5 _ _)
  · exact absurd h.symm (clash_ne c6 _ _)
  · rw [intText_inj (nobar_cut (intNoBar _) (intNoBar _) hs ht (List.append_cancel_left h)).1]

theorem lit_payload : tRaw = ' ' :: 'b' :: "ytes of raw payload (".toList := by decide +kernel
theorem lit_space : tSpace = [' '] := by decide +kernel
theorem lit_open : tOpen = [' ', '('] := by decide +kernel
theorem lit_data : tData = ' ' :: "data bytes)".toList := by decide +kernel

theorem data_cut {d e : ShownData} {s t : Text} (hs : Tail s) (ht : Tail t) (h : dataText d ++ s = dataText e ++ t) : d = e := by
  cases d with
  | payload n b x =>
    cases e with
    | payload m c y =>
      simp only [dataText, List.append_assoc, lit_payload, List.cons_append] at h
      obtain ⟨h1, h2⟩ := cut_at (intNoSpace _) (intNoSpace _) h
      have h3 := List.append_cancel_left (List.cons.inj h2).2
      obtain ⟨h4, h5⟩ := repr_cut h3
      have h6 := extra_cut hs ht (List.append_cancel_left h5)
      have := intText_inj h1
      rw [h4, h6, show n = m by omega]
    | echo i q m =>
      simp only [dataText, List.append_assoc, lit_payload, lit_space, List.cons_append, List.nil_append] at h
      obtain ⟨h1, h2⟩ := cut_at (intNoSpace _) (intNoSpace _) h
      exact absurd h2.symm (int_ne (by decide) (by decide))
    | mask i q a =>
      simp only [dataText, List.append_assoc, lit_payload, lit_space, List.cons_append, List.nil_append] at h
      obtain ⟨h1, h2⟩ := cut_at (intNoSpace _) (intNoSpace _) h
      exact absurd h2.symm (int_ne (by decide) (by decide))
  | echo i q n =>
    cases e with
    | payload m c y =>
      simp only [dataText, List.append_assoc, lit_payload, lit_space, List.cons_append, List.nil_append] at h
      obtain ⟨h1, h2⟩ := cut_at (intNoSpace _) (intNoSpace _) h
      exact absurd h2 (int_ne (by decide) (by decide))
    | echo j r m =>
      simp only [dataText, List.append_assoc, lit_space, lit_open, lit_data, List.cons_append, List.nil_append] at h
      obtain ⟨h1, h2⟩ := cut_at (intNoSpace _) (intNoSpace _) h
      obtain ⟨h3, h4⟩ := cut_at (intNoSpace _) (intNoSpace _) h2
      obtain ⟨h5, h6⟩ := cut_at (intNoSpace _) (intNoSpace _) (List.cons.inj h4).2
      have := intText_inj h5
      rw [intText_inj h1, intText_inj h3, show n = m by omega]
    | mask j r a =>
      simp only [dataText, List.append_assoc, lit_space, lit_open, lit_data, List.cons_append, List.nil_append] at h
      obtain ⟨h1, h2⟩ := cut_at (intNoSpace _) (intNoSpace _) h
      obtain ⟨h3, h4⟩ := cut_at (intNoSpace _) (intNoSpace _) h2
      obtain ⟨c, u, hc, hd⟩ := ipv4_head a
      rw [hc] at h4
      rw [← (List.cons.inj h4).1] at hd
      exact absurd hd (by decide)
  | mask i q a =>
    cases e with
    | payload m c y =>
      simp only [dataText, List.append_assoc, lit_payload, lit_space, List.cons_append, List.nil_append] at h
      obtain ⟨h1, h2⟩ := cut_at (intNoSpace _) (intNoSpace _) h
      exact absurd h2 (int_ne (by decide) (by decide))
    | echo j r m =>
      simp only [dataText, List.append_assoc, lit_space, lit_open, lit_data, List.cons_append, List.nil_append] at h
      obtain ⟨h1, h2⟩ := cut_at (intNoSpace _) (intNoSpace _) h
      obtain ⟨h3, h4⟩ := cut_at (intNoSpace _) (intNoSpace _) h2
      obtain ⟨c, u, hc, hd⟩ := ipv4_head a
      rw [hc] at h4
      rw [(List.cons.inj h4).1] at hd
      exact absurd hd (by decide)
    | mask j r b =>
      simp only [dataText, List.append_assoc, lit_space, List.cons_append, List.nil_append] at h
      obtain ⟨h1, h2⟩ := cut_at (intNoSpace _) (intNoSpace _) h
      obtain ⟨h3, h4⟩ := cut_at (intNoSpace _) (intNoSpace _) h2
      have h5 := (nobar_cut (ip4NoBar _) (ip4NoBar _) hs ht h4).1
      rw [intText_inj h1, intText_inj h3, ip4_inj h5]

/-! ## Types and codes -/

/-- The pairs of types and codes of a flavour. -/
def typeCodes (types : List Nat) (codes : Nat → Option CodeEnum) : List (Nat × Nat) :=
  types.flatMap fun t => match codes t with
    | some e => e.vals.map fun c => (t, c)
    | none => [(t, 0)]

def typeText4 (t c : Nat) : Text := typeCode (enumName icmpTypeNames t) (codeName icmpCodes t c)
def typeText6 (t c : Nat) : Text := typeCode (enumName icmpv6TypeNames t) (codeName icmpv6Codes t c)

theorem type4_inj : ∀ p ∈ typeCodes icmpTypes icmpCodes, ∀ q ∈ typeCodes icmpTypes icmpCodes,
    typeText4 p.1 p.2 = typeText4 q.1 q.2 → p = q := by decide +kernel
theorem type6_inj : ∀ p ∈ typeCodes icmpv6Types icmpv6Codes, ∀ q ∈ typeCodes icmpv6Types icmpv6Codes,
    typeText6 p.1 p.2 = typeText6 q.1 q.2 → p = q := by decide +kernel
theorem type4_plain : ∀ p ∈ typeCodes icmpTypes icmpCodes, ' ' ∉ typeText4 p.1 p.2 := by decide +kernel
theorem type6_plain : ∀ p ∈ typeCodes icmpv6Types icmpv6Codes, ' ' ∉ typeText6 p.1 p.2 := by decide +kernel

/-! ## ICMPv6 options and data -/

/-- What is shown of an option: everything, but of a redirected packet only the length. -/
def _root_.SY.NDOpt.shown : NDOpt → NDOpt ⊕ Nat
  | .redirected h => .inr h.length
  | o => .inl o

/-- Link addresses have six bytes. -/
def _root_.SY.NDOpt.Shows : NDOpt → Prop
  | .lladdr _ a => a.raw.length = 6
  | _ => True

def tTarget : Text := "ICMPv6OptionTargetLinkLayerAddress ".toList
def tSource : Text := "ICMPv6OptionSourceLinkLayerAddress ".toList
def tPrefix : Text := "ICMPv6OptionPrefixInformation pfxlen ".toList
def tL : Text := " l ".toList
def tA : Text := " a ".toList
def tValid : Text := " valid lifetime ".toList
def tPref : Text := " preferred lifetime ".toList
def tPfx : Text := " prefix ".toList
def tOptMtu : Text := "ICMPv6OptionMTU ".toList
def tRedir : Text := "ICMPv6OptionRedirectedHeader redirected packet (".toList
def tBytes : Text := " bytes)".toList

theorem ip6_no (a : BitVec 128) (c : Char) (hc : ∀ k : Fin 16, k.val.digitChar ≠ c) (hi : c.isDigit = false) (hd : c ≠ ':')
    (he : c ≠ '.') : c ∉ ipv6Text a := ipText_not_mem (.v6 a) c hc hi hd he

theorem ip6_inj {a b : BitVec 128} (h : ipv6Text a = ipv6Text b) : a = b := by
  have := ipText_inj (a := .v6 a) (b := .v6 b) h
  cases this; rfl

theorem ll_text (t : Bool) (a : EthAddr) : NDOpt.str (.lladdr t a) = (if t then tTarget else tSource) ++ a.toStr := rfl
theorem pfx_text (l a : Bool) (v p : Int) (n : BitVec 128) (k : Nat) : NDOpt.str (.pfx l a v p n k) =
    tPrefix ++ (intText k ++ (tL ++ (intText l.toNat ++ (tA ++ (intText a.toNat ++ (tValid ++ (intText v ++ (tPref ++
      (intText p ++ (tPfx ++ ipv6Text n)))))))))) := by
  have h : NDOpt.str (.pfx l a v p n k) = tPrefix ++ natText k ++ tL ++ natText l.toNat ++ tA ++ natText a.toNat ++ tValid ++
    intText v ++ tPref ++ intText p ++ tPfx ++ ipv6Text n := rfl
  rw [h]
  simp only [natText_int, List.append_assoc]
theorem mtu_text (v : Int) : NDOpt.str (.mtu v) = tOptMtu ++ intText v := rfl
theorem redir_text (h : Bytes) : NDOpt.str (.redirected h) = tRedir ++ (intText h.length ++ tBytes) := by
  have e : NDOpt.str (.redirected h) = tRedir ++ natText h.length ++ tBytes := rfl
  rw [e, natText_int, List.append_assoc]

theorem lit_l : tL = ' ' :: "l ".toList := by decide +kernel
theorem lit_a : tA = ' ' :: "a ".toList := by decide +kernel
theorem lit_valid : tValid = ' ' :: "valid lifetime ".toList := by decide +kernel
theorem lit_pref : tPref = ' ' :: "preferred lifetime ".toList := by decide +kernel
theorem lit_pfx : tPfx = ' ' :: "prefix ".toList := by decide +kernel

theorem cutInt {a b : Int} {w x y : Text} (h : intText a ++ (' ' :: w ++ x) = intText b ++ (' ' :: w ++ y)) : a = b ∧ x = y := by
  obtain ⟨h1, h2⟩ := cut_lit (intNoSpace _) (intNoSpace _) h
  exact ⟨intText_inj h1, h2⟩

theorem boolNat_inj {a b : Bool} (h : (a.toNat : Int) = b.toNat) : a = b := by revert h; cases a <;> cases b <;> decide

theorem option_inj {x y : NDOpt} (hx : x.Shows) (hy : y.Shows) (h : x.str = y.str) : x.shown = y.shown := by
  have c1 : clash tTarget tSource = true := by decide +kernel
  have c2 : ∀ u : Bool, clash (if u then tTarget else tSource) tPrefix = true := by decide +kernel
  have c3 : ∀ u : Bool, clash (if u then tTarget else tSource) tOptMtu = true := by decide +kernel
  have c4 : ∀ u : Bool, clash (if u then tTarget else tSource) tRedir = true := by decide +kernel
  have c5 : clash tPrefix tOptMtu = true := by decide +kernel
  have c6 : clash tPrefix tRedir = true := by decide +kernel
  have c7 : clash tOptMtu tRedir = true := by decide +kernel
  cases x with
  | lladdr u a =>
    cases y with
    | lladdr v b =>
      rw [ll_text, ll_text] at h
      have huv : u = v := by
        cases u <;> cases v
        · rfl
        · exact absurd h.symm (clash_ne c1 _ _)
        · exact absurd h (clash_ne c1 _ _)
        · rfl
      subst huv
      rw [ethaddr_text_injective _ _ hx hy (List.append_cancel_left h)]
    | pfx => rw [ll_text, pfx_text] at h; exact absurd h (clash_ne (c2 _) _ _)
    | mtu => rw [ll_text, mtu_text] at h; exact absurd h (clash_ne (c3 _) _ _)
    | redirected => rw [ll_text, redir_text] at h; exact absurd h (clash_ne (c4 _) _ _)
  | pfx l a v p n k =>
    cases y with
    | lladdr => rw [ll_text, pfx_text] at h; exact absurd h.symm (clash_ne (c2 _) _ _)
    | pfx l' a' v' p' n' k' =>
      rw [pfx_text, pfx_text] at h
      have h := List.append_cancel_left h
      rw [lit_l, lit_a, lit_valid, lit_pref, lit_pfx] at h
      obtain ⟨h1, h⟩ := cutInt h
      obtain ⟨h2, h⟩ := cutInt h
      obtain ⟨h3, h⟩ := cutInt h
      obtain ⟨h4, h⟩ := cutInt h
      obtain ⟨h5, h⟩ := cutInt h
      rw [show k = k' by omega, boolNat_inj h2, boolNat_inj h3, h4, h5, ip6_inj h]
    | mtu => rw [pfx_text, mtu_text] at h; exact absurd h (clash_ne c5 _ _)
    | redirected => rw [pfx_text, redir_text] at h; exact absurd h (clash_ne c6 _ _)
  | mtu v =>
    cases y with
    | lladdr => rw [ll_text, mtu_text] at h; exact absurd h.symm (clash_ne (c3 _) _ _)
    | pfx => rw [pfx_text, mtu_text] at h; exact absurd h.symm (clash_ne c5 _ _)
    | mtu w => rw [mtu_text, mtu_text] at h; rw [intText_inj (List.append_cancel_left h)]
    | redirected => rw [mtu_text, redir_text] at h; exact absurd h (clash_ne c7 _ _)
  | redirected b =>
    cases y with
    | lladdr => rw [ll_text, redir_text] at h; exact absurd h.symm (clash_ne (c4 _) _ _)
    | pfx => rw [pfx_text, redir_text] at h; exact absurd h.symm (clash_ne c6 _ _)
    | mtu => rw [mtu_text, redir_text] at h; exact absurd h.symm (clash_ne c7 _ _)
    | redirected c =>
      rw [redir_text, redir_text] at h
      have := intText_inj (List.append_cancel_right (List.append_cancel_left h))
      simp only [NDOpt.shown]
      rw [show b.length = c.length by omega]

theorem option_congr {x y : NDOpt} (h : x.shown = y.shown) : x.str = y.str := by
  cases x <;> cases y <;> simp only [NDOpt.shown, Sum.inl.injEq, Sum.inr.injEq, reduceCtorEq] at h <;>
    first | rw [h] | (rw [redir_text, redir_text, h])

theorem option_no {c : Char} (hc : c = '|' ∨ c = ',') (o : NDOpt) : c ∉ o.str ∧ o.str ≠ [] := by
  have i : ∀ v : Int, c ∉ intText v := fun v => by
    rcases hc with rfl | rfl <;> exact intText_not_mem _ _ (by decide) (by decide)
  have e : ∀ a : EthAddr, c ∉ a.toStr := fun a => by
    rcases hc with rfl | rfl <;> exact toStr_not_mem _ _ (by decide) (by decide)
  have p : ∀ a : BitVec 128, c ∉ ipv6Text a := fun a => by
    rcases hc with rfl | rfl <;> exact ip6_no _ _ (by decide) (by decide) (by decide) (by decide)
  have l : ∀ w ∈ [tTarget, tSource, tPrefix, tL, tA, tValid, tPref, tPfx, tOptMtu, tRedir, tBytes], c ∉ w := by
    rcases hc with rfl | rfl <;> decide +kernel
  have n : ∀ w ∈ [tTarget, tSource, tPrefix, tOptMtu, tRedir], ∀ r, w ++ r ≠ [] := by
    have : ∀ w ∈ [tTarget, tSource, tPrefix, tOptMtu, tRedir], w ≠ [] := by decide +kernel
    intro w hw r h
    exact this w hw (List.append_eq_nil_iff.mp h).1
  cases o with
  | lladdr t a =>
    rw [ll_text]
    cases t
    · exact ⟨by rw [List.mem_append]; rintro (h | h); exact l tSource (by simp) h; exact e _ h, n tSource (by simp) _⟩
    · exact ⟨by rw [List.mem_append]; rintro (h | h); exact l tTarget (by simp) h; exact e _ h, n tTarget (by simp) _⟩
  | pfx =>
    rw [pfx_text]
    refine ⟨?_, n tPrefix (by simp) _⟩
    simp only [List.mem_append, not_or]
    exact ⟨l _ (by simp), i _, l _ (by simp), i _, l _ (by simp), i _, l _ (by simp), i _, l _ (by simp), i _, l _ (by simp), p _⟩
  | mtu =>
    rw [mtu_text]
    refine ⟨?_, n tOptMtu (by simp) _⟩
    simp only [List.mem_append, not_or]
    exact ⟨l _ (by simp), i _⟩
  | redirected =>
    rw [redir_text]
    refine ⟨?_, n tRedir (by simp) _⟩
    simp only [List.mem_append, not_or]
    exact ⟨l _ (by simp), i _, l _ (by simp)⟩

theorem map_shown {os os' : List NDOpt} (h : ∀ o ∈ os, o.Shows) (h' : ∀ o ∈ os', o.Shows)
    (e : os.map NDOpt.str = os'.map NDOpt.str) : os.map NDOpt.shown = os'.map NDOpt.shown := by
  induction os generalizing os' with
  | nil => cases os' with
    | nil => rfl
    | cons => cases e
  | cons o os ih =>
    cases os' with
    | nil => cases e
    | cons p ps =>
      simp only [List.map_cons, List.cons.injEq] at e ⊢
      exact ⟨option_inj (h o (by simp)) (h' p (by simp)) e.1,
        ih (fun q hq => h q (List.mem_cons_of_mem _ hq)) (fun q hq => h' q (List.mem_cons_of_mem _ hq)) e.2⟩

theorem map_shown_congr {os os' : List NDOpt} (e : os.map NDOpt.shown = os'.map NDOpt.shown) :
    os.map NDOpt.str = os'.map NDOpt.str := by
  induction os generalizing os' with
  | nil => cases os' with
    | nil => rfl
    | cons => cases e
  | cons o os ih =>
    cases os' with
    | nil => cases e
    | cons p ps =>
      simp only [List.map_cons, List.cons.injEq] at e ⊢
      exact ⟨option_congr e.1, ih e.2⟩

def tList : Text := "ICMPv6OptionList (".toList
def tComma : Text := ", ".toList

/-- Options after a text that has no bar. -/
theorem options_cut {a b s t : Text} {os os' : List NDOpt} (ha : '|' ∉ a) (hb : '|' ∉ b) (h : ∀ o ∈ os, o.Shows)
    (h' : ∀ o ∈ os', o.Shows) (hs : Tail s) (ht : Tail t) (e : withOpts a os ++ s = withOpts b os' ++ t) :
    a = b ∧ os.map NDOpt.shown = os'.map NDOpt.shown := by
  have sp : ∀ (a r : Text), a ++ (tBar ++ r) = (a ++ [' ']) ++ '|' :: (' ' :: r) := fun a b => by
    rw [show tBar = [' ', '|', ' '] by decide +kernel]; simp
  have ns : ∀ a : Text, '|' ∉ a → '|' ∉ a ++ [' '] := fun a ha => by simp [ha]
  have wo : ∀ (a : Text) (os : List NDOpt), os ≠ [] →
      withOpts a os = a ++ (tBar ++ (tList ++ (joinText tComma (os.map NDOpt.str) ++ tClose))) := by
    intro a os ho
    have : withOpts a os = a ++ tBar ++ (tList ++ joinText tComma (os.map NDOpt.str) ++ tClose) := if_neg ho
    rw [this]; simp only [List.append_assoc]
  have wn : ∀ a : Text, withOpts a [] = a := fun a => if_pos rfl
  have jb : ∀ os : List NDOpt, '|' ∉ joinText tComma (os.map NDOpt.str) ++ tClose := by
    intro os
    rw [List.mem_append]
    rintro (h | h)
    · refine joinText_not_mem (by decide +kernel) ?_ h
      intro x hx
      obtain ⟨o, _, rfl⟩ := List.mem_map.mp hx
      exact (option_no (.inl rfl) o).1
    · revert h; decide +kernel
  have nl : ∀ {s : Text}, Tail s → ∀ {a b x : Text}, '|' ∉ a → '|' ∉ b → a ++ s ≠ b ++ (tBar ++ (tList ++ x)) := by
    intro s hs a b x ha hb e
    rcases hs with rfl | ⟨P, hP, r, rfl⟩
    · rw [sp] at e
      exact ha (by rw [← List.append_nil a, e]; simp)
    · rw [show " | ".toList = tBar from rfl, sp, sp] at e
      obtain ⟨_, e⟩ := cut_at (ns _ ha) (ns _ hb) e
      exact clash_ne (strHeads_list P hP) _ _ (List.cons.inj e).2
  by_cases ho : os = []
  · by_cases ho' : os' = []
    · subst ho; subst ho'
      rw [wn, wn] at e
      exact ⟨(nobar_cut ha hb hs ht e).1, rfl⟩
    · subst ho
      rw [wn, wo _ _ ho'] at e
      simp only [List.append_assoc] at e
      exact absurd e (nl hs ha hb)
  · by_cases ho' : os' = []
    · subst ho'
      rw [wn, wo _ _ ho] at e
      simp only [List.append_assoc] at e
      exact absurd e.symm (nl ht hb ha)
    · rw [wo _ _ ho, wo _ _ ho'] at e
      simp only [List.append_assoc] at e
      rw [sp, sp] at e
      obtain ⟨e1, e⟩ := cut_at (ns _ ha) (ns _ hb) e
      have e := List.append_cancel_left (List.cons.inj e).2
      rw [← List.append_assoc, ← List.append_assoc] at e
      have e2 := List.append_cancel_right (nobar_cut (jb _) (jb _) hs ht e).1
      refine ⟨List.append_cancel_right e1, map_shown h h' ?_⟩
      refine joinText_inj (u := []) (c := ',') (v := [' ']) (by simp) ?_ ?_ ?_
      · intro x hx
        obtain ⟨o, _, rfl⟩ := List.mem_map.mp hx
        exact option_no (.inr rfl) o
      · intro x hx
        obtain ⟨o, _, rfl⟩ := List.mem_map.mp hx
        exact option_no (.inr rfl) o
      · rw [show tComma = [] ++ ',' :: [' '] by decide +kernel] at e2
        exact e2

/-- What is shown of ICMPv6 data; nothing of a router advertisement, which cannot be printed. -/
inductive Shown6
  | data (d : ShownData)
  | cls (c : PlainICMPv6)
  | rs (os : List (NDOpt ⊕ Nat))
  | ns (target : BitVec 128) (os : List (NDOpt ⊕ Nat))
  | na (r s o : Bool) (target : BitVec 128) (os : List (NDOpt ⊕ Nat))
  | redirect (target : BitVec 128) (os : List (NDOpt ⊕ Nat))
  | nothing
  deriving DecidableEq, Repr

def _root_.SY.ICMPv6Data.shown : ICMPv6Data → Shown6
  | .other b => .data (.payload b.length (b.take 10) .none)
  | .unreach _ m b => .data (.payload b.length (b.take 10) (.mtu m))
  | .echo _ i s b => .data (.echo i s b.length)
  | .plain c _ _ => .cls c
  | .rs os _ => .rs (os.map NDOpt.shown)
  | .ns t os _ => .ns t (os.map NDOpt.shown)
  | .na r s o t os _ => .na r s o t (os.map NDOpt.shown)
  | .redirect t _ os _ => .redirect t (os.map NDOpt.shown)
  | .ra .. => .nothing

/-- The data can be printed, and the link addresses in its options have six bytes. -/
def _root_.SY.ICMPv6Data.Shows : ICMPv6Data → Prop
  | .rs os _ | .ns _ os _ | .na _ _ _ _ os _ | .redirect _ _ os _ => ∀ o ∈ os, o.Shows
  | .ra .. => False
  | _ => True

def tRS : Text := "ICMPv6RouterSolicitation".toList
def tNS : Text := "ICMPv6NeighborSolicitation: target address ".toList
def tNA : Text := "Target address: ".toList
def tFlags : Text := " flags: 0x".toList
def tRM : Text := "ICMPv6RedirectMessage Target: ".toList
def tDest : Text := " Destination: ".toList

/-- The text before the options. -/
inductive Base6
  | cls (c : PlainICMPv6)
  | rs
  | ns (t : BitVec 128)
  | na (r s o : Bool) (t : BitVec 128)
  | redirect (t : BitVec 128)

def baseText : Base6 → Text
  | .cls c => c.name.toList
  | .rs => tRS
  | .ns t => tNS ++ ipv6Text t
  | .na r s o t => tNA ++ (ipv6Text t ++ (tFlags ++ (Nat.toDigits 16 (ICMPv6Data.rsoByte r s o) ++ (tOpen ++ (rsoStr r s o ++ tClose)))))
  | .redirect t => tRM ++ (ipv6Text t ++ (tDest ++ ipv6Text t))

theorem data6_text {d : ICMPv6Data} (hd : d.Shows) :
    (∃ x, d.shown = .data x ∧ d.str = .ok (dataText x)) ∨
    (∃ b os, d.str = .ok (withOpts (baseText b) os) ∧ (∀ o ∈ os, o.Shows) ∧
      d.shown = (match b with
        | .cls c => .cls c
        | .rs => .rs (os.map NDOpt.shown)
        | .ns t => .ns t (os.map NDOpt.shown)
        | .na r s o t => .na r s o t (os.map NDOpt.shown)
        | .redirect t => .redirect t (os.map NDOpt.shown)) ∧ (∀ c, b = .cls c → os = [])) := by
  cases d with
  | other b => exact .inl ⟨_, rfl, by rw [← payload_text]; exact congrArg Except.ok (List.append_nil _).symm⟩
  | unreach _ m b => exact .inl ⟨_, rfl, by rw [← payload_text]; exact congrArg Except.ok (List.append_assoc _ _ _)⟩
  | echo _ i s b =>
    refine .inl ⟨_, rfl, ?_⟩
    have h : ICMPv6Data.str (.echo false i s b) = .ok (intText i ++ tSpace ++ intText s ++ tOpen ++ natText b.length ++ tData) := rfl
    refine h.trans ?_
    simp only [dataText, List.append_assoc, natText_int]
  | plain c os b => exact .inr ⟨.cls c, [], rfl, (fun o ho => nomatch ho), rfl, fun _ _ => rfl⟩
  | rs os b => exact .inr ⟨.rs, os, rfl, hd, rfl, fun c h => by cases h⟩
  | ra => exact hd.elim
  | ns t os b => exact .inr ⟨.ns t, os, rfl, hd, rfl, fun c h => by cases h⟩
  | na r s o t os b =>
    refine .inr ⟨.na r s o t, os, ?_, hd, rfl, fun c h => by cases h⟩
    have h : ICMPv6Data.str (.na r s o t os b) = .ok (withOpts (tNA ++ ipv6Text t ++ tFlags ++ Nat.toDigits 16 (ICMPv6Data.rsoByte r s o) ++
      tOpen ++ rsoStr r s o ++ tClose) os) := by
      unfold ICMPv6Data.str tNA tFlags tOpen tClose; rfl
    rw [h, baseText]
    simp only [List.append_assoc]
  | redirect t d os b =>
    refine .inr ⟨.redirect t, os, ?_, hd, rfl, fun c h => by cases h⟩
    have h : ICMPv6Data.str (.redirect t d os b) = .ok (withOpts (tRM ++ ipv6Text t ++ tDest ++ ipv6Text t) os) := by
      unfold ICMPv6Data.str tRM tDest; rfl
    rw [h, baseText]
    simp only [List.append_assoc]

theorem rso_no_bar : ∀ r s o : Bool, '|' ∉ rsoStr r s o := by decide +kernel

theorem base_no_bar (b : Base6) : '|' ∉ baseText b := by
  have p : ∀ a : BitVec 128, '|' ∉ ipv6Text a := fun a => ip6_no _ _ (by decide) (by decide) (by decide) (by decide)
  have l : ∀ w ∈ [tRS, tNS, tNA, tFlags, tRM, tDest, tOpen, tClose], '|' ∉ w := by decide +kernel
  cases b with
  | cls c => cases c <;> decide +kernel
  | rs => exact l tRS (by simp)
  | ns t => simp only [baseText, List.mem_append, not_or]; exact ⟨l _ (by simp), p _⟩
  | na r s o t =>
    simp only [baseText, List.mem_append, not_or]
    exact ⟨l _ (by simp), p _, l _ (by simp), hex_not_mem _ _ (by decide), l _ (by simp), rso_no_bar _ _ _, l _ (by simp)⟩
  | redirect t =>
    simp only [baseText, List.mem_append, not_or]
    exact ⟨l _ (by simp), p _, l _ (by simp), p _⟩

/-- How the texts begin. -/
def baseHead : Base6 → Text
  | .cls c => c.name.toList
  | .rs => tRS
  | .ns _ => tNS
  | .na .. => tNA
  | .redirect _ => tRM

theorem base_head (b : Base6) : ∃ r, baseText b = baseHead b ++ r := by
  cases b <;> first | exact ⟨[], (List.append_nil _).symm⟩ | exact ⟨_, rfl⟩

theorem base_inj {a b : Base6} (h : baseText a = baseText b) : a = b := by
  have p : ∀ a : BitVec 128, ' ' ∉ ipv6Text a := fun a => ip6_no _ _ (by decide) (by decide) (by decide) (by decide)
  have hh : clash (baseHead a) (baseHead b) = false := by
    cases hc : clash (baseHead a) (baseHead b) with
    | false => rfl
    | true =>
      obtain ⟨r, hr⟩ := base_head a
      obtain ⟨u, hu⟩ := base_head b
      rw [hr, hu] at h
      exact absurd h (clash_ne hc _ _)
  have hn : ∀ c d : PlainICMPv6, clash c.name.toList d.name.toList = false → c = d := by
    intro c d; cases c <;> cases d <;> decide +kernel
  have h1 : ∀ c : PlainICMPv6, ∀ w ∈ [tRS, tNS, tNA, tRM], clash c.name.toList w = true ∧ clash w c.name.toList = true := by
    intro c; cases c <;> decide +kernel
  have h2 : ∀ w ∈ [tRS, tNS, tNA, tRM], ∀ v ∈ [tRS, tNS, tNA, tRM], w = v ∨ clash w v = true := by decide +kernel
  have h3 : tRS ≠ tNS ∧ tRS ≠ tNA ∧ tRS ≠ tRM ∧ tNS ≠ tNA ∧ tNS ≠ tRM ∧ tNA ≠ tRM := by decide +kernel
  obtain ⟨n1, n2, n3, n4, n5, n6⟩ := h3
  have h4 : ∀ w ∈ [tRS, tNS, tNA, tRM], ∀ v ∈ [tRS, tNS, tNA, tRM], w ≠ v → clash w v = false → False := by
    intro w hw v hv hne hc
    rcases h2 w hw v hv with h | h
    · exact hne h
    · rw [h] at hc; cases hc
  cases a with
  | cls c =>
    cases b with
    | cls d => rw [hn c d hh]
    | rs => exact absurd hh (by rw [baseHead, baseHead, (h1 c tRS (by simp)).1]; simp)
    | ns => exact absurd hh (by rw [baseHead, baseHead, (h1 c tNS (by simp)).1]; simp)
    | na => exact absurd hh (by rw [baseHead, baseHead, (h1 c tNA (by simp)).1]; simp)
    | redirect => exact absurd hh (by rw [baseHead, baseHead, (h1 c tRM (by simp)).1]; simp)
  | rs =>
    cases b with
    | cls d => exact absurd hh (by rw [baseHead, baseHead, (h1 d tRS (by simp)).2]; simp)
    | rs => rfl
    | ns => exact (h4 _ (by simp) _ (by simp) n1 hh).elim
    | na => exact (h4 _ (by simp) _ (by simp) n2 hh).elim
    | redirect => exact (h4 _ (by simp) _ (by simp) n3 hh).elim
  | ns t =>
    cases b with
    | cls d => exact absurd hh (by rw [baseHead, baseHead, (h1 d tNS (by simp)).2]; simp)
    | rs => exact (h4 _ (by simp) _ (by simp) n1.symm hh).elim
    | ns u => rw [ip6_inj (List.append_cancel_left h)]
    | na => exact (h4 _ (by simp) _ (by simp) n4 hh).elim
    | redirect => exact (h4 _ (by simp) _ (by simp) n5 hh).elim
  | na r s o t =>
    cases b with
    | cls d => exact absurd hh (by rw [baseHead, baseHead, (h1 d tNA (by simp)).2]; simp)
    | rs => exact (h4 _ (by simp) _ (by simp) n2.symm hh).elim
    | ns => exact (h4 _ (by simp) _ (by simp) n4.symm hh).elim
    | na r' s' o' t' =>
      have h := List.append_cancel_left h
      rw [show tFlags = ' ' :: "flags: 0x".toList by decide +kernel, show tOpen = ' ' :: "(".toList by decide +kernel] at h
      obtain ⟨e1, h⟩ := cut_lit (p _) (p _) h
      obtain ⟨e2, _⟩ := cut_lit (hex_not_mem _ _ (by decide)) (hex_not_mem _ _ (by decide)) h
      have e3 := hex_inj _ _ e2
      have e4 : ∀ r s o r' s' o' : Bool, ICMPv6Data.rsoByte r s o = ICMPv6Data.rsoByte r' s' o' → r = r' ∧ s = s' ∧ o = o' := by decide
      obtain ⟨rfl, rfl, rfl⟩ := e4 _ _ _ _ _ _ e3
      rw [ip6_inj e1]
    | redirect => exact (h4 _ (by simp) _ (by simp) n6 hh).elim
  | redirect t =>
    cases b with
    | cls d => exact absurd hh (by rw [baseHead, baseHead, (h1 d tRM (by simp)).2]; simp)
    | rs => exact (h4 _ (by simp) _ (by simp) n3.symm hh).elim
    | ns => exact (h4 _ (by simp) _ (by simp) n5.symm hh).elim
    | na => exact (h4 _ (by simp) _ (by simp) n6.symm hh).elim
    | redirect u =>
      have h := List.append_cancel_left h
      rw [show tDest = ' ' :: "Destination: ".toList by decide +kernel] at h
      rw [ip6_inj (cut_lit (p _) (p _) h).1]

theorem data_base (x : ShownData) (b : Base6) (os : List NDOpt) (s t : Text) : dataText x ++ s ≠ withOpts (baseText b) os ++ t := by
  have hb : ∃ c r, withOpts (baseText b) os ++ t = c :: r ∧ c.isDigit = false ∧ c ≠ '-' := by
    have h0 : ∀ b : Base6, ∃ c r, baseHead b = c :: r ∧ c.isDigit = false ∧ c ≠ '-' := by
      intro b
      cases b with
      | cls c => cases c <;> exact ⟨'I', _, rfl, by decide, by decide⟩
      | rs => exact ⟨'I', _, rfl, by decide, by decide⟩
      | ns => exact ⟨'I', _, rfl, by decide, by decide⟩
      | na => exact ⟨'T', _, rfl, by decide, by decide⟩
      | redirect => exact ⟨'I', _, rfl, by decide, by decide⟩
    obtain ⟨c, r, hc, hd⟩ := h0 b
    obtain ⟨u, hu⟩ := base_head b
    unfold withOpts
    split
    · exact ⟨c, _, by rw [hu, hc]; simp only [List.cons_append]; rfl, hd⟩
    · exact ⟨c, _, by rw [hu, hc]; simp only [List.cons_append]; rfl, hd⟩
  obtain ⟨c, r, hc, hd1, hd2⟩ := hb
  rw [hc]
  cases x <;> (simp only [dataText, List.append_assoc]; exact int_ne hd1 hd2)

theorem data6_cut {d e : ICMPv6Data} {u v s t : Text} (hd : d.Shows) (he : e.Shows) (hu : d.str = .ok u) (hv : e.str = .ok v)
    (hs : Tail s) (ht : Tail t) (h : u ++ s = v ++ t) : d.shown = e.shown := by
  rcases data6_text hd with ⟨x, hx, hx'⟩ | ⟨b, os, hb, ho, hsh, hcl⟩ <;>
  rcases data6_text he with ⟨y, hy, hy'⟩ | ⟨b', os', hb', ho', hsh', hcl'⟩
  · rw [hx'] at hu; rw [hy'] at hv
    cases hu; cases hv
    rw [hx, hy, data_cut hs ht h]
  · rw [hx'] at hu; rw [hb'] at hv
    cases hu; cases hv
    exact absurd h (data_base _ _ _ _ _)
  · rw [hb] at hu; rw [hy'] at hv
    cases hu; cases hv
    exact absurd h.symm (data_base _ _ _ _ _)
  · rw [hb] at hu; rw [hb'] at hv
    cases hu; cases hv
    obtain ⟨e1, e2⟩ := options_cut (base_no_bar b) (base_no_bar b') ho ho' hs ht h
    have e3 := base_inj e1
    subst e3
    rw [hsh, hsh', e2]

theorem data6_congr {d e : ICMPv6Data} (hd : d.Shows) (he : e.Shows) (h : d.shown = e.shown) : d.str = e.str := by
  rcases data6_text hd with ⟨x, hx, hx'⟩ | ⟨b, os, hb, ho, hsh, hcl⟩ <;>
  rcases data6_text he with ⟨y, hy, hy'⟩ | ⟨b', os', hb', ho', hsh', hcl'⟩
  · rw [hx', hy']
    rw [hx, hy] at h
    cases h; rfl
  · rw [hx, hsh'] at h
    cases b' <;> cases h
  · rw [hy, hsh] at h
    cases b <;> cases h
  · have wc : ∀ (a : Text) (os os' : List NDOpt), os.map NDOpt.shown = os'.map NDOpt.shown → withOpts a os = withOpts a os' := by
      intro a os os' e
      have e' := map_shown_congr e
      have hn : os = [] ↔ os' = [] := by
        have := congrArg List.length e
        simp only [List.length_map] at this
        rw [← List.length_eq_zero_iff, ← List.length_eq_zero_iff, this]
      unfold withOpts ndOptsStr
      rw [e']
      by_cases h0 : os = []
      · rw [if_pos h0, if_pos (hn.mp h0)]
      · rw [if_neg h0, if_neg (fun h => h0 (hn.mpr h))]
    rw [hb, hb']
    rw [hsh, hsh'] at h
    cases b <;> cases b' <;> simp only [Shown6.cls.injEq, Shown6.rs.injEq, Shown6.ns.injEq, Shown6.na.injEq,
      Shown6.redirect.injEq, reduceCtorEq] at h
    · rw [h, hcl _ rfl, hcl' _ rfl]
    · rw [wc _ _ _ h]
    · rw [h.1, wc _ _ _ h.2]
    · obtain ⟨rfl, rfl, rfl, rfl, h⟩ := h
      rw [wc _ _ _ h]
    · rw [h.1, wc _ _ _ h.2]

end SY.Props
