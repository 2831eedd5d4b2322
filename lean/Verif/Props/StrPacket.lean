import Verif.Props.StrAll

/-! # C163: the text of a packet of any headers that can be printed -/

namespace SY.Props

open SY

/-! ## The remaining headers -/

def tRouteHd : Text := "IPv6RouteOption (type ".toList
def tFragHd : Text := "IPv6Fragment (id: ".toList
def tOffset : Text := " offset: ".toList
def tMf : Text := " mf: ".toList
def tArrow : Text := " -> ".toList
def tRip : Text := "RIPv2 ".toList
def tRoutes : Text := " routes: ".toList
def tRawHd : Text := "RawPacketContents (".toList
def tRawBytes : Text := " bytes) ".toList

theorem route_text (h : RouteOpt) : h.str = tRouteHd ++ (intText h.rtype ++ (tComma ++ (ipv6Text h.addr ++ tClose))) := by
  have e : h.str = tRouteHd ++ natText h.rtype ++ tComma ++ ipv6Text h.addr ++ tClose := by
    unfold RouteOpt.str tRouteHd tComma tClose; rfl
  rw [e, natText_int]; simp only [List.append_assoc]

theorem frag_text (h : Fragment) : h.str = tFragHd ++ (intText h.ident ++ (tOffset ++ (intText h.offset ++ (tMf ++
    (boolText h.mf ++ tClose))))) := by
  have e : h.str = tFragHd ++ intText h.ident ++ tOffset ++ intText h.offset ++ tMf ++ boolText h.mf ++ tClose := by
    unfold Fragment.str tFragHd tOffset tMf tClose; rfl
  rw [e]; simp only [List.append_assoc]

theorem route_str_inj {x y : RouteOpt} (h : x.str = y.str) : x.rtype = y.rtype ∧ x.addr = y.addr := by
  have n : ∀ v : Int, ',' ∉ intText v := fun v => intText_not_mem _ _ (by decide) (by decide)
  rw [route_text, route_text] at h
  have h := List.append_cancel_left h
  rw [show tComma = ',' :: " ".toList by decide +kernel] at h
  obtain ⟨h1, h2⟩ := cut_lit (n _) (n _) h
  have := intText_inj h1
  exact ⟨by omega, ip6_inj (List.append_cancel_right h2)⟩

theorem boolText_inj : ∀ a b : Bool, boolText a = boolText b → a = b := by decide +kernel

theorem frag_str_inj {x y : Fragment} (h : x.str = y.str) : x.ident = y.ident ∧ x.offset = y.offset ∧ x.mf = y.mf := by
  rw [frag_text, frag_text] at h
  have h := List.append_cancel_left h
  rw [show tOffset = ' ' :: "offset: ".toList by decide +kernel, show tMf = ' ' :: "mf: ".toList by decide +kernel] at h
  obtain ⟨h1, h⟩ := cutInt h
  obtain ⟨h2, h⟩ := cutInt h
  exact ⟨h1, h2, boolText_inj _ _ (List.append_cancel_right h)⟩

/-! Hop-by-hop and destination options. -/

/-- The option can be printed. -/
def _root_.SY.TLV.Shows : TLV → Prop
  | .homeAddress _ => False
  | _ => True

def tPad1 : Text := "Pad1".toList
def tPadN : Text := "PadN (".toList
def tJumbo : Text := "JumboPayload (".toList
def tTunnel : Text := "TunnelEncapsulationLimit (".toList
def tAlert : Text := "RouterAlert (".toList

/-- How the text of an option begins, and the number in it. -/
def tlvParts : TLV → Text × Option Int
  | .pad1 => (tPad1, none)
  | .padN n => (tPadN, some (n + 2))
  | .jumbo v => (tJumbo, some v)
  | .tunnelLimit v => (tTunnel, some v)
  | .routerAlert v => (tAlert, some v)
  | .homeAddress _ => ([], none)

def numText : Option Int → Text
  | none => []
  | some v => intText v ++ tClose

theorem tlv_text {o : TLV} (h : o.Shows) : o.str = .ok ((tlvParts o).1 ++ numText (tlvParts o).2) := by
  cases o with
  | pad1 => exact congrArg Except.ok (List.append_nil _).symm
  | homeAddress => exact h.elim
  | _ => exact congrArg Except.ok (List.append_assoc _ _ _)

def tlvHeads : List Text := [tPad1, tPadN, tJumbo, tTunnel, tAlert]

def tlvKind : TLV → Fin 5
  | .pad1 | .homeAddress _ => 0 | .padN _ => 1 | .jumbo _ => 2 | .tunnelLimit _ => 3 | .routerAlert _ => 4

theorem tlvHeads_inj : ∀ i j : Fin 5, clash tlvHeads[i] tlvHeads[j] = true ∨ i = j := by decide +kernel

theorem tlv_head {o : TLV} (h : o.Shows) : (tlvParts o).1 = tlvHeads[tlvKind o] := by
  cases o <;> first | exact h.elim | rfl

theorem tlv_str_inj {x y : TLV} (hx : x.Shows) (hy : y.Shows) {t : Text} (h : x.str = .ok t) (h' : y.str = .ok t) : x = y := by
  rw [tlv_text hx] at h
  rw [tlv_text hy] at h'
  have e := (Except.ok.inj h).trans (Except.ok.inj h').symm
  rw [tlv_head hx, tlv_head hy] at e
  rcases tlvHeads_inj (tlvKind x) (tlvKind y) with hc | hc
  · exact absurd e (clash_ne hc _ _)
  · rw [hc] at e
    have e := List.append_cancel_left e
    have num : ∀ v w : Int, numText (some v) = numText (some w) → v = w := fun v w h => intText_inj (List.append_cancel_right h)
    clear h h'
    cases x <;> cases y <;> simp only [tlvKind] at hc <;>
      first
      | rfl | exact hx.elim | exact hy.elim
      | exact absurd hc (by decide)
      | (have h := num _ _ e; rw [h])
      | (have h := num _ _ e; rw [show _ = _ from (Int.add_left_inj 2).mp h])

theorem tlv_no {c : Char} (hc : c = '|' ∨ c = ';') {o : TLV} (ho : o.Shows) {t : Text} (h : o.str = .ok t) : c ∉ t ∧ t ≠ [] := by
  rw [tlv_text ho] at h
  cases h
  have i : ∀ v : Int, c ∉ intText v := fun v => by
    rcases hc with rfl | rfl <;> exact intText_not_mem _ _ (by decide) (by decide)
  have l : ∀ w ∈ [tPad1, tPadN, tJumbo, tTunnel, tAlert, tClose], c ∉ w ∧ w ≠ [] := by
    rcases hc with rfl | rfl <;> decide +kernel
  have hP : (tlvParts o).1 ∈ [tPad1, tPadN, tJumbo, tTunnel, tAlert, tClose] := by
    cases o <;> first | exact ho.elim | simp [tlvParts]
  obtain ⟨l1, l2⟩ := l _ hP
  refine ⟨?_, fun h => l2 (List.append_eq_nil_iff.mp h).1⟩
  rw [List.mem_append, not_or]
  refine ⟨l1, ?_⟩
  cases (tlvParts o).2 with
  | none => simp [numText]
  | some v => rw [numText, List.mem_append, not_or]; exact ⟨i _, (l tClose (by simp)).1⟩

theorem tlvs_text {os : List TLV} (h : ∀ o ∈ os, o.Shows) : ∃ l, tlvStrs os = .ok l ∧
    ∀ c : Char, (c = '|' ∨ c = ';') → ∀ t ∈ l, c ∉ t ∧ t ≠ [] := by
  induction os with
  | nil => exact ⟨[], rfl, fun c _ t ht => nomatch ht⟩
  | cons o os ih =>
    obtain ⟨l, hl, hn⟩ := ih fun p hp => h p (List.mem_cons_of_mem _ hp)
    have ho := h o List.mem_cons_self
    refine ⟨_ :: l, by rw [tlvStrs, tlv_text ho, bind_ok, hl, bind_ok], fun c hc t ht => ?_⟩
    rcases List.mem_cons.mp ht with rfl | ht
    · exact tlv_no hc ho (tlv_text ho)
    · exact hn c hc t ht

theorem tlvs_inj {os os' : List TLV} (h : ∀ o ∈ os, o.Shows) (h' : ∀ o ∈ os', o.Shows) {l : List Text}
    (e : tlvStrs os = .ok l) (e' : tlvStrs os' = .ok l) : os = os' := by
  induction os generalizing os' l with
  | nil =>
    cases e
    cases os' with
    | nil => rfl
    | cons o os' =>
      rw [tlvStrs] at e'
      obtain ⟨_, _, e'⟩ := bind_eq_ok.mp e'
      obtain ⟨_, _, e'⟩ := bind_eq_ok.mp e'
      cases e'
  | cons o os ih =>
    rw [tlvStrs] at e
    obtain ⟨t, ht, e⟩ := bind_eq_ok.mp e
    obtain ⟨m, hm, e⟩ := bind_eq_ok.mp e
    cases e
    cases os' with
    | nil => cases e'
    | cons p ps =>
      rw [tlvStrs] at e'
      obtain ⟨u, hu, e'⟩ := bind_eq_ok.mp e'
      obtain ⟨n, hn, e'⟩ := bind_eq_ok.mp e'
      cases e'
      rw [tlv_str_inj (h o (by simp)) (h' p (by simp)) ht hu,
        ih (fun q hq => h q (List.mem_cons_of_mem _ hq)) (fun q hq => h' q (List.mem_cons_of_mem _ hq)) hm hn]

def tSemi : Text := " ; ".toList

theorem hop_text {name : String} {h : HopOpt} (ho : ∀ o ∈ h.opts, o.Shows) : ∃ l, tlvStrs h.opts = .ok l ∧
    h.str name = .ok (name.toList ++ "/".toList ++ joinText tSemi l) ∧
    ∀ c : Char, (c = '|' ∨ c = ';') → ∀ t ∈ l, c ∉ t ∧ t ≠ [] := by
  obtain ⟨l, hl, hn⟩ := tlvs_text ho
  exact ⟨l, hl, by unfold HopOpt.str; rw [hl, bind_ok]; rfl, hn⟩

theorem hop_str_inj {name : String} {x y : HopOpt} (hx : ∀ o ∈ x.opts, o.Shows) (hy : ∀ o ∈ y.opts, o.Shows)
    (h : x.str name = y.str name) : x.opts = y.opts := by
  obtain ⟨l, hl, h1, h2⟩ := hop_text (name := name) hx
  obtain ⟨m, hm, h3, h4⟩ := hop_text (name := name) hy
  rw [h1, h3] at h
  have h := List.append_cancel_left (Except.ok.inj h)
  rw [show tSemi = [' '] ++ ';' :: [' '] by decide +kernel] at h
  have := joinText_inj (by decide) (h2 ';' (.inr rfl)) (h4 ';' (.inr rfl)) h
  subst this
  exact tlvs_inj hx hy hl hm

theorem hop_no_bar {name : String} {h : HopOpt} (hn : '|' ∉ name.toList) (ho : ∀ o ∈ h.opts, o.Shows) {t : Text}
    (ht : h.str name = .ok t) : '|' ∉ t := by
  obtain ⟨l, hl, h1, h2⟩ := hop_text (name := name) ho
  rw [h1] at ht
  cases ht
  simp only [List.mem_append, not_or]
  exact ⟨⟨hn, by decide +kernel⟩, joinText_not_mem (by decide +kernel) fun t ht => (h2 '|' (.inl rfl) t ht).1⟩

/-! Routes. -/

/-- What is shown of a route. -/
def _root_.SY.RIPRoute.shown (r : RIPRoute) : Nat × Nat × Int × BitVec 32 := (r.net, r.plen, r.metric, r.nexthop)

def hopText (a : BitVec 32) : Text := if a = 0 then [] else tArrow ++ ipv4Text a

theorem ripRoute_text (r : RIPRoute) : r.str = ipv4Text (BitVec.ofNat 32 r.net) ++ ('/' :: (intText r.plen ++ (tOpen ++
    (intText r.metric ++ (')' :: hopText r.nexthop))))) := by
  have e : r.str = ipv4Text (BitVec.ofNat 32 r.net) ++ ['/'] ++ natText r.plen ++ tOpen ++ intText r.metric ++ [')'] ++
      hopText r.nexthop := by
    unfold RIPRoute.str tOpen hopText tArrow; rfl
  rw [e, natText_int]
  simp only [List.append_assoc, List.cons_append, List.nil_append]

theorem ripRoute_inj {x y : RIPRoute} (hx : x.net < 2 ^ 32) (hy : y.net < 2 ^ 32) (h : x.str = y.str) : x.shown = y.shown := by
  have n : ∀ a : BitVec 32, '/' ∉ ipv4Text a := fun a => ipv4Text_not_mem _ _ (by decide) (by decide)
  have c : ∀ v : Int, ')' ∉ intText v := fun v => intText_not_mem _ _ (by decide) (by decide)
  rw [ripRoute_text, ripRoute_text] at h
  obtain ⟨h1, h⟩ := cut_at (n _) (n _) h
  rw [show tOpen = ' ' :: "(".toList by decide +kernel] at h
  obtain ⟨h2, h⟩ := cutInt h
  obtain ⟨h3, h⟩ := cut_at (c _) (c _) h
  have h1 := congrArg BitVec.toNat (ip4_inj h1)
  rw [BitVec.toNat_ofNat, BitVec.toNat_ofNat, Nat.mod_eq_of_lt hx, Nat.mod_eq_of_lt hy] at h1
  have h3 := intText_inj h3
  have hn : ∀ (a : BitVec 32), tArrow ++ ipv4Text a ≠ [] := fun a e => by
    have := (List.append_eq_nil_iff.mp e).1
    revert this; decide +kernel
  have h4 : x.nexthop = y.nexthop := by
    unfold hopText at h
    by_cases hx0 : x.nexthop = 0
    · by_cases hy0 : y.nexthop = 0
      · rw [hx0, hy0]
      · rw [if_pos hx0, if_neg hy0] at h
        exact absurd h.symm (hn _)
    · by_cases hy0 : y.nexthop = 0
      · rw [if_pos hy0, if_neg hx0] at h
        exact absurd h (hn _)
      · rw [if_neg hy0, if_neg hx0] at h
        exact ip4_inj (List.append_cancel_left h)
  unfold RIPRoute.shown
  rw [h1, show x.plen = y.plen by omega, h3, h4]

theorem ripRoute_congr {x y : RIPRoute} (h : x.shown = y.shown) : x.str = y.str := by
  simp only [RIPRoute.shown, Prod.mk.injEq] at h
  obtain ⟨h1, h2, h3, h4⟩ := h
  rw [ripRoute_text, ripRoute_text, h1, h2, h3, h4]

theorem ripRoute_no {c : Char} (hc : c = '|' ∨ c = ',') (r : RIPRoute) : c ∉ r.str ∧ r.str ≠ [] := by
  have i : ∀ v : Int, c ∉ intText v := fun v => by
    rcases hc with rfl | rfl <;> exact intText_not_mem _ _ (by decide) (by decide)
  have p : ∀ a : BitVec 32, c ∉ ipv4Text a := fun a => by
    rcases hc with rfl | rfl <;> exact ipv4Text_not_mem _ _ (by decide) (by decide)
  have l : ∀ w ∈ [tOpen, tArrow, ['/'], [')']], c ∉ w := by
    rcases hc with rfl | rfl <;> decide +kernel
  have l1 := l ['/'] (by simp)
  have l2 := l [')'] (by simp)
  rw [ripRoute_text]
  refine ⟨?_, by simp⟩
  simp only [List.mem_append, List.mem_cons, not_or, List.not_mem_nil, or_false] at l1 l2 ⊢
  refine ⟨p _, l1, i _, l _ (by simp), i _, l2, ?_⟩
  unfold hopText
  split
  · simp
  · rw [List.mem_append, not_or]; exact ⟨l _ (by simp), p _⟩

theorem rip_text (h : RIPv2) : h.str = tRip ++ (enumName ripCommandNames h.command ++ (tOpen ++ (intText h.routes.length ++
    (tRoutes ++ (joinText tComma (h.routes.map RIPRoute.str) ++ tClose))))) := by
  have e : h.str = tRip ++ enumName ripCommandNames h.command ++ tOpen ++ natText h.routes.length ++ tRoutes ++
      joinText tComma (h.routes.map RIPRoute.str) ++ tClose := by
    unfold RIPv2.str tRip tOpen tRoutes tComma tClose; rfl
  rw [e, natText_int]; simp only [List.append_assoc]

theorem ripCommand_facts : ∀ c ∈ [1, 2], ' ' ∉ enumName ripCommandNames c ∧ '|' ∉ enumName ripCommandNames c ∧
    ∀ d ∈ [1, 2], enumName ripCommandNames c = enumName ripCommandNames d → c = d := by decide +kernel

theorem rip_str_inj {x y : RIPv2} (hx : x.command ∈ [1, 2]) (hy : y.command ∈ [1, 2]) (hrx : ∀ r ∈ x.routes, r.net < 2 ^ 32)
    (hry : ∀ r ∈ y.routes, r.net < 2 ^ 32) (h : x.str = y.str) :
    x.command = y.command ∧ x.routes.map RIPRoute.shown = y.routes.map RIPRoute.shown := by
  obtain ⟨s1, _, i1⟩ := ripCommand_facts _ hx
  obtain ⟨s2, _, _⟩ := ripCommand_facts _ hy
  rw [rip_text, rip_text] at h
  have h := List.append_cancel_left h
  rw [show tOpen = ' ' :: "(".toList by decide +kernel, show tRoutes = ' ' :: "routes: ".toList by decide +kernel] at h
  obtain ⟨h1, h⟩ := cut_lit s1 s2 h
  obtain ⟨_, h⟩ := cutInt h
  have h := List.append_cancel_right h
  rw [show tComma = [] ++ ',' :: [' '] by decide +kernel] at h
  have hm : ∀ l : List RIPRoute, ∀ t ∈ l.map RIPRoute.str, ',' ∉ t ∧ t ≠ [] := by
    intro l t ht
    obtain ⟨r, _, rfl⟩ := List.mem_map.mp ht
    exact ripRoute_no (.inr rfl) r
  have h := joinText_inj (by decide) (hm _) (hm _) h
  refine ⟨i1 _ hy h1, ?_⟩
  generalize x.routes = l at h hrx
  generalize y.routes = m at h hry
  induction l generalizing m with
  | nil => cases m with
    | nil => rfl
    | cons => cases h
  | cons a l ih =>
    cases m with
    | nil => cases h
    | cons b m =>
      simp only [List.map_cons, List.cons.injEq] at h ⊢
      exact ⟨ripRoute_inj (hrx a (by simp)) (hry b (by simp)) h.1,
        ih (fun q hq => hrx q (List.mem_cons_of_mem _ hq)) m h.2 (fun q hq => hry q (List.mem_cons_of_mem _ hq))⟩

theorem rip_congr {x y : RIPv2} (hc : x.command = y.command) (h : x.routes.map RIPRoute.shown = y.routes.map RIPRoute.shown) :
    x.str = y.str := by
  have hl : x.routes.length = y.routes.length := by
    have := congrArg List.length h
    simpa using this
  have hm : x.routes.map RIPRoute.str = y.routes.map RIPRoute.str := by
    generalize x.routes = l at h
    generalize y.routes = m at h
    induction l generalizing m with
    | nil => cases m with
      | nil => rfl
      | cons => cases h
    | cons a l ih =>
      cases m with
      | nil => cases h
      | cons b m =>
        simp only [List.map_cons, List.cons.injEq] at h ⊢
        exact ⟨ripRoute_congr h.1, ih m h.2⟩
  rw [rip_text, rip_text, hc, hl, hm]

/-! Raw contents. -/

def dotsText (b : Bytes) : Text := if b.length < 10 then [] else "...".toList

theorem rawStr_text (b : Bytes) : rawStr b = tRawHd ++ (intText b.length ++ (tRawBytes ++ (bytesRepr (b.take 10) ++ dotsText b))) := by
  have e : rawStr b = tRawHd ++ natText b.length ++ tRawBytes ++ bytesRepr (b.take 10) ++ dotsText b := by
    unfold rawStr tRawHd tRawBytes dotsText; rfl
  rw [e, natText_int]; simp only [List.append_assoc]

theorem raw_cut {a b : Bytes} {s t : Text} (h : rawStr a ++ s = rawStr b ++ t) : a.length = b.length ∧ a.take 10 = b.take 10 := by
  rw [rawStr_text, rawStr_text] at h
  simp only [List.append_assoc] at h
  have h := List.append_cancel_left h
  rw [show tRawBytes = ' ' :: "bytes) ".toList by decide +kernel] at h
  obtain ⟨h1, h⟩ := cutInt h
  exact ⟨by omega, (repr_cut h).1⟩

/-! ## Headers -/

/-- The header can be printed, and its fields are such as the setters leave them: Ethernet addresses of six bytes, and
known types, protocols and codes. -/
def _root_.SY.Hdr.Shows : Hdr → Prop
  | .hop h | .dst h => ∀ o ∈ h.opts, o.Shows
  | .icmp m => (m.type, m.code) ∈ typeCodes icmpTypes icmpCodes
  | .icmp6 m => (m.type, m.code) ∈ typeCodes icmpv6Types icmpv6Codes ∧ m.data.Shows
  | .rip h => h.command ∈ [1, 2] ∧ ∀ r ∈ h.routes, r.net < 2 ^ 32
  | .route _ | .frag _ | .null _ | .raw _ | .nullHdr => True
  | x => PlainHdr x

/-- The headers agree in what is shown of them. -/
def SameShown : Hdr → Hdr → Prop
  | .route x, .route y => x.rtype = y.rtype ∧ x.addr = y.addr
  | .frag x, .frag y => x.ident = y.ident ∧ x.offset = y.offset ∧ x.mf = y.mf
  | .hop x, .hop y => x.opts = y.opts
  | .dst x, .dst y => x.opts = y.opts
  | .icmp x, .icmp y => x.type = y.type ∧ x.code = y.code ∧ x.data.shown = y.data.shown
  | .icmp6 x, .icmp6 y => x.type = y.type ∧ x.code = y.code ∧ x.data.shown = y.data.shown
  | .rip x, .rip y => x.command = y.command ∧ x.routes.map RIPRoute.shown = y.routes.map RIPRoute.shown
  | .null a, .null b => (a = 2 ↔ b = 2) ∧ (a = 10 ↔ b = 10)
  | .raw a, .raw b => a.length = b.length ∧ a.take 10 = b.take 10
  | .nullHdr, .nullHdr => True
  | x, y => LookAlike x y

theorem shows_str {x : Hdr} (hx : x.Shows) : ∃ t, x.str = .ok t := by
  cases x with
  | hop h => obtain ⟨l, _, h, _⟩ := hop_text (name := "IPv6HopOption") (h := h) hx; exact ⟨_, h⟩
  | dst h => obtain ⟨l, _, h, _⟩ := hop_text (name := "IPv6DestinationOption") (h := h) hx; exact ⟨_, h⟩
  | icmp6 m =>
    rcases data6_text hx.2 with ⟨x, _, h⟩ | ⟨b, os, h, _⟩
    · exact ⟨_, by unfold Hdr.str icmp6Str; simp only [h, bind_ok]; rfl⟩
    · exact ⟨_, by unfold Hdr.str icmp6Str; simp only [h, bind_ok]; rfl⟩
  | _ => exact ⟨_, rfl⟩

/-- Which of the texts in `strHeads` the header begins with. -/
def hdrKind : Hdr → Fin 17
  | .eth _ => 0 | .vlan _ => 1 | .arp _ => 2 | .ip4 _ => 3 | .ip6 _ => 4 | .route _ => 5 | .frag _ => 6 | .hop _ => 7
  | .dst _ => 8 | .udp _ => 9 | .tcp _ => 10 | .icmp _ => 11 | .icmp6 _ => 12 | .rip _ => 13 | .null _ => 14
  | .raw _ => 15 | .nullHdr => 16

theorem kind_head (x : Hdr) : strHead x = strHeads[hdrKind x] := by cases x <;> rfl

theorem heads_inj : ∀ i j : Fin 17, strHeads[i] = strHeads[j] → i = j := by decide +kernel

theorem kind_cut {x y : Hdr} {u v s t : Text} (hu : x.str = .ok u) (hv : y.str = .ok v) (h : u ++ s = v ++ t) :
    hdrKind x = hdrKind y := by
  obtain ⟨r, rfl⟩ := str_head hu
  obtain ⟨w, rfl⟩ := str_head hv
  rcases strHeads_clash _ (strHead_mem x) _ (strHead_mem y) with hc | hc
  · rw [kind_head, kind_head] at hc
    exact heads_inj _ _ hc
  · rw [List.append_assoc, List.append_assoc] at h
    exact absurd h (clash_ne hc _ _)

theorem route_no_bar (h : RouteOpt) : '|' ∉ h.str := by
  rw [route_text]
  simp only [List.mem_append, not_or]
  exact ⟨by decide +kernel, intNoBar _, by decide +kernel, ip6_no _ _ (by decide) (by decide) (by decide) (by decide), by decide +kernel⟩

theorem frag_no_bar (h : Fragment) : '|' ∉ h.str := by
  rw [frag_text]
  simp only [List.mem_append, not_or]
  exact ⟨by decide +kernel, intNoBar _, by decide +kernel, intNoBar _, by decide +kernel, by cases h.mf <;> decide +kernel, by decide +kernel⟩

theorem rip_no_bar {h : RIPv2} (hc : h.command ∈ [1, 2]) : '|' ∉ h.str := by
  rw [rip_text]
  simp only [List.mem_append, not_or]
  refine ⟨by decide +kernel, (ripCommand_facts _ hc).2.1, by decide +kernel, intNoBar _, by decide +kernel, ?_, by decide +kernel⟩
  refine joinText_not_mem (by decide +kernel) fun t ht => ?_
  obtain ⟨r, _, rfl⟩ := List.mem_map.mp ht
  exact (ripRoute_no (.inl rfl) r).1

theorem null_no_bar (a : Int) : '|' ∉ "Null: ".toList ++ afName a := by
  rw [List.mem_append, not_or]
  refine ⟨by decide +kernel, ?_⟩
  unfold afName
  split
  · decide +kernel
  · split <;> decide +kernel

def tIcmp : Text := "ICMP ".toList
def tIcmp6 : Text := "ICMPv6 ".toList

theorem icmp_text (m : ICMPMsg ICMPData) : icmp4Str m = tIcmp ++ (typeText4 m.type m.code ++ ([' '] ++ dataText m.data.shown)) := by
  have e : icmp4Str m = tIcmp ++ typeText4 m.type m.code ++ [' '] ++ m.data.str := by
    unfold icmp4Str tIcmp typeText4; rfl
  rw [e, data4_text]; simp only [List.append_assoc]

theorem icmp6_text {m : ICMPMsg ICMPv6Data} {t : Text} (h : icmp6Str m = .ok t) :
    ∃ d, m.data.str = .ok d ∧ t = tIcmp6 ++ (typeText6 m.type m.code ++ ([' '] ++ d)) := by
  unfold icmp6Str at h
  obtain ⟨d, hd, h⟩ := bind_eq_ok.mp h
  refine ⟨d, hd, ?_⟩
  have e : t = tIcmp6 ++ typeText6 m.type m.code ++ [' '] ++ d := (Except.ok.inj h).symm
  rw [e]; simp only [List.append_assoc]

/-- The text of a header, and what is shown of it, can be told from the text of a packet that begins with it. -/
theorem hdr_cut {x y : Hdr} (hx : x.Shows) (hy : y.Shows) {u v s t : Text} (hu : x.str = .ok u) (hv : y.str = .ok v)
    (hs : Tail s) (ht : Tail t) (h : u ++ s = v ++ t) : SameShown x y := by
  have hk := kind_cut hu hv h
  have plain : ∀ x y : Hdr, PlainHdr x → PlainHdr y → x.str = .ok u → y.str = .ok v → LookAlike x y := by
    intro x y hx hy hu hv
    have := (nobar_cut (plain_no_bar hx hu).1 (plain_no_bar hy hv).1 hs ht h).1
    exact (hdr_str_same hx hy).mp (by rw [hu, hv, this])
  cases x with
  | eth a => cases y with
    | eth b => exact plain (.eth a) (.eth b) hx hy hu hv
    | _ => exact absurd hk (by simp [hdrKind])
  | vlan a => cases y with
    | vlan b => exact plain (.vlan a) (.vlan b) hx hy hu hv
    | _ => exact absurd hk (by simp [hdrKind])
  | arp a => cases y with
    | arp b => exact plain (.arp a) (.arp b) hx hy hu hv
    | _ => exact absurd hk (by simp [hdrKind])
  | ip4 a => cases y with
    | ip4 b => exact plain (.ip4 a) (.ip4 b) hx hy hu hv
    | _ => exact absurd hk (by simp [hdrKind])
  | ip6 a => cases y with
    | ip6 b => exact plain (.ip6 a) (.ip6 b) hx hy hu hv
    | _ => exact absurd hk (by simp [hdrKind])
  | udp a => cases y with
    | udp b => exact plain (.udp a) (.udp b) hx hy hu hv
    | _ => exact absurd hk (by simp [hdrKind])
  | tcp a => cases y with
    | tcp b => exact plain (.tcp a) (.tcp b) hx hy hu hv
    | _ => exact absurd hk (by simp [hdrKind])
  | route a => cases y with
    | route b =>
      cases hu; cases hv
      exact route_str_inj (nobar_cut (route_no_bar _) (route_no_bar _) hs ht h).1
    | _ => exact absurd hk (by simp [hdrKind])
  | frag a => cases y with
    | frag b =>
      cases hu; cases hv
      exact frag_str_inj (nobar_cut (frag_no_bar _) (frag_no_bar _) hs ht h).1
    | _ => exact absurd hk (by simp [hdrKind])
  | hop a => cases y with
    | hop b =>
      have e := (nobar_cut (hop_no_bar (by decide +kernel) hx hu) (hop_no_bar (by decide +kernel) hy hv) hs ht h).1
      subst e
      exact hop_str_inj (name := "IPv6HopOption") hx hy ((show a.str "IPv6HopOption" = _ from hu).trans hv.symm)
    | _ => exact absurd hk (by simp [hdrKind])
  | dst a => cases y with
    | dst b =>
      have e := (nobar_cut (hop_no_bar (by decide +kernel) hx hu) (hop_no_bar (by decide +kernel) hy hv) hs ht h).1
      subst e
      exact hop_str_inj (name := "IPv6DestinationOption") hx hy ((show a.str "IPv6DestinationOption" = _ from hu).trans hv.symm)
    | _ => exact absurd hk (by simp [hdrKind])
  | icmp a => cases y with
    | icmp b =>
      cases hu; cases hv
      rw [icmp_text, icmp_text] at h
      simp only [List.append_assoc] at h
      obtain ⟨h1, h2⟩ := cut_at (type4_plain _ hx) (type4_plain _ hy) (List.append_cancel_left h)
      have e := type4_inj _ hx _ hy h1
      exact ⟨congrArg Prod.fst e, congrArg Prod.snd e, data_cut hs ht h2⟩
    | _ => exact absurd hk (by simp [hdrKind])
  | icmp6 a => cases y with
    | icmp6 b =>
      obtain ⟨d, hd, rfl⟩ := icmp6_text hu
      obtain ⟨d', hd', rfl⟩ := icmp6_text hv
      simp only [List.append_assoc] at h
      obtain ⟨h1, h2⟩ := cut_at (type6_plain _ hx.1) (type6_plain _ hy.1) (List.append_cancel_left h)
      have e := type6_inj _ hx.1 _ hy.1 h1
      exact ⟨congrArg Prod.fst e, congrArg Prod.snd e, data6_cut hx.2 hy.2 hd hd' hs ht h2⟩
    | _ => exact absurd hk (by simp [hdrKind])
  | rip a => cases y with
    | rip b =>
      cases hu; cases hv
      exact rip_str_inj hx.1 hy.1 hx.2 hy.2 (nobar_cut (rip_no_bar hx.1) (rip_no_bar hy.1) hs ht h).1
    | _ => exact absurd hk (by simp [hdrKind])
  | null a => cases y with
    | null b =>
      cases hu; cases hv
      have e := (nobar_cut (null_no_bar a) (null_no_bar b) hs ht h).1
      exact (null_str_same a b).mp (congrArg Except.ok e)
    | _ => exact absurd hk (by simp [hdrKind])
  | raw a => cases y with
    | raw b =>
      cases hu; cases hv
      exact raw_cut h
    | _ => exact absurd hk (by simp [hdrKind])
  | nullHdr => cases y with
    | nullHdr => exact trivial
    | _ => exact absurd hk (by simp [hdrKind])

/-- What is shown of a header determines its text. -/
theorem shown_str {x y : Hdr} (hx : x.Shows) (hy : y.Shows) (h : SameShown x y) : x.str = y.str := by
  unfold SameShown at h
  split at h
  · exact congrArg Except.ok (by rw [route_text, route_text, h.1, h.2])
  · exact congrArg Except.ok (by rw [frag_text, frag_text, h.1, h.2.1, h.2.2])
  · simp only [Hdr.str, HopOpt.str, h]
  · simp only [Hdr.str, HopOpt.str, h]
  · exact congrArg Except.ok (by rw [icmp_text, icmp_text, h.1, h.2.1, h.2.2])
  · simp only [Hdr.str, icmp6Str, h.1, h.2.1, data6_congr hx.2 hy.2 h.2.2]
  · exact congrArg Except.ok (rip_congr h.1 h.2)
  · exact (null_str_same _ _).mpr h
  · exact congrArg Except.ok (raw_rest_violated _ _ h.1 h.2)
  · rfl
  · exact lookAlike_str h

/-! ## Packets -/

/-- A packet of headers that can be printed. -/
def PrintsPkt (p : Packet) : Prop := ∀ x ∈ p, ∃ h, x = .hdr h ∧ h.Shows

/-- The packets have equally many headers, which agree one by one in what is shown of them. -/
def SamePkt : Packet → Packet → Prop
  | [], [] => True
  | .hdr x :: p, .hdr y :: q => SameShown x y ∧ SamePkt p q
  | _, _ => False

theorem prints_strs {p : Packet} (hp : PrintsPkt p) : ∃ l, p.strs = .ok l ∧ l.length = p.length ∧
    (l = [] ∨ ∃ P ∈ strHeads, ∃ r, joinText tBar l = P ++ r) := by
  induction p with
  | nil => exact ⟨[], rfl, rfl, .inl rfl⟩
  | cons x p ih =>
    obtain ⟨h, rfl, hh⟩ := hp x List.mem_cons_self
    obtain ⟨l, hl, hn, _⟩ := ih fun y hy => hp y (List.mem_cons_of_mem _ hy)
    obtain ⟨t, ht⟩ := shows_str hh
    refine ⟨t :: l, by simp only [Packet.strs, ht, hl, bind_ok], by simp [hn], .inr ⟨_, strHead_mem h, ?_⟩⟩
    obtain ⟨r, rfl⟩ := str_head ht
    cases l with
    | nil => exact ⟨r, rfl⟩
    | cons a l => exact ⟨r ++ (tBar ++ joinText tBar (a :: l)), by rw [joinText]; simp only [List.append_assoc]⟩

theorem strHeads_ne : ∀ P ∈ strHeads, P ≠ [] := by decide +kernel

theorem packet_cut {p q : Packet} (hp : PrintsPkt p) (hq : PrintsPkt q) {l m : List Text} (hl : p.strs = .ok l)
    (hm : q.strs = .ok m) (h : joinText tBar l = joinText tBar m) : SamePkt p q := by
  have ne : ∀ {q : Packet} {m : List Text} {y : Item}, PrintsPkt (y :: q) → Packet.strs (y :: q) = .ok m → joinText tBar m ≠ [] := by
    intro q m y hq hm e
    obtain ⟨m', hm', hn, h'⟩ := prints_strs hq
    rw [hm] at hm'
    cases hm'
    rcases h' with rfl | ⟨P, hP, r, hr⟩
    · simp at hn
    · rw [e] at hr
      exact strHeads_ne P hP (List.append_eq_nil_iff.mp hr.symm).1
  induction p generalizing q l m with
  | nil =>
    cases hl
    cases q with
    | nil => exact trivial
    | cons y q => exact absurd h.symm (ne hq hm)
  | cons x p ih =>
    cases q with
    | nil => cases hm; exact absurd h (ne hp hl)
    | cons y q =>
      obtain ⟨a, rfl, ha⟩ := hp x List.mem_cons_self
      obtain ⟨b, rfl, hb⟩ := hq y List.mem_cons_self
      have hp' : PrintsPkt p := fun y hy => hp y (List.mem_cons_of_mem _ hy)
      have hq' : PrintsPkt q := fun y hy => hq y (List.mem_cons_of_mem _ hy)
      rw [Packet.strs] at hl hm
      obtain ⟨u, hu, hl⟩ := bind_eq_ok.mp hl
      obtain ⟨l', hl', hl⟩ := bind_eq_ok.mp hl
      obtain ⟨v, hv, hm⟩ := bind_eq_ok.mp hm
      obtain ⟨m', hm', hm⟩ := bind_eq_ok.mp hm
      cases hl; cases hm
      have split : ∀ (p : Packet) (l : List Text), PrintsPkt p → p.strs = .ok l → ∃ s, Tail s ∧ (∀ u, joinText tBar (u :: l) = u ++ s) ∧
          s = (if l = [] then [] else tBar ++ joinText tBar l) := by
        intro p l hp hl
        obtain ⟨k, hk, _, h⟩ := prints_strs hp
        rw [hl] at hk
        cases hk
        cases l with
        | nil => exact ⟨[], .inl rfl, fun u => (List.append_nil u).symm, rfl⟩
        | cons c l =>
          refine ⟨tBar ++ joinText tBar (c :: l), ?_, fun u => by rw [joinText, List.append_assoc], by simp⟩
          rcases h with h | ⟨P, hP, r, hr⟩
          · cases h
          · exact .inr ⟨P, hP, r, by rw [hr]; rfl⟩
      obtain ⟨s, hs, js, es⟩ := split p l' hp' hl'
      obtain ⟨t, ht, jt, et⟩ := split q m' hq' hm'
      rw [js, jt] at h
      have hab := hdr_cut ha hb hu hv hs ht h
      refine ⟨hab, ?_⟩
      have huv := shown_str ha hb hab
      rw [hu, hv] at huv
      cases huv
      have h := List.append_cancel_left h
      rw [es, et] at h
      have nb : ∀ x : Text, tBar ++ x ≠ [] := fun x e => by
        have := (List.append_eq_nil_iff.mp e).1
        revert this; decide +kernel
      refine ih hp' hq' hl' hm' ?_
      by_cases hl0 : l' = []
      · by_cases hm0 : m' = []
        · rw [hl0, hm0]
        · rw [if_pos hl0, if_neg hm0] at h
          exact absurd h.symm (nb _)
      · by_cases hm0 : m' = []
        · rw [if_neg hl0, if_pos hm0] at h
          exact absurd h (nb _)
        · rw [if_neg hl0, if_neg hm0] at h
          exact List.append_cancel_left h

theorem same_strs {p q : Packet} (hp : PrintsPkt p) (hq : PrintsPkt q) (h : SamePkt p q) : p.strs = q.strs := by
  induction p generalizing q with
  | nil => cases q with
    | nil => rfl
    | cons y q => exact h.elim
  | cons x p ih =>
    obtain ⟨a, rfl, ha⟩ := hp x List.mem_cons_self
    cases q with
    | nil => exact h.elim
    | cons y q =>
      obtain ⟨b, rfl, hb⟩ := hq y List.mem_cons_self
      rw [Packet.strs, Packet.strs, shown_str ha hb h.1,
        ih (fun y hy => hp y (List.mem_cons_of_mem _ hy)) (fun y hy => hq y (List.mem_cons_of_mem _ hy)) h.2]

/-- **C163**, partial: two packets of headers that can be printed have the same text exactly if they have the same
headers, which agree one by one in what is shown of them.  Missing: router advertisements and home addresses, which
cannot be printed, and what is not shown (`arp_operation_violated`, `redirect_shown_violated`, `raw_rest_violated`). -/
theorem packet_text_same_partial (p q : Packet) (hp : PrintsPkt p) (hq : PrintsPkt q) : p.str = q.str ↔ SamePkt p q := by
  obtain ⟨l, hl, _⟩ := prints_strs hp
  obtain ⟨m, hm, _⟩ := prints_strs hq
  constructor
  · intro h
    rw [Packet.str, Packet.str, hl, hm, bind_ok, bind_ok] at h
    exact packet_cut hp hq hl hm (Except.ok.inj h)
  · intro h
    rw [Packet.str, Packet.str, same_strs hp hq h]

/-- Raw contents that look like the separator and another header; a neighbour advertisement with an option. -/
example : ∃ p q r : Packet, PrintsPkt p ∧ PrintsPkt q ∧ PrintsPkt r ∧ ¬ SamePkt p q ∧ SamePkt p r ∧ p ≠ r ∧ p.length = 3 := by
  refine ⟨[.hdr (.frag ⟨some 58, 0, 7, 0, true⟩),
      .hdr (.icmp6 ⟨136, 0, .na true false true 1 [.lladdr true ⟨[1, 2, 3, 4, 5, 6]⟩] [], 0⟩), .hdr (.raw [39, 32, 124, 32, 85, 68, 80, 32])],
    [.hdr (.frag ⟨some 58, 0, 7, 0, true⟩),
      .hdr (.icmp6 ⟨136, 0, .na true true true 1 [.lladdr true ⟨[1, 2, 3, 4, 5, 6]⟩] [], 0⟩), .hdr (.raw [39, 32, 124, 32, 85, 68, 80, 32])],
    [.hdr (.frag ⟨none, 0, 7, 0, true⟩),
      .hdr (.icmp6 ⟨136, 0, .na true false true 1 [.lladdr true ⟨[1, 2, 3, 4, 5, 6]⟩] [], 5⟩), .hdr (.raw [39, 32, 124, 32, 85, 68, 80, 32])],
    ?_, ?_, ?_, ?_, ?_, ?_, rfl⟩ <;>
    simp [PrintsPkt, SamePkt, SameShown, Hdr.Shows, ICMPv6Data.Shows, NDOpt.Shows, ICMPv6Data.shown, NDOpt.shown] <;> decide +kernel

/-- The flags of a neighbour advertisement are shown as letters too. -/
theorem rso_letters (r s o : Bool) : ('R' ∈ rsoStr r s o ↔ r = true) ∧ ('S' ∈ rsoStr r s o ↔ s = true) ∧
    ('O' ∈ rsoStr r s o ↔ o = true) ∧ (rsoStr r s o).length = r.toNat + s.toNat + o.toNat := by
  cases r <;> cases s <;> cases o <;> decide

end SY.Props
