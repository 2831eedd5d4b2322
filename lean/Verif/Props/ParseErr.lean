import Verif.Props.PacketParse

/-! # Property C209: what parsing can raise -/

namespace SY.Props
open SY

/-- The exceptions this raises are among `S`. -/
structure Only {α : Type} (S : List PyErr) (x : Res α) : Prop where
  mem : ∀ e, x = .error e → e ∈ S

theorem Only.ok {α : Type} {S : List PyErr} (a : α) : Only S (.ok a : Res α) := ⟨by intro e h; cases h⟩

theorem Only.error {α : Type} {S : List PyErr} {e : PyErr} (h : e ∈ S) : Only S (.error e : Res α) := ⟨by intro e' h'; cases h'; exact h⟩

theorem Only.bind {α β : Type} {S : List PyErr} {x : Res α} {f : α → Res β} (hx : Only S x) (hf : ∀ a, x = .ok a → Only S (f a)) :
    Only S (x >>= f) := by
  cases x with
  | error e => exact .error (hx.mem e rfl)
  | ok a => exact hf a rfl

theorem Only.map {α β : Type} {S : List PyErr} {x : Res α} {f : α → β} (hx : Only S x) : Only S (f <$> x) := by
  cases x with
  | error e => exact .error (hx.mem e rfl)
  | ok a => exact .ok _

theorem Only.ite {α : Type} {S : List PyErr} {p : Prop} [Decidable p] {x y : Res α} (hx : p → Only S x) (hy : ¬ p → Only S y) :
    Only S (if p then x else y) := by
  by_cases h : p
  · rw [if_pos h]; exact hx h
  · rw [if_neg h]; exact hy h

theorem Only.mono {α : Type} {S T : List PyErr} {x : Res α} (hx : Only S x) (h : ∀ e ∈ S, e ∈ T) : Only T x :=
  ⟨fun e he => h e (hx.mem e he)⟩

theorem Only.enumOf {S : List PyErr} (h : PyErr.valueError ∈ S) (t : List Nat) (v : Int) : Only S (enumOf t v) := by
  unfold SY.enumOf
  exact .ite (fun _ => .ok _) fun _ => .error h

theorem Only.byteAt {S : List PyErr} (h : PyErr.indexError ∈ S) (b : Bytes) (i : Nat) : Only S (byteAt b i) := by
  unfold SY.byteAt
  split
  · exact .ok _
  · exact .error h

theorem Only.byteIn {S : List PyErr} (b : Bytes) (i : Nat) (h : i < b.length) : Only S (SY.byteAt b i) := by
  unfold SY.byteAt
  rw [List.getElem?_eq_getElem h]
  exact .ok _

theorem Only.eth {S : List PyErr} {b : Bytes} (h : b.length = 6) : Only S (EthAddr.mk' (.raw b)) := by
  rw [EthAddr.mk'_raw6 h]; exact .ok _

theorem Only.ip {S : List PyErr} {b : Bytes} (h : b.length = 4) : Only S (ipAddress (.raw b)) := by
  simp only [ipAddress]
  rw [if_pos h]; exact .ok _

theorem Only.ip6 {S : List PyErr} {b : Bytes} (h : b.length = 16) : Only S (ipv6OfBytes b) := by
  unfold ipv6OfBytes
  rw [if_pos h]; exact .ok _

theorem Only.ip4s {S : List PyErr} (h : PyErr.addressValue ∈ S) (b : Bytes) : Only S (ipv4OfBytes b) := by
  unfold ipv4OfBytes
  exact .ite (fun _ => .ok _) fun _ => .error h

theorem Only.ip6s {S : List PyErr} (h : PyErr.addressValue ∈ S) (b : Bytes) : Only S (ipv6OfBytes b) := by
  unfold ipv6OfBytes
  exact .ite (fun _ => .ok _) fun _ => .error h

theorem Only.unpack {S : List PyErr} (h : PyErr.structError ∈ S) (fs : List Fld) (b : Bytes) : Only S (unpack fs b) := by
  unfold SY.unpack
  exact .ite (fun _ => .ok _) fun _ => .error h

theorem unpack_len {fs : List Fld} {b : Bytes} (h : b.length = calcsize fs) : unpack fs b = .ok (unpackGo fs b) := by
  rw [unpack, if_pos h]

theorem Only.scan {α : Type} {S : List PyErr} {step : Bytes → Res (α × Nat)} (hs : ∀ b, Only S (step b))
    (hd : PyErr.diverges ∈ S ∨ ∀ b o, step b ≠ .ok (o, 0)) (raw : Bytes) : Only S (scan step raw) := by
  fun_induction SY.scan step raw with
  | case1 => exact .ok _
  | case2 raw h e he => exact .error ((hs raw).mem e he)
  | case3 raw h o he =>
    rcases hd with hd | hd
    · exact .error hd
    · exact absurd he (hd _ _)
  | case4 raw h o n he h0 ih => exact ih.map

/-- Discharge `Only` for straight-line code. -/
local macro "raises" : tactic => `(tactic|
  repeat' first
    | with_reducible exact Only.ok _ | with_reducible exact Only.error (by decide)
    | with_reducible exact Only.enumOf (by decide) _ _
    | with_reducible exact Only.eth (by simp only [List.length_take, List.length_drop]; omega)
    | with_reducible exact Only.ip (by simp only [List.length_take, List.length_drop]; omega)
    | with_reducible exact Only.ip6 (by simp only [List.length_take, List.length_drop]; omega)
    | with_reducible apply Only.map
    | with_reducible apply Only.bind
    | with_reducible apply Only.ite | intro a | split)

theorem only_eth (raw : Bytes) : Only [.notEnoughData, .valueError] (Ethernet.fromBytes raw) := by
  unfold Ethernet.fromBytes
  refine .ite (fun _ => .error (by decide)) fun h => ?_
  rw [unpack_len (by simp only [Ethernet.fmt, calcsize, Fld.size, List.length_take]; omega)]
  simp only [Ethernet.fmt, unpackGo, bind_ok, Ethernet.setSrc, Ethernet.setDst, Ethernet.setEthertype]
  raises

theorem only_vlan (raw : Bytes) : Only [.notEnoughData, .valueError] (Vlan.fromBytes raw) := by
  unfold Vlan.fromBytes
  refine .ite (fun _ => .error (by decide)) fun h => ?_
  rw [unpack_len (by simp only [Vlan.fmt, calcsize, Fld.size, List.length_take]; omega)]
  simp only [Vlan.fmt, unpackGo, bind_ok, Vlan.setEthertype]
  raises

theorem only_arp (raw : Bytes) : Only [.notEnoughData, .generic] (Arp.fromBytes raw) := by
  unfold Arp.fromBytes
  refine .ite (fun _ => .error (by decide)) fun h => ?_
  rw [unpack_len (by simp only [Arp.fmt, calcsize, Fld.size, List.length_take]; omega)]
  simp only [Arp.fmt, unpackGo, bind_ok]
  refine .bind ?_ fun _ _ => .ok _
  unfold wrapException
  split
  · exact .ok _
  · exact .error (by decide)

theorem only_readAddrs (n : Nat) (raw : Bytes) : Only [.addressValue] (readAddrs n raw) := by
  induction n generalizing raw with
  | zero => exact .ok _
  | succ n ih => exact .bind (.ip4s (by decide) _) fun _ _ => .bind (ih _) fun _ _ => .ok _

theorem only_optStep (raw : Bytes) :
    Only [.notEnoughData, .valueError, .indexError, .structError, .addressValue, .diverges] (optStep raw) := by
  unfold optStep
  split
  · exact .error (by decide)
  · refine .bind (.enumOf (by decide) _ _) fun n _ => .ite (fun _ => .ok _) fun _ => .ite (fun _ => ?_) fun _ => .ite (fun _ => ?_) fun _ => ?_
    · exact .bind (.byteAt (by decide) _ _) fun _ _ => .bind (.byteAt (by decide) _ _) fun _ _ =>
        .bind ((only_readAddrs _ _).mono (by decide)) fun _ _ => .ite (fun _ => .ok _) fun _ => .error (by decide)
    · refine .bind (.unpack (by decide) _ _) fun _ _ => ?_
      split
      · refine .ite (fun _ => .error (by decide)) fun _ => ?_
        unfold tsOf
        exact .ite (fun _ => .error (by decide)) fun _ => .ok _
      · exact .error (by decide)
    · refine .bind (.unpack (by decide) _ _) fun _ _ => ?_
      split
      · exact .ok _
      · exact .error (by decide)

theorem only_ip4 (raw : Bytes) :
    Only [.notEnoughData, .valueError, .indexError, .structError, .addressValue, .diverges] (IPv4.fromBytes raw) := by
  unfold IPv4.fromBytes
  refine .ite (fun _ => .error (by decide)) fun h => ?_
  rw [unpack_len (by simp only [IPv4.fmt, calcsize, Fld.size, List.length_take]; omega)]
  simp only [IPv4.fmt, unpackGo, bind_ok]
  refine .ite (fun _ => .error (by decide)) fun _ => .ite (fun _ => .error (by decide)) fun _ => .bind ?_ fun _ _ => .ok _
  unfold IPv4.ofFields IPv4.setTos IPv4.setIpid IPv4.setFlags IPv4.setFrag IPv4.setTtl IPv4.setProtocol IPv4.setSrc IPv4.setDst
  raises
  exact .scan only_optStep (.inl (by decide)) _

theorem only_ip6 (raw : Bytes) : Only [.notEnoughData, .valueError] (IPv6.fromBytes raw) := by
  unfold IPv6.fromBytes
  refine .ite (fun _ => .error (by decide)) fun h => ?_
  rw [unpack_len (by simp only [IPv6.fmt, calcsize, Fld.size, List.length_take]; omega)]
  simp only [IPv6.fmt, unpackGo, bind_ok]
  refine .ite (fun _ => .error (by decide)) fun _ => .bind ?_ fun _ _ => .ok _
  unfold IPv6.ofFields IPv6.setNext IPv6.setSrc IPv6.setDst
  simp only [ipv6Address]
  raises

theorem only_ext {S : List PyErr} (h : ∀ e ∈ [PyErr.notEnoughData, .valueError, .generic], e ∈ S) (m : Nat) (raw : Bytes) :
    Only S (extParse m raw) := by
  unfold extParse
  split
  · exact .bind (.enumOf (h _ (by decide)) _ _) fun _ _ => .ite (fun _ => .error (h _ (by decide))) fun _ => .ok _
  · exact .error (h _ (by decide))

theorem only_route (raw : Bytes) :
    Only [.notEnoughData, .valueError, .generic, .indexError, .addressValue] (RouteOpt.fromBytes raw) := by
  unfold RouteOpt.fromBytes
  exact .bind (only_ext (by decide) _ _) fun _ _ => .bind (.byteAt (by decide) _ _) fun _ _ => .bind (.byteAt (by decide) _ _) fun _ _ =>
    .ite (fun _ => .bind (.ip6s (by decide) _) fun _ _ => .ok _) fun _ => .error (by decide)

theorem only_frag (raw : Bytes) : Only [.notEnoughData, .valueError, .generic] (Fragment.fromBytes raw) := by
  unfold Fragment.fromBytes
  refine .bind (only_ext (by decide) _ _) fun c _ => .ite (fun _ => .error (by decide)) fun h => ?_
  rw [unpack_len (by simp only [calcsize, Fld.size, List.length_take]; omega)]
  exact .ok _

theorem only_hop (raw : Bytes) :
    Only [.notEnoughData, .valueError, .generic, .indexError, .assertion] (HopOpt.fromBytes raw) := by
  unfold HopOpt.fromBytes
  refine .bind (only_ext (by decide) _ _) fun c _ => .bind ?_ fun _ _ => .ok _
  refine .scan (fun b => ?_) (.inr fun b o h => tlvStep_pos h rfl) _
  unfold tlvStep
  refine .bind (.byteAt (by decide) _ _) fun _ _ => .ite (fun _ => .ok _) fun _ => .bind (.byteAt (by decide) _ _) fun _ _ =>
    .ite (fun _ => .error (by decide)) fun _ => .bind ?_ fun _ _ => .ok _
  unfold tlvOf
  raises

theorem only_udp (raw : Bytes) : Only [.notEnoughData] (UDP.fromBytes raw) := by
  unfold UDP.fromBytes
  refine .ite (fun _ => .error (by decide)) fun h => ?_
  rw [unpack_len (by simp only [UDP.fmt, calcsize, Fld.size, List.length_take]; omega)]
  exact .ok _

theorem only_tcp (raw : Bytes) : Only [.notEnoughData] (TCP.fromBytes raw) := by
  unfold TCP.fromBytes
  refine .ite (fun _ => .error (by decide)) fun h => ?_
  rw [unpack_len (by simp only [TCP.fmt, calcsize, Fld.size, List.length_take]; omega)]
  exact .ok _

theorem only_null (raw : Bytes) : Only [.notEnoughData] (nullFromBytes raw) := by
  unfold nullFromBytes
  exact .ite (fun _ => .error (by decide)) fun _ => .ok _

theorem Only.pack {S : List PyErr} (h : PyErr.structError ∈ S) (f : List Fld) (v : List Val) : Only S (pack f v) := by
  induction f generalizing v with
  | nil => cases v <;> simp only [SY.pack] <;> first | exact .ok _ | exact .error h
  | cons a f ih =>
    cases a with
    | x n => simp only [SY.pack]; exact (ih _).map
    | u w =>
      cases v with
      | nil => exact .error h
      | cons b v =>
        cases b with
        | i k => simp only [SY.pack]; exact .ite (fun _ => (ih _).map) fun _ => .error h
        | b k => exact .error h
    | s w =>
      cases v with
      | nil => exact .error h
      | cons b v =>
        cases b with
        | b k => simp only [SY.pack]; exact (ih _).map
        | i k => exact .error h

/-! ### ICMP -/

theorem only_icmpDec (t : Nat) (ht : t ∈ icmpTypes) (raw : Bytes) :
    Only [.notEnoughData, .valueError, .indexError, .addressValue] (ICMPData.dec t raw) := by
  have e1 : ∀ r, Only [.notEnoughData, .valueError, .indexError, .addressValue] (ICMPData.decEcho r raw) := by
    intro r
    unfold ICMPData.decEcho
    refine .ite (fun _ => .error (by decide)) fun h => ?_
    rw [unpack_len (by simp only [calcsize, Fld.size, List.length_take]; omega)]
    exact .ok _
  have e2 : ∀ r, Only [.notEnoughData, .valueError, .indexError, .addressValue] (ICMPData.decUnreach r raw) := by
    intro r
    unfold ICMPData.decUnreach
    refine .ite (fun _ => .error (by decide)) fun h => ?_
    rw [unpack_len (by simp only [calcsize, Fld.size, List.length_take]; omega)]
    exact .ok _
  have e3 : ∀ r, Only [.notEnoughData, .valueError, .indexError, .addressValue] (ICMPData.decMask r raw) := by
    intro r
    unfold ICMPData.decMask
    refine .ite (fun _ => .error (by decide)) fun h => ?_
    rw [unpack_len (by simp only [calcsize, Fld.size, List.length_take]; omega)]
    simp only [unpackGo, bind_ok]
    exact .bind (.ip4s (by decide) _) fun _ _ => .ok _
  have hn : ICMPData.new t ≠ none := by
    have : ∀ t ∈ icmpTypes, ICMPData.new t ≠ none := by decide
    exact this t ht
  unfold ICMPData.dec ICMPData.decQuench ICMPData.decRedirect
  split
  · exact e1 _
  · exact e2 _
  · exact e2 _
  · exact .ite (fun _ => .error (by decide)) fun _ => .ok _
  · exact .ite (fun _ => .error (by decide)) fun _ => .ok _
  · exact e3 _
  · exact .ok _
  · exact .ok _
  · rename_i h; exact absurd h hn

theorem icmpDec_enc {t : Nat} {raw : Bytes} {d : ICMPData} (h : ICMPData.dec t raw = .ok d) : ∃ b, d.enc = .ok b := by
  have pk : ∀ {f v} (p : Bytes), Fits f v → ∃ b, ((· ++ p) <$> pack f v : Res Bytes) = .ok b := by
    intro f v p hf
    obtain ⟨b, hb⟩ := pack_ok hf
    exact ⟨b ++ p, by rw [hb]; rfl⟩
  unfold ICMPData.dec ICMPData.decQuench ICMPData.decRedirect ICMPData.decEcho ICMPData.decUnreach ICMPData.decMask at h
  split at h
  · split at h
    · cases h
    obtain ⟨f, hf, h⟩ := bind_eq_ok.mp h
    have ff := fits_unpack hf
    split at h
    · cases h; exact pk _ ff
    · cases h
  · split at h
    · cases h
    obtain ⟨f, hf, h⟩ := bind_eq_ok.mp h
    have ff := fits_unpack hf
    split at h
    · cases h; exact pk _ ff
    · cases h
  · split at h
    · cases h
    obtain ⟨f, hf, h⟩ := bind_eq_ok.mp h
    have ff := fits_unpack hf
    split at h
    · cases h
      refine pk _ ?_
      simp only [Fits] at ff ⊢
      exact ⟨ff.1, by simp⟩
    · cases h
  · split at h
    · cases h
    · cases h; exact ⟨_, rfl⟩
  · split at h
    · cases h
    · cases h; exact ⟨_, rfl⟩
  · split at h
    · cases h
    obtain ⟨f, hf, h⟩ := bind_eq_ok.mp h
    have ff := fits_unpack hf
    split at h
    · obtain ⟨a, _, h⟩ := bind_eq_ok.mp h
      cases h; exact pk _ ff
    · cases h
  · cases h; exact ⟨_, rfl⟩
  · cases h; exact ⟨_, rfl⟩
  · cases h

theorem enum_member {tbl : List Nat} {v : Int} {n : Nat} (h : enumOf tbl v = .ok n) : n ∈ tbl := by
  unfold enumOf at h
  split at h
  · rename_i h'; cases h; exact h'.2
  · cases h

theorem only_icmp (raw : Bytes) : Only [.notEnoughData, .valueError, .indexError, .addressValue] (icmp4.fromBytes raw) := by
  unfold ICMPKind.fromBytes
  refine .ite (fun _ => .error (by decide)) fun h => ?_
  rw [unpack_len (by simp only [ICMPKind.fmt, calcsize, Fld.size, List.length_take]; omega)]
  simp only [ICMPKind.fmt, unpackGo, bind_ok]
  refine .bind (.enumOf (by decide) _ _) fun t ht => ?_
  have hm : t ∈ icmpTypes := enum_member ht
  split
  · rename_i hc
    have : ∀ t ∈ icmpTypes, icmpCodes t ≠ none := by decide
    exact absurd hc (this t hm)
  · refine .bind (.enumOf (by decide) _ _) fun c _ => ?_
    split
    · rename_i hc
      have : ∀ t ∈ icmpTypes, ICMPData.new t ≠ none := by decide
      exact absurd hc (this t hm)
    · refine .bind (only_icmpDec t hm _) fun d hd => .bind ?_ fun _ _ => .ok _
      obtain ⟨b, hb⟩ := icmpDec_enc hd
      unfold ICMPKind.size
      show Only _ (d.enc >>= _)
      rw [hb]
      exact .ok _

/-! ### ICMPv6 -/

/-- What ICMPv6 messages can raise. -/
def icmp6Raises : List PyErr :=
  [.notEnoughData, .valueError, .keyError, .indexError, .nameError, .assertion, .structError, .attributeError, .diverges]

theorem only_decOption (t : UInt8) (raw : Bytes) :
    Only [.notEnoughData, .valueError, .nameError, .assertion, .structError, .attributeError] (decOption t raw) := by
  have h1 : ∀ t, Only [.notEnoughData, .valueError, .nameError, .assertion, .structError, .attributeError] (decLladdr t raw) := by
    intro t
    unfold decLladdr
    generalize (if t = true then (2 : Int) else 1) = k
    refine .ite (fun _ => .error (by decide)) fun h => ?_
    unfold SY.unpack
    by_cases hl : raw.length = calcsize [.u 1, .u 1, .s 6]
    · rw [if_pos hl]
      simp only [calcsize, Fld.size] at hl
      simp only [unpackGo, bind_ok]
      raises
    · rw [if_neg hl]; exact .error (by decide)
  have h2 : Only [.notEnoughData, .valueError, .nameError, .assertion, .structError, .attributeError] (decPfx raw) := by
    unfold decPfx
    refine .ite (fun _ => .error (by decide)) fun h => ?_
    unfold SY.unpack
    by_cases hl : raw.length = calcsize [.u 1, .u 1, .u 1, .u 1, .u 4, .u 4, .x 4, .s 16]
    · rw [if_pos hl]
      simp only [calcsize, Fld.size] at hl
      simp only [unpackGo, bind_ok]
      unfold ipv6Network
      raises
    · rw [if_neg hl]; exact .error (by decide)
  have h3 : Only [.notEnoughData, .valueError, .nameError, .assertion, .structError, .attributeError] (decMtu raw) := by
    unfold decMtu
    refine .ite (fun _ => .error (by decide)) fun h => .bind (.unpack (by decide) _ _) fun f _ => ?_
    raises
  have h4 : Only [.notEnoughData, .valueError, .nameError, .assertion, .structError, .attributeError] (decRedirected raw) := by
    unfold decRedirected
    raises
  unfold decOption
  exact .ite (fun _ => (h1 _).map) fun _ => .ite (fun _ => (h1 _).map) fun _ => .ite (fun _ => h2.map) fun _ =>
    .ite (fun _ => h4.map) fun _ => .ite (fun _ => h3.map) fun _ => .ok _

theorem only_parseND (raw : Bytes) : Only icmp6Raises (parseND raw) := by
  fun_induction parseND raw with
  | case1 => exact .ok _
  | case2 raw h e he =>
    refine .error (?_ : e ∈ icmp6Raises)
    have : Only icmp6Raises (ndStep raw) := by
      unfold ndStep
      exact .bind (.byteAt (by decide) _ _) fun _ _ => .bind (.byteAt (by decide) _ _) fun _ _ =>
        .bind ((only_decOption _ _).mono (by decide)) fun _ _ => .ok _
    exact this.mem e he
  | case3 => exact .error (by decide)
  | case4 raw h o n he h0 ih => exact ih.map

theorem only_icmp6Dec (t : Nat) (hn : ICMPv6Data.new t ≠ none) (raw : Bytes) : Only icmp6Raises (ICMPv6Data.dec t raw) := by
  unfold ICMPv6Data.dec
  split
  · unfold ICMPv6Data.decEcho
    refine .ite (fun _ => .error (by decide)) fun h => ?_
    rw [unpack_len (by simp only [calcsize, Fld.size, List.length_take]; omega)]
    exact .ok _
  · unfold ICMPv6Data.decUnreach
    refine .ite (fun _ => .error (by decide)) fun h => ?_
    rw [unpack_len (by simp only [calcsize, Fld.size, List.length_take]; omega)]
    exact .ok _
  · exact .ok _
  · exact .ok _
  · unfold ICMPv6Data.decRS
    exact .ite (fun _ => .error (by decide)) fun h => .bind (only_parseND _) fun _ _ => .ok _
  · unfold ICMPv6Data.decRA
    refine .ite (fun _ => .error (by decide)) fun h => ?_
    rw [unpack_len (by simp only [calcsize, Fld.size, List.length_take]; omega)]
    simp only [unpackGo, bind_ok]
    exact .bind (only_parseND _) fun _ _ => .ok _
  · unfold ICMPv6Data.decNS
    refine .ite (fun _ => .error (by decide)) fun h => ?_
    rw [unpack_len (by simp only [calcsize, Fld.size, List.length_take]; omega)]
    simp only [unpackGo, bind_ok]
    exact .bind (.ip6 (by simp only [List.length_take, List.length_drop]; omega)) fun _ _ =>
      .bind (only_parseND _) fun _ _ => .ok _
  · unfold ICMPv6Data.decNA
    refine .ite (fun _ => .error (by decide)) fun h => ?_
    rw [unpack_len (by simp only [calcsize, Fld.size, List.length_take]; omega)]
    simp only [unpackGo, bind_ok]
    exact .bind (.ip6 (by simp only [List.length_take, List.length_drop]; omega)) fun _ _ =>
      .bind (only_parseND _) fun _ _ => .ok _
  · unfold ICMPv6Data.decRedirect
    refine .ite (fun _ => .error (by decide)) fun h => ?_
    rw [unpack_len (by simp only [calcsize, Fld.size, List.length_take]; omega)]
    simp only [unpackGo, bind_ok]
    exact .bind (.ip6 (by simp only [List.length_take, List.length_drop]; omega)) fun _ _ =>
      .bind (.ip6 (by simp only [List.length_take, List.length_drop]; omega)) fun _ _ =>
      .bind (only_parseND _) fun _ _ => .ok _
  · rename_i h; exact absurd h hn

theorem only_ndBytes (os : List NDOpt) : Only [.structError] (ndBytes os) := by
  induction os with
  | nil => exact .ok _
  | cons o os ih =>
    refine .bind ?_ fun _ _ => .bind ih fun _ _ => .ok _
    unfold NDOpt.toBytes
    split
    · exact .bind (.pack (by decide) _ _) fun _ _ => .ok _
    · exact .pack (by decide) _ _
    · exact .pack (by decide) _ _
    · exact .bind (.pack (by decide) _ _) fun _ _ => .ok _

theorem only_icmp6Enc (d : ICMPv6Data) : Only [.structError] d.enc := by
  unfold ICMPv6Data.enc
  split
  · exact .ok _
  · exact .ok _
  · exact (Only.pack (by decide) _ _).map
  · exact (Only.pack (by decide) _ _).map
  · exact (only_ndBytes _).map
  all_goals exact .bind (.pack (by decide) _ _) fun _ _ => (only_ndBytes _).map

theorem only_icmp6 (raw : Bytes) : Only icmp6Raises (SY.icmp6.fromBytes raw) := by
  unfold ICMPKind.fromBytes
  refine .ite (fun _ => .error (by decide)) fun h => ?_
  rw [unpack_len (by simp only [ICMPKind.fmt, calcsize, Fld.size, List.length_take]; omega)]
  simp only [ICMPKind.fmt, unpackGo, bind_ok]
  refine .bind (.enumOf (by decide) _ _) fun t ht => ?_
  have hm : t ∈ icmpv6Types := enum_member ht
  split
  · exact .error (by decide)
  · rename_i e hc
    have hn : ICMPv6Data.new t ≠ none := by
      have : ∀ t ∈ icmpv6Types, (icmpv6Codes t).isSome = true → ICMPv6Data.new t ≠ none := by decide
      exact this t hm (by rw [show icmpv6Codes t = some e from hc]; rfl)
    refine .bind (.enumOf (by decide) _ _) fun c _ => ?_
    split
    · rename_i hx; exact absurd hx hn
    · refine .bind (only_icmp6Dec t hn _) fun d _ => .bind ?_ fun _ _ => .ok _
      unfold ICMPKind.size
      exact .bind ((only_icmp6Enc d).mono (by decide)) fun _ _ => .ok _

/-! ### RIPv2 -/

theorem only_ripRoute (b : Bytes) : Only [.notEnoughData, .valueError] (RIPRoute.fromBytes b) := by
  unfold RIPRoute.fromBytes
  refine .ite (fun _ => .error (by decide)) fun h => ?_
  rw [unpack_len (by simp only [RIPRoute.fmt, calcsize, Fld.size]; omega)]
  simp only [RIPRoute.fmt, unpackGo, bind_ok]
  refine .bind ?_ fun _ _ => .ok _
  unfold ipv4Network prefixOfMask
  raises

theorem only_ripLoop (n : Nat) (h : RIPv2) (b : Bytes) {e : PyErr} (he : (ripLoop n h b).2 = some e) :
    e ∈ [PyErr.notEnoughData, .valueError] := by
  induction n generalizing h b with
  | zero => cases he
  | succ n ih =>
    simp only [ripLoop] at he
    split at he
    · exact ih _ _ he
    · rename_i e' h'
      cases he
      exact (only_ripRoute _).mem _ h'

theorem only_rip (raw : Bytes) : Only [.notEnoughData, .valueError] (RIPv2.fromBytes raw) := by
  have key : ∀ e, (RIPv2.default.load raw).2 = some e → e ∈ [PyErr.notEnoughData, .valueError] := by
    intro e he
    unfold RIPv2.load at he
    by_cases h : raw.length < 4
    · rw [if_pos h] at he; cases he; decide
    rw [if_neg h, unpack_len (by simp only [calcsize, Fld.size, List.length_take]; omega)] at he
    simp only [unpackGo] at he
    split at he
    · split at he
      · cases he; decide
      · exact only_ripLoop _ _ _ he
    · rename_i e' h'
      cases he
      have : Only [.notEnoughData, .valueError] (RIPv2.default.setCommand (beDec (List.take 1 (List.take 4 raw)))) := by
        unfold RIPv2.setCommand
        raises
      exact this.mem _ h'
  unfold RIPv2.fromBytes
  split
  · exact .ok _
  · rename_i e he
    exact .error (key e (by rw [he]))

/-! ### The whole table -/

/-- What `from_bytes` of each header class can raise; `diverges` stands for never returning.
`AddressValueError` is a subclass of `ValueError` (Python library); `generic` is `Exception`. -/
def raisedBy : Cls → List PyErr
  | .eth | .vlan | .ip6 | .rip => [.notEnoughData, .valueError]
  | .arp => [.notEnoughData, .generic]
  | .ip4 => [.notEnoughData, .valueError, .indexError, .structError, .addressValue, .diverges]
  | .route => [.notEnoughData, .valueError, .generic, .indexError, .addressValue]
  | .frag => [.notEnoughData, .valueError, .generic]
  | .hop | .dst => [.notEnoughData, .valueError, .generic, .indexError, .assertion]
  | .udp | .tcp | .null => [.notEnoughData]
  | .icmp => [.notEnoughData, .valueError, .indexError, .addressValue]
  | .icmp6 => [.notEnoughData, .valueError, .keyError, .indexError, .nameError, .assertion, .structError,
      .attributeError, .diverges]
  | .nullHdr => []
  | .raw | .base | .ext => [.typeError]

theorem only_fromBytes (c : Cls) (raw : Bytes) : Only (raisedBy c) (c.fromBytes raw) := by
  cases c
  case base | ext | raw => exact .error (by decide)
  case nullHdr => exact .ok _
  case eth => exact .bind (only_eth _) fun _ _ => .ok _
  case vlan => exact .bind (only_vlan _) fun _ _ => .ok _
  case arp => exact .bind (only_arp _) fun _ _ => .ok _
  case ip4 => exact .bind (only_ip4 _) fun _ _ => .ok _
  case ip6 => exact .bind (only_ip6 _) fun _ _ => .ok _
  case route => exact .bind (only_route _) fun _ _ => .ok _
  case frag => exact .bind (only_frag _) fun _ _ => .ok _
  case hop => exact .bind (only_hop _) fun _ _ => .ok _
  case dst => exact .bind (only_hop _) fun _ _ => .ok _
  case udp => exact .bind (only_udp _) fun _ _ => .ok _
  case tcp => exact .bind (only_tcp _) fun _ _ => .ok _
  case icmp => exact .bind (only_icmp _) fun _ _ => .ok _
  case icmp6 => exact .bind (only_icmp6 _) fun _ _ => .ok _
  case rip => exact .bind (only_rip _) fun _ _ => .ok _
  case null => exact .bind (only_null _) fun _ _ => .ok _

/-- Bytes on which the class raises the exception. -/
def witness (c : Cls) (e : PyErr) : Bytes :=
  match c, e with
  | .eth, .valueError => [1, 2, 3, 4, 5, 6, 2, 0, 0, 0, 0, 1, 0x12, 0x34]
  | .vlan, .valueError => [0, 1, 0x12, 0x34]
  | .ip6, .valueError => List.replicate 40 0
  | .rip, .valueError => [9, 2, 0, 0]
  | .arp, .generic => List.replicate 28 0
  | .ip4, .valueError => List.replicate 20 0
  | .ip4, .indexError => [0x46, 0, 0, 24, 0, 0, 0, 0, 64, 17, 0, 0, 10, 0, 0, 1, 10, 0, 0, 2, 1, 1, 1, 7]
  | .ip4, .structError => [0x46, 0, 0, 24, 0, 0, 0, 0, 64, 17, 0, 0, 10, 0, 0, 1, 10, 0, 0, 2, 1, 1, 1, 0x44]
  | .ip4, .addressValue => [0x46, 0, 0, 24, 0, 0, 0, 0, 64, 17, 0, 0, 10, 0, 0, 1, 10, 0, 0, 2, 7, 7, 4, 0]
  | .ip4, .diverges => [0x46, 0, 0, 24, 0, 0, 0, 0, 64, 17, 0, 0, 10, 0, 0, 1, 10, 0, 0, 2, 0x44, 0, 0, 0]
  | .route, .valueError => [6, 0, 0, 0]
  | .route, .indexError => [6, 0]
  | .route, .addressValue => [6, 0, 2, 0]
  | .frag, .valueError => [200, 0]
  | .hop, .valueError | .dst, .valueError => [200, 0]
  | .route, .generic | .frag, .generic | .hop, .generic | .dst, .generic => [6, 9]
  | .hop, .indexError | .dst, .indexError => [6, 0, 1, 3, 0, 0, 0, 4]
  | .hop, .assertion | .dst, .assertion => [6, 0, 4, 0, 1, 2, 0, 0]
  | .icmp, .valueError => [1, 0, 0, 0]
  | .icmp, .indexError => [8, 0, 0, 0]
  | .icmp, .addressValue => [17, 0, 0, 0, 0, 0, 0, 0]
  | .icmp6, .valueError => [0, 0, 0, 0]
  | .icmp6, .keyError => [2, 0, 0, 0]
  | .icmp6, .indexError => [128, 0, 0, 0]
  | .icmp6, .nameError => [133, 0, 0, 0, 0, 0, 0, 0, 1, 0, 2, 0, 0, 0, 0, 1]
  | .icmp6, .assertion => [133, 0, 0, 0, 0, 0, 0, 0, 1, 2, 2, 0, 0, 0, 0, 1]
  | .icmp6, .structError => [133, 0, 0, 0, 0, 0, 0, 0, 1, 2, 2, 0, 0, 0, 0, 1, 0, 0, 0, 0, 0, 0, 0, 0]
  | .icmp6, .attributeError => [133, 0, 0, 0, 0, 0, 0, 0, 4, 0, 0, 0, 0, 0, 0, 0]
  | .icmp6, .diverges => [133, 0, 0, 0, 0, 0, 0, 0, 9, 0, 0, 0, 0, 0, 0, 0]
  | _, _ => [6]

/-- The exception raised, if any. -/
def excOf {α : Type} : Res α → Option PyErr
  | .ok _ => none
  | .error e => some e

theorem excOf_eq {α : Type} {x : Res α} {e : PyErr} (h : excOf x = some e) : x = .error e := by
  cases x with
  | ok a => cases h
  | error e' => cases h; rfl

/-- The header classes. -/
def allCls : List Cls :=
  [.base, .eth, .vlan, .arp, .ip4, .ip6, .ext, .route, .frag, .hop, .dst, .udp, .tcp, .icmp, .icmp6, .rip, .null, .raw, .nullHdr]

theorem witness_raises : ∀ c ∈ allCls, ∀ e ∈ raisedBy c, excOf (c.fromBytes (witness c e)) = some e ∧ witness c e ≠ [] := by
  decide +kernel

/-- **C209**, each class: the exceptions `from_bytes` raises, over all byte strings, are exactly those
of the table. -/
theorem header_raises_iff (c : Cls) (e : PyErr) : (∃ raw, c.fromBytes raw = .error e) ↔ e ∈ raisedBy c :=
  ⟨fun ⟨raw, h⟩ => (only_fromBytes c raw).mem e h,
    fun h => ⟨witness c e, excOf_eq (witness_raises c (by cases c <;> decide) e h).1⟩⟩

/-- What parsing a packet can raise, by the class of its first header. -/
def parseRaises : Cls → List PyErr
  | .eth | .vlan | .ip6 | .route | .frag | .hop | .dst | .null =>
    [.notEnoughData, .valueError, .addressValue, .generic, .indexError, .structError, .assertion, .keyError,
      .nameError, .attributeError, .diverges]
  | c => raisedBy c

theorem raisedBy_le (c : Cls) : ∀ e ∈ raisedBy c, e ∈ parseRaises c := by cases c <;> decide

theorem next_raises {c c' : Cls} {raw : Bytes} {h : Hdr} {rest : Option Bytes} (hp : c.fromBytes raw = .ok (h, rest)) :
    (∀ e, h.next = .error e → e ∈ parseRaises c) ∧
    (h.next = .ok (some c') → ∀ e ∈ parseRaises c', e ∈ parseRaises c) := by
  have e4 : ∀ t c', ip4Next t = some c' → ∀ e ∈ parseRaises c', e ∈ parseRaises .ip4 := by
    intro t c' h
    unfold ip4Next at h
    repeat' split at h
    all_goals cases h
    all_goals decide
  have e6 : ∀ t c', ip6Next t = some c' → ∀ e ∈ parseRaises c', e ∈ parseRaises .ip6 := by
    intro t c' h
    unfold ip6Next at h
    repeat' split at h
    all_goals cases h
    all_goals decide
  have ev : ∀ t c', vlanNext t = some c' → ∀ e ∈ parseRaises c', e ∈ parseRaises .eth := by
    intro t c' h
    unfold vlanNext at h
    repeat' split at h
    all_goals cases h
    all_goals decide
  have ee : ∀ t c', ethNext t = some c' → ∀ e ∈ parseRaises c', e ∈ parseRaises .eth := by
    intro t c' h
    unfold ethNext at h
    repeat' split at h
    all_goals cases h
    all_goals decide
  have ob : ∀ (o : Option Nat) c', o.bind ip6Next = some c' → ∀ e ∈ parseRaises c', e ∈ parseRaises .ip6 := by
    intro o c' h
    cases o with
    | none => cases h
    | some t => exact e6 t c' h
  cases c
  case base | ext | raw => cases hp
  case nullHdr => cases hp; exact ⟨fun e h => (by cases h), fun h => (by cases h)⟩
  all_goals
    obtain ⟨r, _, hr⟩ := bind_eq_ok.mp hp
    cases hr
  case null =>
    refine ⟨fun e h => ?_, fun h => ?_⟩
    all_goals
      simp only [Hdr.next] at h
      repeat' split at h
      all_goals cases h
      all_goals decide
  all_goals refine ⟨fun e h => (by cases h), fun h => ?_⟩
  all_goals simp only [Hdr.next, Except.ok.injEq, reduceCtorEq] at h
  case eth => exact ee _ _ h
  case vlan => exact ev _ _ h
  case ip4 => exact e4 _ _ h
  case ip6 => exact e6 _ _ h
  all_goals exact ob _ _ h

theorem only_parseLoop {fuel : Nat} {c : Cls} {raw : Bytes} {acc : Packet} {e : PyErr}
    (h : parseLoop fuel c raw acc = some (.error e)) : e ∈ parseRaises c := by
  induction fuel generalizing c raw acc with
  | zero => cases h
  | succ fuel ih =>
    simp only [parseLoop] at h
    split at h
    · rename_i e' he
      cases h
      exact raisedBy_le c _ ((only_fromBytes c raw).mem _ he)
    · rename_i hd rest hp
      split at h
      · rename_i e' hn
        cases h
        exact (next_raises (c' := .eth) hp).1 _ hn
      · cases h
      · rename_i c' hn
        exact (next_raises hp).2 hn _ (ih h)

/-- An IPv6 header announcing the protocol. -/
def ip6To (t : UInt8) : Bytes := [0x60, 0, 0, 0, 0, 0, t, 64] ++ List.replicate 32 0

/-- Bytes in front of an inner header of that class. -/
def coverFor (c inner : Cls) : Bytes :=
  match c, inner with
  | .eth, .ip4 => [1, 2, 3, 4, 5, 6, 2, 0, 0, 0, 0, 1, 8, 0]
  | .vlan, .ip4 => [0, 1, 8, 0]
  | .null, .ip4 => [2, 0, 0, 0]
  | .eth, .hop => [1, 2, 3, 4, 5, 6, 2, 0, 0, 0, 0, 1, 0x86, 0xdd] ++ ip6To 0
  | .vlan, .hop => [0, 1, 0x86, 0xdd] ++ ip6To 0
  | .null, .hop => [10, 0, 0, 0] ++ ip6To 0
  | .ip6, .hop => ip6To 0
  | .eth, .route => [1, 2, 3, 4, 5, 6, 2, 0, 0, 0, 0, 1, 0x86, 0xdd] ++ ip6To 43
  | .vlan, .route => [0, 1, 0x86, 0xdd] ++ ip6To 43
  | .null, .route => [10, 0, 0, 0] ++ ip6To 43
  | .ip6, .route => ip6To 43
  | .eth, .icmp6 => [1, 2, 3, 4, 5, 6, 2, 0, 0, 0, 0, 1, 0x86, 0xdd] ++ ip6To 58
  | .vlan, .icmp6 => [0, 1, 0x86, 0xdd] ++ ip6To 58
  | .null, .icmp6 => [10, 0, 0, 0] ++ ip6To 58
  | .ip6, .icmp6 => ip6To 58
  | .route, _ => [(if inner = .hop then 0 else if inner = .route then 43 else 58), 2, 2, 0] ++ List.replicate 20 0
  | .frag, _ => [(if inner = .hop then 0 else if inner = .route then 43 else 58), 0, 0, 0, 0, 0, 0, 0]
  | .hop, _ => [(if inner = .hop then 0 else if inner = .route then 43 else 58), 0, 1, 4, 0, 0, 0, 0]
  | .dst, _ => [(if inner = .hop then 0 else if inner = .route then 43 else 58), 0, 1, 4, 0, 0, 0, 0]
  | _, _ => []

/-- A packet starting with a header of that class, on which parsing raises the exception. -/
def parseWitness (c : Cls) (e : PyErr) : Bytes :=
  if e ∈ raisedBy c then witness c e
  else if e = .generic ∨ e = .assertion ∨ e = .indexError then coverFor c .hop ++ witness .hop e
  else if e = .addressValue then coverFor c .route ++ witness .route e
  else coverFor c .icmp6 ++ witness .icmp6 e

theorem parseWitness_raises : ∀ c ∈ allCls, ∀ e ∈ parseRaises c, excOf (Packet.parse (parseWitness c e) (some c)) = some e := by
  decide +kernel

/-- **C209**: the exceptions that parsing a packet raises, over all byte strings, are exactly those of
the table, by the class of the first header. -/
theorem parse_raises_iff (c : Cls) (e : PyErr) :
    (∃ raw, Packet.parse raw (some c) = .error e) ↔ e ∈ parseRaises c := by
  constructor
  · intro ⟨raw, h⟩
    by_cases hne : raw = []
    · subst hne; cases h
    · obtain ⟨r, hl⟩ := parse_terminates raw c
      rw [parse_of_loop hne hl] at h
      subst h
      exact only_parseLoop hl
  · intro h
    exact ⟨parseWitness c e, excOf_eq (parseWitness_raises c (by cases c <;> decide) e h)⟩

/-- **C209** for frames: what `Packet(raw)` can raise. -/
theorem frame_raises_iff (e : PyErr) :
    (∃ raw, Packet.parse raw none = .error e) ↔
      e ∈ [PyErr.notEnoughData, .valueError, .addressValue, .generic, .indexError, .structError, .assertion, .keyError,
        .nameError, .attributeError, .diverges] := parse_raises_iff .eth e

/-- The negation of **C209**: malformed frames make `Packet(raw)` raise `IndexError`, `struct.error`,
`AssertionError`, `KeyError`, `NameError`, `AttributeError` and plain `Exception`, which a handler of
`NotEnoughDataError` and `ValueError` does not catch, and one makes it hang. -/
theorem parse_raises_violated :
    ∀ e ∈ [PyErr.generic, .indexError, .structError, .assertion, .keyError, .nameError, .attributeError, .diverges],
      ∃ raw, Packet.parse raw none = .error e := by
  intro e he
  refine (frame_raises_iff e).mpr ?_
  revert e
  decide

/-- What does hold of **C209**: a packet whose first header is RIPv2, UDP or TCP raises
`NotEnoughDataError` or `ValueError` only; so do the Ethernet, VLAN and IPv6 headers themselves. -/
theorem parse_raises_partial (c : Cls) (raw : Bytes) (e : PyErr) :
    (c ∈ [Cls.udp, .tcp, .rip] → Packet.parse raw (some c) = .error e → e = .notEnoughData ∨ e = .valueError) ∧
    (c ∈ [Cls.eth, .vlan, .ip6, .udp, .tcp, .rip, .null] → c.fromBytes raw = .error e → e = .notEnoughData ∨ e = .valueError) := by
  constructor
  · intro hc h
    have := (parse_raises_iff c e).mp ⟨raw, h⟩
    simp only [List.mem_cons, List.not_mem_nil, or_false] at hc
    rcases hc with rfl | rfl | rfl <;> simp [parseRaises, raisedBy] at this <;> simp [this]
  · intro hc h
    have := (header_raises_iff c e).mp ⟨raw, h⟩
    simp only [List.mem_cons, List.not_mem_nil, or_false] at hc
    rcases hc with rfl | rfl | rfl | rfl | rfl | rfl | rfl <;> simp [raisedBy] at this <;> simp [this]

example : Packet.parse [1, 2, 3] none = .error .notEnoughData := by
  exact excOf_eq (by decide +kernel)

end SY.Props
