import Verif.Props.PacketSeq

/-! # Properties C41, C42: parsing packets -/

namespace SY.Props

/-! ## C42: every header consumes a prefix -/

theorem drop_of_bind {α β : Type} {x : Res α} {f : α → Res (β × Bytes)} {r : β × Bytes} {raw : Bytes}
    (h : (x >>= f) = .ok r) (hf : ∀ a, x = .ok a → ∀ r, f a = .ok r → ∃ n, r.2 = raw.drop n) :
    ∃ n, r.2 = raw.drop n := by
  obtain ⟨a, ha, h⟩ := bind_eq_ok.mp h
  exact hf a ha r h

theorem IPv4.rest_drop {raw : Bytes} {r : IPv4 × Bytes} (h : IPv4.fromBytes raw = .ok r) : ∃ n, r.2 = raw.drop n := by
  unfold IPv4.fromBytes at h
  split at h
  · cases h
  obtain ⟨fs, _, h⟩ := bind_eq_ok.mp h
  split at h
  · split at h
    · cases h
    split at h
    · cases h
    obtain ⟨x, _, h⟩ := bind_eq_ok.mp h
    cases h
    exact ⟨_, rfl⟩
  · cases h

theorem TCP.rest_drop {raw : Bytes} {r : TCP × Bytes} (h : TCP.fromBytes raw = .ok r) : ∃ n, r.2 = raw.drop n := by
  unfold TCP.fromBytes at h
  split at h
  · cases h
  obtain ⟨fs, _, h⟩ := bind_eq_ok.mp h
  split at h
  · cases h; exact ⟨_, rfl⟩
  · cases h

theorem icmp_rest_drop {D : Type} {K : ICMPKind D} {raw : Bytes} {r : ICMPMsg D × Bytes}
    (h : K.fromBytes raw = .ok r) : ∃ n, r.2 = raw.drop n := by
  unfold ICMPKind.fromBytes at h
  split at h
  · cases h
  obtain ⟨fs, _, h⟩ := bind_eq_ok.mp h
  split at h
  · obtain ⟨t, _, h⟩ := bind_eq_ok.mp h
    split at h
    · cases h
    obtain ⟨c, _, h⟩ := bind_eq_ok.mp h
    split at h
    · cases h
    obtain ⟨d, _, h⟩ := bind_eq_ok.mp h
    obtain ⟨n, _, h⟩ := bind_eq_ok.mp h
    cases h
    exact ⟨_, rfl⟩
  · cases h

theorem extParse_drop {m : Nat} {raw : Bytes} {c : Nat × Nat × Bytes} (h : extParse m raw = .ok c) :
    c.2.2 = raw.drop 2 ∧ 2 ≤ raw.length := by
  obtain ⟨n, l, rest⟩ := c
  obtain ⟨_, _, _, rfl⟩ := extParse_inv h
  exact ⟨rfl, by simp⟩

theorem RouteOpt.rest_drop {raw : Bytes} {r : RouteOpt × Bytes} (h : RouteOpt.fromBytes raw = .ok r) :
    2 ≤ raw.length ∧ ∃ n, 2 ≤ n ∧ r.2 = raw.drop n := by
  unfold RouteOpt.fromBytes at h
  obtain ⟨c, hc, h⟩ := bind_eq_ok.mp h
  obtain ⟨e, hl⟩ := extParse_drop hc
  obtain ⟨t, _, h⟩ := bind_eq_ok.mp h
  obtain ⟨s, _, h⟩ := bind_eq_ok.mp h
  split at h
  · obtain ⟨a, _, h⟩ := bind_eq_ok.mp h
    cases h
    exact ⟨hl, 2 + 22, by omega, by simp only; rw [e, List.drop_drop]⟩
  · cases h

theorem Fragment.rest_drop {raw : Bytes} {r : Fragment × Bytes} (h : Fragment.fromBytes raw = .ok r) :
    2 ≤ raw.length ∧ ∃ n, 2 ≤ n ∧ r.2 = raw.drop n := by
  unfold Fragment.fromBytes at h
  obtain ⟨c, hc, h⟩ := bind_eq_ok.mp h
  obtain ⟨e, hl⟩ := extParse_drop hc
  split at h
  · cases h
  obtain ⟨fs, _, h⟩ := bind_eq_ok.mp h
  split at h
  · cases h
    exact ⟨hl, 2 + 6, by omega, by simp only; rw [e, List.drop_drop]⟩
  · cases h

theorem HopOpt.rest_drop {raw : Bytes} {r : HopOpt × Bytes} (h : HopOpt.fromBytes raw = .ok r) :
    2 ≤ raw.length ∧ ∃ n, 2 ≤ n ∧ r.2 = raw.drop n := by
  unfold HopOpt.fromBytes at h
  obtain ⟨c, hc, h⟩ := bind_eq_ok.mp h
  obtain ⟨e, hl⟩ := extParse_drop hc
  obtain ⟨os, _, h⟩ := bind_eq_ok.mp h
  cases h
  exact ⟨hl, 2 + ((c.2.1 + 1) * 8 - 2), by omega, by simp only; rw [e, List.drop_drop]⟩

/-- The IPv6 extension header classes. -/
def Cls.isExt (c : Cls) : Prop := c = .route ∨ c = .frag ∨ c = .hop ∨ c = .dst

/-- What a header leaves is a suffix of what it was given (extension headers eat at least two
bytes); only RIPv2 does not say. -/
theorem fromBytes_rest {c : Cls} {raw : Bytes} {h : Hdr} {rest : Option Bytes}
    (e : c.fromBytes raw = .ok (h, rest)) :
    h.cls = c ∧ (c ≠ .rip → ∃ n, rest = some (raw.drop n)) ∧ (c = .rip → rest = none) ∧
      (Cls.isExt c → 2 ≤ raw.length ∧ ∃ n, 2 ≤ n ∧ rest = some (raw.drop n)) := by
  have go : ∀ (x : Hdr) (b : Bytes) (n : Nat), b = raw.drop n → (h, rest) = (x, some b) → x.cls = c → c ≠ .rip →
      ¬ Cls.isExt c →
      h.cls = c ∧ (c ≠ .rip → ∃ n, rest = some (raw.drop n)) ∧ (c = .rip → rest = none) ∧
      (Cls.isExt c → 2 ≤ raw.length ∧ ∃ n, 2 ≤ n ∧ rest = some (raw.drop n)) := by
    intro x b n hb hx hc hr hn
    cases hx
    exact ⟨hc, fun _ => ⟨n, by rw [hb]⟩, fun h => absurd h hr, fun h => absurd h hn⟩
  have goE : ∀ (x : Hdr) (b : Bytes), (2 ≤ raw.length ∧ ∃ n, 2 ≤ n ∧ b = raw.drop n) →
      (h, rest) = (x, some b) → x.cls = c → c ≠ .rip →
      h.cls = c ∧ (c ≠ .rip → ∃ n, rest = some (raw.drop n)) ∧ (c = .rip → rest = none) ∧
      (Cls.isExt c → 2 ≤ raw.length ∧ ∃ n, 2 ≤ n ∧ rest = some (raw.drop n)) := by
    rintro x b ⟨hl, n, h2, hb⟩ hx hc hr
    cases hx
    exact ⟨hc, fun _ => ⟨n, by rw [hb]⟩, fun h => absurd h hr, fun _ => ⟨hl, n, h2, by rw [hb]⟩⟩
  cases c <;> simp only [Cls.fromBytes, reduceCtorEq] at e
  case eth =>
    obtain ⟨r, hr, e⟩ := bind_eq_ok.mp e
    cases e
    exact go _ _ _ (Ethernet.fromBytes_inv hr).2.1 rfl rfl (by simp) (by simp [Cls.isExt])
  case vlan =>
    obtain ⟨r, hr, e⟩ := bind_eq_ok.mp e
    cases e
    exact go _ _ _ (Vlan.fromBytes_inv hr).2.1 rfl rfl (by simp) (by simp [Cls.isExt])
  case arp =>
    obtain ⟨r, hr, e⟩ := bind_eq_ok.mp e
    cases e
    exact go _ _ _ (Arp.fromBytes_inv hr).2.1 rfl rfl (by simp) (by simp [Cls.isExt])
  case ip4 =>
    obtain ⟨r, hr, e⟩ := bind_eq_ok.mp e
    cases e
    obtain ⟨n, hn⟩ := IPv4.rest_drop hr
    exact go _ _ _ hn rfl rfl (by simp) (by simp [Cls.isExt])
  case ip6 =>
    obtain ⟨r, hr, e⟩ := bind_eq_ok.mp e
    cases e
    exact go _ _ _ (IPv6.fromBytes_inv hr).2.1 rfl rfl (by simp) (by simp [Cls.isExt])
  case route =>
    obtain ⟨r, hr, e⟩ := bind_eq_ok.mp e
    cases e
    exact goE _ _ (RouteOpt.rest_drop hr) rfl rfl (by simp)
  case frag =>
    obtain ⟨r, hr, e⟩ := bind_eq_ok.mp e
    cases e
    exact goE _ _ (Fragment.rest_drop hr) rfl rfl (by simp)
  case hop =>
    obtain ⟨r, hr, e⟩ := bind_eq_ok.mp e
    cases e
    exact goE _ _ (HopOpt.rest_drop hr) rfl rfl (by simp)
  case dst =>
    obtain ⟨r, hr, e⟩ := bind_eq_ok.mp e
    cases e
    exact goE _ _ (HopOpt.rest_drop hr) rfl rfl (by simp)
  case udp =>
    obtain ⟨r, hr, e⟩ := bind_eq_ok.mp e
    cases e
    exact go _ _ _ (UDP.fromBytes_inv hr).2.1 rfl rfl (by simp) (by simp [Cls.isExt])
  case tcp =>
    obtain ⟨r, hr, e⟩ := bind_eq_ok.mp e
    cases e
    obtain ⟨n, hn⟩ := TCP.rest_drop hr
    exact go _ _ _ hn rfl rfl (by simp) (by simp [Cls.isExt])
  case icmp =>
    obtain ⟨r, hr, e⟩ := bind_eq_ok.mp e
    cases e
    obtain ⟨n, hn⟩ := icmp_rest_drop hr
    exact go _ _ _ hn rfl rfl (by simp) (by simp [Cls.isExt])
  case icmp6 =>
    obtain ⟨r, hr, e⟩ := bind_eq_ok.mp e
    cases e
    obtain ⟨n, hn⟩ := icmp_rest_drop hr
    exact go _ _ _ hn rfl rfl (by simp) (by simp [Cls.isExt])
  case rip =>
    obtain ⟨r, hr, e⟩ := bind_eq_ok.mp e
    cases e
    exact ⟨rfl, fun h => absurd rfl h, fun _ => rfl, fun h => by simp [Cls.isExt] at h⟩
  case null =>
    obtain ⟨r, hr, e⟩ := bind_eq_ok.mp e
    cases e
    have : ∃ n, r.2 = raw.drop n := by
      unfold nullFromBytes at hr
      split at hr
      · cases hr
      · cases hr; exact ⟨_, rfl⟩
    obtain ⟨n, hn⟩ := this
    exact go _ _ _ hn rfl rfl (by simp) (by simp [Cls.isExt])
  case nullHdr =>
    cases e
    exact go _ _ 0 (by simp) rfl rfl (by simp) (by simp [Cls.isExt])

/-! ### Termination of the header loop -/

/-- How many headers that eat nothing may still follow. -/
def rank : Cls → Nat
  | .eth | .null => 5 | .vlan => 4 | .ip4 | .ip6 => 3
  | .route | .frag | .hop | .dst => 2
  | _ => 1

theorem ethNext_mem {t : Nat} {c : Cls} (h : ethNext t = some c) : c = .ip4 ∨ c = .arp ∨ c = .ip6 ∨ c = .vlan := by
  unfold ethNext at h; grind

theorem vlanNext_mem {t : Nat} {c : Cls} (h : vlanNext t = some c) : c = .ip4 ∨ c = .arp ∨ c = .ip6 := by
  unfold vlanNext at h; grind

theorem ip4Next_mem {t : Nat} {c : Cls} (h : ip4Next t = some c) : c = .icmp ∨ c = .tcp ∨ c = .udp := by
  unfold ip4Next at h; grind

theorem ip6Next_mem {t : Nat} {c : Cls} (h : ip6Next t = some c) :
    c = .tcp ∨ c = .udp ∨ c = .icmp6 ∨ Cls.isExt c := by
  unfold ip6Next Cls.isExt at *; grind

theorem extNext_mem {o : Option Nat} {c : Cls} (h : o.bind ip6Next = some c) :
    c = .tcp ∨ c = .udp ∨ c = .icmp6 ∨ Cls.isExt c := by
  cases o with
  | none => cases h
  | some n => exact ip6Next_mem h

theorem rank_le2 {c : Cls} (h : c = .tcp ∨ c = .udp ∨ c = .icmp6 ∨ Cls.isExt c) : rank c ≤ 2 ∧ c ≠ .rip := by
  rcases h with rfl | rfl | rfl | rfl | rfl | rfl | rfl <;> simp [rank]

/-- A header that names another either ranks above it or is an extension header. -/
theorem next_rank {h : Hdr} {c' : Cls} (e : h.next = .ok (some c')) :
    (rank c' < rank h.cls ∨ (Cls.isExt h.cls ∧ rank c' ≤ 2)) ∧ c' ≠ .rip := by
  cases h <;> simp only [Hdr.next, Except.ok.injEq, reduceCtorEq] at e
  case eth a => rcases ethNext_mem e with rfl | rfl | rfl | rfl <;> simp [rank, Hdr.cls]
  case vlan a => rcases vlanNext_mem e with rfl | rfl | rfl <;> simp [rank, Hdr.cls]
  case ip4 a => rcases ip4Next_mem e with rfl | rfl | rfl <;> simp [rank, Hdr.cls]
  case ip6 a =>
    obtain ⟨h2, h3⟩ := rank_le2 (ip6Next_mem e)
    exact ⟨.inl (Nat.lt_of_le_of_lt h2 (by simp [rank, Hdr.cls])), h3⟩
  case route a => exact ⟨.inr ⟨by simp [Cls.isExt, Hdr.cls], (rank_le2 (extNext_mem e)).1⟩, (rank_le2 (extNext_mem e)).2⟩
  case frag a => exact ⟨.inr ⟨by simp [Cls.isExt, Hdr.cls], (rank_le2 (extNext_mem e)).1⟩, (rank_le2 (extNext_mem e)).2⟩
  case hop a => exact ⟨.inr ⟨by simp [Cls.isExt, Hdr.cls], (rank_le2 (extNext_mem e)).1⟩, (rank_le2 (extNext_mem e)).2⟩
  case dst a => exact ⟨.inr ⟨by simp [Cls.isExt, Hdr.cls], (rank_le2 (extNext_mem e)).1⟩, (rank_le2 (extNext_mem e)).2⟩
  case null a =>
    split at e
    · cases e; simp [rank, Hdr.cls]
    split at e
    · cases e; simp [rank, Hdr.cls]
    · cases e

theorem parseLoop_some (fuel : Nat) (c : Cls) (raw : Bytes) (acc : Packet) (hf : raw.length + rank c ≤ fuel) :
    ∃ r, parseLoop fuel c raw acc = some r := by
  induction fuel generalizing c raw acc with
  | zero =>
    have : 1 ≤ rank c := by cases c <;> simp [rank]
    omega
  | succ fuel ih =>
    simp only [parseLoop]
    split
    · exact ⟨_, rfl⟩
    · rename_i h rest hp
      split
      · exact ⟨_, rfl⟩
      · exact ⟨_, rfl⟩
      · rename_i c' hn
        apply ih
        obtain ⟨e1, e2, e3, e4⟩ := fromBytes_rest hp
        have hr := (next_rank hn).1
        rw [e1] at hr
        have hle : (rest.getD []).length ≤ raw.length := by
          by_cases hrip : c = .rip
          · rw [e3 hrip]; simp
          · obtain ⟨n, rfl⟩ := e2 hrip; simp
        rcases hr with hr | ⟨hx, h2⟩
        · omega
        · obtain ⟨hl, n, hn2, rfl⟩ := e4 hx
          have : rank c = 2 := by rcases hx with rfl | rfl | rfl | rfl <;> rfl
          simp only [Option.getD_some, List.length_drop] at hle ⊢
          omega

/-- **C42**, termination: the loop over headers makes at most `len(raw) + 8` iterations, whatever the
bytes and the first header class. -/
theorem parse_terminates (raw : Bytes) (c : Cls) : ∃ r, parseLoop (raw.length + 8) c raw [] = some r := by
  apply parseLoop_some
  have : rank c ≤ 5 := by cases c <;> simp [rank]
  omega

theorem parseLoop_mono {fuel : Nat} {c : Cls} {raw : Bytes} {acc : Packet} {r : Res Packet}
    (h : parseLoop fuel c raw acc = some r) (k : Nat) : parseLoop (fuel + k) c raw acc = some r := by
  induction fuel generalizing c raw acc with
  | zero => cases h
  | succ fuel ih =>
    rw [show fuel + 1 + k = (fuel + k) + 1 by omega]
    simp only [parseLoop] at h ⊢
    split
    · rename_i e he; rw [he] at h; exact h
    · rename_i x rest hp
      rw [hp] at h
      simp only at h
      split
      · rename_i e he; rw [he] at h; exact h
      · rename_i he; rw [he] at h; exact h
      · rename_i c' he; rw [he] at h; exact ih h

theorem parse_of_loop {raw : Bytes} {c : Cls} {fuel : Nat} {r : Res Packet} (hne : raw ≠ [])
    (h : parseLoop fuel c raw [] = some r) : Packet.parse raw (some c) = r := by
  obtain ⟨r', hr'⟩ := parse_terminates raw c
  have h1 := parseLoop_mono h (raw.length + 8)
  have h2 := parseLoop_mono hr' fuel
  rw [show raw.length + 8 + fuel = fuel + (raw.length + 8) by omega, h1] at h2
  cases h2
  unfold Packet.parse
  rw [if_neg hne, Option.getD_some, hr', Option.getD_some]

/-! ### The result accounts for every byte -/

/-- `p` accounts for all of `raw`, read as a header of class `c`: each header is parsed from what the
previous one left, which is a suffix of what that one was given; when the last header left something,
it is the packet's raw contents. -/
inductive Accounts : Cls → Bytes → Packet → Prop
  | last {c raw h n} : c.fromBytes raw = .ok (h, some (raw.drop n)) → h.next = .ok none → raw.drop n = [] →
      Accounts c raw [.hdr h]
  | payload {c raw h n} : c.fromBytes raw = .ok (h, some (raw.drop n)) → h.next = .ok none → raw.drop n ≠ [] →
      Accounts c raw [.hdr h, .hdr (.raw (raw.drop n))]
  | more {c raw h n c' p} : c.fromBytes raw = .ok (h, some (raw.drop n)) → h.next = .ok (some c') →
      Accounts c' (raw.drop n) p → Accounts c raw (.hdr h :: p)

theorem parseLoop_accounts {fuel : Nat} {c : Cls} {raw : Bytes} {acc q : Packet} (hc : c ≠ .rip)
    (h : parseLoop fuel c raw acc = some (.ok q)) : ∃ p, q = acc ++ p ∧ Accounts c raw p := by
  induction fuel generalizing c raw acc with
  | zero => cases h
  | succ fuel ih =>
    simp only [parseLoop] at h
    split at h
    · cases h
    · rename_i x rest hp
      obtain ⟨e1, e2, _, _⟩ := fromBytes_rest hp
      obtain ⟨n, rfl⟩ := e2 hc
      split at h
      · cases h
      · rename_i hn
        simp only [Option.some.injEq, Except.ok.injEq] at h
        subst h
        cases hd : raw.drop n with
        | nil => exact ⟨[.hdr x], rfl, .last (n := n) hp hn hd⟩
        | cons y ys =>
          refine ⟨[.hdr x, .hdr (.raw (raw.drop n))], ?_, .payload (n := n) hp hn (by simp [hd])⟩
          simp [parseEnd, hd]
      · rename_i c' hn
        have hc' := (next_rank hn).2
        obtain ⟨p, rfl, hp'⟩ := ih hc' h
        exact ⟨.hdr x :: p, by simp, .more (n := n) hp hn hp'⟩

/-- **C42**, partial: whenever parsing succeeds the packet accounts for every byte.  Missing: starting
with RIPv2, see `parse_loses_bytes_violated`. -/
theorem parse_accounts_partial (raw : Bytes) (c : Cls) (p : Packet) (hr : raw ≠ []) (hc : c ≠ .rip)
    (h : Packet.parse raw (some c) = .ok p) : Accounts c raw p := by
  obtain ⟨r, hl⟩ := parse_terminates raw c
  rw [parse_of_loop hr hl] at h
  subst h
  obtain ⟨q, rfl, hq⟩ := parseLoop_accounts hc hl
  exact hq

/-- The final payload of an account is a suffix of the input. -/
theorem accounts_payload_suffix {c : Cls} {raw : Bytes} {p : Packet} (h : Accounts c raw p) (b : Bytes)
    (hb : p.getLast? = some (.hdr (.raw b))) : ∃ n, b = raw.drop n := by
  induction h with
  | @last c raw h n hp hn hd =>
    simp at hb
    subst hb
    cases c <;> simp [Cls.fromBytes] at hp
    all_goals (obtain ⟨x, _, hx⟩ := bind_eq_ok.mp hp; simp at hx)
  | @payload c raw h n hp hn hd =>
    simp at hb
    exact ⟨n, hb.symm⟩
  | @more c raw h n c' p hp hn ha ih =>
    obtain ⟨m, hm⟩ := ih (by
      cases p with
      | nil => cases ha
      | cons y p => simpa using hb)
    exact ⟨n + m, by rw [hm, List.drop_drop]⟩

/-- The negation of **C42** for a packet that starts with RIPv2: bytes after the last whole route
disappear. -/
theorem parse_loses_bytes_violated (h : RIPv2) (hc : h.command = 1 ∨ h.command = 2) (hw : ∀ r ∈ h.routes, RouteWF r)
    (junk : Bytes) (hj : junk.length < 20) :
    ∃ b, h.toBytes = .ok b ∧ Packet.parse (b ++ junk) (some .rip) = .ok [.hdr (.rip h)] := by
  obtain ⟨b, hb, hl, hp⟩ := rip_roundtrip h hc hw
  refine ⟨b, hb, ?_⟩
  have hne : b ++ junk ≠ [] := by intro e; have := congrArg List.length e; simp only [List.length_append, List.length_nil] at this; omega
  apply parse_of_loop hne (fuel := 1)
  simp [parseLoop, Cls.fromBytes, hp junk hj, Hdr.next, parseEnd]

/-- The negation of **C42**: a 38-byte Ethernet frame, IPv4 with a timestamp option whose length octet
is 0, on which parsing never returns. -/
theorem parse_terminates_violated :
    ∃ raw : Bytes, raw.length = 38 ∧ Packet.parse raw none = .error .diverges :=
  ⟨[1, 2, 3, 4, 5, 6, 2, 0, 0, 0, 0, 1, 8, 0, 0x46, 0, 0, 24, 0, 0, 0, 0, 64, 17, 0, 0, 10, 0, 0, 1, 10, 0, 0, 2,
    0x44, 0, 0, 0], rfl, by decide +kernel⟩

/-! ### Where a parse can hang -/

/-- The call returns (a value or an exception). -/
structure Returns {α : Type} (x : Res α) : Prop where
  ne : x ≠ .error .diverges

theorem Returns.ok {α : Type} (a : α) : Returns (.ok a : Res α) := ⟨by simp⟩

theorem Returns.error {α : Type} {e : PyErr} (h : e ≠ .diverges := by decide) : Returns (.error e : Res α) :=
  ⟨by simpa using h⟩

theorem Returns.bind {α β : Type} {x : Res α} {f : α → Res β} (hx : Returns x) (hf : ∀ a, Returns (f a)) :
    Returns (x >>= f) := by
  obtain ⟨hx⟩ := hx
  cases x with
  | error e => exact ⟨by simpa using hx⟩
  | ok a => exact ⟨by simpa using (hf a).ne⟩

theorem Returns.map {α β : Type} {x : Res α} {f : α → β} (hx : Returns x) : Returns (f <$> x) := by
  obtain ⟨hx⟩ := hx
  cases x with
  | error e => exact ⟨by simpa using hx⟩
  | ok a => exact ⟨by simp⟩

theorem Returns.unpack (f : List Fld) (b : Bytes) : Returns (unpack f b) :=
  ⟨by unfold SY.unpack; split <;> simp⟩

theorem Returns.pack (f : List Fld) (v : List Val) : Returns (pack f v) := by
  induction f generalizing v with
  | nil => cases v <;> simp only [SY.pack] <;> first | exact .ok _ | exact .error
  | cons a f ih =>
    cases a with
    | x n => simp only [SY.pack]; exact (ih _).map
    | u w =>
      cases v with
      | nil => exact .error
      | cons b v =>
        cases b with
        | i k => simp only [SY.pack]; split; exact (ih _).map; exact .error
        | b k => exact .error
    | s w =>
      cases v with
      | nil => exact .error
      | cons b v =>
        cases b with
        | b k => simp only [SY.pack]; exact (ih _).map
        | i k => exact .error

theorem Returns.enumOf (t : List Nat) (v : Int) : Returns (enumOf t v) :=
  ⟨by unfold SY.enumOf; split <;> simp⟩

theorem Returns.byteAt (b : Bytes) (i : Nat) : Returns (byteAt b i) :=
  ⟨by unfold SY.byteAt; split <;> simp⟩

theorem Returns.ip4 (b : Bytes) : Returns (ipv4OfBytes b) :=
  ⟨by unfold ipv4OfBytes; split <;> simp⟩

theorem Returns.ip6 (b : Bytes) : Returns (ipv6OfBytes b) :=
  ⟨by unfold ipv6OfBytes; split <;> simp⟩

theorem Returns.eth (b : Bytes) : Returns (EthAddr.mk' (.raw b)) :=
  ⟨by simp only [EthAddr.mk', EthAddr.parseArg, bind_ok]; split <;> simp⟩

theorem Returns.ip (b : Bytes) : Returns (ipAddress (.raw b)) := by
  unfold ipAddress
  repeat' first | exact .ok _ | exact .error | split

theorem Returns.ite {α : Type} {p : Prop} [Decidable p] {x y : Res α} (hx : Returns x) (hy : Returns y) :
    Returns (if p then x else y) := by
  split <;> assumption

/-- Discharge `Returns` for straight-line code. -/
local macro "returns" : tactic => `(tactic|
  repeat' first
    | with_reducible exact Returns.ok _ | with_reducible exact Returns.error
    | with_reducible exact Returns.unpack _ _ | with_reducible exact Returns.enumOf _ _
    | with_reducible exact Returns.pack _ _
    | with_reducible exact Returns.byteAt _ _ | with_reducible exact Returns.ip4 _
    | with_reducible exact Returns.ip6 _ | with_reducible exact Returns.eth _
    | with_reducible exact Returns.ip _
    | with_reducible apply Returns.map
    | with_reducible apply Returns.bind
    | with_reducible apply Returns.ite | intro a | split)

theorem Returns.ethernet (raw : Bytes) : Returns (Ethernet.fromBytes raw) := by
  unfold Ethernet.fromBytes Ethernet.setSrc Ethernet.setDst Ethernet.setEthertype
  returns

theorem Returns.vlan (raw : Bytes) : Returns (Vlan.fromBytes raw) := by
  unfold Vlan.fromBytes Vlan.setEthertype
  returns

theorem Returns.ipv6 (raw : Bytes) : Returns (IPv6.fromBytes raw) := by
  unfold IPv6.fromBytes IPv6.ofFields IPv6.setNext IPv6.setSrc IPv6.setDst ipv6Address
  returns

theorem Returns.udp (raw : Bytes) : Returns (UDP.fromBytes raw) := by
  unfold UDP.fromBytes
  returns

theorem Returns.tcp (raw : Bytes) : Returns (TCP.fromBytes raw) := by
  unfold TCP.fromBytes
  returns

theorem Returns.arp (raw : Bytes) : Returns (Arp.fromBytes raw) := by
  unfold Arp.fromBytes wrapException
  returns

theorem Returns.null (raw : Bytes) : Returns (nullFromBytes raw) := by
  unfold nullFromBytes
  returns

theorem Returns.extParse (m : Nat) (raw : Bytes) : Returns (extParse m raw) := by
  unfold SY.extParse
  returns

theorem Returns.route (raw : Bytes) : Returns (RouteOpt.fromBytes raw) := by
  unfold RouteOpt.fromBytes
  refine (Returns.extParse _ _).bind ?_
  returns

theorem Returns.fragment (raw : Bytes) : Returns (Fragment.fromBytes raw) := by
  unfold Fragment.fromBytes
  refine (Returns.extParse _ _).bind ?_
  returns

theorem Returns.hop (raw : Bytes) : Returns (HopOpt.fromBytes raw) := by
  unfold HopOpt.fromBytes
  refine (Returns.extParse _ _).bind fun a => Returns.bind ?_ ?_
  · exact ⟨scan_terminates tlvStep_nd _ (fun i o h => tlvStep_pos h rfl)⟩
  · returns

theorem Returns.icmp (raw : Bytes) : Returns (icmp4.fromBytes raw) := by
  have h1 : ∀ t b, Returns (icmp4.dec t b) := by
    intro t b
    show Returns (ICMPData.dec t b)
    unfold ICMPData.dec ICMPData.decEcho ICMPData.decUnreach ICMPData.decQuench ICMPData.decRedirect ICMPData.decMask
    returns
  have h2 : ∀ m, Returns (icmp4.size m) := by
    intro m
    unfold ICMPKind.size
    refine Returns.bind ?_ fun _ => .ok _
    show Returns (ICMPData.enc m.data)
    unfold ICMPData.enc
    returns
  unfold ICMPKind.fromBytes
  repeat' first
    | with_reducible exact h1 _ _ | with_reducible exact h2 _
    | with_reducible exact Returns.ok _ | with_reducible exact Returns.error
    | with_reducible exact Returns.unpack _ _ | with_reducible exact Returns.enumOf _ _
    | with_reducible apply Returns.bind
    | with_reducible apply Returns.ite | intro a | split

theorem ripLoop_returns (n : Nat) (h : RIPv2) (b : Bytes) : (ripLoop n h b).2 ≠ some .diverges := by
  have hr : ∀ b, Returns (RIPRoute.fromBytes b) := by
    intro b
    unfold RIPRoute.fromBytes ipv4Network prefixOfMask
    returns
  induction n generalizing h b with
  | zero => simp [ripLoop]
  | succ n ih =>
    simp only [ripLoop]
    split
    · exact ih _ _
    · rename_i e he
      intro hx
      exact (hr _).ne (by rw [he]; simpa using hx)

theorem Returns.rip (raw : Bytes) : Returns (RIPv2.fromBytes raw) := by
  have key : (RIPv2.default.load raw).2 ≠ some .diverges := by
    unfold RIPv2.load
    split
    · simp
    split
    · split
      · split
        · simp
        · exact ripLoop_returns _ _ _
      · rename_i e he
        have hset : ∀ v, Returns (RIPv2.default.setCommand v) := by
          intro v; unfold RIPv2.setCommand; returns
        intro hx
        simp only [Option.some.injEq] at hx
        rw [hx] at he
        exact (hset _).ne he
    · simp
    · rename_i e he
      intro hx
      simp only [Option.some.injEq] at hx
      rw [hx] at he
      exact (Returns.unpack _ _).ne he
  unfold RIPv2.fromBytes
  split
  · exact .ok _
  · rename_i h e he
    rw [he] at key
    exact ⟨by simpa using key⟩

theorem fromBytes_diverges {c : Cls} {raw : Bytes} (h : c.fromBytes raw = .error .diverges) :
    IPv4.fromBytes raw = .error .diverges ∨ SY.icmp6.fromBytes raw = .error .diverges := by
  have go : ∀ {α : Type} (x : Res α) (f : α → Hdr × Option Bytes), Returns x →
      (x >>= fun r => .ok (f r)) ≠ .error .diverges :=
    fun x f hx => (hx.bind fun _ => .ok _).ne
  have goE : ∀ {α : Type} (x : Res α) (f : α → Hdr × Option Bytes),
      (x >>= fun r => .ok (f r)) = .error .diverges → x = .error .diverges := by
    intro α x f hx
    cases x with
    | error e => simpa using hx
    | ok a => simp at hx
  cases c <;> simp only [Cls.fromBytes, Except.error.injEq, reduceCtorEq] at h
  case eth => exact absurd h (go _ _ (.ethernet _))
  case vlan => exact absurd h (go _ _ (.vlan _))
  case arp => exact absurd h (go _ _ (.arp _))
  case ip4 => exact .inl (goE _ _ h)
  case ip6 => exact absurd h (go _ _ (.ipv6 _))
  case route => exact absurd h (go _ _ (.route _))
  case frag => exact absurd h (go _ _ (.fragment _))
  case hop => exact absurd h (go _ _ (.hop _))
  case dst => exact absurd h (go _ _ (.hop _))
  case udp => exact absurd h (go _ _ (.udp _))
  case tcp => exact absurd h (go _ _ (.tcp _))
  case icmp => exact absurd h (go _ _ (.icmp _))
  case icmp6 => exact .inr (goE _ _ h)
  case rip => exact absurd h (go _ _ (.rip _))
  case null => exact absurd h (go _ _ (.null _))

theorem parseLoop_diverges {fuel : Nat} {c : Cls} {raw : Bytes} {acc : Packet}
    (h : parseLoop fuel c raw acc = some (.error .diverges)) :
    ∃ n, IPv4.fromBytes (raw.drop n) = .error .diverges ∨ SY.icmp6.fromBytes (raw.drop n) = .error .diverges := by
  induction fuel generalizing c raw acc with
  | zero => cases h
  | succ fuel ih =>
    simp only [parseLoop] at h
    split at h
    · rename_i e he
      simp only [Option.some.injEq, Except.error.injEq] at h
      subst h
      exact ⟨0, by simpa using fromBytes_diverges he⟩
    · rename_i x rest hp
      obtain ⟨e1, e2, e3, _⟩ := fromBytes_rest hp
      split at h
      · rename_i e he
        simp only [Option.some.injEq, Except.error.injEq] at h
        subst h
        exfalso
        revert he
        cases x <;> simp only [Hdr.next, reduceCtorEq, false_implies, not_false_eq_true]
        split
        · simp
        split <;> simp
      · cases h
      · rename_i c' hn
        obtain ⟨m, hm⟩ := ih h
        by_cases hrip : c = .rip
        · subst hrip
          cases x <;> simp [Hdr.cls] at e1
          simp [Hdr.next] at hn
        · obtain ⟨n, rfl⟩ := e2 hrip
          exact ⟨n + m, by simpa [List.drop_drop] using hm⟩

/-- **C42**, partial: parsing returns, with a packet or an exception, unless some suffix of the input is
one on which the IPv4 header parser or the ICMPv6 message parser itself never returns (both are
characterised: `ipv4_option_parse_terminates_partial`, `nd_parse_diverges_iff`).  Missing: the
unconditional statement, which is false (`parse_terminates_violated`). -/
theorem parse_returns_partial (raw : Bytes) (c : Cls)
    (h4 : ∀ n, IPv4.fromBytes (raw.drop n) ≠ .error .diverges)
    (h6 : ∀ n, SY.icmp6.fromBytes (raw.drop n) ≠ .error .diverges) :
    Packet.parse raw (some c) ≠ .error .diverges := by
  intro h
  by_cases hr : raw = []
  · simp [Packet.parse, hr] at h
  · obtain ⟨r, hl⟩ := parse_terminates raw c
    rw [parse_of_loop hr hl] at h
    subst h
    obtain ⟨n, hn | hn⟩ := parseLoop_diverges hl
    · exact h4 n hn
    · exact h6 n hn

theorem all_drops {P : Bytes → Prop} (raw : Bytes) (h : ∀ n, n < raw.length + 1 → P (raw.drop n)) (n : Nat) :
    P (raw.drop n) := by
  by_cases hn : n < raw.length + 1
  · exact h n hn
  · have := h raw.length (by omega)
    rwa [List.drop_length, ← List.drop_of_length_le (show raw.length ≤ n by omega)] at this

/-- An Ethernet frame with IPv4, UDP and three bytes of data. -/
def udpFrame : Bytes :=
  [1, 2, 3, 4, 5, 6, 2, 0, 0, 0, 0, 1, 8, 0, 0x45, 0, 0, 31, 0, 0, 0, 0, 64, 17, 0, 0, 10, 0, 0, 1, 10, 0, 0, 2,
    4, 0, 0, 53, 0, 11, 0, 0, 7, 8, 9]

example : (∀ n, IPv4.fromBytes (udpFrame.drop n) ≠ .error .diverges) ∧
    (∀ n, SY.icmp6.fromBytes (udpFrame.drop n) ≠ .error .diverges) ∧
    (∃ p, Packet.parse udpFrame (some .eth) = .ok p ∧ p.length = 4) :=
  ⟨all_drops (P := fun b => IPv4.fromBytes b ≠ .error .diverges) _ (by decide +kernel),
    all_drops (P := fun b => SY.icmp6.fromBytes b ≠ .error .diverges) _ (by decide +kernel),
    by
      obtain ⟨p, h1, h2⟩ := Except.of_test (r := Packet.parse udpFrame (some .eth))
        (p := fun p => decide (p.length = 4)) (by decide +kernel)
      exact ⟨p, h1, by simpa using h2⟩⟩

end SY.Props
