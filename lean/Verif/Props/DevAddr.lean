import Verif.DevAddr
import Verif.Props.Live
import Verif.Props.IPv6Text

/-! # C96: the addresses of a device as the system reports them -/

namespace SY.Props
open SY

/-- What a record reports once its texts are read. -/
inductive Reports : RawAddr → Option AddrInfo → Prop
  | inet (a m : List Char) (x y : BitVec 32) : ipv4Parse a = some x → ipv4Parse m = some y →
      Reports (.inet (some a) (some m)) (some (.inet x y))
  | inet6 (a m : List Char) (x y : BitVec 128) : '%' ∉ a → ipv6Parse a = some x → ipv6Parse m = some y →
      Reports (.inet6 (some a) (some m)) (some (.inet6 x y))
  | zone (a z m : List Char) (x y : BitVec 128) : '%' ∉ a → ipv6Parse a = some x → ipv6Parse m = some y →
      Reports (.inet6 (some (a ++ '%' :: z)) (some m)) (some (.inet6 x y))
  | link (t : List Char) : Reports (.link (some t)) (some (.link t))
  | other : Reports .other none

theorem cutZone_none {a : List Char} (h : '%' ∉ a) : cutZone a = a := by
  unfold cutZone
  induction a with
  | nil => rfl
  | cons c a ih =>
    simp only [List.mem_cons, not_or] at h
    rw [List.takeWhile_cons, if_pos (by simp; exact fun e => h.1 e.symm), ih h.2]

theorem cutZone_zone {a z : List Char} (h : '%' ∉ a) : cutZone (a ++ '%' :: z) = a := by
  unfold cutZone
  induction a with
  | nil => simp
  | cons c a ih =>
    simp only [List.mem_cons, not_or] at h
    rw [List.cons_append, List.takeWhile_cons, if_pos (by simp; exact fun e => h.1 e.symm), ih h.2]

/-- The records report these addresses, in this order. -/
inductive ReportsAll : List RawAddr → List AddrInfo → Prop
  | nil : ReportsAll [] []
  | some {r : RawAddr} {x : AddrInfo} {rs : List RawAddr} {l : List AddrInfo} : Reports r (some x) → ReportsAll rs l →
      ReportsAll (r :: rs) (x :: l)
  | none {r : RawAddr} {rs : List RawAddr} {l : List AddrInfo} : Reports r none → ReportsAll rs l → ReportsAll (r :: rs) l

theorem rawLoop_reports {rs : List RawAddr} {l : List AddrInfo} (h : ReportsAll rs l) (mac : EthAddr) (ips : List IPIface) :
    rawLoop (mac, ips) rs = assembleMac mac l >>= fun m => .ok (m, ips ++ assembleAddrs l) := by
  induction h generalizing mac ips with
  | nil => simp [rawLoop, assembleMac, assembleAddrs]
  | some hr _ ih =>
    cases hr with
    | inet a m x y h1 h2 => simp [rawLoop, rawStep, rawV4, h1, h2, ih, assembleMac, assembleAddrs]
    | inet6 a m x y h0 h1 h2 =>
      simp [rawLoop, rawStep, rawV6, rawText, cutZone_none h0, h1, h2, ih, assembleMac, assembleAddrs]
    | zone a z m x y h0 h1 h2 =>
      simp [rawLoop, rawStep, rawV6, rawText, cutZone_zone h0, h1, h2, ih, assembleMac, assembleAddrs]
    | link t =>
      simp only [rawLoop, rawStep, rawMac, assembleMac, assembleAddrs]
      cases EthAddr.mk' (.text t) with
      | error e => rfl
      | ok a => simp [ih]
  | none hr _ ih =>
    cases hr
    simp [rawLoop, rawStep, ih]

/-- **C96**: from records that report addresses and masks, the interface is made that has these addresses, without the
zones of IPv6 addresses. -/
theorem reported_addresses_partial (dev : List Char) (num : Int) (ty : IfType) (rs : List RawAddr) (l : List AddrInfo)
    (h : ReportsAll rs l) : rawIntf dev num ty rs = assembleIntf dev num ty l := by
  unfold rawIntf assembleIntf
  rw [rawLoop_reports h]
  cases assembleMac ⟨List.replicate 6 0⟩ l <;> simp

theorem rawLoop_fails (rs : List RawAddr) (l : List AddrInfo) (h : ReportsAll rs l) (bad : RawAddr) (rest : List RawAddr)
    (e : PyErr) (hb : ∀ st, rawStep st bad = .error e) (mac : EthAddr) (ips : List IPIface)
    (hm : ∃ m, assembleMac mac l = .ok m) : rawLoop (mac, ips) (rs ++ bad :: rest) = .error e := by
  have app : ∀ (xs ys : List RawAddr) (st : EthAddr × List IPIface),
      rawLoop st (xs ++ ys) = rawLoop st xs >>= fun st' => rawLoop st' ys := by
    intro xs
    induction xs with
    | nil => intro ys st; rfl
    | cons x xs ih =>
      intro ys st
      simp only [List.cons_append, rawLoop]
      cases rawStep st x with
      | error e => rfl
      | ok st' => simp [ih]
  obtain ⟨m, hm⟩ := hm
  rw [app, rawLoop_reports h, hm]
  simp [rawLoop, hb]

/-- **C96** is false of devices that have an address without a mask, as those of tunnels have: no interface is made, and
the network cannot be started. -/
theorem address_without_mask_violated (dev : List Char) (num : Int) (ty : IfType) (rs rest : List RawAddr) (l : List AddrInfo)
    (h : ReportsAll rs l) (hm : ∃ m, assembleMac ⟨List.replicate 6 0⟩ l = .ok m) (a : List Char) (x : BitVec 32)
    (hx : ipv4Parse a = some x) :
    rawIntf dev num ty (rs ++ .inet (some a) none :: rest) = .error .addressValue := by
  unfold rawIntf
  rw [rawLoop_fails rs l h _ rest .addressValue (fun st => by simp [rawStep, rawV4, hx]) _ _ hm]
  rfl

/-- The same for IPv6. -/
theorem address6_without_mask_violated (dev : List Char) (num : Int) (ty : IfType) (rs rest : List RawAddr)
    (l : List AddrInfo) (h : ReportsAll rs l) (hm : ∃ m, assembleMac ⟨List.replicate 6 0⟩ l = .ok m) (a : List Char)
    (x : BitVec 128) (ha : '%' ∉ a) (hx : ipv6Parse a = some x) :
    rawIntf dev num ty (rs ++ .inet6 (some a) none :: rest) = .error .addressValue := by
  unfold rawIntf
  rw [rawLoop_fails rs l h _ rest .addressValue (fun st => by simp [rawStep, rawV6, rawText, cutZone_none ha, hx]) _ _ hm]
  rfl

/-- A record whose link-layer address is no Ethernet address (InfiniBand has 20 bytes) makes the network fail likewise. -/
theorem link_address_violated (dev : List Char) (num : Int) (ty : IfType) (rs rest : List RawAddr) (l : List AddrInfo)
    (h : ReportsAll rs l) (hm : ∃ m, assembleMac ⟨List.replicate 6 0⟩ l = .ok m) (t : List Char) (e : PyErr)
    (ht : EthAddr.mk' (.text t) = .error e) :
    rawIntf dev num ty (rs ++ .link (some t) :: rest) = .error e := by
  unfold rawIntf
  rw [rawLoop_fails rs l h _ rest e (fun st => by simp [rawStep, rawMac, ht]) _ _ hm]
  rfl

/-- The texts of a record can be read: addresses have masks, and are addresses but for the zone; the link-layer address,
if there is one, is an Ethernet address. -/
inductive Readable : RawAddr → Prop
  | inet (a m : List Char) (x y : BitVec 32) : ipv4Parse a = some x → ipv4Parse m = some y → Readable (.inet (some a) (some m))
  | inet6 (a m : List Char) (x y : BitVec 128) : '%' ∉ a → ipv6Parse a = some x → ipv6Parse m = some y →
      Readable (.inet6 (some a) (some m))
  | zone (a z m : List Char) (x y : BitVec 128) : '%' ∉ a → ipv6Parse a = some x → ipv6Parse m = some y →
      Readable (.inet6 (some (a ++ '%' :: z)) (some m))
  | link (t : List Char) (a : EthAddr) : EthAddr.mk' (.text t) = .ok a → Readable (.link (some t))
  | noLink : Readable (.link none)
  | other : Readable .other

theorem rawV4_ok {t : Option (List Char)} {x : BitVec 32} : rawV4 t = .ok x ↔ ∃ s, t = some s ∧ ipv4Parse s = some x := by
  cases t with
  | none => simp [rawV4]
  | some s => cases h : ipv4Parse s <;> simp [rawV4, h]

theorem rawV6_ok {t : Option (List Char)} {x : BitVec 128} : rawV6 t = .ok x ↔ ∃ s, t = some s ∧ ipv6Parse s = some x := by
  cases t with
  | none => simp [rawV6]
  | some s => cases h : ipv6Parse s <;> simp [rawV6, h]

theorem cutZone_cases (s : List Char) : '%' ∉ cutZone s ∧ (s = cutZone s ∨ ∃ z, s = cutZone s ++ '%' :: z) := by
  unfold cutZone
  induction s with
  | nil => simp
  | cons c s ih =>
    by_cases h : c = '%'
    · subst h
      simp
    · rw [List.takeWhile_cons, if_pos (by simpa using h)]
      refine ⟨by rw [List.mem_cons, not_or]; exact ⟨Ne.symm h, ih.1⟩, ?_⟩
      rcases ih.2 with h' | ⟨z, h'⟩
      · exact .inl (congrArg _ h')
      · exact .inr ⟨z, congrArg (List.cons c) h'⟩

theorem rawStep_ok (st : EthAddr × List IPIface) (r : RawAddr) : (∃ st', rawStep st r = .ok st') ↔ Readable r := by
  constructor
  · rintro ⟨st', h⟩
    cases r with
    | inet a m =>
      obtain ⟨x, hx, h⟩ := bind_eq_ok.mp h
      obtain ⟨y, hy, h⟩ := bind_eq_ok.mp h
      obtain ⟨_, rfl, kx⟩ := rawV4_ok.mp hx
      obtain ⟨_, rfl, ky⟩ := rawV4_ok.mp hy
      exact .inet _ _ _ _ kx ky
    | inet6 a m =>
      obtain ⟨x, hx, h⟩ := bind_eq_ok.mp h
      obtain ⟨y, hy, h⟩ := bind_eq_ok.mp h
      obtain ⟨_, e, hx⟩ := rawV6_ok.mp hx
      obtain ⟨_, rfl, ky⟩ := rawV6_ok.mp hy
      cases e
      cases a with
      | none => exact absurd hx (by rw [show ipv6Parse (cutZone (rawText none)) = none by decide +kernel]; simp)
      | some s =>
        simp only [rawText] at hx
        obtain ⟨h1, h2 | ⟨z, h2⟩⟩ := cutZone_cases s
        · rw [h2]
          exact .inet6 _ _ _ _ h1 hx ky
        · rw [h2]
          exact .zone _ _ _ _ _ h1 hx ky
    | link t =>
      obtain ⟨a, ha, h⟩ := bind_eq_ok.mp h
      cases t with
      | none => exact .noLink
      | some t => exact .link _ _ ha
    | other => exact .other
  · intro h
    cases h with
    | inet a m x y h1 h2 => exact ⟨_, by simp [rawStep, rawV4, h1, h2]; rfl⟩
    | inet6 a m x y h0 h1 h2 => exact ⟨_, by simp [rawStep, rawV6, rawText, cutZone_none h0, h1, h2]; rfl⟩
    | zone a z m x y h0 h1 h2 => exact ⟨_, by simp [rawStep, rawV6, rawText, cutZone_zone h0, h1, h2]; rfl⟩
    | link t a ha => exact ⟨_, by simp [rawStep, rawMac, ha]; rfl⟩
    | noLink => exact ⟨_, rfl⟩
    | other => exact ⟨_, rfl⟩

/-- **C96**: an interface is made for a device exactly if every record of the device can be read. -/
theorem reported_addresses_exact (dev : List Char) (num : Int) (ty : IfType) (rs : List RawAddr) :
    (∃ i, rawIntf dev num ty rs = .ok i) ↔ ∀ r ∈ rs, Readable r := by
  have go : ∀ (rs : List RawAddr) (st : EthAddr × List IPIface), (∃ st', rawLoop st rs = .ok st') ↔ ∀ r ∈ rs, Readable r := by
    intro rs
    induction rs with
    | nil => intro st; simp [rawLoop]
    | cons r rs ih =>
      intro st
      rw [List.forall_mem_cons, ← rawStep_ok st r]
      simp only [rawLoop]
      constructor
      · rintro ⟨st', h⟩
        obtain ⟨s1, h1, h⟩ := bind_eq_ok.mp h
        exact ⟨⟨_, h1⟩, (ih s1).mp ⟨_, h⟩⟩
      · rintro ⟨⟨s1, h1⟩, h⟩
        obtain ⟨s2, h2⟩ := (ih s1).mpr h
        exact ⟨s2, by rw [h1, bind_ok, h2]⟩
  rw [← go rs (⟨List.replicate 6 0⟩, [])]
  unfold rawIntf
  constructor
  · rintro ⟨i, h⟩
    obtain ⟨st, h, _⟩ := bind_eq_ok.mp h
    exact ⟨st, h⟩
  · rintro ⟨st, h⟩
    exact ⟨_, by rw [h, bind_ok]⟩

/-- The device of a tunnel with no link-layer address can be read. -/
example : ∃ i, rawIntf "tun0".toList 3 .wired [.inet (some "10.8.0.2".toList) (some "255.255.255.255".toList), .link none] = .ok i :=
  (reported_addresses_exact _ _ _ _).mpr (by
    simp only [List.forall_mem_cons, List.not_mem_nil, false_implies, implies_true, and_true]
    exact ⟨.inet _ _ 0x0a080002 0xffffffff (by decide +kernel) (by decide +kernel), .noLink⟩)

/-- An interface with an IPv4 address and a link-local IPv6 address. -/
example : ReportsAll [.inet (some "10.0.0.1".toList) (some "255.255.255.0".toList),
      .inet6 (some "fe80::1%eth0".toList) (some "ffff:ffff:ffff:ffff::".toList), .link (some "02:00:00:00:00:01".toList), .other]
    [.inet 0x0a000001 0xffffff00, .inet6 0xfe800000000000000000000000000001 0xffffffffffffffff0000000000000000,
      .link "02:00:00:00:00:01".toList] :=
  .some (.inet _ _ _ _ (by decide +kernel) (by decide +kernel))
    (.some (.zone "fe80::1".toList "eth0".toList _ _ _ (by decide +kernel) (by decide +kernel) (by decide +kernel))
      (.some (.link _) (.none .other .nil)))

example : rawIntf "tun0".toList 3 .wired [.inet (some "10.8.0.2".toList) none] = .error .addressValue :=
  address_without_mask_violated _ _ _ [] [] [] .nil ⟨_, rfl⟩ _ 0x0a080002 (by decide +kernel)

example : EthAddr.mk' (.text "80:00:00:48:fe:80:00:00:00:00:00:00:f4:52:14:03:00:7b:cb:a1".toList) = .error .runtimeError := by rfl

end SY.Props
