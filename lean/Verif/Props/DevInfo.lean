import Verif.DevInfo
import Verif.Props.Live
import Verif.Props.PdbFrame

/-! # C224: the interfaces of a live network -/

namespace SY.Props

open SY

theorem devTypes_other (plat : Platform) (h : IwHost) (ps : List PcapDev) (n : List Char) (hn : n ∉ ps.map PcapDev.name)
    (d : Dict (List Char) IfType) :
    (ps.foldl (fun d p => Dict.set d p.name (devType plat h p)) d).get? n = d.get? n := by
  induction ps generalizing d with
  | nil => rfl
  | cons p ps ih =>
    simp only [List.map_cons, List.mem_cons, not_or] at hn
    rw [List.foldl_cons, ih hn.2, Dict.get?_set, if_neg (fun e => hn.1 e.symm)]

theorem devTypes_get (plat : Platform) (h : IwHost) (ps : List PcapDev) (hn : (ps.map PcapDev.name).Nodup) :
    (∀ p ∈ ps, (devTypes plat h ps).get? p.name = some (devType plat h p)) ∧
    (∀ n ∉ ps.map PcapDev.name, (devTypes plat h ps).get? n = none) := by
  constructor
  · have key : ∀ d : Dict (List Char) IfType, ∀ p ∈ ps,
        (ps.foldl (fun d p => Dict.set d p.name (devType plat h p)) d).get? p.name = some (devType plat h p) := by
      induction ps with
      | nil => simp
      | cons q ps ih =>
        simp only [List.map_cons, List.nodup_cons] at hn
        intro d p hp
        rcases List.mem_cons.mp hp with rfl | hp
        · rw [List.foldl_cons, devTypes_other _ _ _ _ hn.1, Dict.get?_set, if_pos rfl]
        · exact ih hn.2 _ p hp
    exact key []
  · intro n h'
    exact devTypes_other plat h ps n h' []

/-- **C224**: the interfaces are made for exactly the chosen devices about whose addresses the system knows, each with the
name, the number and the type of its device. -/
theorem devinfo_exact (plat : Platform) (h : IwHost) (ps : List PcapDev) (info : Dict (List Char) (List AddrInfo))
    (index : List Char → Res Int) (devs : List (List Char)) (r : Dict (List Char) Iface)
    (hp : (ps.map PcapDev.name).Nodup) (hd : devs.Nodup) (hr : assembleDevinfo plat h ps info index devs = .ok r) :
    r.keys = devs.filter (fun d => (info.get? d).isSome) ∧
    ∀ d ∈ r.keys, ∃ l n p i, info.get? d = some l ∧ index d = .ok n ∧ p ∈ ps ∧ p.name = d ∧
      r.get? d = some i ∧ assembleIntf d n (devType plat h p) l = .ok i := by
  have key : ∀ (devs : List (List Char)) (acc r : Dict (List Char) Iface), devs.Nodup → (∀ d ∈ devs, d ∉ acc.keys) →
      assembleDevs plat (devTypes plat h ps) info index devs acc = .ok r →
      r.keys = acc.keys ++ devs.filter (fun d => (info.get? d).isSome) ∧ (∀ d ∈ acc.keys, r.get? d = acc.get? d) ∧
      ∀ d ∈ devs, (info.get? d).isSome = true → ∃ l n p i, info.get? d = some l ∧ index d = .ok n ∧ p ∈ ps ∧ p.name = d ∧
        r.get? d = some i ∧ assembleIntf d n (devType plat h p) l = .ok i := by
    intro devs
    induction devs with
    | nil => intro acc r _ _ h; cases h; simp
    | cons d ds ih =>
      intro acc r hn ha hr
      simp only [List.nodup_cons] at hn
      simp only [assembleDevs] at hr
      cases hi : info.get? d with
      | none =>
        rw [hi] at hr
        obtain ⟨h1, h2, h3⟩ := ih acc r hn.2 (fun x hx => ha x (by simp [hx])) hr
        refine ⟨by simp [h1, hi], h2, ?_⟩
        intro x hx hs
        rcases List.mem_cons.mp hx with rfl | hx
        · rw [hi] at hs; cases hs
        · exact h3 x hx hs
      | some l =>
        rw [hi] at hr
        dsimp only at hr
        split at hr
        · obtain ⟨n, hn1, hr⟩ := bind_eq_ok.mp hr
          obtain ⟨m, hm, hr⟩ := bind_eq_ok.mp hr
          cases ht : (devTypes plat h ps).get? d with
          | none => rw [ht] at hr; cases hr
          | some t =>
            rw [ht] at hr
            obtain ⟨i, hi2, hr⟩ := bind_eq_ok.mp hr
            have hk : d ∉ acc.keys := ha d (by simp)
            have hks : (acc.set d i).keys = acc.keys ++ [d] := by rw [Dict.keys_set, if_neg hk]
            obtain ⟨h1, h2, h3⟩ := ih (acc.set d i) r hn.2 (by
              intro x hx
              rw [hks]
              simp only [List.mem_append, List.mem_singleton, not_or]
              exact ⟨ha x (by simp [hx]), fun (e : x = d) => hn.1 (e ▸ hx)⟩) hr
            refine ⟨by rw [h1, hks]; simp [hi], ?_, ?_⟩
            · intro x hx
              rw [h2 x (by rw [hks]; simp [hx]), Dict.get?_set, if_neg (fun (e : d = x) => hk (e ▸ hx))]
            · intro x hx hs
              rcases List.mem_cons.mp hx with rfl | hx
              · by_cases hps : x ∈ ps.map PcapDev.name
                · obtain ⟨p, hp1, hp2⟩ := List.mem_map.mp hps
                  refine ⟨l, n, p, i, hi, hn1, hp1, hp2, ?_, ?_⟩
                  · rw [h2 x (by rw [hks]; simp), Dict.get?_set, if_pos rfl]
                  · have := (devTypes_get plat h ps hp).1 p hp1
                    rw [hp2, ht] at this
                    cases this
                    exact hi2
                · rw [(devTypes_get plat h ps hp).2 x hps] at ht; cases ht
              · exact h3 x hx hs
        · cases hr
  obtain ⟨h1, _, h3⟩ := key devs [] r hd (by simp [Dict.keys]) hr
  have h1 : r.keys = devs.filter (fun d => (info.get? d).isSome) := by simpa [Dict.keys] using h1
  refine ⟨h1, fun d hd => ?_⟩
  rw [h1, List.mem_filter] at hd
  exact h3 d hd.1 hd.2

/-- The type that the device has in truth, on Linux. -/
def TrueType (h : IwHost) (p : PcapDev) (t : IfType) : Prop :=
  (p.isloop = true ∧ t = .loopback) ∨ (p.isloop = false ∧ (∃ x, (p.name, some x) ∈ h.devs) ∧ t = .wireless) ∨
    (p.isloop = false ∧ (¬ ∃ x, (p.name, some x) ∈ h.devs) ∧ t = .wired)

theorem devType_linux (h : IwHost) {p : PcapDev} (hp : p.isloop = false) :
    devType .linux h p = if textIn "no wireless extensions".toList (h.iwconfig []) then .wired else .wireless := by
  unfold devType
  rw [hp]
  rfl

theorem iwconfig_phrase (h : IwHost) (hi : h.installed = true) (hn : ∃ d ∈ h.devs, d.2 = none) :
    textIn "no wireless extensions".toList (h.iwconfig []) = true := by
  obtain ⟨d, hd, he⟩ := hn
  obtain ⟨l, r, hlr⟩ := List.append_of_mem hd
  rw [textIn_iff]
  have e1 : iwEntry d = d.1 ++ "      ".toList ++ "no wireless extensions".toList ++ ".\n\n".toList := by
    unfold iwEntry
    rw [he]
    show d.1 ++ "      no wireless extensions.\n\n".toList = _
    rw [show "      no wireless extensions.\n\n".toList = "      ".toList ++ "no wireless extensions".toList ++ ".\n\n".toList
      by decide +kernel]
    simp only [List.append_assoc]
  have e2 : h.iwconfig [] = h.devs.flatMap iwEntry := by unfold IwHost.iwconfig; rw [hi]; rfl
  rw [e2, hlr, List.flatMap_append, List.flatMap_cons, e1]
  exact ⟨l.flatMap iwEntry ++ d.1 ++ "      ".toList, ".\n\n".toList ++ r.flatMap iwEntry, by simp only [List.append_assoc]⟩

/-- **C224** fails: no wireless device is recognised on a host that has any device without wireless extensions, such as the
loopback device. -/
theorem wireless_violated (h : IwHost) (hi : h.installed = true) (hn : ∃ d ∈ h.devs, d.2 = none) (p : PcapDev)
    (hp : p.isloop = false) : devType .linux h p = .wired := by
  rw [devType_linux h hp, iwconfig_phrase h hi hn, if_pos rfl]

/-- **C224**, as far as it holds: loopback devices are told apart, and the type is right on hosts without wireless devices that
have `iwconfig`. -/
theorem device_type_partial (plat : Platform) (h : IwHost) (p : PcapDev) :
    (p.isloop = true → devType plat h p = .loopback) ∧
    (devType plat h p = .loopback → p.isloop = true) ∧
    (p.isloop = false → plat ≠ .linux → devType plat h p = .unknown) ∧
    (plat = .linux → h.installed = true → h.devs ≠ [] → (∀ d ∈ h.devs, d.2 = none) → TrueType h p (devType plat h p)) := by
  have hloop : p.isloop = true → devType plat h p = .loopback := fun e => by unfold devType; rw [e]; rfl
  refine ⟨hloop, ?_, ?_, ?_⟩
  · intro e
    cases hl : p.isloop with
    | true => rfl
    | false =>
      unfold devType at e
      rw [hl] at e
      cases plat with
      | linux => dsimp only at e; split at e <;> (try cases ‹false = true›) ; split at e <;> cases e
      | _ => cases e
  · intro e1 e2
    unfold devType
    rw [e1]
    cases plat with
    | linux => exact absurd rfl e2
    | _ => rfl
  · rintro rfl e1 e2 e3
    cases hl : p.isloop with
    | true => exact .inl ⟨hl, hloop hl⟩
    | false =>
      obtain ⟨d, ds, hds⟩ := List.exists_cons_of_ne_nil e2
      refine .inr (.inr ⟨hl, ?_, wireless_violated h e1 ⟨d, by rw [hds]; simp, e3 d (by rw [hds]; simp)⟩ p hl⟩)
      rintro ⟨x, hx⟩
      have := e3 _ hx
      cases this

/-- **C224** fails: all devices that are not loopback devices get the same type, whatever they are. -/
theorem device_types_same_violated (plat : Platform) (h : IwHost) (p q : PcapDev) (hp : p.isloop = false) (hq : q.isloop = false) :
    devType plat h p = devType plat h q := by
  cases plat with
  | linux => rw [devType_linux h hp, devType_linux h hq]
  | _ => unfold devType; rw [hp, hq]

/-- **C224** fails: without `iwconfig` every device is taken for a wireless one. -/
theorem wired_violated (h : IwHost) (hi : h.installed = false) (p : PcapDev) (hp : p.isloop = false) :
    devType .linux h p = .wireless := by
  have e2 : h.iwconfig [] = "/bin/sh: 1: iwconfig: not found".toList := by unfold IwHost.iwconfig; rw [hi]; rfl
  rw [devType_linux h hp, e2, if_neg (by decide +kernel)]

/-- On other systems there is a `NameError` as soon as there is a device to be used. -/
theorem other_platform_violated (h : IwHost) (ps : List PcapDev) (info : Dict (List Char) (List AddrInfo))
    (index : List Char → Res Int) (devs : List (List Char)) (hd : ∃ d ∈ devs, (info.get? d).isSome = true) :
    assembleDevinfo .other h ps info index devs = .error .nameError := by
  unfold assembleDevinfo
  generalize ([] : Dict (List Char) Iface) = acc
  induction devs with
  | nil => obtain ⟨d, hd, _⟩ := hd; cases hd
  | cons d ds ih =>
    simp only [assembleDevs]
    cases hi : info.get? d with
    | some l => simp
    | none =>
      apply ih
      obtain ⟨x, hx, hs⟩ := hd
      rcases List.mem_cons.mp hx with rfl | hx
      · rw [hi] at hs; cases hs
      · exact ⟨x, hx, hs⟩

/-- A laptop with a loopback device, a wired and a wireless one. -/
def exLaptop : IwHost :=
  ⟨true, [("lo".toList, none), ("eth0".toList, none), ("wlan0".toList, some "     IEEE 802.11  ESSID:\"lab\"\n".toList)]⟩

example : devType .linux exLaptop ⟨"wlan0".toList, false⟩ = .wired ∧
    TrueType exLaptop ⟨"wlan0".toList, false⟩ .wireless ∧ ¬ TrueType exLaptop ⟨"wlan0".toList, false⟩ .wired := by
  refine ⟨by decide +kernel, ?_⟩
  have : ∃ x, ("wlan0".toList, some x) ∈ exLaptop.devs := ⟨"     IEEE 802.11  ESSID:\"lab\"\n".toList, by decide +kernel⟩
  exact ⟨.inr (.inl ⟨rfl, this, rfl⟩), by rintro (⟨h, _⟩ | ⟨_, _, h⟩ | ⟨_, h, _⟩) <;> first | cases h; done | exact h this⟩

example : ∃ r, assembleDevinfo .linux exLaptop [⟨"lo".toList, true⟩, ⟨"eth0".toList, false⟩, ⟨"wlan0".toList, false⟩]
    [("eth0".toList, [.inet 1 2, .link "02:00:00:00:00:01".toList]), ("lo".toList, [])] (fun _ => .ok 7)
    ["wlan0".toList, "eth0".toList] = .ok r ∧ r.keys = ["eth0".toList] := by
  obtain ⟨r, h1, h2⟩ := Except.of_test (r := assembleDevinfo .linux exLaptop
    [⟨"lo".toList, true⟩, ⟨"eth0".toList, false⟩, ⟨"wlan0".toList, false⟩]
    [("eth0".toList, [.inet 1 2, .link "02:00:00:00:00:01".toList]), ("lo".toList, [])] (fun _ => .ok 7)
    ["wlan0".toList, "eth0".toList]) (p := fun r => decide (r.keys = ["eth0".toList])) (by decide +kernel)
  exact ⟨r, h1, by simpa using h2⟩

end SY.Props
