import Verif.NetBase
import Verif.Props.IPText
import Verif.Props.Socket

/-! # Interfaces and the network object: C69, C70, C71, C73 -/

namespace SY.Props
open SY

/-! ## C69: interface lookup -/

/-- What can happen to the set of interfaces. -/
inductive NetOp
  | callback (c : Option Nat)
  | up (i : Iface)
  | down (name : List Char)

def _root_.SY.NetBase.apply (n : NetBase) : NetOp → NetBase
  | .callback c => n.setCallback c
  | .up i => (n.intfUp i).1
  | .down name => n.intfDown name

def runNet (n : NetBase) (ops : List NetOp) : NetBase := ops.foldl NetBase.apply n

/-- Every interface is registered once, under its own name. -/
def NetOk (n : NetBase) : Prop := n.devinfo.Uniq ∧ ∀ x ∈ n.devinfo, x.2.name = x.1

instance NetOk.dec (n : NetBase) : Decidable (NetOk n) := by unfold NetOk; infer_instance

theorem notify_devinfo (n : NetBase) (i : Iface) (u : Bool) : (n.notify i u).devinfo = n.devinfo := by
  unfold NetBase.notify; split <;> rfl

theorem netOk_apply (n : NetBase) (op : NetOp) (h : NetOk n) : NetOk (n.apply op) := by
  cases op with
  | callback c => exact h
  | down name =>
    simp only [NetBase.apply, NetBase.intfDown, NetOk]
    split
    · rw [notify_devinfo]; exact h
    · exact h
  | up i =>
    simp only [NetBase.apply, NetBase.intfUp, NetOk]
    split
    · exact h
    · rw [notify_devinfo]
      refine ⟨Dict.uniq_set h.1 _ _, ?_⟩
      rintro ⟨k, v⟩ hx
      rcases Dict.mem_set hx with e | e
      · exact h.2 _ e
      · cases e; rfl

theorem netOk_run (n : NetBase) (ops : List NetOp) (h : NetOk n) : NetOk (runNet n ops) := by
  induction ops generalizing n with
  | nil => exact h
  | cons op ops ih => exact ih _ (netOk_apply n op h)

/-- Lookup by name, after any history: the interface of that name, or `KeyError` if there is none. -/
theorem interface_by_name_iff (n : NetBase) (ops : List NetOp) (h : NetOk n) (name : List Char) :
    (∀ i, (runNet n ops).byName name = .ok i ↔ i ∈ (runNet n ops).interfaces ∧ i.name = name) ∧
    ((runNet n ops).byName name = .error .keyError ↔ ∀ i ∈ (runNet n ops).interfaces, i.name ≠ name) := by
  have hr := netOk_run n ops h
  generalize runNet n ops = m at *
  have key : ∀ i, m.devinfo.get? name = some i ↔ i ∈ m.interfaces ∧ i.name = name := by
    intro i
    constructor
    · intro e
      have hm := Dict.mem_of_get? e
      exact ⟨List.mem_map.mpr ⟨_, hm, rfl⟩, hr.2 _ hm⟩
    · rintro ⟨hm, hn⟩
      obtain ⟨⟨k, v⟩, hx, e⟩ := List.mem_map.mp hm
      simp only at e
      subst e
      have := hr.2 _ hx
      simp only at this
      rw [← hn, this]
      exact Dict.get?_of_mem hr.1 hx
  unfold NetBase.byName
  cases e : m.devinfo.get? name with
  | none =>
    refine ⟨fun i => ⟨(by intro h; cases h), fun hi => ?_⟩, ⟨fun _ i hi hn => ?_, fun _ => rfl⟩⟩
    · have := (key i).mpr hi; rw [e] at this; cases this
    · have := (key i).mpr ⟨hi, hn⟩; rw [e] at this; cases this
  | some j =>
    have hj := (key j).mp e
    refine ⟨fun i => ⟨?_, fun hi => ?_⟩, ⟨(by intro h; cases h), fun hn => absurd hj.2 (hn j hj.1)⟩⟩
    · intro h; cases h; exact hj
    · have := (key i).mpr hi; rw [e] at this; cases this; rfl

/-- An interface found by its IP address has that address, and one is found if there is one. -/
theorem interface_by_ipaddr_iff (n : NetBase) (v : IPArg) (a : IPAddr) (hv : ipAddress v = .ok a) :
    (∀ i, n.byIp v = .ok i → i ∈ n.interfaces ∧ ∃ p, (⟨a, p⟩ : IPIface) ∈ i.ips) ∧
    ((∃ i ∈ n.interfaces, ∃ p, (⟨a, p⟩ : IPIface) ∈ i.ips) → ∃ i, n.byIp v = .ok i) ∧
    ((∀ i ∈ n.interfaces, ∀ p, (⟨a, p⟩ : IPIface) ∉ i.ips) → n.byIp v = .error .keyError) := by
  have has : ∀ i : Iface, (i.ips.any fun x => x.addr.text = a.text) = true ↔ ∃ p, (⟨a, p⟩ : IPIface) ∈ i.ips := by
    intro i
    rw [List.any_eq_true]
    constructor
    · rintro ⟨⟨b, p⟩, hx, e⟩
      have : b = a := ipText_inj (by simpa using e)
      subst this
      exact ⟨p, hx⟩
    · rintro ⟨p, hp⟩
      exact ⟨_, hp, by simp⟩
  unfold NetBase.byIp
  rw [hv, bind_ok]
  cases e : n.interfaces.find? fun i => i.ips.any fun x => x.addr.text = a.text with
  | none =>
    refine ⟨(by intro i h; cases h), ?_, fun _ => rfl⟩
    rintro ⟨i, hi, hp⟩
    exact absurd ((has i).mpr hp) (by simpa using List.find?_eq_none.mp e i hi)
  | some j =>
    have hj := List.mem_of_find?_eq_some e
    have hp := (has j).mp (by simpa using List.find?_some e)
    refine ⟨?_, fun _ => ⟨j, rfl⟩, fun h => ?_⟩
    · intro i h; cases h; exact ⟨hj, hp⟩
    · obtain ⟨p, hp⟩ := hp; exact absurd hp (h j hj p)

/-- An interface found by its Ethernet address has that address, and one is found if there is one. -/
theorem interface_by_macaddr_iff (n : NetBase) (v : EthArg) (a : EthAddr) (hv : EthAddr.mk' v = .ok a) :
    (∀ i, n.byMac v = .ok i → i ∈ n.interfaces ∧ i.ethaddr = a) ∧
    ((∃ i ∈ n.interfaces, i.ethaddr = a) → ∃ i, n.byMac v = .ok i) ∧
    ((∀ i ∈ n.interfaces, i.ethaddr ≠ a) → n.byMac v = .error .keyError) := by
  have hne : a.raw ≠ [] := by
    unfold EthAddr.mk' at hv
    rw [bind_eq_ok] at hv
    obtain ⟨w, _, h⟩ := hv
    split at h
    · cases h; simp
    · cases h
  unfold NetBase.byMac
  rw [hv, bind_ok]
  generalize n.interfaces = l
  induction l with
  | nil => exact ⟨(by intro i h; cases h), (by rintro ⟨_, h, _⟩; cases h), fun _ => rfl⟩
  | cons j l ih =>
    have he : j.ethaddr.eqArg (.addr a) = .ok (decide (j.ethaddr.raw = a.raw)) := by
      unfold EthAddr.eqArg; rw [EthAddr.mk'_addr hne]; rfl
    have hraw : j.ethaddr.raw = a.raw ↔ j.ethaddr = a := by
      constructor
      · intro h; cases hj : j.ethaddr; cases a; simp_all
      · intro h; rw [h]
    simp only [findMac, he, bind_ok]
    by_cases h : j.ethaddr = a
    · rw [if_pos (by simpa using hraw.mpr h)]
      refine ⟨?_, fun _ => ⟨j, rfl⟩, fun hh => absurd h (hh j List.mem_cons_self)⟩
      intro i hi; cases hi; exact ⟨List.mem_cons_self, h⟩
    · rw [if_neg (by simpa using fun x => h (hraw.mp x))]
      refine ⟨fun i hi => ?_, ?_, fun hh => ih.2.2 fun i hi => hh i (List.mem_cons_of_mem _ hi)⟩
      · obtain ⟨h1, h2⟩ := ih.1 i hi; exact ⟨List.mem_cons_of_mem _ h1, h2⟩
      · rintro ⟨i, hi, hia⟩
        rcases List.mem_cons.mp hi with e | e
        · subst e; exact absurd hia h
        · exact ih.2.1 ⟨i, e, hia⟩

/-- The first interface of the given name that a history brings up. -/
def firstUp (name : List Char) : List NetOp → Option Iface
  | [] => none
  | .up i :: ops => if i.name = name then some i else firstUp name ops
  | _ :: ops => firstUp name ops

/-- An interface is registered from its first `intf_up` on; later ones of the same name change nothing, and
`intf_down` does not unregister. -/
theorem interface_registered_once (n : NetBase) (ops : List NetOp) (name : List Char) :
    (runNet n ops).devinfo.get? name = (n.devinfo.get? name).or (firstUp name ops) := by
  induction ops generalizing n with
  | nil => simp [runNet, firstUp]
  | cons op ops ih =>
    show (runNet (n.apply op) ops).devinfo.get? name = _
    rw [ih]
    cases op with
    | callback c => rfl
    | down nm =>
      simp only [firstUp]
      congr 2
      simp only [NetBase.apply, NetBase.intfDown]
      split
      · rw [notify_devinfo]
      · rfl
    | up i =>
      simp only [firstUp, NetBase.apply, NetBase.intfUp]
      split
      · rename_i j hj
        by_cases h : i.name = name
        · subst h; rw [hj]; rfl
        · rw [if_neg h]
      · rename_i hj
        rw [notify_devinfo, Dict.get?_set]
        by_cases h : i.name = name
        · subst h; rw [if_pos rfl, if_pos rfl, hj]; rfl
        · rw [if_neg h, if_neg h]

/-- The callback is told about exactly the new interfaces coming up and the known ones going down; bringing
up a known one raises `ValueError` and changes nothing. -/
theorem interface_notifications (n : NetBase) :
    (∀ i, (∃ j, n.byName i.name = .ok j) → n.intfUp i = (n, some .valueError)) ∧
    (∀ i, n.byName i.name = .error .keyError → (n.intfUp i).2 = none ∧
      (n.intfUp i).1.notes = n.notes ++ n.callback.toList.map (fun c => ⟨c, i, true⟩)) ∧
    (∀ name i, n.byName name = .ok i → (n.intfDown name).notes = n.notes ++ n.callback.toList.map (fun c => ⟨c, i, false⟩)) ∧
    (∀ name, n.byName name = .error .keyError → n.intfDown name = n) := by
  have hnote : ∀ (m : NetBase) (i : Iface) (u : Bool), (m.notify i u).notes = m.notes ++ m.callback.toList.map (fun c => ⟨c, i, u⟩) := by
    intro m i u; unfold NetBase.notify; cases m.callback <;> simp
  refine ⟨?_, ?_, ?_, ?_⟩
  · rintro i ⟨j, hj⟩
    unfold NetBase.byName at hj
    unfold NetBase.intfUp
    split at hj
    · rfl
    · cases hj
  · intro i hi
    unfold NetBase.byName at hi
    unfold NetBase.intfUp
    split at hi
    · cases hi
    · exact ⟨rfl, hnote _ _ _⟩
  · intro name i hi
    unfold NetBase.byName at hi
    unfold NetBase.intfDown
    split at hi
    · cases hi; exact hnote _ _ _
    · cases hi
  · intro name hi
    unfold NetBase.byName at hi
    unfold NetBase.intfDown
    split at hi
    · cases hi
    · rfl

/-- Two interfaces as in the examples below. -/
def exIf (name : String) (m : UInt8) (ip : BitVec 32) : Iface := ⟨name.toList, ⟨[0, 0, 0, 0, 0, m]⟩, [⟨.v4 ip, 24⟩], m.toNat, .wired⟩

example : let n := runNet ⟨none, [], []⟩ [.callback (some 7), .up (exIf "eth0" 1 1), .up (exIf "eth1" 2 2), .up (exIf "eth0" 3 3), .down "eth1".toList]
    n.interfaces = [exIf "eth0" 1 1, exIf "eth1" 2 2] ∧ n.notes = [⟨7, exIf "eth0" 1 1, true⟩, ⟨7, exIf "eth1" 2 2, true⟩, ⟨7, exIf "eth1" 2 2, false⟩] ∧
    n.byIp (.int 2) = .ok (exIf "eth1" 2 2) ∧ n.byMac (.text "00:00:00:00:00:01".toList) = .ok (exIf "eth0" 1 1) := by
  decide +kernel

/-! ## C70: interface numbers -/

/-- Numbers asked for, by creating interfaces or by assignment: `some v` explicitly, `none` automatically. -/
def autoNums (next : Int) : List (Option Int) → List Int
  | [] => []
  | some v :: rs => autoNums (takeIfnum next (some v)).1 rs
  | none :: rs => (takeIfnum next none).2 :: autoNums (takeIfnum next none).1 rs

theorem autoNums_ge (next : Int) (rs : List (Option Int)) : ∀ v ∈ autoNums next rs, next ≤ v := by
  induction rs generalizing next with
  | nil => intro v h; cases h
  | cons r rs ih =>
    cases r with
    | some w => exact ih next
    | none =>
      intro v hv
      simp only [autoNums, takeIfnum, List.mem_cons] at hv
      rcases hv with rfl | hv
      · omega
      · have := ih _ v hv; omega

/-- Automatic numbers are pairwise different, however they are mixed with explicit ones. -/
theorem auto_ifnums_distinct (next : Int) (rs : List (Option Int)) : (autoNums next rs).Nodup := by
  induction rs generalizing next with
  | nil => exact List.nodup_nil
  | cons r rs ih =>
    cases r with
    | some w => exact ih next
    | none =>
      simp only [autoNums, takeIfnum, List.nodup_cons]
      refine ⟨fun h => ?_, ih _⟩
      have := autoNums_ge _ _ _ h
      omega

/-- An interface carries the number it was given; creation fails only for a bad Ethernet address and then
takes no number. -/
theorem iface_new_number (next : Int) (name : List Char) (eth : EthArg) (num : Option Int) (ty : IfType) :
    (∀ a, ifaceEth eth = .ok a → Iface.new next name eth num ty =
      .ok ((takeIfnum next num).1, ⟨name, a, [], (takeIfnum next num).2, ty⟩)) ∧
    (∀ v, (takeIfnum next (some v)) = (next, v)) ∧
    (∀ e, ifaceEth eth = .error e → Iface.new next name eth num ty = .error e) := by
  refine ⟨?_, fun _ => rfl, ?_⟩
  · intro a h; unfold Iface.new; rw [h]; rfl
  · intro e h; unfold Iface.new; rw [h]; rfl

/-- Lookup by number finds the name of an interface with that number, if there is one. -/
theorem lookup_ifnum (n : NetBase) (num : Int) :
    (∀ name, n.lookupDevname num = .ok name → ∃ i, (name, i) ∈ n.devinfo ∧ i.ifnum = num) ∧
    ((∃ i ∈ n.interfaces, i.ifnum = num) ↔ ∃ name, n.lookupDevname num = .ok name) := by
  unfold NetBase.lookupDevname
  cases e : n.devinfo.find? (fun x => x.2.ifnum = num) with
  | none =>
    refine ⟨(by intro _ h; cases h), ⟨?_, (by rintro ⟨_, h⟩; cases h)⟩⟩
    rintro ⟨i, hi, hn⟩
    obtain ⟨x, hx, rfl⟩ := List.mem_map.mp hi
    exact absurd hn (by simpa using List.find?_eq_none.mp e x hx)
  | some x =>
    have hx := List.mem_of_find?_eq_some e
    have hn : x.2.ifnum = num := by simpa using List.find?_some e
    refine ⟨?_, ⟨fun _ => ⟨_, rfl⟩, fun _ => ⟨x.2, List.mem_map.mpr ⟨x, hx, rfl⟩, hn⟩⟩⟩
    intro name h; cases h; exact ⟨x.2, hx, hn⟩

/-- Mixing explicit and automatic numbers can give two interfaces the same number. -/
theorem ifnum_mixed_violated : ∃ a b, Iface.new 1 ['a'] .none (some 1) .unknown = .ok a ∧
    Iface.new a.1 ['b'] .none none .unknown = .ok b ∧ a.2.ifnum = b.2.ifnum :=
  ⟨(1, ⟨['a'], .any, [], 1, .unknown⟩), (2, ⟨['b'], .any, [], 1, .unknown⟩), by decide +kernel, by decide +kernel, rfl⟩

/-! ## C71: device selection -/

/-- Exactly which devices are used. -/
theorem device_list_iff (pcap : List PcapDev) (real : List Char → Bool) (includes excludes : List (List Char)) (d : List Char) :
    d ∈ makeDeviceList pcap real includes excludes ↔
      (∃ p ∈ pcap, p.name = d ∧ (p.isloop = true → d ∈ includes)) ∧ real d = true ∧ d ∉ excludes ∧
      ((∃ p ∈ pcap, p.name ∈ includes) → d ∈ includes) := by
  have devs : ∀ d, d ∈ (pcap.filter fun d => !d.isloop || includes.contains d.name).map PcapDev.name ↔
      ∃ p ∈ pcap, p.name = d ∧ (p.isloop = true → d ∈ includes) := by
    intro d
    simp only [List.mem_map, List.mem_filter, Bool.or_eq_true, Bool.not_eq_true', List.contains_iff_mem]
    constructor
    · rintro ⟨p, ⟨hp, h⟩, rfl⟩
      exact ⟨p, hp, rfl, fun hl => h.resolve_left (by simp [hl])⟩
    · rintro ⟨p, hp, rfl, h⟩
      refine ⟨p, ⟨hp, ?_⟩, rfl⟩
      cases hl : p.isloop with
      | false => exact .inl rfl
      | true => exact .inr (h hl)
  unfold makeDeviceList
  simp only
  by_cases hinc : (includes.filter fun d => ((pcap.filter fun d => !d.isloop || includes.contains d.name).map PcapDev.name).contains d) = []
  · rw [if_pos hinc]
    have hno : ¬ ∃ p ∈ pcap, p.name ∈ includes := by
      rintro ⟨p, hp, hi⟩
      have := List.filter_eq_nil_iff.mp hinc p.name hi
      rw [List.contains_iff_mem, devs] at this
      exact this ⟨p, hp, rfl, fun _ => hi⟩
    simp only [List.mem_filter, devs, Bool.not_eq_true', List.contains_eq_mem, decide_eq_false_iff_not]
    grind
  · rw [if_neg hinc]
    obtain ⟨e, he⟩ := List.exists_mem_of_ne_nil _ hinc
    rw [List.mem_filter, List.contains_iff_mem, devs] at he
    obtain ⟨hei, p, hp, rfl, _⟩ := he
    simp only [List.mem_filter, List.contains_iff_mem, devs, Bool.not_eq_true', List.contains_eq_mem, decide_eq_false_iff_not,
      decide_eq_true_eq]
    grind

example : makeDeviceList [⟨"lo".toList, true⟩, ⟨"eth0".toList, false⟩, ⟨"usb".toList, false⟩, ⟨"eth1".toList, false⟩] (fun d => d ≠ "usb".toList)
    ["lo".toList, "eth1".toList] ["eth0".toList] = ["lo".toList, "eth1".toList] := by decide +kernel

/-- Naming only devices that do not exist selects every device. -/
theorem device_list_missing_violated : makeDeviceList [⟨"eth0".toList, false⟩, ⟨"eth1".toList, false⟩] (fun _ => true)
    ["eth7".toList] [] = ["eth0".toList, "eth1".toList] := by decide +kernel

/-! ## C94: the addresses of an interface -/

/-- Assigning adds exactly the given address; what is not an address raises and changes nothing. -/
theorem assign_ipaddr_mem (i : Iface) (v : IPIfArg) :
    (∀ x, assignedIp v = .ok x → (i.assignIp v).2 = none ∧ ∀ y, y ∈ (i.assignIp v).1.ips ↔ y ∈ i.ips ∨ y = x) ∧
    (∀ e, assignedIp v = .error e → i.assignIp v = (i, some e)) := by
  unfold Iface.assignIp
  refine ⟨fun x hx => ?_, fun e he => by rw [he]⟩
  rw [hx]
  refine ⟨rfl, fun y => ?_⟩
  simp only [Iface.addIp]
  split
  · rename_i h
    exact ⟨.inl, fun h' => h'.elim id fun e => e ▸ h⟩
  · simp

/-- What can be done with the addresses of an interface. -/
inductive IpOp
  | assign (v : IPIfArg)
  | remove (v : IPIfArg)

def _root_.SY.Iface.applyIp (i : Iface) : IpOp → Iface
  | .assign v => (i.assignIp v).1
  | .remove v => (i.removeIpaddr v).1

theorem removeIp_spec (a : IPAddr) (l : List IPIface) :
    (∀ l', removeIp a l = some l' → ∃ p x q, l = p ++ x :: q ∧ l' = p ++ q ∧ x.addr = a) ∧
    (removeIp a l = none ↔ ∀ x ∈ l, x.addr ≠ a) := by
  induction l with
  | nil => simp [removeIp]
  | cons y l ih =>
    simp only [removeIp]
    by_cases h : y.addr = a
    · rw [if_pos h]
      refine ⟨fun l' e => ?_, ⟨(by intro e; cases e), fun hh => absurd h (hh y List.mem_cons_self)⟩⟩
      cases e; exact ⟨[], y, l, rfl, rfl, h⟩
    · rw [if_neg h]
      refine ⟨fun l' e => ?_, ?_⟩
      · cases hr : removeIp a l with
        | none => rw [hr] at e; cases e
        | some m =>
          rw [hr] at e; cases e
          obtain ⟨p, x, q, h1, h2, h3⟩ := ih.1 m hr
          exact ⟨y :: p, x, q, by rw [h1]; rfl, by rw [h2]; rfl, h3⟩
      · rw [Option.map_eq_none_iff, ih.2]
        simp [h]

/-- The addresses stay a set. -/
theorem iface_ips_nodup (i : Iface) (ops : List IpOp) (h : i.ips.Nodup) : (ops.foldl Iface.applyIp i).ips.Nodup := by
  induction ops generalizing i with
  | nil => exact h
  | cons op ops ih =>
    apply ih
    cases op with
    | assign v =>
      simp only [Iface.applyIp, Iface.assignIp]
      split
      · simp only [Iface.addIp]
        split
        · exact h
        · rename_i hx
          rw [List.nodup_append]
          refine ⟨h, by simp, ?_⟩
          intro a ha b hb e
          simp at hb
          exact hx (by rw [← hb, ← e]; exact ha)
      · exact h
    | remove v =>
      simp only [Iface.applyIp, Iface.removeIpaddr]
      split
      · exact h
      · split
        · rename_i hr
          obtain ⟨p, x, q, h1, h2, _⟩ := (removeIp_spec _ _).1 _ hr
          rw [h1] at h
          simp only [h2]
          exact h.sublist (List.Sublist.append_left (List.sublist_cons_self x q) p)
        · exact h

/-- Removing takes away exactly one address, which has the given IP; if there is none it raises and changes
nothing. -/
theorem remove_ipaddr_spec (i : Iface) (v : IPIfArg) (x : IPIface) (hv : ipInterface v = .ok x) (hn : i.ips.Nodup) :
    ((∃ y ∈ i.ips, y.addr = x.addr) → (i.removeIpaddr v).2 = none ∧
      ∃ y, y ∈ i.ips ∧ y.addr = x.addr ∧ ∀ z, z ∈ (i.removeIpaddr v).1.ips ↔ z ∈ i.ips ∧ z ≠ y) ∧
    ((∀ y ∈ i.ips, y.addr ≠ x.addr) → i.removeIpaddr v = (i, some .generic)) := by
  have hs := removeIp_spec x.addr i.ips
  unfold Iface.removeIpaddr
  rw [hv]
  simp only
  cases hr : removeIp x.addr i.ips with
  | none =>
    have := hs.2.mp hr
    exact ⟨(by rintro ⟨y, hy, e⟩; exact absurd e (this y hy)), fun _ => rfl⟩
  | some l' =>
    obtain ⟨p, y, q, h1, h2, h3⟩ := hs.1 l' hr
    refine ⟨fun _ => ⟨rfl, y, by rw [h1]; simp, h3, fun z => ?_⟩, fun h => ?_⟩
    · rw [h1] at hn ⊢
      simp only [h2]
      rw [List.nodup_append] at hn
      simp only [List.nodup_cons, List.mem_cons, List.mem_append] at hn ⊢
      grind
    · have := hs.2.mpr h; rw [hr] at this; cases this

example : let i : Iface := exIf "eth0" 1 1
    (i.assignIp (.text "10.0.0.1/8".toList)).1.ips = [⟨.v4 1, 24⟩, ⟨.v4 0x0a000001#32, 8⟩] ∧
    ((i.assignIp (.text "10.0.0.1/8".toList)).1.removeIpaddr (.text "10.0.0.1".toList)).1 = i ∧
    (i.removeIpaddr (.text "10.0.0.1".toList)).2 = some .generic := by decide +kernel

/-- False of the code: with two addresses that differ only in the prefix length, removing one of them can
remove the other. -/
theorem remove_ipaddr_violated : ∃ i : Iface, i.ips = [⟨.v4 1, 8⟩, ⟨.v4 1, 24⟩] ∧
    (i.removeIpaddr (.iface ⟨.v4 1, 24⟩)).1.ips = [⟨.v4 1, 24⟩] :=
  ⟨⟨['a'], .any, [⟨.v4 1, 8⟩, ⟨.v4 1, 24⟩], 1, .unknown⟩, by decide +kernel, by decide +kernel⟩

/-! ## C73: arguments of user code -/

/-- A word: not empty and without white space. -/
def IsWord (w : List Char) : Prop := w ≠ [] ∧ ∀ c ∈ w, isSpace c = false

/-- The text made of the given words with the given white space before each, and `last` at the end. -/
def spaced (last : List Char) : List (List Char × List Char) → List Char
  | [] => last
  | x :: xs => x.1 ++ x.2 ++ spaced last xs

theorem splitWords_space (cur sp s : List Char) (h : ∀ c ∈ sp, isSpace c = true) (hne : sp ≠ [] ∨ cur = []) :
    splitWords cur (sp ++ s) = (if cur = [] then [] else [cur.reverse]) ++ splitWords [] s := by
  induction sp generalizing cur with
  | nil =>
    have : cur = [] := hne.resolve_left (by simp)
    simp [this]
  | cons c sp ih =>
    have hc := h c List.mem_cons_self
    have := ih [] (fun x hx => h x (List.mem_cons_of_mem _ hx)) (.inr rfl)
    simp only [List.cons_append, splitWords, hc, if_true]
    rw [this]
    by_cases h0 : cur = [] <;> simp [h0]

theorem splitWords_word (cur w s : List Char) (h : ∀ c ∈ w, isSpace c = false) :
    splitWords cur (w ++ s) = splitWords (w.reverse ++ cur) s := by
  induction w generalizing cur with
  | nil => rfl
  | cons c w ih =>
    have hc := h c List.mem_cons_self
    simp only [List.cons_append, splitWords, hc, Bool.false_eq_true, if_false]
    rw [ih _ fun x hx => h x (List.mem_cons_of_mem _ hx)]
    simp

/-- Splitting finds exactly the words, whatever white space is between them. -/
theorem splitWords_spaced (last : List Char) (xs : List (List Char × List Char)) (hl : ∀ c ∈ last, isSpace c = true)
    (hs : ∀ x ∈ xs, ∀ c ∈ x.1, isSpace c = true) (hw : ∀ x ∈ xs, IsWord x.2) (hne : ∀ x ∈ xs.tail, x.1 ≠ []) :
    splitWords [] (spaced last xs) = xs.map Prod.snd := by
  have main : ∀ (cur : List Char) (xs : List (List Char × List Char)), (∀ x ∈ xs, ∀ c ∈ x.1, isSpace c = true) →
      (∀ x ∈ xs, IsWord x.2) → (∀ x ∈ xs.tail, x.1 ≠ []) → (cur = [] ∨ ∀ x ∈ xs.head?, x.1 ≠ []) →
      splitWords cur (spaced last xs) = (if cur = [] then [] else [cur.reverse]) ++ xs.map Prod.snd := by
    intro cur xs
    induction xs generalizing cur with
    | nil =>
      intro _ _ _ _
      simp only [spaced]
      cases hlast : last with
      | nil => simp [splitWords]
      | cons c l =>
        have := splitWords_space cur last [] hl (.inl (by simp [hlast]))
        rw [List.append_nil, hlast] at this
        rw [this]; simp [splitWords]
    | cons x xs ih =>
      intro hs hw hne hcur
      obtain ⟨sp, w⟩ := x
      simp only [spaced, List.append_assoc]
      have hw0 := hw _ List.mem_cons_self
      rw [splitWords_space cur sp _ (hs _ List.mem_cons_self)
        (by rcases hcur with h | h
            · exact .inr h
            · exact .inl (h (sp, w) rfl)), splitWords_word [] w _ hw0.2,
        ih (w.reverse ++ []) (fun x hx => hs x (List.mem_cons_of_mem _ hx)) (fun x hx => hw x (List.mem_cons_of_mem _ hx))
          (fun x hx => hne x (List.mem_of_mem_tail hx)) (.inr fun x hx => hne x (List.mem_of_mem_head? hx))]
      simp [hw0.1]
  have := main [] xs hs hw hne (.inl rfl)
  simpa using this

/-- The last value given for a keyword. -/
def lastKw (k : List Char) (ws : List (List Char)) : Option (List Char) :=
  (ws.filterMap fun w => match splitChar '=' w with | [k', v] => if k' = k then some v else none | _ => none).getLast?

theorem parseWords_ok (ws : List (List Char)) (h : ∀ w ∈ ws, countChar '=' w ≤ 1) (c : CodeArgs) :
    ∃ r, parseWords c ws = .ok r ∧ r.args = c.args ++ ws.filter (fun w => '=' ∉ w) ∧
      ∀ k, r.kwargs.get? k = (lastKw k ws).or (c.kwargs.get? k) := by
  induction ws generalizing c with
  | nil => exact ⟨c, rfl, by simp, fun k => by simp [lastKw]⟩
  | cons w ws ih =>
    have hw := h w List.mem_cons_self
    have hlen := length_splitChar '=' w
    simp only [parseWords, CodeArgs.add]
    by_cases hm : '=' ∈ w
    · have hpos : 0 < countChar '=' w := by
        unfold countChar
        exact List.length_pos_iff.mpr (List.ne_nil_of_mem (List.mem_filter.mpr ⟨hm, by simp⟩))
      match hsp : splitChar '=' w, (by omega : (splitChar '=' w).length = 2) with
      | [k, v], _ =>
        rw [if_pos hm]
        simp only [bind_ok]
        obtain ⟨r, h1, h2, h3⟩ := ih (fun x hx => h x (List.mem_cons_of_mem _ hx)) { c with kwargs := c.kwargs.set k v }
        refine ⟨r, h1, ?_, fun k' => ?_⟩
        · rw [h2, List.filter_cons_of_neg (by simpa using hm)]
        · rw [h3, Dict.get?_set]
          unfold lastKw
          by_cases hk : k = k'
          · rw [List.filterMap_cons_some (b := v) (by rw [hsp]; simp [hk]), if_pos hk, List.getLast?_cons]
            cases (List.filterMap _ ws).getLast? <;> rfl
          · rw [List.filterMap_cons_none (by rw [hsp]; simp [hk]), if_neg hk]
    · rw [if_neg hm]
      simp only [bind_ok]
      obtain ⟨r, h1, h2, h3⟩ := ih (fun x hx => h x (List.mem_cons_of_mem _ hx)) { c with args := c.args ++ [w] }
      refine ⟨r, h1, ?_, fun k' => ?_⟩
      · rw [h2, List.filter_cons_of_pos (by simpa using hm)]; simp
      · rw [h3]
        unfold lastKw
        rw [List.filterMap_cons_none (by rw [splitChar_nosep _ _ hm])]

/-- If no word has more than one `=`: the words without one are the positional arguments, in order, and
each keyword has the last value given for it. -/
theorem codeargs_partial (last : List Char) (xs : List (List Char × List Char)) (hl : ∀ c ∈ last, isSpace c = true)
    (hs : ∀ x ∈ xs, ∀ c ∈ x.1, isSpace c = true) (hw : ∀ x ∈ xs, IsWord x.2) (hne : ∀ x ∈ xs.tail, x.1 ≠ [])
    (h1 : ∀ x ∈ xs, countChar '=' x.2 ≤ 1) :
    ∃ r, parseCodeargs (some (spaced last xs)) = .ok r ∧ r.args = (xs.map Prod.snd).filter (fun w => '=' ∉ w) ∧
      ∀ k, r.kwargs.get? k = lastKw k (xs.map Prod.snd) := by
  unfold parseCodeargs
  simp only
  rw [splitWords_spaced last xs hl hs hw hne]
  obtain ⟨r, e1, e2, e3⟩ := parseWords_ok (xs.map Prod.snd) (by
    intro w hw; obtain ⟨x, hx, rfl⟩ := List.mem_map.mp hw; exact h1 x hx) ⟨[], []⟩
  exact ⟨r, e1, by simpa using e2, fun k => by rw [e3]; simp⟩

example : parseCodeargs (some "  in k=1  out k=2".toList) = .ok ⟨["in".toList, "out".toList], [("k".toList, "2".toList)]⟩ ∧
    spaced [] [("  ".toList, "in".toList), (" ".toList, "k=1".toList), ("  ".toList, "out".toList), (" ".toList, "k=2".toList)] =
      "  in k=1  out k=2".toList := by decide +kernel

/-- False of the code: a value with `=` in it raises `ValueError`. -/
theorem codeargs_violated : parseCodeargs (some "url=http://h/?q=1".toList) = .error .valueError := by decide +kernel

/-- Python accepts this call of a function with this signature: not too many positional arguments, no keyword that is
unknown or names a parameter already given, and no parameter without a value. -/
def Accepts (f : Signature) (c : UserCall) : Prop :=
  (1 + c.args.length ≤ f.params.length ∨ f.star = true) ∧
  (∀ k ∈ c.kwargs.keys, (k ∈ f.params → k ∉ f.params.take (1 + c.args.length)) ∧
    (k ∉ f.params → k ∉ f.kwonly.map Prod.fst → f.kw = true)) ∧
  (∀ p ∈ (f.params.take (f.params.length - f.defaults)).drop (1 + c.args.length), p ∈ c.kwargs.keys) ∧
  (∀ q ∈ f.kwonly, q.2 = false → q.1 ∈ c.kwargs.keys)

/-- User code whose parameters after the first have defaults, and no parameter named like a keyword given,
is called in a way it accepts; with everything given if it has `*args` and `**kwargs`.  What cannot be
passed is warned about. -/
theorem usercode_call_partial (f : Signature) (c : CodeArgs) (h1 : 1 ≤ f.params.length) (hd : f.params.length ≤ f.defaults + 1)
    (ho : ∀ q ∈ f.kwonly, q.2 = true) (hk : ∀ k ∈ c.kwargs.keys, k ∉ f.params) :
    ∃ call, (startUsercode f c).1 = .ok call ∧ Accepts f call ∧
      call.args = (if f.star then c.args else []) ∧ call.kwargs = (if f.kw then c.kwargs else []) ∧
      ((startUsercode f c).2 = 0 ↔ call.args = c.args ∧ call.kwargs = c.kwargs) := by
  have hdrop : ∀ n, (f.params.take (f.params.length - f.defaults)).drop (1 + n) = [] := by
    intro n; rw [List.drop_eq_nil_iff, List.length_take]; omega
  have hq : ∀ q ∈ f.kwonly, q.2 = false → ∀ P : Prop, P := by
    intro q hq h; rw [ho q hq] at h; cases h
  unfold startUsercode Accepts
  rw [if_neg (by omega)]
  simp only [hdrop]
  cases f.star <;> cases f.kw <;> simp [hk, Dict.keys] <;> grind [Dict.keys]

/-- User code is started in a way it accepts exactly if it takes the network object, every parameter without default
beyond that gets a value, and no keyword names a parameter that has one already.  Positional arguments count only for code
with `*args` and keywords only for code with `**kwargs`, even if it has parameters for them. -/
theorem usercode_starts_iff (f : Signature) (c : CodeArgs) :
    (∃ call, (startUsercode f c).1 = .ok call ∧ Accepts f call) ↔
      f.params ≠ [] ∧
      (f.kw = true → ∀ k ∈ c.kwargs.keys, k ∉ f.params.take (1 + if f.star then c.args.length else 0)) ∧
      (∀ p ∈ (f.params.take (f.params.length - f.defaults)).drop (1 + if f.star then c.args.length else 0),
        f.kw = true ∧ p ∈ c.kwargs.keys) ∧
      (∀ q ∈ f.kwonly, q.2 = false → f.kw = true ∧ q.1 ∈ c.kwargs.keys) := by
  have ht : ∀ k n, k ∈ f.params.take n → k ∈ f.params := fun k n h => List.mem_of_mem_take h
  unfold startUsercode Accepts
  by_cases h0 : f.params = []
  · simp [h0]
  · have h1 : ¬ f.params.length < 1 := by
      have := List.length_pos_iff.2 h0; omega
    rw [if_neg h1]
    cases f.star <;> cases f.kw <;> simp [h0, Dict.keys] <;> grind [Dict.keys]

/-- Code that does not take the network object is not called. -/
theorem usercode_no_params (f : Signature) (c : CodeArgs) (h : f.params = []) : (startUsercode f c).1 = .error .runtimeError := by
  simp [startUsercode, h]

example : startUsercode ⟨["net".toList, "n".toList], 1, [], false, false⟩ ⟨["5".toList], []⟩ = (.ok ⟨[], []⟩, 1) := by decide +kernel

example : ∃ call, (startUsercode ⟨["net".toList], 0, [("n".toList, false)], false, true⟩ ⟨["5".toList], [("n".toList, "3".toList)]⟩).1 = .ok call ∧
    Accepts ⟨["net".toList], 0, [("n".toList, false)], false, true⟩ call :=
  (usercode_starts_iff _ _).2 (by decide +kernel)

/-- False of the code: an entry function with a second parameter is called without the argument that was
given for it, which it does not accept although it would accept it with the argument. -/
theorem usercode_call_violated : ∃ (f : Signature) (c : CodeArgs) (call : UserCall),
    (startUsercode f c).1 = .ok call ∧ ¬ Accepts f call ∧ Accepts f ⟨c.args, c.kwargs⟩ :=
  ⟨⟨["net".toList, "n".toList], 0, [], false, false⟩, ⟨["5".toList], []⟩, ⟨[], []⟩, by decide +kernel,
    by unfold Accepts; decide +kernel, by unfold Accepts; decide +kernel⟩

end SY.Props
