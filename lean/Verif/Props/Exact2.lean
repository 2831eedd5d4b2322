import Verif.Props.Exact
import Verif.TopoSave
import Verif.SimCli
import Verif.Live
import Verif.Icmpv6

/-! # Exact results of setters, commands and saved forms -/

namespace SY.Props

open SY

/-! ## C111: the prefix of a prefix information option -/

/-- **C111**: assigning a prefix succeeds exactly for lengths up to 128 and keeps exactly the bits of the address that
belong to the prefix; everything else in the option stays. -/
theorem setPrefix_exact (l a : Bool) (v p : Int) (n : BitVec 128) (k : Nat) (addr : BitVec 128) (plen : Int) :
    (0 ≤ plen ∧ plen ≤ 128 →
      ∃ m : BitVec 128, (NDOpt.pfx l a v p n k).setPrefix addr plen = .ok (.pfx l a v p m plen.toNat) ∧
        ∀ i : Nat, i < 128 → m.getLsbD i = (decide (128 - plen.toNat ≤ i) && addr.getLsbD i)) ∧
    (¬ (0 ≤ plen ∧ plen ≤ 128) → (NDOpt.pfx l a v p n k).setPrefix addr plen = .error .valueError) := by
  refine ⟨fun h => ?_, fun h => ?_⟩
  · simp only [NDOpt.setPrefix, ipv6Network]
    rw [if_pos h]
    have bit : ∀ (x : BitVec 128), (∀ i : Nat, i < 128 → x.getLsbD i = x.toNat.testBit i) := fun x i _ => rfl
    split
    · rename_i h0
      refine ⟨addr, rfl, fun i hi => ?_⟩
      by_cases hk : 128 - plen.toNat ≤ i
      · simp [hk]
      · have : addr.getLsbD i = (addr.toNat % 2 ^ (128 - plen.toNat)).testBit i := by
          rw [Nat.testBit_mod_two_pow, bit _ i hi, decide_eq_true (show i < 128 - plen.toNat by omega), Bool.true_and]
        rw [this, h0]
        simp [hk]
    · refine ⟨_, rfl, fun i hi => ?_⟩
      have hdiv : addr.toNat - addr.toNat % 2 ^ (128 - plen.toNat) = addr.toNat / 2 ^ (128 - plen.toNat) * 2 ^ (128 - plen.toNat) := by
        have := Nat.div_add_mod addr.toNat (2 ^ (128 - plen.toNat))
        rw [Nat.mul_comm] at this
        omega
      rw [BitVec.getLsbD_ofNat, hdiv, Nat.mul_comm, Nat.testBit_two_pow_mul, Nat.testBit_div_two_pow]
      by_cases hk : 128 - plen.toNat ≤ i
      · rw [decide_eq_true hk, decide_eq_true hi, Nat.sub_add_cancel hk, bit _ i hi]; rfl
      · simp [hk]
  · simp only [NDOpt.setPrefix, ipv6Network]
    rw [if_neg h]; rfl

example : ∃ m, NDOpt.defaultPrefix.setPrefix 0x20010db8000000000000000000000123 64 = .ok m ∧
    m = .pfx true true 25920000 604800 0x20010db8000000000000000000000000 64 := ⟨_, rfl, by decide⟩

/-! ## C18: what the setters raise -/

/-- **C18**: an integer out of range raises `ValueError`. -/
theorem ipv4_setters_error (h : IPv4) (v : Int) :
    (¬ (0 ≤ v ∧ v ≤ 255) → h.setTtl v = .error .valueError ∧ h.setTos v = .error .valueError) ∧
    (¬ (0 ≤ v ∧ v ≤ 65535) → h.setIpid v = .error .valueError) ∧
    (¬ (0 ≤ v ∧ v ≤ 8191) → h.setFrag v = .error .valueError) ∧
    (¬ (0 ≤ v ∧ v ≤ 63) → h.setDscp v = .error .valueError) ∧
    (¬ (0 ≤ v ∧ v ≤ 3) → h.setEcn v = .error .valueError) := by
  refine ⟨fun hv => ⟨if_neg (by omega), if_neg (by omega)⟩, fun hv => if_neg (by omega), fun hv => if_neg (by omega),
    fun hv => if_neg (by omega), fun hv => if_neg (by omega)⟩

/-! ## C140, C141: removing -/

/-- **C141**: `remove link` with other than two names complains and changes nothing; so does `remove node` with other
than one. -/
theorem remove_usage {α : Type} (c : Cli α) (ws : List Name) :
    (ws.length ≠ 2 → c.removeLinkCmd ws = (c, .done true)) ∧ (ws.length ≠ 1 → c.removeNodeCmd ws = (c, .done true)) := by
  refine ⟨fun h => ?_, fun h => ?_⟩
  · match ws with
    | [] | [_] | _ :: _ :: _ :: _ => rfl
    | [_, _] => exact absurd rfl h
  · match ws with
    | [] | _ :: _ :: _ => rfl
    | [_] => exact absurd rfl h

/-! ## C126: the saved form of a link -/

/-- **C126**: in the saved form of a link its ends are found under the keys `source` and `target`, and every other
attribute under its own name. -/
theorem saved_link_keys (e : Edge) :
    e.saved.get? "source".toList = some (.ifname e.a) ∧ e.saved.get? "target".toList = some (.ifname e.b) ∧
    ∀ k, k ≠ "source".toList → k ≠ "target".toList → e.saved.get? k = e.attrs.get? k := by
  have h1 : ("source".toList : Name) ≠ "target".toList := by decide
  unfold Edge.saved
  refine ⟨?_, ?_, fun k hs ht => ?_⟩
  · rw [Dict.get?_set, if_neg (by exact h1.symm), Dict.get?_set, if_pos (show sourceKey = "source".toList from rfl)]
  · rw [Dict.get?_set, if_pos (show targetKey = "target".toList from rfl)]
  · rw [Dict.get?_set, if_neg (by exact ht.symm), Dict.get?_set, if_neg (by exact hs.symm)]

/-! ## C96: interfaces of devices -/

/-- **C96**: a device for which no link address is reported gets the all-zero address. -/
theorem assemble_mac_default (dev : List Char) (n : Int) (ty : IfType) (l : List AddrInfo) (h : ∀ t, AddrInfo.link t ∉ l) :
    ∃ i, assembleIntf dev n ty l = .ok i ∧ i.ethaddr.raw = [0, 0, 0, 0, 0, 0] ∧ i.name = dev ∧ i.ifnum = n := by
  have hm : ∀ (m : EthAddr) (l : List AddrInfo), (∀ t, AddrInfo.link t ∉ l) → assembleMac m l = .ok m := by
    intro m l hl
    induction l with
    | nil => rfl
    | cons x l ih =>
      have := ih fun t ht => hl t (List.mem_cons_of_mem _ ht)
      cases x with
      | link t => exact absurd List.mem_cons_self (hl t)
      | inet => exact this
      | inet6 => exact this
  have hf : ∀ (as : List IPIface) (i : Iface), (as.foldl Iface.addIp i).ethaddr = i.ethaddr ∧ (as.foldl Iface.addIp i).name = i.name ∧
      (as.foldl Iface.addIp i).ifnum = i.ifnum := by
    intro as
    induction as with
    | nil => intro i; exact ⟨rfl, rfl, rfl⟩
    | cons a as ih =>
      intro i
      obtain ⟨h1, h2, h3⟩ := ih (i.addIp a)
      have : (i.addIp a).ethaddr = i.ethaddr ∧ (i.addIp a).name = i.name ∧ (i.addIp a).ifnum = i.ifnum := by
        unfold Iface.addIp; split <;> exact ⟨rfl, rfl, rfl⟩
      exact ⟨h1.trans this.1, h2.trans this.2.1, h3.trans this.2.2⟩
  unfold assembleIntf
  rw [hm _ _ h, bind_ok]
  obtain ⟨f1, f2, f3⟩ := hf (assembleAddrs l) ⟨dev, ⟨List.replicate 6 0⟩, [], n, ty⟩
  exact ⟨_, rfl, by rw [f1]; rfl, f2, f3⟩

example : (∀ t, AddrInfo.link t ∉ [AddrInfo.inet 0x0a000001 0]) := by simp

end SY.Props
