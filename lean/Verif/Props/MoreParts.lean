import Verif.Props.Start
import Verif.Props.IPv6
import Verif.Props.Rip
import Verif.Props.NetBase
import Verif.Props.Scenario
import Verif.Props.OptApi
import Verif.Props.IntText

/-! # Further parts of C32 (padding of extension headers), C37 (equality of RIPv2 messages), C70 (numbers assigned later),
C146 (several scenario files), C90 (time limits set on a scenario) -/

namespace SY.Props

/-! ## Padding -/

theorem mkPadN_wire {k : Nat} (h : 2 ≤ k) : (TLV.mkPadN k).wireLen = k := by
  simp only [TLV.mkPadN, TLV.wireLen]; omega

/-- `PadN(k)` takes `k` bytes: added to options of any total length it makes a header of a multiple of eight bytes that
survives, with all its options. -/
theorem hop_padded (n : Nat) (hn : n ∈ ipProtocols) (os : List TLV) (hw : ∀ o ∈ os, o.WF) (k : Nat) (hk : 2 ≤ k) (hk' : k < 258)
    (h8 : ((os.map TLV.wireLen).sum + k + 2) % 8 = 0) (hmax : (os.map TLV.wireLen).sum + k + 2 ≤ 2048) :
    ∃ b, ((HopOpt.mk (some n) os).addOption (.mkPadN k)).toBytes = .ok b ∧ b.length = (os.map TLV.wireLen).sum + k + 2 ∧
      ∀ payload, HopOpt.fromBytes (b ++ payload) = .ok (⟨some n, os ++ [.padN ((k : Int) - 2)]⟩, payload) := by
  have hs : ((os ++ [TLV.mkPadN k]).map TLV.wireLen).sum = (os.map TLV.wireLen).sum + k := by
    simp [mkPadN_wire hk]
  obtain ⟨b, h1, h2, _, h4⟩ := hop_roundtrip_partial n hn (os ++ [.mkPadN k])
    (by
      intro o ho
      rcases List.mem_append.mp ho with ho | ho
      · exact hw o ho
      · rw [List.mem_singleton.mp ho]; simp only [TLV.mkPadN, TLV.WF]; omega)
    (by rw [hs]; exact h8) (by rw [hs]; exact hmax)
  exact ⟨b, h1, by rw [h2, hs], h4⟩

/-- Every list of options that leaves room for it can be padded, by at most one option, to a header that survives. -/
theorem hop_fill (n : Nat) (hn : n ∈ ipProtocols) (os : List TLV) (hw : ∀ o ∈ os, o.WF) (hmax : (os.map TLV.wireLen).sum + 2 ≤ 2040) :
    ∃ pad : List TLV, pad.length ≤ 1 ∧ (∀ o ∈ pad, o = .pad1 ∨ ∃ k : Nat, o = .mkPadN k ∧ 2 ≤ k ∧ k < 8) ∧
      ∃ b, (pad.foldl HopOpt.addOption (HopOpt.mk (some n) os)).toBytes = .ok b ∧ b.length % 8 = 0 ∧
        b.length < (os.map TLV.wireLen).sum + 2 + 8 ∧
        ∀ payload, HopOpt.fromBytes (b ++ payload) = .ok (⟨some n, os ++ pad⟩, payload) := by
  by_cases h0 : ((os.map TLV.wireLen).sum + 2) % 8 = 0
  · obtain ⟨b, h1, h2, _, h4⟩ := hop_roundtrip_partial n hn os hw h0 (by omega)
    exact ⟨[], by simp, by simp, b, h1, by omega, by omega, by simpa using h4⟩
  · by_cases h7 : ((os.map TLV.wireLen).sum + 2) % 8 = 7
    · have hs : ((os ++ [TLV.pad1]).map TLV.wireLen).sum = (os.map TLV.wireLen).sum + 1 := by simp [TLV.wireLen]
      obtain ⟨b, h1, h2, _, h4⟩ := hop_roundtrip_partial n hn (os ++ [.pad1])
        (by
          intro o ho
          rcases List.mem_append.mp ho with ho | ho
          · exact hw o ho
          · rw [List.mem_singleton.mp ho]; trivial)
        (by rw [hs]; omega) (by rw [hs]; omega)
      exact ⟨[.pad1], by simp, by simp, b, h1, by omega, by omega, h4⟩
    · obtain ⟨b, h1, h2, h4⟩ := hop_padded n hn os hw (8 - ((os.map TLV.wireLen).sum + 2) % 8) (by omega) (by omega)
        (by omega) (by omega)
      exact ⟨[.mkPadN ((8 - ((os.map TLV.wireLen).sum + 2) % 8 : Nat) : Int)], by simp,
        fun o ho => .inr ⟨_, List.mem_singleton.mp ho, by omega, by omega⟩, b, h1, by omega, by omega, h4⟩

example : 17 ∈ ipProtocols ∧ (∀ o ∈ [TLV.routerAlert 0], o.WF) ∧
    (((HopOpt.mk (some 17) [.routerAlert 0]).addOption (.mkPadN 2)).toBytes) = .ok [17, 0, 5, 2, 0, 0, 1, 0] := by
  decide +kernel

/-! ## RIPv2 messages -/

/-- Two RIPv2 messages that can be sent are equal exactly when they have the same command and the same routes in the same
order. -/
theorem rip_eq_iff (h k : RIPv2) (hc : h.command = 1 ∨ h.command = 2) (hw : ∀ r ∈ h.routes, RouteWF r)
    (kc : k.command = 1 ∨ k.command = 2) (kw : ∀ r ∈ k.routes, RouteWF r) : h.eq k = .ok (decide (h = k)) := by
  obtain ⟨a, a1, _, a3⟩ := rip_roundtrip h hc hw
  obtain ⟨b, b1, _, b3⟩ := rip_roundtrip k kc kw
  simp only [RIPv2.eq, a1, b1, bind_ok, Except.ok.injEq, decide_eq_decide]
  constructor
  · intro e
    have x := a3 [] (by simp)
    have y := b3 [] (by simp)
    rw [e] at x
    rw [x] at y
    exact Except.ok.inj y
  · rintro rfl
    rw [a1] at b1
    exact Except.ok.inj b1

example : RIPv2.eq ⟨2, [⟨2, 0, 0x0a000000, 8, 0, 1⟩]⟩ ⟨2, [⟨2, 0, 0x0a000000, 8, 0, 2⟩]⟩ = .ok false ∧
    RouteWF ⟨2, 0, 0x0a000000, 8, 0, 1⟩ := by decide +kernel

/-! ## Interface numbers -/

/-- Assigning a number to an interface changes nothing else of it; without a number it gets one that was never given
automatically before, and the next automatic one is different. -/
theorem set_ifnum (next : Int) (i : Iface) (v : Option Int) :
    (i.setIfnum next v).2.name = i.name ∧ (i.setIfnum next v).2.ethaddr = i.ethaddr ∧ (i.setIfnum next v).2.ips = i.ips ∧
      (i.setIfnum next v).2.iftype = i.iftype ∧ (∀ x, v = some x → (i.setIfnum next v).2.ifnum = x) ∧
      ∀ rs, v = none → (i.setIfnum next v).2.ifnum ∉ autoNums (i.setIfnum next v).1 rs := by
  refine ⟨rfl, rfl, rfl, rfl, ?_, ?_⟩
  · rintro x rfl; rfl
  · rintro rs rfl h
    have := autoNums_ge _ _ _ h
    simp only [Iface.setIfnum, takeIfnum] at this
    omega

/-! ## Scenario files -/

/-- A scenario file on the command line: the argument, the directory and name of the file, and what the file holds. -/
structure ScenFile where
  arg : List Char
  dir : Dir
  name : List Char
  src : Source

theorem loadOthers_other {n : List Char} (l : List (List Char × Dir × List (List Char))) (h : ∀ x ∈ l, x.1 ≠ n)
    (m : Dict (List Char) LoadedMod) : (loadOthers m l).get? n = m.get? n := by
  induction l generalizing m with
  | nil => rfl
  | cons x l ih =>
    obtain ⟨k, d, ns⟩ := x
    simp only [loadOthers]
    rw [ih (fun x hx => h x (List.mem_cons_of_mem _ hx))]
    split
    · rfl
    · rw [Dict.get?_set, if_neg (h (k, d, ns) (by simp))]

/-- **C146** for several scenarios: files with different names, each in the only directory concerned that has one of its
name, none loaded before or by another: the scenarios run are those of the files named, in this order.  *Missing:* the other
cases (`import_same_name_violated`, `import_shadowed_violated`). -/
theorem load_scenarios_partial (fs : Files) (cwd : Dir) (l : List ScenFile) (w : Importing)
    (hn : ∀ y ∈ l, NamesFile cwd y.arg y.dir y.name) (hs : ∀ y ∈ l, fs y.dir y.name = some y.src)
    (hf : ∀ y ∈ l, y.src.fails = none ∧ "scenario".toList ∈ y.src.names)
    (hd : (l.map ScenFile.name).Nodup) (hm : ∀ y ∈ l, w.mods.get? y.name = none)
    (ho : ∀ y ∈ l, ∀ z ∈ l, ∀ x ∈ y.src.loads, x.1 ≠ z.name)
    (hp : ∀ y ∈ l, ∀ x, (x ∈ w.path ∨ ∃ z ∈ l, x = z.dir) → x ≠ y.dir → fs x y.name = none) :
    (loadScenarios w fs cwd (l.map ScenFile.arg)).2 = (l.map fun y => some (y.dir, "scenario".toList), none) := by
  induction l generalizing w with
  | nil => rfl
  | cons y l ih =>
    have hy : y ∈ y :: l := by simp
    obtain ⟨b, hb, hbn⟩ := namesFile_abs (hn y hy).1
    have hfm : findModule fs y.name (w.addPath y.dir).path = some (y.dir, y.src) :=
      findModule_only fs y.name y.dir y.src _ (addPath_mem w y.dir) (hs y hy) (fun x hx hne =>
        hp y hy x (.inl ((addPath_sub w y.dir x hx).resolve_right hne)) hne)
    obtain ⟨f1, f2⟩ := hf y hy
    have key : w.importOrDie fs cwd y.arg scenarioEntries =
        ({ w.addPath y.dir with mods := (loadOthers w.mods y.src.loads).set y.name ⟨y.dir, y.src.names⟩ },
          .ok (some (y.dir, "scenario".toList))) := by
      have hi : (w.addPath y.dir).importNew fs y.name = (w.addPath y.dir).importPlain fs y.name := if_pos (hn y hy).2
      simp only [Importing.importOrDie, hb, List.getLast?_append, List.getLast?_singleton, Option.some_or,
        List.dropLast_concat, hbn, Importing.load, addPath_mods, hm y hy, hi, Importing.importPlain, hfm, f1]
      congr 1
      exact entryPoint_first _ [] [] _ (by simp) f2
    have hd' := List.nodup_cons.mp hd
    have ih := ih { w.addPath y.dir with mods := (loadOthers w.mods y.src.loads).set y.name ⟨y.dir, y.src.names⟩ }
      (fun z hz => hn z (List.mem_cons_of_mem _ hz)) (fun z hz => hs z (List.mem_cons_of_mem _ hz))
      (fun z hz => hf z (List.mem_cons_of_mem _ hz)) hd'.2
      (fun z hz => by
        have hne : y.name ≠ z.name := fun e => hd'.1 (by rw [show y.name = z.name from e]; exact List.mem_map_of_mem hz)
        simp only
        rw [Dict.get?_set, if_neg hne, loadOthers_other _ (ho y hy z (List.mem_cons_of_mem _ hz))]
        exact hm z (List.mem_cons_of_mem _ hz))
      (fun u hu z hz => ho u (List.mem_cons_of_mem _ hu) z (List.mem_cons_of_mem _ hz))
      (fun z hz x hx hne => by
        refine hp z (List.mem_cons_of_mem _ hz) x ?_ hne
        rcases hx with hx | ⟨u, hu, rfl⟩
        · rcases addPath_sub w y.dir x hx with hx | rfl
          · exact .inl hx
          · exact .inr ⟨y, hy, rfl⟩
        · exact .inr ⟨u, List.mem_cons_of_mem _ hu, rfl⟩)
    simp only [List.map_cons, loadScenarios, key, ih]

/-! ## Making scenarios -/

/-- The expectations of a scenario are those given, in the order given, each with its description, and with growing time
stamps; the rest of the scenario is as before. -/
theorem expect_all (s : Scenario) (l : List (Event × List Char)) :
    ((l.foldl (fun s x => s.expect x.1 x.2) s).pending.map fun e => (e.event, e.descr)) =
        s.pending.map (fun e => (e.event, e.descr)) ++ l ∧
      ((l.foldl (fun s x => s.expect x.1 x.2) s).pending.map Entry.ts) =
        s.pending.map Entry.ts ++ (List.range l.length).map (s.nextTs + ·) ∧
      (l.foldl (fun s x => s.expect x.1 x.2) s).completed = s.completed ∧
      (l.foldl (fun s x => s.expect x.1 x.2) s).timeout = s.timeout ∧
      (l.foldl (fun s x => s.expect x.1 x.2) s).timer = s.timer ∧
      (l.foldl (fun s x => s.expect x.1 x.2) s).ifaces = s.ifaces := by
  induction l generalizing s with
  | nil => simp
  | cons x l ih =>
    obtain ⟨h1, h0, h2, h3, h4, h5⟩ := ih (s.expect x.1 x.2)
    refine ⟨by rw [List.foldl_cons, h1]; simp [Scenario.expect], ?_, h2, h3, h4, h5⟩
    rw [List.foldl_cons, h0, List.length_cons, List.range_succ_eq_map]
    simp [Scenario.expect, Function.comp_def, Nat.add_assoc, Nat.add_comm 1]

/-- The time limit set on a scenario is the one used for every output it expects later. -/
theorem timeout_set (s : Scenario) (v : Nat) (hv : v ≠ 0) (x : Entry) (xs : List Entry) (h : s.pending = x :: xs)
    (hw : WaitsForOutput (s.setTimeout v).testpass.1) : (s.setTimeout v).testpass.1.alarm = some v ∧
      (s.setTimeout v).testpass.1.timeout = v ∧ (s.setTimeout v).pending = s.pending ∧ (s.setTimeout v).completed = s.completed :=
  ⟨(output_alarm (s.setTimeout v) x xs h).1 hw hv, by simp only [Scenario.testpass, Scenario.setTimeout, h]; unfold Scenario.armNext; split <;> (try split) <;> rfl, rfl, rfl⟩

example : WaitsForOutput ((((Scenario.expect {} (.timeout 1) "w".toList).expect (.output [] []) "o".toList).setTimeout 5).testpass.1) :=
  ⟨_, _, rfl, rfl⟩

example : ∃ l : List ScenFile, l.map ScenFile.arg = ["a/t.py".toList, "hub".toList] ∧
    (∀ y ∈ l, NamesFile ["h".toList] y.arg y.dir y.name) ∧ (l.map ScenFile.name).Nodup :=
  ⟨[⟨_, ["h".toList, "a".toList], "t".toList, ⟨["scenario".toList], none, []⟩⟩, ⟨_, ["h".toList], "hub".toList, ⟨["scenario".toList], none, []⟩⟩],
    rfl, by
      intro y hy
      rcases List.mem_cons.mp hy with rfl | hy
      · exact demo_a
      · rw [List.mem_singleton.mp hy]; exact demo_hub, by decide⟩

/-! ## Options -/

/-- The wire form of the options of IPv4 as they are made: numbers and lengths of RFC 791, 2113 and 1191. -/
theorem new_ipopts_wire : newEndOfOptionList.toBytes = .ok [0] ∧ newNoOperation.toBytes = .ok [1] ∧
    newRouterAlert.toBytes = .ok [0x94, 4, 0, 0] ∧ newMTUProbe.toBytes = .ok [11, 4, 5, 220] ∧
    newMTUReply.toBytes = .ok [12, 4, 5, 220] := by decide +kernel

/-- A link-layer address assigned to a source or target option is the one on the wire, whatever it was before. -/
theorem nd_ethaddr_wire (t : Bool) (old a : EthAddr) (arg : EthArg) (h : EthAddr.mk' arg = .ok a) :
    ∃ o, (NDOpt.lladdr t old).setEthaddr arg = .ok o ∧
      o.toBytes = .ok ([if t then 2 else 1, 1] ++ a.raw) ∧ ndRawLength [o] = .ok (2 + a.raw.length) := by
  have hb : ∀ t : Bool, pack [.u 1, .u 1] [.i (if t then 2 else 1), .i 1] = .ok [if t then 2 else 1, 1] := by
    intro t; cases t <;> decide
  refine ⟨.lladdr t a, by simp [NDOpt.setEthaddr, h], ?_, ?_⟩
  · simp [NDOpt.toBytes, hb]
  · simp [ndRawLength, ndBytes, NDOpt.toBytes, hb]; omega

/-! ## Numbers -/

/-- An address given where a number is wanted stands for the number its bytes make. -/
theorem int_of_address (a : IPAddr) : PyVal.intArg (some (.ip a)) = .ok (beDec a.packed : Nat) := by
  cases a with
  | v4 a => simp only [PyVal.intArg, IPAddr.toNat, IPAddr.packed]; rw [beDec_beEnc (by have := a.isLt; omega)]
  | v6 a => simp only [PyVal.intArg, IPAddr.toNat, IPAddr.packed]; rw [beDec_beEnc (by have := a.isLt; omega)]

/-- A number can be given as its decimal text in bytes. -/
theorem int_of_bytes (n : Int) : PyVal.intArg (some (.bytes ((intText n).map fun c => UInt8.ofNat c.toNat))) = .ok n := by
  have hc : byteChars ((intText n).map fun c => UInt8.ofNat c.toNat) = intText n := by
    have hd : ∀ c ∈ intText n, 32 ≤ c.toNat ∧ c.toNat < 128 := by
      have hn : ∀ (m : Nat), ∀ c ∈ natText m, 32 ≤ c.toNat ∧ c.toNat < 128 := by
        intro m c hc
        have := natText_digits m c hc
        simp only [Char.isDigit, Bool.and_eq_true, decide_eq_true_eq] at this
        have h1 : 48 ≤ c.toNat := this.1
        have h2 : c.toNat ≤ 57 := this.2
        omega
      intro c hc
      unfold intText at hc
      split at hc
      · exact hn _ c hc
      · rcases List.mem_cons.mp hc with rfl | hc
        · decide
        · exact hn _ c hc
    unfold byteChars
    rw [List.map_map]
    conv => rhs; rw [← List.map_id (intText n)]
    apply List.map_congr_left
    intro c hc
    obtain ⟨h1, h2⟩ := hd c hc
    have e : (UInt8.ofNat c.toNat).toNat = c.toNat := by simp; omega
    simp only [Function.comp, e, id]
    rw [if_neg (by omega)]
    exact Char.ofNat_toNat c
  simp only [PyVal.intArg, hc]
  exact int_of_int n

example : PyVal.intArg (some (.ip (.v4 0x0a000001))) = .ok 167772161 ∧
    PyVal.intArg (some (.bytes [0x2d, 0x31, 0x32])) = .ok (-12) := by decide +kernel

theorem int_text_chars {s : List Char} {n : Int} (h : IntText s n) :
    ∀ c ∈ s, isPySpace c = true ∨ c = '+' ∨ c = '-' ∨ c.isDigit = true ∨ c = '_' := by
  obtain ⟨pre, sign, body, post, rfl, h1, h2, h3, h4⟩ := h
  intro c hc
  simp only [List.mem_append] at hc
  rcases hc with ((hc | hc) | hc) | hc
  · exact Or.inl (List.all_eq_true.mp h1 c hc)
  · rcases h4 with ⟨rfl, _⟩ | ⟨rfl, _⟩ | ⟨rfl, _⟩
    · simp at hc
    · simp at hc; exact Or.inr (Or.inl hc)
    · simp at hc; exact Or.inr (Or.inr (Or.inl hc))
  · rcases h3.2.2.2.1 c hc with h | h
    · exact Or.inr (Or.inr (Or.inr (Or.inl h)))
    · exact Or.inr (Or.inr (Or.inr (Or.inr h)))
  · exact Or.inl (List.all_eq_true.mp h2 c hc)

/-- Bytes stand for the number that their text stands for, unless they contain one of the separators 28 to 31,
which are white space in text but not in bytes: then they are refused. -/
theorem int_of_bytes_iff (b : Bytes) :
    ((∀ x ∈ b, x < 28 ∨ 31 < x) → ∀ n, PyVal.intArg (some (.bytes b)) = .ok n ↔ IntText (b.map fun x => Char.ofNat x.toNat) n) ∧
    ((∃ x ∈ b, 28 ≤ x ∧ x ≤ 31) → PyVal.intArg (some (.bytes b)) = .error .valueError) := by
  constructor
  · intro hb n
    have hc : byteChars b = b.map fun x => Char.ofNat x.toNat := by
      unfold byteChars
      apply List.map_congr_left
      intro x hx
      have := hb x hx
      rw [UInt8.lt_iff_toNat_lt, UInt8.lt_iff_toNat_lt] at this
      rw [if_neg (by intro ⟨h1, h2⟩; rcases this with h | h <;> simp at h <;> omega)]
    simp only [PyVal.intArg, hc]
    exact (int_of_text _).1 n
  · rintro ⟨x, hx, h1, h2⟩
    simp only [PyVal.intArg]
    rw [(int_of_text _).2]
    refine ⟨rfl, ?_⟩
    rintro ⟨n, hn⟩
    have hm : 'x' ∈ byteChars b := by
      unfold byteChars
      refine List.mem_map.mpr ⟨x, hx, ?_⟩
      rw [UInt8.le_iff_toNat_le] at h1 h2
      rw [if_pos ⟨h1, h2⟩]
    have := int_text_chars hn 'x' hm
    revert this; decide

example : PyVal.intArg (some (.bytes [0x1c, 0x31])) = .error .valueError ∧ PyVal.intArg (some (.text [Char.ofNat 28, '1'])) = .ok 1 ∧
    PyVal.intArg (some (.bytes [0x20, 0x31, 0x0a])) = .ok 1 := by decide +kernel

/-- What is no number is not accepted for an attribute that has a fixed set of numbered values. -/
theorem enum_attr_typed {v : PyVal} (hv : v.number = none) :
    (∀ h, Hdr.setattr (.eth h) .ethertype v = .error .valueError) ∧ (∀ h, Hdr.setattr (.vlan h) .ethertype v = .error .valueError) ∧
    (∀ h, Hdr.setattr (.arp h) .operation v = .error .valueError) ∧
    (∀ h, Hdr.setattr (.ip4 h) .protocol v = .error .valueError) ∧ (∀ h, Hdr.setattr (.ip4 h) .flags v = .error .valueError) ∧
    (∀ h, Hdr.setattr (.ip6 h) .nextheader v = .error .valueError) ∧ (∀ h, Hdr.setattr (.rip h) .command v = .error .valueError) ∧
    (∀ h, Hdr.setattr (.icmp h) .icmptype v = .error .valueError) ∧ (∀ h, Hdr.setattr (.icmp6 h) .icmptype v = .error .valueError) := by
  have e : v.enumArg = .error .valueError := by unfold PyVal.enumArg; rw [hv]
  refine ⟨?_, ?_, ?_, ?_, ?_, ?_, ?_, ?_, ?_⟩ <;> intro h <;>
    simp only [Hdr.setattr, Ethernet.setattr, Vlan.setattr, Arp.setattr, IPv4.setattr, IPv6.setattr, RIPv2.setattr, icmpSetattr, icmp6Setattr, e] <;> rfl

example : Hdr.setattr (.eth Ethernet.default) .ethertype none = .error .valueError ∧
    PyVal.number (some (.text ['I', 'P'])) = none := by decide +kernel

end SY.Props
