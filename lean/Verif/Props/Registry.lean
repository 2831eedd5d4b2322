import Verif.Registry
import Verif.Props.CopyOut

/-!
# Properties of user-defined headers and of the configuration of next headers

C183 (the configuration of a class), C184 (what registering a class changes), C185 (user-defined headers are read back),
C186 (termination), C187 (a registered class that rejects its bytes), C188 (classes that cannot be configured).
-/

namespace SY.Props

open SY

variable {U : Type}

/-! ## Without configuration -/

/-- The model of this file agrees with that of `Verif/Packet.lean` when nothing is configured. -/
theorem init_next (u : UserHdrs U) (h : Hdr) : Reg.init.next u (.lib h) = h.next >>= fun c => .ok (c.map .lib) := by
  have e1 : ∀ n : Nat, ((ethNext n).map RCls.lib) = Reg.init.look 1 (n : Int) := by
    intro n
    simp only [ethNext, Reg.look, Reg.init, Dict.get?_cons, List.getElem?_cons_succ, List.getElem?_cons_zero, Option.getD_some, Dict.get?_nil]
    grind
  have e2 : ∀ n : Nat, ((vlanNext n).map RCls.lib) = Reg.init.look 2 (n : Int) := by
    intro n
    simp only [vlanNext, Reg.look, Reg.init, Dict.get?_cons, List.getElem?_cons_succ, List.getElem?_cons_zero, Option.getD_some, Dict.get?_nil]
    grind
  have e3 : ∀ n : Nat, ((ip4Next n).map RCls.lib) = Reg.init.look 3 (n : Int) := by
    intro n
    simp only [ip4Next, Reg.look, Reg.init, Dict.get?_cons, List.getElem?_cons_succ, List.getElem?_cons_zero, Option.getD_some, Dict.get?_nil]
    grind
  have e4 : ∀ n : Nat, ((ip6Next n).map RCls.lib) = Reg.init.look 4 (n : Int) := by
    intro n
    simp only [ip6Next, Reg.look, Reg.init, Dict.get?_cons, List.getElem?_cons_succ, List.getElem?_cons_zero, Option.getD_some, Dict.get?_nil]
    grind (splits := 30)
  have e5 : ∀ o : Option Nat, ((o.bind ip6Next).map RCls.lib) = (o.map fun n => (n : Int)).bind (Reg.init.look ip6DictNo) := by
    intro o
    cases o with
    | none => rfl
    | some n => exact e4 n
  cases h with
  | eth a => exact congrArg Except.ok (e1 a.ethertype).symm
  | vlan a => exact congrArg Except.ok (e2 a.ethertype).symm
  | ip4 a => exact congrArg Except.ok (e3 a.protocol).symm
  | ip6 a => exact congrArg Except.ok (e4 a.next).symm
  | route a => exact congrArg Except.ok (e5 a.next).symm
  | frag a => exact congrArg Except.ok (e5 a.next).symm
  | hop a => exact congrArg Except.ok (e5 a.next).symm
  | dst a => exact congrArg Except.ok (e5 a.next).symm
  | null af => rfl
  | _ => rfl

/-! ## The configuration of one class -/

/-- The configuration of a class as a user thinks of it: the attribute that is looked at, and the class for each value. -/
structure NextCfg where
  key : Option AttrName
  tbl : Int → Option RCls

/-- What a call does to the configuration of class `d`: nothing, unless it is made on `d`. -/
def NextCfg.step (d : RCls) (g : NextCfg) : RegCall → NextCfg
  | .setKey c k => if c = d then { g with key := k } else g
  | .add c v t => if c = d then { g with tbl := fun x => if x = v then t else g.tbl x } else g
  | .setMap c m => if c = d then { g with tbl := fun x => (m.get? x).join } else g
  | .shareMap _ _ => g

/-- Every `set_next_header_map` is given a dictionary of its own. -/
def NoSharing (calls : List RegCall) : Prop := ∀ c ∈ calls, ∀ a b, c ≠ .shareMap a b

/-- Classes that others derive from. -/
def Leaf (d : RCls) : Prop := d ≠ .lib .base ∧ d ≠ .lib .ext ∧ d ≠ .lib .hop ∧ d ≠ .lib .icmp

/-- No two classes have the same dictionary object. -/
structure Sep (r : Reg) : Prop where
  base : ∃ i, r.maps (.lib .base) = some i
  lt : ∀ c i, r.maps c = some i → i < r.heap.length
  inj : ∀ c c' i, r.maps c = some i → r.maps c' = some i → c = c'

theorem mro_spec (c : RCls) : ∃ l, c.mro = c :: l ∧ (.lib .base ∈ c :: l) ∧ ∀ x ∈ l, ¬ Leaf x := by
  have h : ∀ x, x ∈ [RCls.lib .base, .lib .ext, .lib .hop, .lib .icmp] → ¬ Leaf x := by
    intro x hx hl
    simp only [List.mem_cons, List.not_mem_nil, or_false] at hx
    obtain ⟨h1, h2, h3, h4⟩ := hl
    grind
  cases c with
  | user n => exact ⟨[.lib .base], rfl, by simp, fun x hx => h x (by simp at hx; simp [hx])⟩
  | lib c =>
    cases c
    case base => exact ⟨[], rfl, by simp, by simp⟩
    all_goals exact ⟨_, rfl, by simp, fun x hx => h x (by simp at hx ⊢; grind)⟩

theorem mapOf_own {r : Reg} {c : RCls} {i : Nat} (h : r.maps c = some i) : r.mapOf c = i := by
  obtain ⟨l, hl, _⟩ := mro_spec c
  unfold Reg.mapOf
  rw [hl, List.findSome?_cons, h]; rfl

theorem keyOf_own {r : Reg} {c : RCls} {k : Option AttrName} (h : r.keys c = some k) : r.keyOf c = k := by
  obtain ⟨l, hl, _⟩ := mro_spec c
  unfold Reg.keyOf
  rw [hl, List.findSome?_cons, h]; rfl

/-- The dictionary that a class uses belongs to it or to one it derives from. -/
theorem mapOf_owner {r : Reg} (hs : Sep r) (c : RCls) : ∃ x, r.maps x = some (r.mapOf c) ∧ (x = c ∨ ¬ Leaf x) := by
  obtain ⟨l, hl, hb, hx⟩ := mro_spec c
  obtain ⟨i, hi⟩ := hs.base
  unfold Reg.mapOf
  rw [hl]
  cases hf : List.findSome? r.maps (c :: l) with
  | none =>
    have := List.findSome?_eq_none_iff.mp hf _ hb
    rw [hi] at this
    cases this
  | some j =>
    obtain ⟨x, hm, hj⟩ := List.exists_of_findSome?_eq_some hf
    refine ⟨x, hj, ?_⟩
    rcases List.mem_cons.mp hm with h | h
    · exact .inl h
    · exact .inr (hx x h)

theorem mapOf_ne {r : Reg} (hs : Sep r) {c d : RCls} {i : Nat} (hd : Leaf d) (hi : r.maps d = some i) (hc : c ≠ d) :
    r.mapOf c ≠ i := by
  intro he
  obtain ⟨x, h1, h2⟩ := mapOf_owner hs c
  rw [he] at h1
  have := hs.inj _ _ _ h1 hi
  subst this
  rcases h2 with h2 | h2
  · exact hc h2.symm
  · exact h2 hd

theorem sep_init : Sep Reg.init := by
  refine ⟨⟨0, rfl⟩, ?_, ?_⟩
  · intro c i h
    cases c with
    | user n => cases h
    | lib c => cases c <;> cases h <;> decide
  · intro c c' i h h'
    cases c with
    | user n => cases h
    | lib c =>
      cases c' with
      | user n => cases h'
      | lib c' => cases c <;> cases h <;> (cases c' <;> first | rfl | cases h')

theorem sep_call {r : Reg} (hs : Sep r) {c : RegCall} (hc : ∀ a b, c ≠ .shareMap a b) : Sep (r.call c) := by
  cases c with
  | setKey c k => exact ⟨hs.base, hs.lt, hs.inj⟩
  | add c v t => exact ⟨hs.base, fun a i h => by simpa [Reg.call, Reg.add] using hs.lt a i h, hs.inj⟩
  | shareMap a b => exact absurd rfl (hc a b)
  | setMap c d =>
    refine ⟨?_, ?_, ?_⟩
    · simp only [Reg.call, Reg.setRef, Reg.alloc]
      split
      · exact ⟨_, rfl⟩
      · exact hs.base
    · intro a i h
      simp only [Reg.call, Reg.setRef, Reg.alloc] at h ⊢
      simp only [List.length_append, List.length_cons, List.length_nil]
      split at h
      · cases h; omega
      · have := hs.lt a i h; omega
    · intro a b i h h'
      simp only [Reg.call, Reg.setRef, Reg.alloc] at h h'
      split at h
      · rename_i e
        cases h
        split at h'
        · rename_i e'; rw [e, e']
        · exact absurd (hs.lt _ _ h') (by omega)
      · split at h'
        · cases h'
          exact absurd (hs.lt _ _ h) (by omega)
        · exact hs.inj a b i h h'

theorem sep_run {r : Reg} (hs : Sep r) {calls : List RegCall} (hc : NoSharing calls) : Sep (calls.foldl Reg.call r) := by
  induction calls generalizing r with
  | nil => exact hs
  | cons c calls ih =>
    exact ih (sep_call hs (hc c (by simp))) fun x hx => hc x (List.mem_cons_of_mem _ hx)

/-- The class has a dictionary and an attribute name of its own. -/
def Own (r : Reg) (d : RCls) : Prop := (∃ i, r.maps d = some i) ∧ ∃ k, r.keys d = some k

theorem own_call {r : Reg} {d : RCls} (ho : Own r d) (c : RegCall) : Own (r.call c) d := by
  obtain ⟨⟨i, hi⟩, k, hk⟩ := ho
  cases c with
  | setKey c k' =>
    refine ⟨⟨i, hi⟩, ?_⟩
    simp only [Reg.call, Reg.setKey]
    split
    · exact ⟨_, rfl⟩
    · exact ⟨k, hk⟩
  | add c v t => exact ⟨⟨i, hi⟩, k, hk⟩
  | setMap c m =>
    refine ⟨?_, k, hk⟩
    simp only [Reg.call, Reg.setRef, Reg.alloc]
    split
    · exact ⟨_, rfl⟩
    · exact ⟨i, hi⟩
  | shareMap a b =>
    refine ⟨?_, k, hk⟩
    simp only [Reg.call, Reg.setRef]
    split
    · exact ⟨_, rfl⟩
    · exact ⟨i, hi⟩

theorem cfg_call {r : Reg} (hs : Sep r) {d : RCls} (hd : Leaf d) (ho : Own r d) {c : RegCall} (hc : ∀ a b, c ≠ .shareMap a b)
    {g : NextCfg} (hk : r.keyOf d = g.key) (ht : ∀ v, r.look (r.mapOf d) v = g.tbl v) :
    (r.call c).keyOf d = (g.step d c).key ∧ ∀ v, (r.call c).look ((r.call c).mapOf d) v = (g.step d c).tbl v := by
  obtain ⟨⟨i, hi⟩, k, hkk⟩ := ho
  have hm := mapOf_own hi
  rw [hm] at ht
  cases c with
  | setKey c k' =>
    have h2 : (r.call (.setKey c k')).mapOf d = i := mapOf_own hi
    simp only [NextCfg.step]
    split
    · rename_i e
      refine ⟨keyOf_own (by simp [Reg.call, Reg.setKey, e]), fun v => ?_⟩
      rw [h2]; exact ht v
    · rename_i e
      refine ⟨?_, fun v => by rw [h2]; exact ht v⟩
      rw [keyOf_own (k := k) (by simp [Reg.call, Reg.setKey, Ne.symm e, hkk]), ← hk, keyOf_own hkk]
  | add c v t =>
    have h2 : (r.call (.add c v t)).mapOf d = i := mapOf_own hi
    have h3 : (r.call (.add c v t)).keyOf d = g.key := by rw [← hk, keyOf_own hkk]; exact keyOf_own hkk
    simp only [NextCfg.step]
    have hlt := hs.lt _ _ hi
    split
    · rename_i e
      subst e
      refine ⟨h3, fun x => ?_⟩
      rw [h2]
      have := ht x
      simp only [Reg.look, Reg.call, Reg.add, hm, List.getElem?_modify, if_true] at this ⊢
      rw [List.getElem?_eq_getElem hlt] at this ⊢
      simp only [Option.map_eq_map, Option.map_some, Option.getD_some, Dict.get?_set] at this ⊢
      grind
    · rename_i e
      refine ⟨h3, fun x => ?_⟩
      rw [h2, ← ht x]
      have hne := mapOf_ne hs hd hi e
      simp only [Reg.look, Reg.call, Reg.add, List.getElem?_modify, if_neg hne, Option.map_eq_map, Option.map_id_fun', id]
  | setMap c m =>
    simp only [NextCfg.step]
    have h3 : (r.call (.setMap c m)).keyOf d = g.key := by rw [← hk, keyOf_own hkk]; exact keyOf_own hkk
    split
    · rename_i e
      subst e
      refine ⟨h3, fun x => ?_⟩
      rw [mapOf_own (r := r.call (.setMap c m)) (i := r.heap.length) (by simp [Reg.call, Reg.setRef])]
      simp [Reg.look, Reg.call, Reg.setRef, Reg.alloc]
    · rename_i e
      refine ⟨h3, fun x => ?_⟩
      rw [mapOf_own (r := r.call (.setMap c m)) (i := i) (by simp [Reg.call, Reg.setRef, Ne.symm e, hi, Reg.alloc]), ← ht x]
      have hlt := hs.lt _ _ hi
      simp only [Reg.look, Reg.call, Reg.setRef, Reg.alloc]
      rw [List.getElem?_append_left hlt]
  | shareMap a b => exact absurd rfl (hc a b)

theorem cfg_run {r : Reg} (hs : Sep r) {d : RCls} (hd : Leaf d) (ho : Own r d) {calls : List RegCall} (hc : NoSharing calls)
    {g : NextCfg} (hk : r.keyOf d = g.key) (ht : ∀ v, r.look (r.mapOf d) v = g.tbl v) :
    (calls.foldl Reg.call r).keyOf d = (calls.foldl (NextCfg.step d) g).key ∧
      ∀ v, (calls.foldl Reg.call r).look ((calls.foldl Reg.call r).mapOf d) v = (calls.foldl (NextCfg.step d) g).tbl v := by
  induction calls generalizing r g with
  | nil => exact ⟨hk, ht⟩
  | cons c calls ih =>
    have h1 := hc c (by simp)
    obtain ⟨k1, k2⟩ := cfg_call hs hd ho h1 hk ht
    exact ih (sep_call hs h1) (own_call ho c) (fun x hx => hc x (List.mem_cons_of_mem _ hx)) k1 k2

/-- The configuration that the documentation describes for the library's classes (advanced_api.rst 80-81): Ethernet and
Vlan by `ethertype`, IPv4 by `protocol`, IPv6 by `nextheader`, UDP and TCP not at all. -/
def NextCfg.start : Cls → NextCfg
  | .eth => ⟨some (.std .ethertype), fun v => if v = 0x0800 then some (.lib .ip4) else if v = 0x0806 then some (.lib .arp)
      else if v = 0x86dd then some (.lib .ip6) else if v = 0x8100 then some (.lib .vlan) else none⟩
  | .vlan => ⟨some (.std .ethertype), fun v => if v = 0x0800 then some (.lib .ip4) else if v = 0x0806 then some (.lib .arp)
      else if v = 0x86dd then some (.lib .ip6) else none⟩
  | .ip4 => ⟨some (.std .protocol), fun v => if v = 1 then some (.lib .icmp) else if v = 6 then some (.lib .tcp)
      else if v = 17 then some (.lib .udp) else none⟩
  | .ip6 => ⟨some (.std .nextheader), fun v => if v = 6 then some (.lib .tcp) else if v = 17 then some (.lib .udp)
      else if v = 58 then some (.lib .icmp6) else if v = 0 then some (.lib .hop) else if v = 43 then some (.lib .route)
      else if v = 44 then some (.lib .frag) else if v = 60 then some (.lib .dst) else none⟩
  | _ => ⟨none, fun _ => none⟩

/-- The classes that come with a dictionary and a name of their own. -/
def configurable : List Cls := [.eth, .vlan, .ip4, .ip6, .udp, .tcp]

/-- The configuration of a class after some calls, as a user thinks of it. -/
def nextCfgAfter (c : Cls) (calls : List RegCall) : NextCfg := calls.foldl (NextCfg.step (.lib c)) (NextCfg.start c)

theorem start_look {c : Cls} (hc : c ∈ configurable) : Reg.init.keyOf (.lib c) = (NextCfg.start c).key ∧
    ∀ v, Reg.init.look (Reg.init.mapOf (.lib c)) v = (NextCfg.start c).tbl v := by
  simp only [configurable, List.mem_cons, List.not_mem_nil, or_false] at hc
  rcases hc with rfl | rfl | rfl | rfl | rfl | rfl <;> refine ⟨rfl, fun v => ?_⟩
  · rw [show Reg.init.mapOf (.lib .eth) = 1 from rfl]
    simp only [NextCfg.start, Reg.look, Reg.init, Dict.get?_cons, List.getElem?_cons_succ, List.getElem?_cons_zero, Option.getD_some, Dict.get?_nil]
    grind
  · rw [show Reg.init.mapOf (.lib .vlan) = 2 from rfl]
    simp only [NextCfg.start, Reg.look, Reg.init, Dict.get?_cons, List.getElem?_cons_succ, List.getElem?_cons_zero, Option.getD_some, Dict.get?_nil]
    grind
  · rw [show Reg.init.mapOf (.lib .ip4) = 3 from rfl]
    simp only [NextCfg.start, Reg.look, Reg.init, Dict.get?_cons, List.getElem?_cons_succ, List.getElem?_cons_zero, Option.getD_some, Dict.get?_nil]
    grind
  · rw [show Reg.init.mapOf (.lib .ip6) = 4 from rfl]
    simp only [NextCfg.start, Reg.look, Reg.init, Dict.get?_cons, List.getElem?_cons_succ, List.getElem?_cons_zero, Option.getD_some, Dict.get?_nil]
    grind (splits := 30)
  · rfl
  · rfl

theorem configurable_own {c : Cls} (hc : c ∈ configurable) : Leaf (.lib c) ∧ Own Reg.init (.lib c) := by
  simp only [configurable, List.mem_cons, List.not_mem_nil, or_false] at hc
  rcases hc with rfl | rfl | rfl | rfl | rfl | rfl <;> exact ⟨by simp [Leaf], ⟨_, rfl⟩, ⟨_, rfl⟩⟩

theorem next_nextBase {c : Cls} (hc : c ∈ configurable) {h : Hdr} (hh : h.cls = c) (r : Reg) (u : UserHdrs U) :
    r.next u (.lib h) = r.nextBase u (.lib h) := by
  subst hh
  cases h <;> first | rfl | simp [configurable, Hdr.cls] at hc

/-- **C183**, partial: after any calls, as long as no dictionary is handed to `set_next_header_map` that a class already
uses, the header class after a header of the classes Ethernet, Vlan, IPv4, IPv6, UDP and TCP is determined by the calls
that were made *on that class*, in order: the attribute is the one named last, the class for a value is the one added last
for it since the table was last replaced.  Missing: classes without a table of their own (`inherited_table_violated`) and
those that ignore theirs (C188). -/
theorem configured_next_partial (calls : List RegCall) (hc : NoSharing calls) (c : Cls) (hm : c ∈ configurable) (h : Hdr)
    (hh : h.cls = c) (u : UserHdrs U) :
    (Reg.run calls).next u (.lib h) = match (nextCfgAfter c calls).key with
      | none => .ok none
      | some a => (RHdr.lib h : RHdr U).attr u a >>= fun v => .ok (v.bind (nextCfgAfter c calls).tbl) := by
  obtain ⟨hl, ho⟩ := configurable_own hm
  obtain ⟨k1, k2⟩ := start_look hm
  obtain ⟨g1, g2⟩ := cfg_run sep_init hl ho hc k1 k2
  rw [next_nextBase hm hh]
  unfold Reg.nextBase
  simp only [RHdr.cls, hh]
  show (match (Reg.run calls).keyOf (.lib c) with | none => _ | some a => _) = _
  rw [show (Reg.run calls).keyOf (.lib c) = (nextCfgAfter c calls).key from g1]
  cases (nextCfgAfter c calls).key with
  | none => rfl
  | some a => rw [show (Reg.run calls).look ((Reg.run calls).mapOf (.lib c)) = (nextCfgAfter c calls).tbl from funext g2]

/-- A class that the program defines behaves so as well, once it was given a table and a name of its own. -/
theorem user_class_configured (before calls : List RegCall) (hb : NoSharing before) (hc : NoSharing calls) (n : Nat)
    (m : NextDict) (k : Option AttrName) (v : U) (u : UserHdrs U) :
    (Reg.run (before ++ [.setMap (.user n) m, .setKey (.user n) k] ++ calls)).next u (.user n v) =
      match (calls.foldl (NextCfg.step (.user n)) ⟨k, fun x => (m.get? x).join⟩).key with
      | none => .ok none
      | some a => u.attr n v a >>= fun x => .ok (x.bind (calls.foldl (NextCfg.step (.user n)) ⟨k, fun x => (m.get? x).join⟩).tbl) := by
  have hs := sep_run sep_init hb
  have e : Reg.run (before ++ [.setMap (.user n) m, .setKey (.user n) k] ++ calls) =
      calls.foldl Reg.call (((before.foldl Reg.call Reg.init).call (.setMap (.user n) m)).call (.setKey (.user n) k)) := by
    simp [Reg.run, List.foldl_append]
  rw [e]
  generalize before.foldl Reg.call Reg.init = r at hs
  have hs1 := sep_call (c := .setMap (.user n) m) hs (by simp)
  have hs2 := sep_call (c := .setKey (.user n) k) hs1 (by simp)
  have hi : ((r.call (.setMap (.user n) m)).call (.setKey (.user n) k)).maps (.user n) = some r.heap.length := by
    simp [Reg.call, Reg.setRef, Reg.setKey]
  have hk : ((r.call (.setMap (.user n) m)).call (.setKey (.user n) k)).keys (.user n) = some k := by
    simp [Reg.call, Reg.setRef, Reg.setKey]
  obtain ⟨g1, g2⟩ := cfg_run (d := .user n) hs2 (by simp [Leaf]) ⟨⟨_, hi⟩, ⟨_, hk⟩⟩ hc (g := ⟨k, fun x => (m.get? x).join⟩)
    (keyOf_own hk) (fun x => by rw [mapOf_own hi]; simp [Reg.look, Reg.call, Reg.setRef, Reg.setKey, Reg.alloc])
  simp only [Reg.next, Reg.nextBase, RHdr.cls, g1, RHdr.attr]
  cases (calls.foldl (NextCfg.step (.user n)) ⟨k, fun x => (m.get? x).join⟩).key with
  | none => rfl
  | some a => simp only [funext g2]

/-- UDP configured as in the documentation, then again for another port, and TCP for the same: a UDP header with either
port is followed by the class registered for it. -/
example : ((Reg.run [.add (.lib .udp) 12345 (some (.user 0)), .setKey (.lib .udp) (some (.std .dst)), .add (.lib .udp) 9 (some (.user 1)),
      .add (.lib .tcp) 9 (some (.user 2))]).next docHdrs (.lib (.udp ⟨5, 9, 0, 0⟩)) = .ok (some (.user 1))) ∧
    ((Reg.run [.add (.lib .udp) 12345 (some (.user 0)), .setKey (.lib .udp) (some (.std .dst)), .add (.lib .udp) 9 (some (.user 1)),
      .add (.lib .tcp) 9 (some (.user 2))]).next docHdrs (.lib (.udp ⟨5, 12345, 0, 0⟩)) = .ok (some (.user 0))) := by
  constructor <;> rfl

/-- The negation of **C183** for the classes that a program defines: they have no table of their own but share that of
`PacketHeaderBase`, so registering a class on one of them registers it on all.  Whatever two classes `n` and `m` and value
`v`: a header of class `n` for which `X` was registered is followed by `Y` after `Y` was registered for `m`. -/
theorem inherited_table_violated (u : UserHdrs U) (n m : Nat) (x : U) (a : AttrName) (v : Int) (X Y : RCls)
    (ha : u.attr n x a = .ok (some v)) :
    (Reg.run [.setKey (.user n) (some a), .add (.user n) v (some X)]).next u (.user n x) = .ok (some X) ∧
    (Reg.run [.setKey (.user n) (some a), .add (.user n) v (some X), .add (.user m) v (some Y)]).next u (.user n x) =
      .ok (some Y) := by
  have h1 : ∀ (ks : RCls → Option (Option AttrName)) (hp : List NextDict) (k : Nat),
      (Reg.mk Reg.init.maps ks hp).mapOf (.user k) = 0 := fun _ _ _ => rfl
  constructor
  · simp only [Reg.run, List.foldl, Reg.call, Reg.next, Reg.nextBase, RHdr.cls, RHdr.attr, Reg.keyOf, RCls.mro, Reg.setKey, Reg.add, List.findSome?_cons]
    simp only [if_true, Option.getD_some, ha, bind_ok, Reg.look, Option.bind_some, h1]
    simp [Reg.init, Dict.get?_set]
  · simp only [Reg.run, List.foldl, Reg.call, Reg.next, Reg.nextBase, RHdr.cls, RHdr.attr, Reg.keyOf, RCls.mro, Reg.setKey, Reg.add, List.findSome?_cons]
    simp only [if_true, Option.getD_some, ha, bind_ok, Reg.look, Option.bind_some, h1]
    simp [Reg.init, Dict.get?_set]

/-! ## What registering a class changes -/

theorem mro_leaf {c d : RCls} (hd : Leaf d) (hc : c ≠ d) : d ∉ c.mro := by
  obtain ⟨l, hl, _, hx⟩ := mro_spec c
  rw [hl]
  intro h
  rcases List.mem_cons.mp h with h | h
  · exact hc h.symm
  · exact hx d h hd

/-- The protocol number that an IPv6 extension header announces. -/
def extAnnounces : RHdr U → Option Nat
  | .lib (.route h) => h.next
  | .lib (.frag h) => h.next
  | .lib (.hop h) => h.next
  | .lib (.dst h) => h.next
  | _ => none

theorem look_add {r : Reg} {d : RCls} {v : Int} {t : Option RCls} (j : Nat) (x : Int) (h : r.mapOf d ≠ j ∨ x ≠ v) :
    (r.call (.add d v t)).look j x = r.look j x := by
  simp only [Reg.look, Reg.call, Reg.add, List.getElem?_modify]
  by_cases hj : r.mapOf d = j
  · have hx : x ≠ v := by rcases h with h | h; exact absurd hj h; exact h
    simp only [hj, if_true]
    cases r.heap[j]? with
    | none => rfl
    | some m =>
      simp only [Option.map_eq_map, Option.map_some, Option.getD_some, Dict.get?_set]
      rw [if_neg (by first | exact hx | exact Ne.symm hx)]
  · simp only [if_neg hj, Option.map_eq_map, Option.map_id_fun', id]

/-- Registering changes nothing for headers of other classes or with other values; but the extension headers look into
the dictionary number 4 whatever their class has. -/
theorem next_add {r : Reg} (hs : Sep r) {d : RCls} (hd : Leaf d) (ho : Own r d) (v : Int) (t : Option RCls) (u : UserHdrs U) (h : RHdr U)
    (hv : h.cls = d → ∀ a, r.keyOf d = some a → h.attr u a ≠ .ok (some v))
    (h4 : r.maps d = some 4 → ∀ n, extAnnounces h = some n → (n : Int) ≠ v) :
    (r.call (.add d v t)).next u h = r.next u h := by
  obtain ⟨⟨i, hi⟩, _⟩ := ho
  have hm := mapOf_own hi
  have hbase : (r.call (.add d v t)).nextBase u h = r.nextBase u h := by
    unfold Reg.nextBase
    rw [show (r.call (.add d v t)).keyOf h.cls = r.keyOf h.cls from rfl,
      show (r.call (.add d v t)).mapOf h.cls = r.mapOf h.cls from rfl]
    cases hk : r.keyOf h.cls with
    | none => rfl
    | some a =>
      simp only
      cases ha : h.attr u a with
      | error e => rfl
      | ok o =>
        cases o with
        | none => rfl
        | some x =>
          simp only [bind_ok, Option.bind_some]
          rw [look_add]
          by_cases hc : h.cls = d
          · right
            rintro rfl
            exact hv hc a (by rw [← hc]; exact hk) ha
          · left
            rw [hm]
            exact fun e => mapOf_ne hs hd hi hc e.symm
  have hext : ∀ o : Option Nat, extAnnounces h = o →
      (o.map fun n => (n : Int)).bind ((r.call (.add d v t)).look ip6DictNo) =
        (o.map fun n => (n : Int)).bind (r.look ip6DictNo) := by
    intro o ho
    cases o with
    | none => rfl
    | some n =>
      show (r.call (.add d v t)).look ip6DictNo n = r.look ip6DictNo n
      rw [look_add]
      by_cases e : i = 4
      · right; exact h4 (by rw [hi, e]) n ho
      · left; rw [hm]; exact e
  cases h with
  | user n x => exact hbase
  | lib h =>
    cases h
    case route h => exact congrArg Except.ok (hext _ rfl)
    case frag h => exact congrArg Except.ok (hext _ rfl)
    case hop h => exact congrArg Except.ok (hext _ rfl)
    case dst h => exact congrArg Except.ok (hext _ rfl)
    all_goals first | exact hbase | rfl

theorem regEnd_prefix (rest : Option Bytes) (acc : List (RHdr U)) : ∃ t, regEnd rest acc = acc ++ t := by
  unfold regEnd
  split
  · exact ⟨_, rfl⟩
  · exact ⟨[], (List.append_nil _).symm⟩

theorem regLoop_prefix {u : UserHdrs U} {r : Reg} {fuel : Nat} {c : RCls} {raw : Bytes} {acc q : List (RHdr U)}
    (h : regLoop u r fuel c raw acc = some (.ok q)) : ∃ t, q = acc ++ t := by
  induction fuel generalizing c raw acc with
  | zero => cases h
  | succ fuel ih =>
    simp only [regLoop] at h
    split at h
    · cases h
    · split at h
      · cases h
      · cases h
        obtain ⟨t, ht⟩ := regEnd_prefix (by assumption) _
        exact ⟨_, by rw [ht, List.append_assoc]⟩
      · obtain ⟨t, rfl⟩ := ih h
        exact ⟨_, by rw [List.append_assoc]⟩

/-- Two configurations that agree on the headers of a packet agree on the packet. -/
theorem regLoop_agree {u : UserHdrs U} {r r' : Reg} {fuel : Nat} {c : RCls} {raw : Bytes} {acc q : List (RHdr U)}
    (h : regLoop u r fuel c raw acc = some (.ok q)) (ha : ∀ x ∈ q, r'.next u x = r.next u x) :
    regLoop u r' fuel c raw acc = some (.ok q) := by
  induction fuel generalizing c raw acc with
  | zero => cases h
  | succ fuel ih =>
    simp only [regLoop] at h ⊢
    cases hf : c.fromBytes u raw with
    | error e => rw [hf] at h; cases h
    | ok x =>
      obtain ⟨x, rest⟩ := x
      rw [hf] at h
      simp only at h ⊢
      cases hn : r.next u x with
      | error e => rw [hn] at h; cases h
      | ok o =>
        rw [hn] at h
        cases o with
        | none =>
          simp only at h
          have hx : x ∈ q := by
            cases h
            obtain ⟨t, ht⟩ := regEnd_prefix rest (acc ++ [x])
            rw [ht]; simp
          rw [ha x hx, hn]
          exact h
        | some c' =>
          simp only at h
          have hx : x ∈ q := by
            obtain ⟨t, ht⟩ := regLoop_prefix h
            rw [ht]; simp
          rw [ha x hx, hn]
          exact ih h

theorem gives_agree {u : UserHdrs U} {r r' : Reg} {raw : Bytes} {c : RCls} {q : List (RHdr U)}
    (h : r.Gives u raw c (.ok q)) (ha : ∀ x ∈ q, r'.next u x = r.next u x) : r'.Gives u raw c (.ok q) := by
  unfold Reg.Gives at h ⊢
  split
  · rename_i e; rw [if_pos e] at h; exact h
  · rename_i e
    rw [if_neg e] at h
    obtain ⟨fuel, h⟩ := h
    exact ⟨fuel, regLoop_agree h ha⟩

theorem regLoop_mono {u : UserHdrs U} {r : Reg} {fuel : Nat} {c : RCls} {raw : Bytes} {acc : List (RHdr U)}
    {res : Res (List (RHdr U))} (h : regLoop u r fuel c raw acc = some res) (k : Nat) :
    regLoop u r (fuel + k) c raw acc = some res := by
  induction fuel generalizing c raw acc with
  | zero => cases h
  | succ fuel ih =>
    rw [show fuel + 1 + k = (fuel + k) + 1 by omega]
    simp only [regLoop] at h ⊢
    split
    · rename_i e he; rw [he] at h; exact h
    · rename_i x rest hp
      rw [hp] at h
      simp only at h
      split
      · rename_i e he; rw [he] at h; exact h
      · rename_i he; rw [he] at h; exact h
      · rename_i c' he; rw [he] at h; exact ih h

/-- Parsing has at most one result. -/
theorem gives_unique {u : UserHdrs U} {r : Reg} {raw : Bytes} {c : RCls} {a b : Res (List (RHdr U))}
    (h1 : r.Gives u raw c a) (h2 : r.Gives u raw c b) : a = b := by
  unfold Reg.Gives at h1 h2
  split at h1
  · rename_i e; rw [if_pos e] at h2; rw [h1, h2]
  · rename_i e
    rw [if_neg e] at h2
    obtain ⟨f1, h1⟩ := h1
    obtain ⟨f2, h2⟩ := h2
    have g1 := regLoop_mono h1 f2
    have g2 := regLoop_mono h2 f1
    rw [Nat.add_comm, g1] at g2
    cases g2
    rfl

/-- Dictionary objects do not disappear. -/
theorem heap_run (calls : List RegCall) : 4 < (Reg.run calls).heap.length := by
  have go : ∀ (calls : List RegCall) (r : Reg), 4 < r.heap.length → 4 < (calls.foldl Reg.call r).heap.length := by
    intro calls
    induction calls with
    | nil => intro r h; exact h
    | cons c calls ih =>
      intro r h
      refine ih _ ?_
      cases c <;> simp [Reg.call, Reg.setKey, Reg.add, Reg.setRef, Reg.alloc] <;> omega
  exact go calls Reg.init (by decide)

/-- Nobody but IPv6 gets the dictionary number 4. -/
theorem four_run {calls : List RegCall} (hc : NoSharing calls) (x : RCls) (h : (Reg.run calls).maps x = some 4) :
    x = .lib .ip6 := by
  have go : ∀ (calls : List RegCall) (r : Reg), NoSharing calls → 4 < r.heap.length → (∀ x, r.maps x = some 4 → x = .lib .ip6) →
      ∀ x, (calls.foldl Reg.call r).maps x = some 4 → x = .lib .ip6 := by
    intro calls
    induction calls with
    | nil => intro r _ _ h; exact h
    | cons c calls ih =>
      intro r hc hl h
      refine ih _ (fun x hx => hc x (List.mem_cons_of_mem _ hx)) ?_ ?_
      · cases c <;> simp [Reg.call, Reg.setKey, Reg.add, Reg.setRef, Reg.alloc] <;> omega
      · cases c with
        | shareMap a b => exact absurd rfl (hc _ (by simp) a b)
        | setMap a d =>
          intro x hx
          simp only [Reg.call, Reg.setRef, Reg.alloc] at hx
          split at hx
          · have := Option.some.inj hx; omega
          · exact h x hx
        | _ => exact h
  refine go calls Reg.init hc (by decide) ?_ x h
  intro x hx
  cases x with
  | user n => cases hx
  | lib c => cases c <;> first | rfl | cases hx

theorem own_run {r : Reg} {d : RCls} (ho : Own r d) (calls : List RegCall) : Own (calls.foldl Reg.call r) d := by
  induction calls generalizing r with
  | nil => exact ho
  | cons c calls ih => exact ih (own_call ho c)

/-- **C184**: whatever was configured before (without handing out dictionaries that classes already use), registering a
class for value `v` of one of the classes Ethernet, Vlan, IPv4, IPv6, UDP and TCP changes nothing for packets in which
no header of that class has that value: such a packet is parsed into the same headers with and without the registration.
An extension header counts as an IPv6 header. -/
theorem registering_affects_only (calls : List RegCall) (hc : NoSharing calls) (c : Cls) (hm : c ∈ configurable) (v : Int)
    (t : Option RCls) (u : UserHdrs U) (raw : Bytes) (first : RCls) (p : List (RHdr U))
    (hv : ∀ h ∈ p, h.cls = .lib c → ∀ a, (nextCfgAfter c calls).key = some a → h.attr u a ≠ .ok (some v))
    (h6 : c = .ip6 → ∀ h ∈ p, ∀ n, extAnnounces h = some n → (n : Int) ≠ v) :
    (Reg.run (calls ++ [.add (.lib c) v t])).Gives u raw first (.ok p) ↔ (Reg.run calls).Gives u raw first (.ok p) := by
  obtain ⟨hl, ho⟩ := configurable_own hm
  obtain ⟨k1, k2⟩ := start_look hm
  obtain ⟨g1, _⟩ := cfg_run sep_init hl ho hc k1 k2
  have hn : ∀ x ∈ p, (Reg.run (calls ++ [.add (.lib c) v t])).next u x = (Reg.run calls).next u x := by
    intro x hx
    rw [show Reg.run (calls ++ [.add (.lib c) v t]) = (Reg.run calls).call (.add (.lib c) v t) by simp [Reg.run]]
    refine next_add (sep_run sep_init hc) hl (own_run ho calls) v t u x ?_ ?_
    · intro hcls a ha
      exact hv x hx hcls a (by rw [← ha]; exact g1.symm)
    · intro h4 n hn
      have := four_run hc _ h4
      cases this
      exact h6 rfl x hx n hn
  exact ⟨fun h => gives_agree h fun x hx => (hn x hx).symm, fun h => gives_agree h hn⟩

/-- An LLDP packet stays the same when a class is registered for an unused Ethernet type. -/
example : ∃ p : List (RHdr DocHdr), 
    (Reg.run []).Gives docHdrs [1, 2, 3, 4, 5, 6, 2, 0, 0, 0, 0, 1, 0x88, 0xcc, 9] (.lib .eth) (.ok p) ∧
    (∀ h ∈ p, h.cls = .lib .eth → ∀ a, (nextCfgAfter .eth []).key = some a → h.attr docHdrs a ≠ .ok (some 0x8809)) ∧ p.length = 2 := by
  refine ⟨[.lib (.eth ⟨⟨[1, 2, 3, 4, 5, 6]⟩, ⟨[2, 0, 0, 0, 0, 1]⟩, 0x88cc⟩), .lib (.raw [9])], ?_, ?_, rfl⟩
  · exact ⟨1, by decide +kernel⟩
  · intro h hh hc a ha
    cases ha
    simp only [List.mem_cons, List.not_mem_nil, or_false] at hh
    rcases hh with rfl | rfl
    · decide +kernel
    · cases hc

/-! ## Adding classes for values that had none -/

/-- Calls that only add: attributes are named for UDP and TCP, classes are registered for values that the library has
no class for. -/
def Additive (calls : List RegCall) : Prop :=
  ∀ x ∈ calls, (∃ k, x = .setKey (.lib .udp) k ∨ x = .setKey (.lib .tcp) k) ∨
    ∃ c v t, x = .add (.lib c) v t ∧ c ∈ configurable ∧ (NextCfg.start c).tbl v = none

theorem additive_noSharing {calls : List RegCall} (h : Additive calls) : NoSharing calls := by
  intro x hx a b e
  subst e
  rcases h _ hx with ⟨k, h | h⟩ | ⟨c, v, t, h, _⟩ <;> cases h

theorem additive_maps {calls : List RegCall} (h : Additive calls) : (Reg.run calls).maps = Reg.init.maps := by
  have go : ∀ (calls : List RegCall) (r : Reg), Additive calls → (calls.foldl Reg.call r).maps = r.maps := by
    intro calls
    induction calls with
    | nil => intro r _; rfl
    | cons x calls ih =>
      intro r h
      rw [List.foldl_cons, ih _ fun y hy => h y (List.mem_cons_of_mem _ hy)]
      rcases h x (by simp) with ⟨k, rfl | rfl⟩ | ⟨c, v, t, rfl, _⟩ <;> rfl
  exact go calls _ h

theorem additive_user_key {calls : List RegCall} (h : Additive calls) (n : Nat) : (Reg.run calls).keyOf (.user n) = none := by
  have go : ∀ (calls : List RegCall) (r : Reg), Additive calls → r.keys (.user n) = none → r.keys (.lib .base) = some none →
      (calls.foldl Reg.call r).keyOf (.user n) = none := by
    intro calls
    induction calls with
    | nil => intro r _ h1 h2; simp [Reg.keyOf, RCls.mro, h1, h2]
    | cons x calls ih =>
      intro r h h1 h2
      refine ih _ (fun y hy => h y (List.mem_cons_of_mem _ hy)) ?_ ?_
      all_goals
        rcases h x (by simp) with ⟨k, rfl | rfl⟩ | ⟨c, v, t, rfl, _⟩ <;> simp [Reg.call, Reg.setKey, Reg.add, h1, h2]
  exact go calls _ h rfl rfl

theorem additive_cfg {calls : List RegCall} (h : Additive calls) {c : Cls} :
    (c ≠ .udp → c ≠ .tcp → (nextCfgAfter c calls).key = (NextCfg.start c).key) ∧
      ∀ v X, (NextCfg.start c).tbl v = some X → (nextCfgAfter c calls).tbl v = some X := by
  have go : ∀ (calls : List RegCall) (g : NextCfg), Additive calls →
      (∀ v X, (NextCfg.start c).tbl v = some X → g.tbl v = some X) →
      (c ≠ .udp → c ≠ .tcp → (calls.foldl (NextCfg.step (.lib c)) g).key = g.key) ∧
      ∀ v X, (NextCfg.start c).tbl v = some X → (calls.foldl (NextCfg.step (.lib c)) g).tbl v = some X := by
    intro calls
    induction calls with
    | nil => intro g _ h; exact ⟨fun _ _ => rfl, h⟩
    | cons x calls ih =>
      intro g ha hg
      have ha' : Additive calls := fun y hy => ha y (List.mem_cons_of_mem _ hy)
      have hg' : ∀ v X, (NextCfg.start c).tbl v = some X → (g.step (.lib c) x).tbl v = some X := by
        intro v X hv
        rcases ha x (by simp) with ⟨k, rfl | rfl⟩ | ⟨c', v', t, rfl, hc', hn⟩
        · simp only [NextCfg.step]; split <;> exact hg v X hv
        · simp only [NextCfg.step]; split <;> exact hg v X hv
        · simp only [NextCfg.step]
          split
          · rename_i e
            cases e
            simp only
            rw [if_neg]
            · exact hg v X hv
            · rintro rfl; rw [hn] at hv; cases hv
          · exact hg v X hv
      obtain ⟨i1, i2⟩ := ih (g.step (.lib c) x) ha' hg'
      refine ⟨fun h1 h2 => ?_, i2⟩
      rw [List.foldl_cons, i1 h1 h2]
      rcases ha x (by simp) with ⟨k, rfl | rfl⟩ | ⟨c', v', t, rfl, hc', hn⟩
      · simp [NextCfg.step, Ne.symm h1]
      · simp [NextCfg.step, Ne.symm h2]
      · simp only [NextCfg.step]; split <;> rfl
  exact go calls _ h fun _ _ h => h

theorem attr_num {u : UserHdrs U} {h : Hdr} {a : HdrAttr} {n : Int} (hn : h ≠ .nullHdr) (ha : h.getattr a = .ok (.num n)) :
    (RHdr.lib h : RHdr U).attr u (.std a) = .ok (some n) := by
  cases h <;> first | exact absurd rfl hn | (simp only [RHdr.attr, ha, bind_ok]; rfl)

/-- Where the library knows what comes next, it still comes next. -/
theorem additive_next {calls : List RegCall} (h : Additive calls) (u : UserHdrs U) (x : Hdr) (c' : Cls) (hx : x.next = .ok (some c')) :
    (Reg.run calls).next u (.lib x) = .ok (some (.lib c')) := by
  have h0 : Reg.init.next u (.lib x) = .ok (some (.lib c')) := by rw [init_next, hx]; rfl
  have hns := additive_noSharing h
  have base : ∀ (c : Cls) (a : HdrAttr) (n : Nat), c ∈ configurable → x.cls = c → c ≠ .udp → c ≠ .tcp →
      (NextCfg.start c).key = some (.std a) → x.getattr a = .ok (.num n) →
      (Reg.run calls).next u (.lib x) = .ok (some (.lib c')) := by
    intro c a n hc hcls h1 h2 hk ha
    have hnn : x ≠ .nullHdr := by rintro rfl; subst hcls; simp [configurable, Hdr.cls] at hc
    have e0 := configured_next_partial [] (by simp [NoSharing]) c hc x hcls u
    rw [show Reg.run [] = Reg.init from rfl, h0, show nextCfgAfter c [] = NextCfg.start c from rfl, hk] at e0
    simp only [attr_num hnn ha, bind_ok, Option.bind_some, Except.ok.injEq] at e0
    rw [configured_next_partial calls hns c hc x hcls u, (additive_cfg h).1 h1 h2, hk]
    simp only [attr_num hnn ha, bind_ok, Option.bind_some]
    rw [(additive_cfg h).2 _ _ e0.symm]
  have ext : ∀ o : Option Nat, o.bind ip6Next = some c' →
      (o.map fun n => (n : Int)).bind ((Reg.run calls).look ip6DictNo) = some (.lib c') := by
    intro o ho
    cases o with
    | none => cases ho
    | some n =>
      obtain ⟨hl, hown⟩ := configurable_own (c := .ip6) (by decide)
      obtain ⟨k1, k2⟩ := start_look (c := .ip6) (by decide)
      obtain ⟨_, g2⟩ := cfg_run sep_init hl hown hns k1 k2
      have hm : (Reg.run calls).mapOf (.lib .ip6) = 4 := mapOf_own (by rw [additive_maps h]; rfl)
      have hm0 : Reg.init.mapOf (.lib .ip6) = 4 := rfl
      show (Reg.run calls).look 4 n = _
      have := g2 n
      rw [show (calls.foldl Reg.call Reg.init) = Reg.run calls from rfl, hm] at this
      rw [this]
      refine (additive_cfg h).2 _ _ ?_
      rw [← k2, hm0]
      have e := init_next u (.route ⟨some n, 0, 0, 0, 0⟩)
      rw [show (Hdr.route ⟨some n, 0, 0, 0, 0⟩).next = .ok (ip6Next n) from rfl, show ip6Next n = some c' from ho] at e
      exact Except.ok.inj e
  cases x
  case eth a => exact base .eth .ethertype a.ethertype (by decide) rfl (by decide) (by decide) rfl rfl
  case vlan a => exact base .vlan .ethertype a.ethertype (by decide) rfl (by decide) (by decide) rfl rfl
  case ip4 a => exact base .ip4 .protocol a.protocol (by decide) rfl (by decide) (by decide) rfl rfl
  case ip6 a => exact base .ip6 .nextheader a.next (by decide) rfl (by decide) (by decide) rfl rfl
  case route a => exact congrArg Except.ok (ext _ (Except.ok.inj hx))
  case frag a => exact congrArg Except.ok (ext _ (Except.ok.inj hx))
  case hop a => exact congrArg Except.ok (ext _ (Except.ok.inj hx))
  case dst a => exact congrArg Except.ok (ext _ (Except.ok.inj hx))
  case null a => exact h0
  all_goals (first | (cases hx; done) | skip)

/-- How a packet that the library can parse is parsed by a configuration that only adds: the same up to the last header,
then as that header says. -/
theorem regLoop_extend {fuel : Nat} {c : Cls} {raw : Bytes} {acc : List Hdr} {q : Packet}
    (h : parseLoop fuel c raw (acc.map .hdr) = some (.ok q)) :
    ∃ (hs : List Hdr) (x : Hdr) (rest : Option Bytes), q = parseEnd rest ((acc ++ hs ++ [x]).map .hdr) ∧ x.next = .ok none ∧
      (∀ y ∈ hs, ∃ c', y.next = .ok (some c')) ∧ x.cls ≠ .raw ∧ (x.cls ≠ .rip → rest ≠ none) ∧
      ∀ (u : UserHdrs U) (r : Reg), (∀ y c', y.next = .ok (some c') → r.next u (.lib y) = .ok (some (.lib c'))) → ∀ k,
        regLoop u r (hs.length + 1 + k) (.lib c) raw (acc.map .lib) = match r.next u (.lib x) with
          | .error e => some (.error e)
          | .ok none => some (.ok (regEnd rest ((acc ++ hs ++ [x]).map .lib)))
          | .ok (some C) => regLoop u r k C (rest.getD []) ((acc ++ hs ++ [x]).map .lib) := by
  induction fuel generalizing c raw acc with
  | zero => cases h
  | succ fuel ih =>
    simp only [parseLoop] at h
    cases hf : c.fromBytes raw with
    | error e => rw [hf] at h; cases h
    | ok p =>
      obtain ⟨x, rest⟩ := p
      rw [hf] at h
      simp only at h
      cases hn : x.next with
      | error e => rw [hn] at h; cases h
      | ok o =>
        rw [hn] at h
        cases o with
        | none =>
          cases h
          obtain ⟨f1, f2, _, _⟩ := fromBytes_rest hf
          refine ⟨[], x, rest, by simp, hn, by simp, ?_, ?_, ?_⟩
          · rw [f1]; rintro rfl; cases hf
          · intro hr
            obtain ⟨n, hn⟩ := f2 (by rw [← f1]; exact hr)
            rw [hn]; simp
          · intro u r hr k
            rw [show [].length + 1 + k = k + 1 by simp; omega]
            simp only [regLoop, RCls.fromBytes, hf, bind_ok, List.append_nil, List.map_append, List.map_cons, List.map_nil]
            cases r.next u (.lib x) with
            | error e => rfl
            | ok o => cases o <;> rfl
        | some c' =>
          simp only at h
          rw [show acc.map Item.hdr ++ [Item.hdr x] = (acc ++ [x]).map .hdr by simp] at h
          obtain ⟨hs, y, rs, e1, e2, e3, e3', e4, e5⟩ := ih h
          refine ⟨x :: hs, y, rs, by rw [e1]; simp, e2, ?_, e3', e4, ?_⟩
          · intro z hz
            rcases List.mem_cons.mp hz with rfl | hz
            · exact ⟨c', hn⟩
            · exact e3 z hz
          · intro u r hr k
            rw [show (x :: hs).length + 1 + k = (hs.length + 1 + k) + 1 by simp only [List.length_cons]; omega]
            have := e5 u r hr k
            simp only [regLoop, RCls.fromBytes, hf, bind_ok, hr x c' hn]
            rw [show acc.map RHdr.lib ++ [(RHdr.lib x : RHdr U)] = (acc ++ [x]).map .lib by simp, this]
            simp

/-- Parsing under the initial configuration is the parsing of `Verif/Packet.lean` (C42). -/
theorem unconfigured_parse (u : UserHdrs U) (raw : Bytes) (c : Cls) :
    ∃ res : Res (List Hdr), Packet.parse raw (some c) = (List.map Item.hdr) <$> res ∧
      Reg.init.Gives u raw (.lib c) ((List.map RHdr.lib) <$> res) := by
  have go : ∀ (fuel : Nat) (c : Cls) (raw : Bytes) (acc : List Hdr), ∃ o : Option (Res (List Hdr)),
      parseLoop fuel c raw (acc.map .hdr) = o.map (fun r => (List.map Item.hdr) <$> r) ∧
      regLoop u Reg.init fuel (.lib c) raw (acc.map .lib) = o.map (fun r => (List.map RHdr.lib) <$> r) := by
    intro fuel
    induction fuel with
    | zero => intro c raw acc; exact ⟨none, rfl, rfl⟩
    | succ fuel ih =>
      intro c raw acc
      simp only [parseLoop, regLoop, RCls.fromBytes]
      cases hf : c.fromBytes raw with
      | error e => exact ⟨some (.error e), rfl, rfl⟩
      | ok p =>
        obtain ⟨x, rest⟩ := p
        simp only [bind_ok, init_next]
        cases hn : x.next with
        | error e => exact ⟨some (.error e), rfl, rfl⟩
        | ok o =>
          cases o with
          | none =>
            simp only [bind_ok, Option.map_none]
            cases rest with
            | none => exact ⟨some (.ok (acc ++ [x])), by simp [parseEnd, map_ok], by simp [regEnd, map_ok]⟩
            | some b =>
              cases b with
              | nil => exact ⟨some (.ok (acc ++ [x])), by simp [parseEnd, map_ok], by simp [regEnd, map_ok]⟩
              | cons y ys => exact ⟨some (.ok (acc ++ [x, .raw (y :: ys)])), by simp [parseEnd, map_ok], by simp [regEnd, map_ok]⟩
          | some c' =>
            simp only [bind_ok, Option.map_some]
            obtain ⟨o, h1, h2⟩ := ih c' (rest.getD []) (acc ++ [x])
            exact ⟨o, by rw [← h1]; simp, by rw [← h2]; simp⟩
  by_cases hraw : raw = []
  · exact ⟨.ok [], by simp [Packet.parse, hraw, map_ok], by simp [Reg.Gives, hraw, map_ok]⟩
  · obtain ⟨res, hr⟩ := parse_terminates raw c
    obtain ⟨o, h1, h2⟩ := go (raw.length + 8) c raw []
    rw [List.map_nil, hr] at h1
    cases o with
    | none => cases h1
    | some o =>
      refine ⟨o, ?_, ?_⟩
      · rw [parse_of_loop hraw hr]; exact Option.some.inj h1
      · unfold Reg.Gives
        rw [if_neg hraw]
        exact ⟨_, h2⟩

/-! ## A header of one's own is written and read back -/

theorem unsum_getattr {x y : Hdr} (h : unsum x = unsum y) (a : HdrAttr) : x.getattr a = y.getattr a := by
  have go : ∀ z : Hdr, (unsum z).getattr a = z.getattr a := by
    intro z
    cases z <;> rfl
  rw [← go x, h, go y]

theorem stack_payload {c : Cls} {hs : List Hdr} {h : Hdr} (h1 : Stack c ((hs ++ [h]).map .hdr)) (h2 : h.cls ∈ configurable) (x : UInt8)
    (xs : Bytes) : Stack c ((hs ++ [h]).map .hdr ++ [.hdr (.raw (x :: xs))]) := by
  have hsw : ¬ Swallows h := by
    intro hw
    unfold Swallows at hw
    rcases hw with hw | hw | hw <;> (rw [hw] at h2; simp [configurable] at h2)
  induction hs generalizing c with
  | nil =>
    simp only [List.nil_append, List.map_cons, List.map_nil, Stack] at h1 ⊢
    refine ⟨h1.1, h1.2.1, ?_⟩
    have h3 := h1.2.2
    split at h3
    · exact h3.elim
    · exact .inr ⟨hsw, x, xs, rfl⟩
    · exact h3.elim
  | cons y hs ih =>
    simp only [List.cons_append, List.map_cons, Stack] at h1 ⊢
    refine ⟨h1.1, h1.2.1, ?_⟩
    have h3 := h1.2.2
    split at h3
    · exact ih h3
    · rcases h3 with h3 | ⟨_, z, zs, h3⟩
      · simp at h3
      · exfalso
        have := congrArg List.getLast? h3
        have hh : h = .raw (z :: zs) := by simpa using this
        rw [hh] at h2
        simp [configurable, Hdr.cls] at h2
    · exact h3.elim

theorem lowerAll_snoc {u : UserHdrs U} (l : List Hdr) {n : Nat} {v : U} {b : Bytes} (he : u.enc n v = .ok b) :
    lowerAll u (l.map .lib ++ [.user n v]) = .ok (l.map .hdr ++ [.hdr (.raw b)]) := by
  induction l with
  | nil => simp [lowerAll, RHdr.lower, he, bind_ok]
  | cons x l ih => simp only [List.map_cons, List.cons_append, lowerAll, RHdr.lower, ih, bind_ok]

/-- **C185**: any program may give its own header class `n` to the library.  After calls that only add to the configuration
and by which class `n` comes after the headers `h` with value `k`: a packet of library headers (those for which C41 holds)
ending with `h`, followed by a header of class `n` whose bytes its own `from_bytes` reads back, is written and parsed
into the same headers with the same attributes (apart from length fields, which writing fills in), ending with the header
of class `n`; and these are written as the same bytes. -/
theorem registered_header_roundtrip (calls : List RegCall) (hadd : Additive calls) (u : UserHdrs U) (n : Nat) (v : U) (x : UInt8)
    (xs : Bytes) (henc : u.enc n v = .ok (x :: xs)) (hdec : u.dec n (x :: xs) = .ok (v, [])) (c : Cls) (hs : List Hdr) (h : Hdr)
    (hst : Stack c ((hs ++ [h]).map .hdr)) (hcls : h.cls ∈ configurable) (a : HdrAttr) (ha1 : a ≠ .totalLength)
    (ha2 : a ≠ .length) (k : Nat) (hkey : (nextCfgAfter h.cls calls).key = some (.std a)) (hk : h.getattr a = .ok (.num k))
    (htbl : (nextCfgAfter h.cls calls).tbl k = some (.user n)) (bytes : Bytes)
    (hb : regToBytes u ((hs ++ [h]).map .lib ++ [.user n v]) = .ok bytes) :
    ∃ qs : List Hdr, (Reg.run calls).Gives u bytes (.lib c) (.ok (qs.map .lib ++ [.user n v])) ∧
      qs.length = hs.length + 1 ∧
      (∀ (i : Nat) (g : Hdr), (hs ++ [h])[i]? = some g → ∃ g', qs[i]? = some g' ∧ g'.cls = g.cls ∧
        ∀ a, a ≠ .totalLength → a ≠ .length → g'.getattr a = g.getattr a) ∧
      regToBytes u (qs.map .lib ++ [.user n v]) = .ok bytes := by
  generalize hP : (hs ++ [h]).map Item.hdr ++ [.hdr (.raw (x :: xs))] = P
  have hPl : P.length = hs.length + 2 := by rw [← hP]; simp
  unfold regToBytes at hb
  rw [lowerAll_snoc _ henc, bind_ok, hP] at hb
  have hst' := stack_payload hst hcls x xs
  rw [hP] at hst'
  have hser : Packet.toBytes P = ((Packet.toBytes P).1, .ok bytes) := Prod.ext rfl hb
  generalize (Packet.toBytes P).1 = p' at hser
  obtain ⟨q, hq, hqp, _, hqb⟩ := packet_roundtrip_partial c P p' bytes hst' hser
  obtain ⟨bs, hfin, hbs⟩ := toBytes_inv hser
  obtain ⟨l1, l2, pw⟩ := finish_pointwise hfin
  have hql : q.length = hs.length + 2 := by
    have := congrArg List.length hqp
    rw [List.length_map, List.length_map, l1, hPl] at this
    exact this
  have hne : bytes ≠ [] := by
    rintro rfl
    rw [show Packet.parse [] (some c) = .ok [] from rfl] at hq
    cases hq
    simp at hql
  obtain ⟨res, hres⟩ := parse_terminates bytes c
  have hres' : res = .ok q := by rw [← parse_of_loop hne hres]; exact hq
  subst hres'
  obtain ⟨hs', y, rest, e1, e2, e3, e4, e5, e6⟩ := regLoop_extend (U := U) (acc := []) hres
  rw [List.nil_append] at e1
  -- header `i` of the original and of what was parsed
  have point : ∀ (i : Nat) (g : Hdr), P[i]? = some (.hdr g) → ∃ g' : Hdr, q[i]? = some (.hdr g') ∧ g'.cls = g.cls ∧
      (∀ a, a ≠ .totalLength → a ≠ .length → g'.getattr a = g.getattr a) ∧ (∀ b, g = .raw b → g' = .raw b) := by
    intro i g hi
    obtain ⟨it', b, p1, p2, p3, p4⟩ := pw i _ hi
    simp only [Item.pre] at p1
    obtain ⟨g1, hg1, rfl⟩ := map_eq_ok.mp p1
    have h3 : (q.map unsumItem)[i]? = some (.hdr (unsum g1)) := by
      rw [hqp, List.getElem?_map, p3]; rfl
    rw [List.getElem?_map] at h3
    cases hqi : q[i]? with
    | none => rw [hqi] at h3; cases h3
    | some z =>
      rw [hqi] at h3
      cases z with
      | hdr g' =>
        have h4 : unsum g' = unsum g1 := by
          simp only [Option.map_some, unsumItem, Option.some.injEq, Item.hdr.injEq] at h3
          exact h3
        refine ⟨g', rfl, ?_, ?_, ?_⟩
        · rw [(unsum_key h4).2.1, (Hdr.pre_keys hg1).1]
        · intro a h1 h2
          rw [unsum_getattr h4, pre_getattr hg1 h1 h2]
        · rintro b rfl
          cases hg1
          cases g' <;> simp only [unsum, reduceCtorEq] at h4
          exact h4
      | bytes _ => simp [unsumItem] at h3
      | other _ => simp [unsumItem] at h3
  -- the last thing in the packet is what the header of class `n` wrote
  have hlast : q[hs.length + 1]? = some (.hdr (.raw (x :: xs))) := by
    obtain ⟨g', h1, _, _, h4⟩ := point (hs.length + 1) (.raw (x :: xs)) (by rw [← hP]; simp)
    rw [h1, h4 _ rfl]
  have hrest : rest = some (x :: xs) ∧ q = (hs' ++ [y]).map .hdr ++ [.hdr (.raw (x :: xs))] := by
    have hgl : q.getLast? = some (.hdr (.raw (x :: xs))) := by
      rw [List.getLast?_eq_getElem?, hql]; exact hlast
    have bad : q = (hs' ++ [y]).map .hdr → False := by
      intro e
      rw [e] at hgl
      simp at hgl
      rw [hgl] at e4
      exact e4 rfl
    cases rest with
    | none => exact (bad e1).elim
    | some b =>
      cases b with
      | nil => exact (bad e1).elim
      | cons z zs =>
        simp only [parseEnd] at e1
        rw [e1] at hgl
        simp at hgl
        obtain ⟨rfl, rfl⟩ := hgl
        exact ⟨rfl, e1⟩
  obtain ⟨rfl, hq2⟩ := hrest
  have hl' : hs'.length = hs.length := by
    rw [hq2] at hql
    simp at hql
    exact hql
  have hqi : ∀ i (g' : Hdr), i < hs.length + 1 → q[i]? = some (.hdr g') → (hs' ++ [y])[i]? = some g' := by
    intro i g' hi hg
    rw [hq2, List.getElem?_append_left (by simp; omega), List.getElem?_map] at hg
    cases hz : (hs' ++ [y])[i]? with
    | none => rw [hz] at hg; cases hg
    | some z => rw [hz] at hg; cases hg; rfl
  have hPi : ∀ i (g : Hdr), (hs ++ [h])[i]? = some g → i < hs.length + 1 ∧ P[i]? = some (.hdr g) := by
    intro i g hg
    have hlt : i < (hs ++ [h]).length := (List.getElem?_eq_some_iff.mp hg).1
    refine ⟨by simpa using hlt, ?_⟩
    rw [← hP, List.getElem?_append_left (by simpa using hlt), List.getElem?_map, hg]; rfl
  have hy : y.cls = h.cls ∧ ∀ a, a ≠ .totalLength → a ≠ .length → y.getattr a = h.getattr a := by
    obtain ⟨hi, hp⟩ := hPi hs.length h (by simp)
    obtain ⟨g', g1, g2, g3, _⟩ := point _ _ hp
    have := hqi _ _ hi g1
    rw [← hl'] at this
    simp at this
    subst this
    exact ⟨g2, g3⟩
  have hnext : (Reg.run calls).next u (.lib y) = .ok (some (.user n)) := by
    rw [configured_next_partial calls (additive_noSharing hadd) h.cls hcls y hy.1 u, hkey]
    have hyn : y ≠ .nullHdr := by
      rintro rfl
      have := hy.1
      rw [← this] at hcls
      simp [configurable, Hdr.cls] at hcls
    simp only [attr_num hyn ((hy.2 a ha1 ha2).trans hk), bind_ok, Option.bind_some, htbl]
  refine ⟨hs' ++ [y], ?_, by simp [hl'], ?_, ?_⟩
  · unfold Reg.Gives
    rw [if_neg hne]
    refine ⟨hs'.length + 1 + 1, ?_⟩
    have := e6 u (Reg.run calls) (additive_next hadd u) 1
    rw [List.map_nil] at this
    rw [this, hnext]
    simp only [regLoop, RCls.fromBytes, Option.getD_some, hdec, bind_ok, Reg.next, Reg.nextBase, RHdr.cls, additive_user_key hadd]
    rfl
  · intro i g hg
    obtain ⟨hi, hp⟩ := hPi i g hg
    obtain ⟨g', g1, g2, g3, _⟩ := point _ _ hp
    exact ⟨g', hqi _ _ hi g1, g2, g3⟩
  · unfold regToBytes
    rw [lowerAll_snoc _ henc, bind_ok, ← hq2]
    exact hqb

/-! ### The documentation's examples -/

theorem udpPing_codec (seq : Nat) (h : seq < 65536) :
    ∃ x xs, udpPingEnc seq = .ok (x :: xs) ∧ udpPingDec (x :: xs) = .ok ((seq : Int), []) := by
  have hf : Fits [.u 2] [.i (seq : Int)] := by
    have e : ((256 ^ 2 : Nat) : Int) = 65536 := rfl
    exact ⟨⟨by omega, by rw [e]; omega⟩, trivial⟩
  obtain ⟨b, hb⟩ := pack_ok hf
  have hl := length_pack hb
  have hu := unpack_pack hf hb
  simp only [calcsize, Fld.size] at hl
  match b, hl with
  | [x, y], _ =>
    refine ⟨x, [y], hb, ?_⟩
    simp [udpPingDec, hu, bind_ok]

theorem stm_codec (root : EthAddr) (hr : root.raw.length = 6) (hops : Nat) (h : hops < 256) :
    ∃ x xs, stmEnc root hops = .ok (x :: xs) ∧ stmDec (x :: xs) = .ok ((root, (hops : Int)), []) := by
  have hf : Fits [.s 6, .x 1, .u 1] [.b root.raw, .i (hops : Int)] := by
    have e : ((256 ^ 1 : Nat) : Int) = 256 := rfl
    exact ⟨hr, ⟨by omega, by rw [e]; omega⟩, trivial⟩
  obtain ⟨b, hb⟩ := pack_ok hf
  have hl := length_pack hb
  have hu := unpack_pack hf hb
  simp only [calcsize, Fld.size] at hl
  match b, hl with
  | x :: xs, hl =>
    refine ⟨x, xs, hb, ?_⟩
    have hl' : (x :: xs).length = 8 := by omega
    unfold stmDec
    rw [if_neg (by omega), List.take_of_length_le (by omega), hu, bind_ok, List.drop_of_length_le (by omega)]

/-- The calls of documentation/code/udpappheader.py 60-61. -/
def udpPingCalls : List RegCall := [.add (.lib .udp) 12345 (some (.user 0)), .setKey (.lib .udp) (some (.std .dst))]

/-- The call of documentation/code/newheader.py 46. -/
def stmCalls : List RegCall := [.add (.lib .eth) 0x8809 (some (.user 1))]

theorem udpPing_additive : Additive udpPingCalls := by
  intro x hx
  simp only [udpPingCalls, List.mem_cons, List.not_mem_nil, or_false] at hx
  rcases hx with rfl | rfl
  · exact .inr ⟨.udp, _, _, rfl, by decide, rfl⟩
  · exact .inl ⟨_, .inl rfl⟩

theorem stm_additive : Additive stmCalls := by
  intro x hx
  simp only [stmCalls, List.mem_cons, List.not_mem_nil, or_false] at hx
  subst hx
  exact .inr ⟨.eth, _, _, rfl, by decide, by decide⟩

/-- The first example of the documentation, for every packet: after the two calls, a `UDPPing` header with any sequence
number that fits, behind a UDP header for port 12345 in any packet that can be written, is read back. -/
theorem udp_ping_roundtrip (seq : Nat) (hseq : seq < 65536) (c : Cls) (hs : List Hdr) (h : UDP) (hd : h.dst = 12345)
    (hst : Stack c ((hs ++ [Hdr.udp h]).map .hdr)) (bytes : Bytes)
    (hb : regToBytes docHdrs ((hs ++ [Hdr.udp h]).map .lib ++ [.user 0 (.ping seq)]) = .ok bytes) :
    ∃ qs : List Hdr, (Reg.run udpPingCalls).Gives docHdrs bytes (.lib c) (.ok (qs.map .lib ++ [.user 0 (.ping seq)])) ∧
      qs.length = hs.length + 1 ∧
      ∀ (i : Nat) (g : Hdr), (hs ++ [Hdr.udp h])[i]? = some g → ∃ g', qs[i]? = some g' ∧ g'.cls = g.cls ∧
        ∀ a, a ≠ .totalLength → a ≠ .length → g'.getattr a = g.getattr a := by
  obtain ⟨x, xs, h1, h2⟩ := udpPing_codec seq hseq
  obtain ⟨qs, q1, q2, q3, _⟩ := registered_header_roundtrip udpPingCalls udpPing_additive docHdrs 0 (.ping seq) x xs
    (by simp only [docHdrs]; exact h1)
    (by simp [docHdrs, h2, bind_ok])
    c hs (.udp h) hst (by show Cls.udp ∈ configurable; decide) .dst (by decide) (by decide) 12345
    (by simp [nextCfgAfter, udpPingCalls, NextCfg.step, Hdr.cls])
    (by show Except.ok (AVal.num h.dst) = _; rw [hd]; simp) (by simp [nextCfgAfter, udpPingCalls, NextCfg.step, Hdr.cls]) bytes hb
  exact ⟨qs, q1, q2, q3⟩

theorem eth_of_attrs {g h : Ethernet} (s1 : (Hdr.eth g).getattr .dst = (Hdr.eth h).getattr .dst)
    (s2 : (Hdr.eth g).getattr .src = (Hdr.eth h).getattr .src)
    (s3 : (Hdr.eth g).getattr .ethertype = (Hdr.eth h).getattr .ethertype) : g = h := by
  obtain ⟨g1, g2, g3⟩ := g
  obtain ⟨h1, h2, h3⟩ := h
  have t1 : Except.ok (ε := PyErr) (AVal.eth g1) = .ok (.eth h1) := s1
  have t2 : Except.ok (ε := PyErr) (AVal.eth g2) = .ok (.eth h2) := s2
  have t3 : Except.ok (ε := PyErr) (AVal.num g3) = .ok (.num h3) := s3
  simp only [Except.ok.injEq, AVal.eth.injEq, AVal.num.injEq, Int.natCast_inj] at t1 t2 t3
  rw [t1, t2, t3]

/-- The second: a `SpanningTreeMessage` behind an Ethernet header of type SLOW. -/
theorem spanning_tree_roundtrip (root : EthAddr) (hr : root.raw.length = 6) (hops : Nat) (hh : hops < 256) (h : Ethernet)
    (hw : h.WF) (ht : h.ethertype = 0x8809) (bytes : Bytes)
    (hb : regToBytes docHdrs [.lib (.eth h), .user 1 (.stm root hops)] = .ok bytes) :
    (Reg.run stmCalls).Gives docHdrs bytes (.lib .eth) (.ok [.lib (.eth h), .user 1 (.stm root hops)]) := by
  obtain ⟨x, xs, h1, h2⟩ := stm_codec root hr hops hh
  have hst : Stack .eth (([] ++ [Hdr.eth h]).map .hdr) := by
    simp only [List.nil_append, List.map_cons, List.map_nil, Stack, Hdr.cls, Storable, true_and]
    refine ⟨⟨hw, by omega⟩, ?_⟩
    rw [show (Hdr.eth h).next = .ok none by simp [Hdr.next, ethNext, ht]]
    exact .inl trivial
  obtain ⟨qs, q1, q2, q3, _⟩ := registered_header_roundtrip stmCalls stm_additive docHdrs 1 (.stm root hops) x xs h1
    (by simp [docHdrs, h2, bind_ok])
    .eth [] (.eth h) hst (by show Cls.eth ∈ configurable; decide) .ethertype (by decide) (by decide) 0x8809
    (by simp [nextCfgAfter, stmCalls, NextCfg.step, Hdr.cls, NextCfg.start])
    (by show Except.ok (AVal.num h.ethertype) = _; rw [ht]) (by simp [nextCfgAfter, stmCalls, NextCfg.step, Hdr.cls]) bytes hb
  obtain ⟨g', e1, e2, e3⟩ := q3 0 (.eth h) rfl
  obtain ⟨g, rfl⟩ := List.length_eq_one_iff.mp q2
  simp only [List.getElem?_cons_zero, Option.some.injEq] at e1
  subst e1
  have this : g = .eth h := by
    cases g with
    | eth g =>
      have s1 := e3 .dst (by decide) (by decide)
      have s2 := e3 .src (by decide) (by decide)
      have s3 := e3 .ethertype (by decide) (by decide)
      exact congrArg Hdr.eth (eth_of_attrs s1 s2 s3)
    | _ => cases e2
  subst this
  exact q1

/-- The packet of the documentation (advanced_api.rst 59-71) meets the hypotheses of `udp_ping_roundtrip`. -/
example : ∃ bytes, regToBytes docHdrs [.lib (.eth ⟨⟨[0x22, 0x33, 0x22, 0x33, 0x22, 0x33]⟩, ⟨[0x11, 0x22, 0x11, 0x22, 0x11, 0x22]⟩, 0x0800⟩),
      .lib (.ip4 ⟨0, 0, 0, 2, 0, 64, 17, .v4 0x01020304, .v4 0x05060708, []⟩), .lib (.udp ⟨55555, 12345, 8, 0⟩),
      .user 0 (.ping 42)] = .ok bytes ∧
    Stack .eth (([.eth ⟨⟨[0x22, 0x33, 0x22, 0x33, 0x22, 0x33]⟩, ⟨[0x11, 0x22, 0x11, 0x22, 0x11, 0x22]⟩, 0x0800⟩,
      .ip4 ⟨0, 0, 0, 2, 0, 64, 17, .v4 0x01020304, .v4 0x05060708, []⟩] ++ [.udp ⟨55555, 12345, 8, 0⟩] : List Hdr).map .hdr) := by
  obtain ⟨b, hb, _⟩ := Except.of_test (r := regToBytes docHdrs [.lib (.eth ⟨⟨[0x22, 0x33, 0x22, 0x33, 0x22, 0x33]⟩,
      ⟨[0x11, 0x22, 0x11, 0x22, 0x11, 0x22]⟩, 0x0800⟩),
      .lib (.ip4 ⟨0, 0, 0, 2, 0, 64, 17, .v4 0x01020304, .v4 0x05060708, []⟩), .lib (.udp ⟨55555, 12345, 8, 0⟩),
      .user 0 (.ping 42)]) (p := fun _ => true) (by decide +kernel)
  exact ⟨b, hb, ⟨rfl, ⟨by decide, by decide⟩, rfl, ⟨by decide, rfl⟩, rfl, by show UDP.WF _; decide, .inl rfl⟩⟩

example : ∃ bytes, regToBytes docHdrs [.lib (.eth ⟨⟨[0x22, 0x33, 0x22, 0x33, 0x22, 0x33]⟩, ⟨[0x11, 0x22, 0x11, 0x22, 0x11, 0x22]⟩, 0x8809⟩),
      .user 1 (.stm ⟨[0, 0x11, 0x22, 0x33, 0x44, 0x55]⟩ 1)] = .ok bytes := by
  obtain ⟨b, hb, _⟩ := Except.of_test (r := regToBytes docHdrs [.lib (.eth ⟨⟨[0x22, 0x33, 0x22, 0x33, 0x22, 0x33]⟩,
      ⟨[0x11, 0x22, 0x11, 0x22, 0x11, 0x22]⟩, 0x8809⟩), .user 1 (.stm ⟨[0, 0x11, 0x22, 0x33, 0x44, 0x55]⟩ 1)]) (p := fun _ => true) (by decide +kernel)
  exact ⟨b, hb⟩

/-! ## Termination -/

/-- An IPv4 header for protocol 4 (IP in IP) whose length field is zero. -/
def emptyIPv4 : Bytes := [0x40, 0, 0, 20, 0, 0, 0x40, 0, 64, 4, 0, 0, 10, 0, 0, 1, 10, 0, 0, 2]

/-- The negation of **C186**: after `IPv4.add_next_header_class(IPProtocol.IPinIP, IPv4)`, a packet of 34 bytes whose IPv4
header claims to be zero bytes long (C42: the length is not checked) makes `Packet(raw)` loop forever. -/
theorem ip_in_ip_diverges_violated (u : UserHdrs U) :
    ¬ ∃ res, (Reg.run [.add (.lib .ip4) 4 (some (.lib .ip4))]).Gives u
      ([1, 2, 3, 4, 5, 6, 2, 0, 0, 0, 0, 1, 0x08, 0x00] ++ emptyIPv4) (.lib .eth) res := by
  let h : IPv4 := ⟨0, 20, 0, 2, 0, 64, 4, .v4 0x0a000001, .v4 0x0a000002, []⟩
  have h1 : Cls.ip4.fromBytes emptyIPv4 = .ok (.ip4 h, some emptyIPv4) := by decide +kernel
  have h2 : (Reg.run [.add (.lib .ip4) 4 (some (.lib .ip4))]).next u (.lib (.ip4 h)) = .ok (some (.lib .ip4)) := by rfl
  have h3 : ∀ (fuel : Nat) (acc : List (RHdr U)),
      regLoop u (Reg.run [.add (.lib .ip4) 4 (some (.lib .ip4))]) fuel (.lib .ip4) emptyIPv4 acc = none := by
    intro fuel
    induction fuel with
    | zero => intro acc; rfl
    | succ fuel ih =>
      intro acc
      simp only [regLoop, RCls.fromBytes, h1, bind_ok, h2]
      exact ih _
  rintro ⟨res, hr⟩
  unfold Reg.Gives at hr
  rw [if_neg (by simp)] at hr
  obtain ⟨fuel, hr⟩ := hr
  cases fuel with
  | zero => cases hr
  | succ fuel =>
    have h4 : Cls.eth.fromBytes ([1, 2, 3, 4, 5, 6, 2, 0, 0, 0, 0, 1, 0x08, 0x00] ++ emptyIPv4) =
        .ok (.eth ⟨⟨[1, 2, 3, 4, 5, 6]⟩, ⟨[2, 0, 0, 0, 0, 1]⟩, 0x0800⟩, some emptyIPv4) := by decide +kernel
    have h5 : (Reg.run [.add (.lib .ip4) 4 (some (.lib .ip4))]).next u (.lib (.eth ⟨⟨[1, 2, 3, 4, 5, 6]⟩, ⟨[2, 0, 0, 0, 0, 1]⟩, 0x0800⟩)) =
        .ok (some (.lib .ip4)) := by rfl
    simp only [regLoop, RCls.fromBytes, h4, bind_ok, h5, Option.getD_some, h3] at hr
    cases hr

/-- Calls by which only classes of the program (or `None`) are registered, with dictionaries made for the purpose. -/
def OnlyUser (calls : List RegCall) : Prop :=
  ∀ x ∈ calls, match x with
    | .setKey _ _ => True
    | .add _ _ t => ∀ c, t ≠ some (.lib c)
    | .setMap _ d => ∀ v c, d.get? v ≠ some (some (.lib c))
    | .shareMap _ _ => False

theorem onlyUser_noSharing {calls : List RegCall} (h : OnlyUser calls) : NoSharing calls := by
  intro x hx a b e
  subst e
  exact h _ hx

/-- The library's own entries are the only ones that lead to classes of the library. -/
structure LibEntries (r : Reg) : Prop where
  len : 7 ≤ r.heap.length
  look : ∀ i v c, r.look i v = some (.lib c) → Reg.init.look i v = some (.lib c)
  maps : ∀ c i, r.maps c = some i → i < 7 → Reg.init.maps c = some i

theorem libEntries_run {calls : List RegCall} (h : OnlyUser calls) : LibEntries (Reg.run calls) := by
  have go : ∀ (calls : List RegCall) (r : Reg), OnlyUser calls → LibEntries r → LibEntries (calls.foldl Reg.call r) := by
    intro calls
    induction calls with
    | nil => intro r _ h; exact h
    | cons x calls ih =>
      intro r hc hr
      refine ih _ (fun y hy => hc y (List.mem_cons_of_mem _ hy)) ?_
      have hx := hc x (by simp)
      cases x with
      | setKey c k => exact ⟨hr.len, hr.look, hr.maps⟩
      | shareMap a b => exact hx.elim
      | add c v t =>
        refine ⟨by simpa [Reg.call, Reg.add] using hr.len, ?_, hr.maps⟩
        intro i w c' hl
        by_cases hiw : r.mapOf c ≠ i ∨ w ≠ v
        · rw [look_add i w hiw] at hl
          exact hr.look i w c' hl
        · simp only [ne_eq, not_or, Decidable.not_not] at hiw
          obtain ⟨rfl, rfl⟩ := hiw
          exfalso
          simp only [Reg.look, Reg.call, Reg.add, List.getElem?_modify, if_true] at hl
          cases hh : r.heap[r.mapOf c]? with
          | none => rw [hh] at hl; simp at hl
          | some m =>
            rw [hh] at hl
            simp only [Option.map_eq_map, Option.map_some, Option.getD_some, Dict.get?_set, if_true] at hl
            exact hx c' hl
      | setMap c d =>
        refine ⟨?_, ?_, ?_⟩
        · have := hr.len; simp only [Reg.call, Reg.setRef, Reg.alloc, List.length_append, List.length_cons, List.length_nil]; omega
        · intro i w c' hl
          simp only [Reg.look, Reg.call, Reg.setRef, Reg.alloc] at hl
          by_cases hi : i < r.heap.length
          · rw [List.getElem?_append_left hi] at hl
            exact hr.look i w c' hl
          · rw [List.getElem?_append_right (by omega)] at hl
            exfalso
            cases hk : i - r.heap.length with
            | zero =>
              rw [hk] at hl
              simp only [List.getElem?_cons_zero, Option.getD_some] at hl
              cases hg : d.get? w with
              | none => rw [hg] at hl; cases hl
              | some o => rw [hg] at hl; simp only [Option.join_some] at hl; rw [hl] at hg; exact hx w c' hg
            | succ k => rw [hk] at hl; simp at hl
        · intro a i hm hi
          simp only [Reg.call, Reg.setRef, Reg.alloc] at hm
          split at hm
          · have := Option.some.inj hm; have := hr.len; omega
          · exact hr.maps a i hm hi
  exact go calls _ h ⟨by decide, fun _ _ _ h => h, fun _ _ h _ => h⟩

theorem init_look_lt {i : Nat} {v : Int} {c : RCls} (h : Reg.init.look i v = some c) : i < 7 := by
  by_cases hi : i < 7
  · exact hi
  · unfold Reg.look at h
    rw [List.getElem?_eq_none (by show 7 ≤ i; omega)] at h
    cases h

theorem init_look_mem {i : Nat} {v : Int} {c : RCls} (h : Reg.init.look i v = some c) :
    ∃ d, Reg.init.heap[i]? = some d ∧ (v, some c) ∈ d := by
  unfold Reg.look at h
  cases hd : Reg.init.heap[i]? with
  | none => rw [hd] at h; cases h
  | some d =>
    rw [hd] at h
    refine ⟨d, rfl, Dict.mem_of_get? ?_⟩
    cases hg : d.get? v with
    | none => rw [Option.getD_some, hg] at h; cases h
    | some o => rw [Option.getD_some, hg] at h; simp only [Option.join_some] at h; rw [h]

theorem init_rank {i : Nat} {v : Int} {c c' : Cls} (hm : Reg.init.maps (.lib c) = some i) (h : Reg.init.look i v = some (.lib c')) :
    rank c' < rank c := by
  obtain ⟨d, h1, h2⟩ := init_look_mem h
  cases c <;> cases hm <;> cases h1
  case base => cases h2
  case eth =>
    simp at h2
    rcases h2 with ⟨_, rfl⟩ | ⟨_, rfl⟩ | ⟨_, rfl⟩ | ⟨_, rfl⟩ <;> decide
  case vlan =>
    simp at h2
    rcases h2 with ⟨_, rfl⟩ | ⟨_, rfl⟩ | ⟨_, rfl⟩ <;> decide
  case ip4 =>
    simp at h2
    rcases h2 with ⟨_, rfl⟩ | ⟨_, rfl⟩ | ⟨_, rfl⟩ <;> decide
  case ip6 =>
    simp at h2
    rcases h2 with ⟨_, rfl⟩ | ⟨_, rfl⟩ | ⟨_, rfl⟩ | ⟨_, rfl⟩ | ⟨_, rfl⟩ | ⟨_, rfl⟩ | ⟨_, rfl⟩ <;> decide
  case udp => cases h2
  case tcp => cases h2

/-- Among the headers of the library, what follows is as before or nothing. -/
theorem onlyUser_rank {calls : List RegCall} (h : OnlyUser calls) (u : UserHdrs U) (x : Hdr) (c' : Cls)
    (hx : (Reg.run calls).next u (.lib x) = .ok (some (.lib c'))) :
    rank c' < rank x.cls ∨ (Cls.isExt x.cls ∧ rank c' ≤ 2) := by
  have hl := libEntries_run h
  have hsep : Sep (Reg.run calls) := sep_run sep_init (onlyUser_noSharing h)
  have base : (Reg.run calls).nextBase u (.lib x) = .ok (some (.lib c')) → rank c' < rank x.cls := by
    intro hb
    unfold Reg.nextBase at hb
    split at hb
    · cases hb
    · obtain ⟨o, _, hb⟩ := bind_eq_ok.mp hb
      cases o with
      | none => cases hb
      | some v =>
        have hlk : (Reg.run calls).look ((Reg.run calls).mapOf (.lib x.cls)) v = some (.lib c') := Except.ok.inj hb
        obtain ⟨y, hy1, hy2⟩ := mapOf_owner hsep (.lib x.cls)
        have hi := hl.look _ _ _ hlk
        have hm := hl.maps _ _ hy1 (init_look_lt hi)
        rcases hy2 with rfl | hy2
        · exact init_rank hm hi
        · exfalso
          unfold Leaf at hy2
          have : y = .lib .base ∨ y = .lib .ext ∨ y = .lib .hop ∨ y = .lib .icmp := by
            by_cases a1 : y = .lib .base
            · exact .inl a1
            by_cases a2 : y = .lib .ext
            · exact .inr (.inl a2)
            by_cases a3 : y = .lib .hop
            · exact .inr (.inr (.inl a3))
            by_cases a4 : y = .lib .icmp
            · exact .inr (.inr (.inr a4))
            exact absurd ⟨a1, a2, a3, a4⟩ hy2
          rcases this with rfl | rfl | rfl | rfl
          · have := init_rank hm hi
            obtain ⟨d, h1, h2⟩ := init_look_mem hi
            rw [show (Reg.run calls).mapOf (.lib x.cls) = 0 from (Option.some.inj hm).symm] at h1
            cases h1
            cases h2
          · cases hm
          · cases hm
          · cases hm
  have ext : ∀ o : Option Nat, (o.map fun n => (n : Int)).bind ((Reg.run calls).look ip6DictNo) = some (.lib c') → rank c' ≤ 2 := by
    intro o ho
    cases o with
    | none => cases ho
    | some n =>
      have := init_rank (c := .ip6) rfl (hl.look _ _ _ ho)
      have e : rank .ip6 = 3 := rfl
      omega
  cases x
  case route a => exact .inr ⟨by simp [Cls.isExt, Hdr.cls], ext _ (Except.ok.inj hx)⟩
  case frag a => exact .inr ⟨by simp [Cls.isExt, Hdr.cls], ext _ (Except.ok.inj hx)⟩
  case hop a => exact .inr ⟨by simp [Cls.isExt, Hdr.cls], ext _ (Except.ok.inj hx)⟩
  case dst a => exact .inr ⟨by simp [Cls.isExt, Hdr.cls], ext _ (Except.ok.inj hx)⟩
  case null af =>
    left
    simp only [Reg.next] at hx
    obtain ⟨o, h1, h2⟩ := bind_eq_ok.mp hx
    cases o with
    | none => cases h2
    | some c =>
      cases h2
      rcases (next_rank h1).1 with h3 | ⟨h3, _⟩
      · exact h3
      · simp [Cls.isExt, Hdr.cls] at h3
  all_goals first | exact .inl (base hx) | (cases hx; done)

/-- How many headers that eat nothing may still follow. -/
def rrank : RCls → Nat
  | .lib c => rank c
  | .user _ => 0

/-- **C186**, partial: parsing ends, whatever the bytes and the first class, when the program registers only classes of its
own, each of which consumes at least one byte.  Missing: registering the library's classes (`ip_in_ip_diverges_violated`)
and classes that may consume nothing (`idle_header_diverges_violated`). -/
theorem registered_parse_terminates_partial (calls : List RegCall) (h : OnlyUser calls) (u : UserHdrs U)
    (hu : ∀ n raw v rest, u.dec n raw = .ok (v, rest) → rest.length < raw.length) (raw : Bytes) (first : RCls) :
    ∃ res, (Reg.run calls).Gives u raw first res := by
  have go : ∀ (fuel : Nat) (c : RCls) (raw : Bytes) (acc : List (RHdr U)), 7 * raw.length + rrank c < fuel →
      ∃ res, regLoop u (Reg.run calls) fuel c raw acc = some res := by
    intro fuel
    induction fuel with
    | zero => intro c raw acc hf; omega
    | succ fuel ih =>
      intro c raw acc hf
      simp only [regLoop]
      cases hb : c.fromBytes u raw with
      | error e => exact ⟨_, rfl⟩
      | ok p =>
        obtain ⟨x, rest⟩ := p
        simp only
        cases hn : (Reg.run calls).next u x with
        | error e => exact ⟨_, rfl⟩
        | ok o =>
          cases o with
          | none => exact ⟨_, rfl⟩
          | some c' =>
            simp only
            apply ih
            have hr5 : rrank c' ≤ 5 := by
              cases c' with
              | user n => simp [rrank]
              | lib c' => cases c' <;> simp [rrank, rank]
            cases c with
            | user n =>
              simp only [RCls.fromBytes] at hb
              obtain ⟨y, h1, h2⟩ := bind_eq_ok.mp hb
              cases h2
              have := hu n raw y.1 y.2 h1
              simp only [Option.getD_some]
              omega
            | lib c =>
              simp only [RCls.fromBytes] at hb
              obtain ⟨y, h1, h2⟩ := bind_eq_ok.mp hb
              cases h2
              obtain ⟨e1, e2, e3, e4⟩ := fromBytes_rest (h := y.1) (rest := y.2) h1
              have hle : (y.2.getD []).length ≤ raw.length := by
                by_cases hrip : c = .rip
                · rw [e3 hrip]; simp
                · obtain ⟨m, hm⟩ := e2 hrip; rw [hm]; simp
              have h1r : 1 ≤ rank c := by cases c <;> simp [rank]
              cases c' with
              | user m =>
                simp only [rrank] at hf ⊢
                omega
              | lib c' =>
                simp only [rrank] at hf ⊢
                have hr := onlyUser_rank h u y.1 c' hn
                rw [e1] at hr
                rcases hr with hr | ⟨hx, h2⟩
                · omega
                · obtain ⟨hl, m, hm2, hm⟩ := e4 hx
                  rw [hm] at hle ⊢
                  simp only [Option.getD_some, List.length_drop] at hle ⊢
                  omega
  by_cases hraw : raw = []
  · exact ⟨.ok [], by simp [Reg.Gives, hraw]⟩
  · obtain ⟨res, hres⟩ := go (7 * raw.length + rrank first + 1) first raw [] (by omega)
    exact ⟨res, by unfold Reg.Gives; rw [if_neg hraw]; exact ⟨_, hres⟩⟩

/-- The documentation's classes consume bytes. -/
example : OnlyUser (udpPingCalls ++ stmCalls) ∧
    ∀ n raw v rest, docHdrs.dec n raw = .ok (v, rest) → rest.length < raw.length := by
  refine ⟨?_, ?_⟩
  · intro x hx
    simp only [udpPingCalls, stmCalls, List.cons_append, List.nil_append, List.mem_cons, List.not_mem_nil, or_false] at hx
    rcases hx with rfl | rfl | rfl <;> simp
  · intro n raw v rest h
    simp only [docHdrs] at h
    split at h
    · obtain ⟨y, h1, h2⟩ := bind_eq_ok.mp h
      cases h2
      unfold udpPingDec at h1
      split at h1
      · cases h1
      · obtain ⟨f, _, h1⟩ := bind_eq_ok.mp h1
        split at h1
        · cases h1; simp only [List.length_drop]; omega
        · cases h1
    · obtain ⟨y, h1, h2⟩ := bind_eq_ok.mp h
      cases h2
      unfold stmDec at h1
      split at h1
      · cases h1
      · obtain ⟨f, _, h1⟩ := bind_eq_ok.mp h1
        split at h1
        · cases h1; simp only [List.length_drop]; omega
        · cases h1

/-- The negation of **C186** for classes of one's own that can be empty (a list of options, say) and may follow
themselves: if class `n` reads `raw` without consuming anything and its attribute has value `k`, for which the class
itself is registered, parsing does not end. -/
theorem idle_header_diverges_violated (u : UserHdrs U) (n : Nat) (raw : Bytes) (v : U) (a : AttrName) (k : Int) (hne : raw ≠ [])
    (hd : u.dec n raw = .ok (v, raw)) (ha : u.attr n v a = .ok (some k)) :
    ¬ ∃ res, (Reg.run [.setKey (.user n) (some a), .add (.user n) k (some (.user n))]).Gives u raw (.user n) res := by
  have hn := (inherited_table_violated u n n v a k (.user n) (.user n) ha).1
  rintro ⟨res, hr⟩
  unfold Reg.Gives at hr
  rw [if_neg hne] at hr
  obtain ⟨fuel, hr⟩ := hr
  have : ∀ (fuel : Nat) (acc : List (RHdr U)),
      regLoop u (Reg.run [.setKey (.user n) (some a), .add (.user n) k (some (.user n))]) fuel (.user n) raw acc = none := by
    intro fuel
    induction fuel with
    | zero => intro acc; rfl
    | succ fuel ih =>
      intro acc
      simp only [regLoop, RCls.fromBytes, hd, bind_ok, hn]
      exact ih _
  rw [this] at hr
  cases hr

/-! ## A registered class that rejects its bytes -/

/-- The attributes looked at are the source and destination of UDP and TCP. -/
def PortKeys (calls : List RegCall) : Prop :=
  ∀ c k, .setKey c k ∈ calls → k = none ∨ k = some (.std .src) ∨ k = some (.std .dst)

theorem portKeys_cfg {calls : List RegCall} (h : PortKeys calls) (d : RCls) {g : NextCfg}
    (hg : g.key = none ∨ g.key = some (.std .src) ∨ g.key = some (.std .dst)) :
    (calls.foldl (NextCfg.step d) g).key = none ∨ (calls.foldl (NextCfg.step d) g).key = some (.std .src) ∨
      (calls.foldl (NextCfg.step d) g).key = some (.std .dst) := by
  induction calls generalizing g with
  | nil => exact hg
  | cons x calls ih =>
    refine ih (fun c k hk => h c k (List.mem_cons_of_mem _ hk)) ?_
    cases x with
    | setKey c k =>
      have := h c k (by simp)
      simp only [NextCfg.step]
      split <;> assumption
    | add c v t => simp only [NextCfg.step]; split <;> exact hg
    | setMap c m => simp only [NextCfg.step]; split <;> exact hg
    | shareMap a b => exact hg

theorem additive_keys {calls : List RegCall} (h : Additive calls) (x : RCls) (h1 : x ≠ .lib .udp) (h2 : x ≠ .lib .tcp) :
    (Reg.run calls).keys x = Reg.init.keys x := by
  have go : ∀ (calls : List RegCall) (r : Reg), Additive calls → (calls.foldl Reg.call r).keys x = r.keys x := by
    intro calls
    induction calls with
    | nil => intro r _; rfl
    | cons y calls ih =>
      intro r h
      rw [List.foldl_cons, ih _ fun y hy => h y (List.mem_cons_of_mem _ hy)]
      rcases h y (by simp) with ⟨k, rfl | rfl⟩ | ⟨c, v, t, rfl, _⟩ <;> simp [Reg.call, Reg.setKey, Reg.add, h1, h2]
  exact go calls _ h

/-- After calls that only add, and only classes of the program, what comes after a header that was the last is nothing or
a class of the program. -/
theorem last_next {calls : List RegCall} (h1 : Additive calls) (h2 : OnlyUser calls) (h3 : PortKeys calls) (u : UserHdrs U) (x : Hdr)
    (hx : x.next = .ok none) :
    (Reg.run calls).next u (.lib x) = .ok none ∨ ∃ n, (Reg.run calls).next u (.lib x) = .ok (some (.user n)) := by
  have hns := additive_noSharing h1
  have hl := libEntries_run h2
  have h0 : Reg.init.next u (.lib x) = .ok none := by rw [init_next, hx]; rfl
  have fin : ∀ o : Option RCls, (∀ c, o ≠ some (.lib c)) → (Except.ok o : Res (Option RCls)) = .ok none ∨
      ∃ n, (Except.ok o : Res (Option RCls)) = .ok (some (.user n)) := by
    intro o ho
    rcases o with _ | c | n
    · exact .inl rfl
    · exact absurd rfl (ho c)
    · exact .inr ⟨n, rfl⟩
  have hmap : ∀ c, c ∈ configurable → ∀ v c', (nextCfgAfter c calls).tbl v = some (.lib c') → (NextCfg.start c).tbl v = some (.lib c') := by
    intro c hc v c' hv
    obtain ⟨k1, k2⟩ := start_look hc
    obtain ⟨a1, a2⟩ := configurable_own hc
    obtain ⟨_, g2⟩ := cfg_run sep_init a1 a2 hns k1 k2
    have e : (Reg.run calls).mapOf (.lib c) = Reg.init.mapOf (.lib c) := by simp only [Reg.mapOf, additive_maps h1]
    rw [← k2 v]
    apply hl.look
    rw [← e]
    exact (show (Reg.run calls).look ((Reg.run calls).mapOf (.lib c)) v = (nextCfgAfter c calls).tbl v from g2 v).trans hv
  have num : ∀ (c : Cls) (a : HdrAttr) (n : Nat), c ∈ configurable → x.cls = c → c ≠ .udp → c ≠ .tcp →
      (NextCfg.start c).key = some (.std a) → x.getattr a = .ok (.num n) →
      (Reg.run calls).next u (.lib x) = .ok none ∨ ∃ n, (Reg.run calls).next u (.lib x) = .ok (some (.user n)) := by
    intro c a n hc hcls e1 e2 hk ha
    have hnn : x ≠ .nullHdr := by rintro rfl; subst hcls; simp [configurable, Hdr.cls] at hc
    have e0 := configured_next_partial [] (by simp [NoSharing]) c hc x hcls u
    rw [show Reg.run [] = Reg.init from rfl, h0, show nextCfgAfter c [] = NextCfg.start c from rfl, hk] at e0
    simp only [attr_num hnn ha, bind_ok, Option.bind_some, Except.ok.injEq] at e0
    rw [configured_next_partial calls hns c hc x hcls u, (additive_cfg h1).1 e1 e2, hk]
    simp only [attr_num hnn ha, bind_ok, Option.bind_some]
    apply fin
    intro c' hv
    have := hmap c hc _ _ hv
    rw [← e0] at this
    cases this
  have port : ∀ (c : Cls), c = .udp ∨ c = .tcp → x.cls = c → (∃ n : Int, x.getattr .src = .ok (.num n)) →
      (∃ n : Int, x.getattr .dst = .ok (.num n)) →
      (Reg.run calls).next u (.lib x) = .ok none ∨ ∃ n, (Reg.run calls).next u (.lib x) = .ok (some (.user n)) := by
    intro c hc hcls hsrc hdst
    have hcc : c ∈ configurable := by rcases hc with rfl | rfl <;> simp [configurable]
    have hnn : x ≠ .nullHdr := by rintro rfl; subst hcls; simp [configurable, Hdr.cls] at hcc
    have hs : (NextCfg.start c).key = none ∧ ∀ v, (NextCfg.start c).tbl v = none := by rcases hc with rfl | rfl <;> exact ⟨rfl, fun _ => rfl⟩
    rw [configured_next_partial calls hns c hcc x hcls u]
    have key := portKeys_cfg (g := NextCfg.start c) h3 (.lib c) (.inl hs.1)
    have tbl : ∀ (v : Int) (c' : Cls), (nextCfgAfter c calls).tbl v ≠ some (.lib c') := by
      intro v c' hv
      have := hmap c hcc _ _ hv
      rw [hs.2] at this
      cases this
    rcases key with hk | hk | hk
    · rw [show (nextCfgAfter c calls).key = _ from hk]; exact .inl rfl
    · rw [show (nextCfgAfter c calls).key = _ from hk]
      obtain ⟨n, hn⟩ := hsrc
      simp only [attr_num hnn hn, bind_ok, Option.bind_some]
      exact fin _ fun c' => tbl _ c'
    · rw [show (nextCfgAfter c calls).key = _ from hk]
      obtain ⟨n, hn⟩ := hdst
      simp only [attr_num hnn hn, bind_ok, Option.bind_some]
      exact fin _ fun c' => tbl _ c'
  have ext : ∀ o : Option Nat, (o.map fun n => (n : Int)).bind (Reg.init.look ip6DictNo) = none → ∀ c',
      (o.map fun n => (n : Int)).bind ((Reg.run calls).look ip6DictNo) ≠ some (.lib c') := by
    intro o ho c' hc
    cases o with
    | none => cases hc
    | some n =>
      have := hl.look _ _ _ hc
      rw [show Reg.init.look ip6DictNo (n : Int) = none from ho] at this
      cases this
  have keyless : ∀ c, (c = .raw ∨ c = .nullHdr) → (Reg.run calls).keyOf (.lib c) = none := by
    rintro c (rfl | rfl) <;>
      simp [Reg.keyOf, RCls.mro, additive_keys h1, Reg.init]
  cases x
  case eth a => exact num .eth .ethertype a.ethertype (by simp [configurable]) rfl (by simp) (by simp) rfl rfl
  case vlan a => exact num .vlan .ethertype a.ethertype (by simp [configurable]) rfl (by simp) (by simp) rfl rfl
  case ip4 a => exact num .ip4 .protocol a.protocol (by simp [configurable]) rfl (by simp) (by simp) rfl rfl
  case ip6 a => exact num .ip6 .nextheader a.next (by simp [configurable]) rfl (by simp) (by simp) rfl rfl
  case udp a => exact port .udp (.inl rfl) rfl ⟨a.src, rfl⟩ ⟨a.dst, rfl⟩
  case tcp a => exact port .tcp (.inr rfl) rfl ⟨a.src, rfl⟩ ⟨a.dst, rfl⟩
  case route a => exact fin _ (ext _ (Except.ok.inj h0))
  case frag a => exact fin _ (ext _ (Except.ok.inj h0))
  case hop a => exact fin _ (ext _ (Except.ok.inj h0))
  case dst a => exact fin _ (ext _ (Except.ok.inj h0))
  case null af => exact .inl h0
  case raw b => left; simp only [Reg.next, Reg.nextBase, RHdr.cls, Hdr.cls, keyless .raw (.inl rfl)]
  case nullHdr => left; simp only [Reg.next, Reg.nextBase, RHdr.cls, Hdr.cls, keyless .nullHdr (.inr rfl)]
  all_goals exact .inl rfl

/-- **C187**, partial: registering classes of one's own, for values that the library has no class for (and ports of UDP and
TCP), never makes a packet unparseable, and leaves the headers that the library finds where they are - provided that the
registered classes accept every byte string, or every byte string but those in `Bad`, and the packet's payload is not one.
Missing: classes that raise, as the documentation's own do (`rejecting_header_violated`). -/
theorem registered_keeps_parsing_partial (calls : List RegCall) (h1 : Additive calls) (h2 : OnlyUser calls) (h3 : PortKeys calls)
    (u : UserHdrs U) (Bad : Bytes → Prop) (hu : ∀ n raw, ¬ Bad raw → ∃ v rest, u.dec n raw = .ok (v, rest)) (raw : Bytes) (c : Cls)
    (q : Packet) (hq : Packet.parse raw (some c) = .ok q) (hne : ¬ Bad [])
    (hb : ∀ b, q.getLast? = some (.hdr (.raw b)) → ¬ Bad b) :
    ∃ p, (Reg.run calls).Gives u raw (.lib c) (.ok p) ∧
      ∀ (i : Nat) (h : Hdr), q[i]? = some (.hdr h) → h.cls ≠ .raw → p[i]? = some (.lib h) := by
  by_cases hraw : raw = []
  · refine ⟨[], by simp [Reg.Gives, hraw], ?_⟩
    intro i h hi
    rw [hraw] at hq
    have : q = [] := by cases hq; rfl
    rw [this] at hi
    cases hi
  · obtain ⟨fuel, hf⟩ : ∃ fuel, parseLoop fuel c raw (([] : List Hdr).map .hdr) = some (.ok q) := by
      obtain ⟨r, hr⟩ := parse_terminates raw c
      rw [parse_of_loop hraw hr] at hq
      exact ⟨_, by rw [← hq]; exact hr⟩
    obtain ⟨hs, x, rest, e1, e2, e3, e4, e5, e6⟩ := regLoop_extend (U := U) (acc := []) hf
    have hnext := last_next h1 h2 h3 u x e2
    have hloop := e6 u (Reg.run calls) (fun y c' hy => additive_next h1 u y c' hy) 1
    simp only [List.nil_append] at hloop e1
    have key : ∃ p, regLoop u (Reg.run calls) (hs.length + 1 + 1) (.lib c) raw [] = some (.ok p) ∧
        ∃ t, p = (hs ++ [x]).map .lib ++ t := by
      rcases hnext with hn | ⟨n, hn⟩
      · rw [hn] at hloop
        obtain ⟨t, ht⟩ := regEnd_prefix rest ((hs ++ [x]).map (RHdr.lib (U := U)))
        exact ⟨_, hloop, t, ht⟩
      · rw [hn] at hloop
        have hbad : ¬ Bad (rest.getD []) := by
          rcases rest with _ | (_ | ⟨b, bs⟩)
          · exact hne
          · exact hne
          · refine hb _ ?_
            rw [e1]
            simp [parseEnd]
        obtain ⟨v, rest', hd⟩ := hu n _ hbad
        simp only [regLoop, RCls.fromBytes, hd, bind_ok] at hloop
        have hk : (Reg.run calls).next u (.user n v) = .ok none := by
          simp only [Reg.next, Reg.nextBase, RHdr.cls, additive_user_key h1]
        rw [hk] at hloop
        obtain ⟨t, ht⟩ := regEnd_prefix (some rest') ((hs ++ [x]).map (RHdr.lib (U := U)) ++ [.user n v])
        exact ⟨_, hloop, _, by rw [ht, List.append_assoc]⟩
    obtain ⟨p, hp, t, ht⟩ := key
    refine ⟨p, by unfold Reg.Gives; rw [if_neg hraw]; exact ⟨_, hp⟩, ?_⟩
    intro i h hi hc
    rw [e1] at hi
    have hin : ((hs ++ [x]).map Item.hdr)[i]? = some (.hdr h) := by
      by_cases hlt : i < (hs ++ [x]).length
      · rcases rest with _ | (_ | ⟨b, bs⟩)
        · exact hi
        · exact hi
        · simp only [parseEnd] at hi
          rwa [List.getElem?_append_left (by simpa using hlt)] at hi
      · exfalso
        rcases rest with _ | (_ | ⟨b, bs⟩)
        · simp only [parseEnd] at hi
          rw [List.getElem?_eq_none (by simpa using hlt)] at hi
          cases hi
        · simp only [parseEnd] at hi
          rw [List.getElem?_eq_none (by simpa using hlt)] at hi
          cases hi
        · simp only [parseEnd] at hi
          rw [List.getElem?_append_right (by simpa using hlt)] at hi
          have := List.mem_of_getElem? hi
          simp only [List.mem_cons, List.not_mem_nil, or_false, Item.hdr.injEq] at this
          rw [this] at hc
          exact hc rfl
    rw [ht, List.getElem?_append_left]
    · rw [List.getElem?_map] at hin ⊢
      cases hg : (hs ++ [x])[i]? with
      | none => rw [hg] at hin; cases hin
      | some g =>
        rw [hg] at hin
        simp only [Option.map_some, Option.some.injEq, Item.hdr.injEq] at hin
        rw [hin]; rfl
    · have := (List.getElem?_eq_some_iff.mp hin).1
      simpa using this

/-- A UDP packet to port 12345 with one byte of payload. -/
def shortPing : Bytes :=
  [1, 2, 3, 4, 5, 6, 2, 0, 0, 0, 0, 1, 0x08, 0x00, 0x45, 0, 0, 29, 0, 0, 0x40, 0, 64, 17, 0, 0, 10, 0, 0, 1, 10, 0, 0, 2,
   0, 5, 0x30, 0x39, 0, 9, 0, 0, 7]

/-- What the library makes of it. -/
def shortPingHdrs : List Hdr :=
  [.eth ⟨⟨[1, 2, 3, 4, 5, 6]⟩, ⟨[2, 0, 0, 0, 0, 1]⟩, 0x0800⟩, .ip4 ⟨0, 29, 0, 2, 0, 64, 17, .v4 0x0a000001, .v4 0x0a000002, []⟩,
   .udp ⟨5, 12345, 9, 0⟩, .raw [7]]

/-- The negation of **C187** with the documentation's own example: a packet that the library parses becomes unparseable -
`Packet(raw)` raises - when `UDPPing` is registered for its port and its payload is too short to be one.  What was received
can then be neither looked at nor forwarded. -/
theorem rejecting_header_violated :
    Packet.parse shortPing (some .eth) = .ok (shortPingHdrs.map .hdr) ∧
    (Reg.run udpPingCalls).Gives docHdrs shortPing (.lib .eth) (.error .valueError) := by
  refine ⟨by decide +kernel, ?_⟩
  unfold Reg.Gives
  rw [if_neg (by simp [shortPing])]
  refine ⟨5, ?_⟩
  obtain ⟨f1, f2, f3⟩ : Cls.eth.fromBytes shortPing = .ok (.eth ⟨⟨[1, 2, 3, 4, 5, 6]⟩, ⟨[2, 0, 0, 0, 0, 1]⟩, 0x0800⟩, some (shortPing.drop 14)) ∧
      Cls.ip4.fromBytes (shortPing.drop 14) = .ok (.ip4 ⟨0, 29, 0, 2, 0, 64, 17, .v4 0x0a000001, .v4 0x0a000002, []⟩, some (shortPing.drop 34)) ∧
      Cls.udp.fromBytes (shortPing.drop 34) = .ok (.udp ⟨5, 12345, 9, 0⟩, some [7]) := by
    refine ⟨?_, ?_, ?_⟩ <;> decide +kernel
  have n1 : (Reg.run udpPingCalls).next docHdrs (.lib (.eth ⟨⟨[1, 2, 3, 4, 5, 6]⟩, ⟨[2, 0, 0, 0, 0, 1]⟩, 0x0800⟩)) = .ok (some (.lib .ip4)) := rfl
  have n2 : (Reg.run udpPingCalls).next docHdrs (.lib (.ip4 ⟨0, 29, 0, 2, 0, 64, 17, .v4 0x0a000001, .v4 0x0a000002, []⟩)) = .ok (some (.lib .udp)) := rfl
  have n3 : (Reg.run udpPingCalls).next docHdrs (.lib (.udp ⟨5, 12345, 9, 0⟩)) = .ok (some (.user 0)) := rfl
  have n4 : docHdrs.dec 0 [7] = .error .valueError := rfl
  simp only [regLoop, RCls.fromBytes, f1, f2, f3, n1, n2, n3, n4, bind_ok, bind_error, Option.getD_some]

/-- The same registration, a packet with enough payload: the hypotheses of `registered_keeps_parsing_partial` hold with
`Bad` the byte strings shorter than two bytes - except that a packet without payload is also rejected; so the class must
accept the empty string, as one that takes whatever there is does. -/
example : OnlyUser udpPingCalls ∧ PortKeys udpPingCalls ∧ Additive udpPingCalls ∧
    ∃ u : UserHdrs Bytes, ∀ n raw, ¬ False → ∃ v rest, u.dec n raw = .ok (v, rest) := by
  refine ⟨?_, ?_, udpPing_additive, ⟨fun _ v => .ok v, fun _ raw => .ok (raw, []), fun _ _ _ => .error .attributeError⟩, ?_⟩
  · intro x hx
    simp only [udpPingCalls, List.mem_cons, List.not_mem_nil, or_false] at hx
    rcases hx with rfl | rfl <;> simp
  · intro c k hk
    simp only [udpPingCalls, List.mem_cons, List.not_mem_nil, or_false] at hk
    rcases hk with hk | hk
    · cases hk
    · cases hk; exact .inr (.inr rfl)
  · intro n raw _; exact ⟨_, _, rfl⟩

/-! ## Classes that cannot be configured -/

/-- The negation of **C188** for ARP, ICMP, ICMPv6, RIPv2 and Null headers: no configuration whatever has any effect on what
comes after them, although the classes have the methods to configure it. -/
theorem fixed_next_violated (calls : List RegCall) (u : UserHdrs U) (h : Hdr) (hc : h.cls ∈ [Cls.arp, .icmp, .icmp6, .rip, .null]) :
    (Reg.run calls).next u (.lib h) = Reg.init.next u (.lib h) := by
  cases h <;> first | rfl | (simp [Hdr.cls] at hc; done)

/-- For ARP, ICMP, ICMPv6 and RIPv2 nothing ever comes after them. -/
theorem fixed_next_none (calls : List RegCall) (u : UserHdrs U) (h : Hdr) (hc : h.cls ∈ [Cls.arp, .icmp, .icmp6, .rip]) :
    (Reg.run calls).next u (.lib h) = .ok none := by
  cases h <;> first | rfl | (simp [Hdr.cls] at hc; done)

/-- The negation of **C188** for the IPv6 extension headers: as long as nothing is added to IPv6, no call - not even a new
table for IPv6, or a table, a name or a class for the extension header itself - has any effect on what comes after an
extension header. -/
theorem extension_next_violated (calls : List RegCall) (hc : NoSharing calls) (h6 : ∀ v t, .add (.lib .ip6) v t ∉ calls)
    (u : UserHdrs U) (h : Hdr) (hx : Cls.isExt h.cls) : (Reg.run calls).next u (.lib h) = Reg.init.next u (.lib h) := by
  have look4 : ∀ v, (Reg.run calls).look 4 v = Reg.init.look 4 v := by
    have go : ∀ (post pre : List RegCall), NoSharing (pre ++ post) → (∀ v t, .add (.lib .ip6) v t ∉ pre ++ post) →
        (∀ v, (Reg.run pre).look 4 v = Reg.init.look 4 v) → ∀ v, (Reg.run (pre ++ post)).look 4 v = Reg.init.look 4 v := by
      intro post
      induction post with
      | nil => intro pre _ _ h; rwa [List.append_nil]
      | cons x post ih =>
        intro pre hns ha hl
        have e : pre ++ x :: post = (pre ++ [x]) ++ post := by simp
        rw [e] at hns ha ⊢
        refine ih (pre ++ [x]) hns ha ?_
        intro v
        rw [← hl v, show Reg.run (pre ++ [x]) = (Reg.run pre).call x by simp [Reg.run]]
        have hpre : NoSharing pre := fun y hy => hns y (by simp [hy])
        have hlen : 4 < (Reg.run pre).heap.length := heap_run pre
        cases x with
        | setKey c k => rfl
        | shareMap a b => rfl
        | add c w t =>
          refine look_add 4 v (.inl fun e4 => ?_)
          obtain ⟨y, hy1, hy2⟩ := mapOf_owner (sep_run sep_init hpre) c
          rw [show Reg.run pre = pre.foldl Reg.call Reg.init from rfl] at e4
          rw [e4] at hy1
          have hy := four_run hpre y hy1
          subst hy
          rcases hy2 with rfl | hy2
          · exact ha w t (by simp)
          · exact hy2 (by simp [Leaf])
        | setMap c d =>
          simp only [Reg.look, Reg.call, Reg.setRef, Reg.alloc]
          rw [List.getElem?_append_left hlen]
    exact go calls [] hc h6 fun _ => rfl
  have ext : ∀ o : Option Nat, (o.map fun n => (n : Int)).bind ((Reg.run calls).look ip6DictNo) =
      (o.map fun n => (n : Int)).bind (Reg.init.look ip6DictNo) := by
    intro o
    cases o with
    | none => rfl
    | some n => exact look4 n
  cases h
  case route a => exact congrArg Except.ok (ext _)
  case frag a => exact congrArg Except.ok (ext _)
  case hop a => exact congrArg Except.ok (ext _)
  case dst a => exact congrArg Except.ok (ext _)
  all_goals simp [Cls.isExt, Hdr.cls] at hx

/-- A class given to the routing header, and an empty table for IPv6: after an IPv6 header nothing is looked for any more,
after a routing header still TCP, not the class registered. -/
example (u : UserHdrs U) : ∃ (calls : List RegCall) (h : RouteOpt) (g : IPv6), NoSharing calls ∧ (∀ v t, .add (.lib .ip6) v t ∉ calls) ∧
    calls = [.setMap (.lib .ip6) [], .setMap (.lib .route) [(6, some (.user 0))], .setKey (.lib .route) (some (.std .nextheader))] ∧
    (Reg.run calls).next u (.lib (.route h)) = .ok (some (.lib .tcp)) ∧ (Reg.run calls).next u (.lib (.ip6 g)) = .ok none :=
  ⟨_, ⟨some 6, 2, 0, 0, 1⟩, ⟨0, 0, 64, 6, 0, 1, 2⟩, by simp [NoSharing], by simp, rfl, rfl, rfl⟩

end SY.Props
