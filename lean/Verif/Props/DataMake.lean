import Verif.Props.Build
import Verif.Props.IPv6Text
import Verif.Props.Units

/-! # Data objects and options of ICMP messages: assignment and construction (C216) -/

namespace SY.Props

/-! ## Assignment -/

/-- The options of the data of an ICMPv6 message, which only some classes have. -/
def _root_.SY.ICMPv6Data.options : ICMPv6Data → Option (List NDOpt)
  | .plain _ os _ | .rs os _ | .ra _ _ _ _ _ _ _ _ os _ | .ns _ os _ | .na _ _ _ _ os _ | .redirect _ _ os _ => some os
  | _ => none

/-- A value of the kind an attribute of data holds. -/
def FitsData : DataName → AVal → Bool
  | .payload, .bytes _ => true
  | .own .identifier, .num _ | .own .sequence, .num _ | .own .origdgramlen, .num _ | .own .nexthopmtu, .num _ => true
  | .own .redirectto, .ip (.v4 _) | .own .addrmask, .ip (.v4 _) => true
  | .own .targetaddr, .ip (.v6 _) | .own .destaddr, .ip (.v6 _) => true
  | .own .r, .bool _ | .own .s, .bool _ | .own .o, .bool _ | .own .m, .bool _ | .own .h, .bool _ | .own .p, .bool _ => true
  | .own .curhoplimit, .num n | .own .routerLifetime, .num n | .own .reachableTime, .num n
  | .own .retransTimer, .num n => decide (0 ≤ n)
  | _, _ => false

theorem bitArg_bool (b : Bool) : PyVal.bitArg (some (.bool b)) = .ok b := by cases b <;> rfl

theorem timeArg_num {n : Int} (h : 0 ≤ n) : PyVal.timeArg (some (.num n)) = .ok n := by
  simp only [PyVal.timeArg, PyVal.rangeArg, PyVal.number, bind_ok]
  rw [if_neg (by omega)]

/-- **C216**: an attribute of the data of an ICMP message takes every value of its kind and then has that value. -/
theorem icmp_data_reads {d : ICMPData} {n : DataName} {v : AVal} (hn : d.getattr n ≠ none) (hv : FitsData n v = true) :
    ∃ d', d.setattr (some v) n = some (.ok d') ∧ d'.getattr n = some v := by
  cases n with
  | payload =>
    cases v <;> first | (cases hv; done) | exact ⟨_, rfl, by cases d <;> rfl⟩
  | own a =>
    cases a <;> cases v <;> first
      | (cases hv; done)
      | (cases d <;> first | exact absurd rfl hn | exact ⟨_, rfl, rfl⟩)
      | (rename_i x; cases x <;> first
          | (cases hv; done)
          | (cases d <;> first | exact absurd rfl hn | exact ⟨_, rfl, rfl⟩))

/-- **C216**: and so does one of the data of an ICMPv6 message. -/
theorem icmp6_data_reads {d : ICMPv6Data} {n : DataName} {v : AVal} (hn : d.getattr n ≠ none) (hv : FitsData n v = true) :
    ∃ d', d.setattr (some v) n = some (.ok d') ∧ d'.getattr n = some v := by
  cases n with
  | payload =>
    cases v <;> first | (cases hv; done) | exact ⟨_, rfl, by cases d <;> rfl⟩
  | own a =>
    cases a <;> cases v <;> first
      | (cases hv; done)
      | (cases d <;> first
          | exact absurd rfl hn
          | exact ⟨_, rfl, rfl⟩
          | exact ⟨_, by simp only [ICMPv6Data.setattr, bitArg_bool, bind_ok] <;> rfl, rfl⟩
          | exact ⟨_, by simp only [ICMPv6Data.setattr, timeArg_num (of_decide_eq_true hv), bind_ok] <;> rfl, rfl⟩)
      | (rename_i x; cases x <;> first
          | (cases hv; done)
          | (cases d <;> first | exact absurd rfl hn | exact ⟨_, rfl, rfl⟩))

example : (ICMPv6Data.na false false false 0 [] []).getattr (.own .s) ≠ none ∧ FitsData (.own .s) (.bool true) = true ∧
    (ICMPv6Data.na false false false 0 [] []).setattr (some (.bool true)) (.own .s) =
      some (.ok (.na false true false 0 [] [])) := by decide

/-- **C216**: an attribute can be assigned if and only if it can be read. -/
theorem icmp_data_has (d : ICMPData) (v : PyVal) (n : DataName) : d.setattr v n = none ↔ d.getattr n = none := by
  cases n with
  | payload => constructor <;> intro h <;> cases h
  | own a => cases a <;> cases d <;> (constructor <;> intro h <;> first | rfl | (cases h; done))

theorem icmp6_data_has (d : ICMPv6Data) (v : PyVal) (n : DataName) : d.setattr v n = none ↔ d.getattr n = none := by
  cases n with
  | payload => constructor <;> intro h <;> cases h
  | own a => cases a <;> cases d <;> (constructor <;> intro h <;> first | rfl | (cases h; done))

theorem echo6_type (r : Bool) (i s i' s' : Int) (p p' : Bytes) :
    (ICMPv6Data.echo r i s p).typeOf = (ICMPv6Data.echo r i' s' p').typeOf := by cases r <;> rfl

theorem echo4_type (r : Bool) (i s i' s' : Int) (p p' : Bytes) :
    (ICMPData.echo r i s p).typeOf = (ICMPData.echo r i' s' p').typeOf := by cases r <;> rfl

theorem mask4_type (r : Bool) (i s i' s' : Int) (a a' : BitVec 32) (p p' : Bytes) :
    (ICMPData.mask r i s a p).typeOf = (ICMPData.mask r i' s' a' p').typeOf := by cases r <;> rfl

/-- **C216**: assigning an attribute changes neither the kind of the data, nor its options, nor another attribute. -/
theorem icmp6_data_frame {d d' : ICMPv6Data} {v : PyVal} {n : DataName} (h : d.setattr v n = some (.ok d')) :
    d'.typeOf = d.typeOf ∧ d'.options = d.options ∧ ∀ m, m ≠ n → d'.getattr m = d.getattr m := by
  refine ⟨?_, ?_, fun m hm => icmp6_data_laws.frame h hm⟩
  all_goals
    cases n with
    | payload => obtain ⟨b, _, rfl⟩ := some_bind_ok h; cases d <;> first | rfl | exact echo6_type ..
    | own a =>
      cases d <;> cases a <;> first
        | (cases h; done)
        | (obtain ⟨b, _, rfl⟩ := some_bind_ok h; first | rfl | exact echo6_type ..)

theorem icmp_data_frame {d d' : ICMPData} {v : PyVal} {n : DataName} (h : d.setattr v n = some (.ok d')) :
    d'.typeOf = d.typeOf ∧ ∀ m, m ≠ n → d'.getattr m = d.getattr m := by
  refine ⟨?_, fun m hm => icmp_data_laws.frame h hm⟩
  cases n with
  | payload => obtain ⟨b, _, rfl⟩ := some_bind_ok h; cases d <;> first | rfl | exact echo4_type .. | exact mask4_type ..
  | own a =>
    cases d <;> cases a <;> first
      | (cases h; done)
      | (obtain ⟨b, _, rfl⟩ := some_bind_ok h; first | rfl | exact echo4_type .. | exact mask4_type ..)

/-! What else can be assigned: addresses as text, flags of a router advertisement as numbers, and what is refused. -/

/-- **C216**: an address can be given as text. -/
theorem icmp6_data_text (d : ICMPv6Data) (a : DataAttr) (ha : a = .targetaddr ∨ a = .destaddr) (s : List Char) (x : IPAddr)
    (hx : ipAddressText s = .ok x) : d.setattr (some (.text s)) (.own a) = d.setattr (some (.ip x)) (.own a) := by
  have e : PyVal.ipv6Arg (some (.text s)) = PyVal.ipv6Arg (some (.ip x)) := by
    simp only [PyVal.ipv6Arg, PyVal.ipArg, hx]
  rcases ha with rfl | rfl <;> cases d <;> simp only [ICMPv6Data.setattr, e]

example : (ICMPv6Data.ns 0 [] []).setattr (some (.text "fe80::1".toList)) (.own .targetaddr) =
    some (.ok (.ns 0xfe800000000000000000000000000001 [] [])) := by decide

/-- The times of a router advertisement and its hop limit. -/
def TimeAttr (a : DataAttr) : Bool := [DataAttr.curhoplimit, .routerLifetime, .reachableTime, .retransTimer].contains a

/-- **C216**: the times of a router advertisement and its hop limit are never negative: `ValueError`. -/
theorem ra_times_refused (d : ICMPv6Data) (a : DataAttr) (ha : TimeAttr a = true) (hd : d.getattr (.own a) ≠ none) (n : Int)
    (hn : n < 0) : d.setattr (some (.num n)) (.own a) = some (.error .valueError) := by
  have e : PyVal.timeArg (some (.num n)) = .error .valueError := by
    simp only [PyVal.timeArg, PyVal.rangeArg, PyVal.number, bind_ok]
    rw [if_pos hn]
  cases a <;> first
    | (cases ha; done)
    | (cases d <;> first | exact absurd rfl hd | (simp only [ICMPv6Data.setattr, e] <;> rfl))

/-- **C216**: a flag of a router advertisement given as a number is its last bit. -/
theorem ra_flag_number (d : ICMPv6Data) (a : DataAttr) (hd : d.typeOf = some 134) (ha : a = .m ∨ a = .o ∨ a = .h ∨ a = .p)
    (n : Int) : ∃ d', d.setattr (some (.num n)) (.own a) = some (.ok d') ∧
      d'.getattr (.own a) = some (.bool (decide (n % 2 = 1))) := by
  cases d <;> first
    | (cases hd; done)
    | (rcases ha with rfl | rfl | rfl | rfl <;> exact ⟨_, rfl, rfl⟩)
    | (rename_i r _ _ _; cases r <;> cases hd)
    | (rename_i c _ _; cases c <;> cases hd)

example : (ICMPv6Data.ra 64 false false false false 1800 0 0 [] []).setattr (some (.num 3)) (.own .m) =
    some (.ok (.ra 64 true false false false 1800 0 0 [] [])) := by decide

/-- **C216 is false**: a flag of a neighbour advertisement given as a number, or as anything but a truth value, raises
`AssertionError`. -/
theorem na_flag_violated (d : ICMPv6Data) (a : DataAttr) (hd : d.typeOf = some 136) (ha : a = .r ∨ a = .s ∨ a = .o) (v : PyVal)
    (hv : ∀ b, v ≠ some (.bool b)) : d.setattr v (.own a) = some (.error .assertion) := by
  have e : v.boolArg = .error .assertion := by
    cases v with
    | none => rfl
    | some v => cases v <;> first | rfl | exact absurd rfl (hv _)
  cases d <;> first
    | (cases hd; done)
    | (rcases ha with rfl | rfl | rfl <;> simp only [ICMPv6Data.setattr, e] <;> rfl)
    | (rename_i r _ _ _; cases r <;> cases hd)
    | (rename_i c _ _; cases c <;> cases hd)

example : (ICMPv6Data.na false false false 0 [] []).setattr (some (.num 1)) (.own .r) = some (.error .assertion) := by decide

/-- **C216**: text given as the payload is encoded; what is neither bytes nor text is refused with `TypeError`. -/
theorem icmp_payload_other (v : PyVal) :
    (∀ s, v = some (.text s) → (∀ d : ICMPData, ∃ d', d.setattr v .payload = some (.ok d') ∧ d'.getattr .payload = some (.bytes (utf8Text s))) ∧
      ∀ d : ICMPv6Data, ∃ d', d.setattr v .payload = some (.ok d') ∧ d'.getattr .payload = some (.bytes (utf8Text s))) ∧
    ((∀ s, v ≠ some (.text s)) → (∀ b, v ≠ some (.bytes b)) → (∀ d : ICMPData, d.setattr v .payload = some (.error .typeError)) ∧
      ∀ d : ICMPv6Data, d.setattr v .payload = some (.error .typeError)) := by
  constructor
  · rintro s rfl
    exact ⟨fun d => ⟨_, rfl, by cases d <;> rfl⟩, fun d => ⟨_, rfl, by cases d <;> rfl⟩⟩
  · intro h1 h2
    have e : v.dataArg = .error .typeError := by
      cases v with
      | none => rfl
      | some v => cases v <;> first | rfl | exact absurd rfl (h1 _) | exact absurd rfl (h2 _)
    exact ⟨fun d => by simp only [ICMPData.setattr, e] <;> rfl, fun d => by simp only [ICMPv6Data.setattr, e] <;> rfl⟩

example : (ICMPData.echo true 1 2 []).setattr (some (.text "hé".toList)) .payload =
    some (.ok (.echo true 1 2 [104, 195, 169])) := by decide

/-- **C216**: an address of ICMP data can be given as the number of an IPv4 address; another number, or an IPv6 address, is
refused with `AddressValueError`. -/
theorem icmp_data_address (d : ICMPData) (a : DataAttr) (ha : a = .redirectto ∨ a = .addrmask) (hd : d.getattr (.own a) ≠ none) :
    (∀ x : BitVec 128, d.setattr (some (.ip (.v6 x))) (.own a) = some (.error .addressValue)) ∧
    (∀ x : BitVec 32, d.setattr (some (.num x.toNat)) (.own a) = d.setattr (some (.ip (.v4 x))) (.own a)) ∧
    (∀ n : Int, n < 0 ∨ 2 ^ 32 ≤ n → d.setattr (some (.num n)) (.own a) = some (.error .addressValue)) := by
  have e1 : ∀ x : BitVec 128, PyVal.ipv4Arg (some (.ip (.v6 x))) = .error .addressValue := fun _ => rfl
  have e2 : ∀ x : BitVec 32, PyVal.ipv4Arg (some (.num x.toNat)) = PyVal.ipv4Arg (some (.ip (.v4 x))) := by
    intro x
    have hx := x.isLt
    simp only [PyVal.ipv4Arg, PyVal.ipArg, PyVal.number, bind_ok, ipv4Of]
    rw [if_pos ⟨by omega, by omega⟩]
    simp
  have e3 : ∀ n : Int, n < 0 ∨ 2 ^ 32 ≤ n → PyVal.ipv4Arg (some (.num n)) = .error .addressValue := by
    intro n hn
    simp only [PyVal.ipv4Arg, PyVal.ipArg, PyVal.number, bind_ok, ipv4Of]
    rw [if_neg (by omega)]
  refine ⟨fun x => ?_, fun x => ?_, fun n hn => ?_⟩
  · rcases ha with rfl | rfl <;> cases d <;> first | exact absurd rfl hd | (simp only [ICMPData.setattr, e1] <;> rfl)
  · rcases ha with rfl | rfl <;> cases d <;> first | exact absurd rfl hd | (simp only [ICMPData.setattr, e2])
  · rcases ha with rfl | rfl <;> cases d <;> first | exact absurd rfl hd | (simp only [ICMPData.setattr, e3 n hn] <;> rfl)

example : (ICMPData.redirect 0 []).getattr (.own .redirectto) ≠ none ∧
    (ICMPData.redirect 0 []).setattr (some (.num 0x0a000001)) (.own .redirectto) = some (.ok (.redirect 0x0a000001 [])) := by decide

/-! ## Constructors -/

section
variable {D : Type} {set : D → PyVal → DataName → Option (Res D)} {get : D → DataName → Option AVal}

theorem loose_eq {d d' : D} {v : PyVal} {n : DataName} (h : looseSet set d v n = .ok d') :
    set d v n = some (.ok d') ∨ (set d v n = none ∧ d' = d) := by
  unfold looseSet at h
  cases hs : set d v n with
  | none => rw [hs] at h; cases h; exact .inr ⟨rfl, rfl⟩
  | some r => rw [hs] at h; exact .inl (congrArg some h)

theorem loose_some {d d' : D} {v : PyVal} {n : DataName} (h : set d v n = some (.ok d')) : looseSet set d v n = .ok d' := by
  simp only [looseSet, h, Option.getD]

theorem loose_none {d : D} {v : PyVal} {n : DataName} (h : set d v n = none) : looseSet set d v n = .ok d := by
  simp only [looseSet, h, Option.getD]

theorem loose_swap (L : DataLaws set get) {d d1 d2 : D} {v w : PyVal} {x y : DataName} (h1 : looseSet set d v x = .ok d1)
    (h2 : looseSet set d1 w y = .ok d2) (hne : x ≠ y) : ∃ e, looseSet set d w y = .ok e ∧ looseSet set e v x = .ok d2 := by
  rcases loose_eq h1 with e1 | ⟨e1, rfl⟩
  · rcases loose_eq h2 with e2 | ⟨e2, rfl⟩
    · obtain ⟨e, e3, e4⟩ := L.swap e1 e2 hne
      exact ⟨e, loose_some e3, loose_some e4⟩
    · exact ⟨d, loose_none ((L.shape e1 w y).mp e2), h1⟩
  · refine ⟨d2, h2, ?_⟩
    rcases loose_eq h2 with e2 | ⟨e2, rfl⟩
    · exact loose_none ((L.shape e2 v x).mpr e1)
    · exact h1

theorem looseSets_perm (L : DataLaws set get) {l l' : DataKws} (hp : l.Perm l') : ∀ {d d' : D}, (l.map (·.1)).Nodup →
    looseSets set d l = .ok d' → looseSets set d l' = .ok d' := by
  induction hp with
  | nil => intro d d' _ h; exact h
  | cons x _ ih =>
    intro d d' hn h
    obtain ⟨k, v⟩ := x
    obtain ⟨d1, e1, e2⟩ := bind_eq_ok.mp h
    exact bind_eq_ok.mpr ⟨d1, e1, ih (List.nodup_cons.mp hn).2 e2⟩
  | swap x y l =>
    intro d d' hn h
    obtain ⟨k, v⟩ := y
    obtain ⟨k2, v2⟩ := x
    have hne : k ≠ k2 := fun e => (List.nodup_cons.mp hn).1 (by rw [e]; exact List.mem_cons_self)
    obtain ⟨d1, e1, e2⟩ := bind_eq_ok.mp h
    obtain ⟨d2, e2, e3⟩ := bind_eq_ok.mp e2
    obtain ⟨e, e4, e5⟩ := loose_swap L e1 e2 hne
    exact bind_eq_ok.mpr ⟨e, e4, bind_eq_ok.mpr ⟨d2, e5, e3⟩⟩
  | trans p _ ih1 ih2 =>
    intro d d' hn h
    exact ih2 ((p.map _).nodup hn) (ih1 hn h)

theorem looseSets_frame (L : DataLaws set get) {n : DataName} {l : DataKws} : ∀ {d d' : D}, (∀ x ∈ l, x.1 ≠ n) →
    looseSets set d l = .ok d' → get d' n = get d n := by
  induction l with
  | nil => intro d d' _ h; cases h; rfl
  | cons x l ih =>
    intro d d' hn h
    obtain ⟨k, v⟩ := x
    obtain ⟨d1, e1, e2⟩ := bind_eq_ok.mp h
    rw [ih (fun y hy => hn y (List.mem_cons_of_mem _ hy)) e2]
    rcases loose_eq e1 with e | ⟨_, rfl⟩
    · exact L.frame e fun e' => hn (k, v) List.mem_cons_self e'.symm
    · rfl

theorem looseSets_value (L : DataLaws set get) {l : DataKws} (hn : (l.map (·.1)).Nodup) {v : PyVal} {n : DataName}
    (hm : (n, v) ∈ l) {d d' : D} (h : looseSets set d l = .ok d') :
    set d v n = none ∨ ∃ d1, set d v n = some (.ok d1) ∧ get d' n = get d1 n := by
  have hp := List.perm_cons_erase hm
  have h := looseSets_perm L hp hn h
  obtain ⟨d1, e1, e2⟩ := bind_eq_ok.mp h
  have hf := looseSets_frame L (n := n) (fun x hx e => (List.nodup_cons.mp ((hp.map _).nodup hn)).1 (List.mem_map.mpr ⟨x, hx, e⟩)) e2
  rcases loose_eq e1 with e | ⟨e, rfl⟩
  · exact .inr ⟨d1, e, hf⟩
  · exact .inl e

/-- What the assignments leave alone. -/
theorem looseSets_keep {α : Type} {f : D → α} (hf : ∀ {d d' : D} {v : PyVal} {n : DataName}, set d v n = some (.ok d') → f d' = f d)
    {l : DataKws} : ∀ {d d' : D}, looseSets set d l = .ok d' → f d' = f d := by
  induction l with
  | nil => intro d d' h; cases h; rfl
  | cons x l ih =>
    intro d d' h
    obtain ⟨k, v⟩ := x
    obtain ⟨d1, e1, e2⟩ := bind_eq_ok.mp h
    rw [ih e2]
    rcases loose_eq e1 with e | ⟨_, rfl⟩
    · exact hf e
    · rfl

end

/-- Whether a value is accepted does not depend on the values of other attributes. -/
theorem icmp6_uniform {d d1 d2 : ICMPv6Data} {v w : PyVal} {x y : DataName} (h1 : d.setattr v x = some (.ok d1))
    (h2 : d.setattr w y = some (.ok d2)) : ∃ d', d1.setattr w y = some (.ok d') := by
  cases x with
  | payload =>
    obtain ⟨b, e1, rfl⟩ := some_bind_ok h1
    cases y with
    | payload => obtain ⟨c, e2, rfl⟩ := some_bind_ok h2; exact ⟨_, by simp only [ICMPv6Data.setattr, e2, bind_ok] <;> rfl⟩
    | own y =>
      cases d <;> cases y <;> first
        | (cases h2; done)
        | (obtain ⟨c, e2, rfl⟩ := some_bind_ok h2
           exact ⟨_, by simp only [ICMPv6Data.setPayload, ICMPv6Data.setattr, e2, bind_ok] <;> rfl⟩)
  | own x =>
    cases d <;> cases x <;> first
      | (cases h1; done)
      | (obtain ⟨b, e1, rfl⟩ := some_bind_ok h1
         cases y with
         | payload => obtain ⟨c, e2, rfl⟩ := some_bind_ok h2; exact ⟨_, by simp only [ICMPv6Data.setattr, e2, bind_ok] <;> rfl⟩
         | own y =>
           cases y <;> first
             | (cases h2; done)
             | (obtain ⟨c, e2, rfl⟩ := some_bind_ok h2
                exact ⟨_, by simp only [ICMPv6Data.setattr, e2, bind_ok] <;> rfl⟩))

/-- Types of ICMPv6 messages whose data can be made with keyword arguments. -/
def Kw6 (t : Nat) : Bool := (130 ≤ t && t ≤ 137) || t == 143

/-- The same for ICMP. -/
def Kw4 (t : Nat) : Bool := t == 9 || t == 10 || (12 ≤ t && t ≤ 16)

theorem make6_loose {t : Nat} (ht : Kw6 t = true) : ∃ D, ICMPv6Data.new t = some D ∧ D.typeOf = some t ∧ D.options = some [] ∧
    ∀ kws opts, ICMPv6Data.make t kws opts =
      looseSets ICMPv6Data.setattr D kws >>= fun d => .ok (d.addOptions (opts.getD [])) := by
  have h : t = 130 ∨ t = 131 ∨ t = 132 ∨ t = 133 ∨ t = 134 ∨ t = 135 ∨ t = 136 ∨ t = 137 ∨ t = 143 := by
    simp only [Kw6, Bool.or_eq_true, Bool.and_eq_true, decide_eq_true_eq, beq_iff_eq] at ht
    omega
  rcases h with rfl | rfl | rfl | rfl | rfl | rfl | rfl | rfl | rfl <;> exact ⟨_, rfl, rfl, rfl, fun _ _ => rfl⟩

theorem make4_loose {t : Nat} (ht : Kw4 t = true) : ∃ D, ICMPData.new t = some D ∧ D.typeOf = some t ∧
    ∀ kws, ICMPData.make t kws = looseSets ICMPData.setattr D kws := by
  have h : t = 9 ∨ t = 10 ∨ t = 12 ∨ t = 13 ∨ t = 14 ∨ t = 15 ∨ t = 16 := by
    simp only [Kw4, Bool.or_eq_true, Bool.and_eq_true, decide_eq_true_eq, beq_iff_eq] at ht
    omega
  rcases h with rfl | rfl | rfl | rfl | rfl | rfl | rfl <;> exact ⟨_, rfl, rfl, fun _ => rfl⟩

theorem addOptions_eq {d : ICMPv6Data} {os : List NDOpt} (h : d.options = some os) (l : List NDOpt) :
    (d.addOptions l).options = some (os ++ l) ∧ (d.addOptions l).typeOf = d.typeOf ∧
      ∀ n, (d.addOptions l).getattr n = d.getattr n := by
  cases d <;> first
    | (cases h; done)
    | (cases h
       refine ⟨rfl, rfl, fun n => ?_⟩
       cases n with
       | payload => rfl
       | own a => cases a <;> rfl)

/-- **C216**: the order of the arguments of the constructor of a data class does not matter. -/
theorem make6_order {t : Nat} (ht : Kw6 t = true) {kws kws' : DataKws} (hp : kws.Perm kws') (hn : (kws.map (·.1)).Nodup)
    (opts : Option (List NDOpt)) (g : ICMPv6Data) :
    ICMPv6Data.make t kws opts = .ok g ↔ ICMPv6Data.make t kws' opts = .ok g := by
  obtain ⟨D, _, _, _, hD⟩ := make6_loose ht
  rw [hD, hD]
  constructor <;> intro h <;> obtain ⟨d, e1, e2⟩ := bind_eq_ok.mp h
  · exact bind_eq_ok.mpr ⟨d, looseSets_perm icmp6_data_laws hp hn e1, e2⟩
  · exact bind_eq_ok.mpr ⟨d, looseSets_perm icmp6_data_laws hp.symm ((hp.map _).nodup hn) e1, e2⟩

/-- **C216**: the object made is of that type, has the options given, in that order, the attributes given, and otherwise those
of a new object. -/
theorem make6_object {t : Nat} (ht : Kw6 t = true) {kws : DataKws} (hn : (kws.map (·.1)).Nodup) {opts : Option (List NDOpt)}
    {g : ICMPv6Data} (h : ICMPv6Data.make t kws opts = .ok g) :
    ∃ D, ICMPv6Data.new t = some D ∧ g.typeOf = some t ∧ g.options = some (opts.getD []) ∧
      (∀ n v, (n, some v) ∈ kws → D.getattr n ≠ none → FitsData n v = true → g.getattr n = some v) ∧
      (∀ n v, (n, v) ∈ kws → D.getattr n ≠ none → ∃ D', D.setattr v n = some (.ok D') ∧ g.getattr n = D'.getattr n) ∧
      (∀ n, (∀ x ∈ kws, x.1 ≠ n) → g.getattr n = D.getattr n) := by
  obtain ⟨D, h1, h2, h3, hD⟩ := make6_loose ht
  rw [hD] at h
  obtain ⟨d, e1, e2⟩ := bind_eq_ok.mp h
  cases e2
  have k1 : d.typeOf = D.typeOf := looseSets_keep (fun h => (icmp6_data_frame h).1) e1
  have k2 : d.options = D.options := looseSets_keep (fun h => (icmp6_data_frame h).2.1) e1
  rw [h3] at k2
  obtain ⟨a1, a2, a3⟩ := addOptions_eq k2 (opts.getD [])
  have val : ∀ n v, (n, v) ∈ kws → D.getattr n ≠ none →
      ∃ D', D.setattr v n = some (.ok D') ∧ (d.addOptions (opts.getD [])).getattr n = D'.getattr n := by
    intro n v hm hg
    rcases looseSets_value icmp6_data_laws hn hm e1 with e | ⟨d1, e, e'⟩
    · exact absurd ((icmp6_data_has D v n).mp e) hg
    · exact ⟨d1, e, by rw [a3, e']⟩
  refine ⟨D, h1, by rw [a2, k1, h2], by rw [a1]; rfl, fun n v hm hg hv => ?_, val, fun n hx => ?_⟩
  · obtain ⟨D', e, e'⟩ := val n (some v) hm hg
    obtain ⟨D2, e3, e4⟩ := icmp6_data_reads hg hv
    rw [e3] at e
    cases e
    rw [e', e4]
  · rw [a3]
    exact looseSets_frame icmp6_data_laws hx e1

example : Kw6 137 = true ∧ ICMPv6Data.make 137 [(.own .destaddr, some (.text "::2".toList)), (.own .targetaddr, some (.ip (.v6 1)))]
      (some [.mtu 1500, .lladdr false ⟨[1, 2, 3, 4, 5, 6]⟩]) = .ok (.redirect 1 2 [.mtu 1500, .lladdr false ⟨[1, 2, 3, 4, 5, 6]⟩] []) := by decide

/-- **C216**: the constructor of a data class accepts its arguments if and only if each could be assigned to a new object. -/
theorem make6_accepts {t : Nat} (ht : Kw6 t = true) {D : ICMPv6Data} (hD : ICMPv6Data.new t = some D) {kws : DataKws}
    (hn : (kws.map (·.1)).Nodup) (opts : Option (List NDOpt)) :
    (∃ g, ICMPv6Data.make t kws opts = .ok g) ↔
      ∀ n v, (n, v) ∈ kws → D.getattr n ≠ none → ∃ D', D.setattr v n = some (.ok D') := by
  constructor
  · rintro ⟨g, h⟩ n v hm hg
    obtain ⟨D2, h1, _, _, _, h2, _⟩ := make6_object ht hn h
    rw [hD] at h1
    cases h1
    obtain ⟨D', e, _⟩ := h2 n v hm hg
    exact ⟨D', e⟩
  · intro hall
    obtain ⟨D2, h1, _, _, h2⟩ := make6_loose ht
    rw [hD] at h1
    cases h1
    rw [h2]
    have key : ∀ (l : DataKws) (d : ICMPv6Data), (∀ x ∈ l, d.setattr x.2 x.1 = none ∨ ∃ d', d.setattr x.2 x.1 = some (.ok d')) →
        ∃ g, looseSets ICMPv6Data.setattr d l = .ok g := by
      intro l
      induction l with
      | nil => intro d _; exact ⟨d, rfl⟩
      | cons x l ih =>
        intro d hl
        obtain ⟨k, v⟩ := x
        rcases hl (k, v) List.mem_cons_self with e | ⟨d1, e⟩
        · obtain ⟨g, hg⟩ := ih d fun y hy => hl y (List.mem_cons_of_mem _ hy)
          exact ⟨g, bind_eq_ok.mpr ⟨d, loose_none e, hg⟩⟩
        · obtain ⟨g, hg⟩ := ih d1 fun y hy => by
            rcases hl y (List.mem_cons_of_mem _ hy) with e' | ⟨d2, e'⟩
            · exact .inl ((icmp6_data_laws.shape e y.2 y.1).mpr e')
            · exact .inr (icmp6_uniform e e')
          exact ⟨g, bind_eq_ok.mpr ⟨d1, loose_some e, hg⟩⟩
    obtain ⟨g, hg⟩ := key kws D fun x hx => by
      cases hs : D.setattr x.2 x.1 with
      | none => exact .inl rfl
      | some r =>
        obtain ⟨D', e⟩ := hall x.1 x.2 hx fun e => by rw [(icmp6_data_has D x.2 x.1).mpr e] at hs; cases hs
        exact .inr ⟨D', by rw [← hs, e]⟩
    exact ⟨_, bind_eq_ok.mpr ⟨g, hg, rfl⟩⟩

/-- **C216**: the same for the data of ICMP messages. -/
theorem make4_object {t : Nat} (ht : Kw4 t = true) {kws : DataKws} (hn : (kws.map (·.1)).Nodup) {g : ICMPData}
    (h : ICMPData.make t kws = .ok g) :
    g.typeOf = some t ∧ (∀ b, (.payload, some (.bytes b)) ∈ kws → g.payload = b) ∧
      ((∀ x ∈ kws, x.1 ≠ .payload) → g.payload = []) ∧
      ∀ kws', kws.Perm kws' → ICMPData.make t kws' = .ok g := by
  obtain ⟨D, h1, h2, hD⟩ := make4_loose ht
  rw [hD] at h
  have hp : D.payload = [] := by
    have h : t = 9 ∨ t = 10 ∨ t = 12 ∨ t = 13 ∨ t = 14 ∨ t = 15 ∨ t = 16 := by
      simp only [Kw4, Bool.or_eq_true, Bool.and_eq_true, decide_eq_true_eq, beq_iff_eq] at ht
      omega
    rcases h with rfl | rfl | rfl | rfl | rfl | rfl | rfl <;> cases h1 <;> rfl
  refine ⟨?_, fun b hm => ?_, fun hx => ?_, fun kws' hp => ?_⟩
  · rw [looseSets_keep (fun h => (icmp_data_frame h).1) h, h2]
  · rcases looseSets_value icmp_data_laws hn hm h with e | ⟨d1, e, e'⟩
    · cases e
    · obtain ⟨D2, e3, e4⟩ := icmp_data_reads (d := D) (n := .payload) (v := .bytes b) (by intro h; cases h) rfl
      rw [e3] at e
      cases e
      rw [e4] at e'
      exact AVal.bytes.inj (Option.some.inj e')
  · have := looseSets_frame icmp_data_laws hx h
    simp only [ICMPData.getattr, hp] at this
    exact AVal.bytes.inj (Option.some.inj this)
  · rw [hD]
    exact looseSets_perm icmp_data_laws hp hn h

example : ICMPData.make 12 [(.payload, some (.text "hi".toList))] = .ok (.plain .parameterProblem [104, 105]) := by decide

/-- **C216 is false**: the classes of all other types, among them those of echo and of unreachable messages, take no argument
at all: `TypeError`. -/
theorem make_fixed_violated (t : Nat) :
    (∀ D, ICMPData.new t = some D → Kw4 t = false → ∀ kws, ICMPData.make t kws = if kws = [] then .ok D else .error .typeError) ∧
    (∀ D, ICMPv6Data.new t = some D → Kw6 t = false → ∀ kws opts, ICMPv6Data.make t kws opts =
      if kws = [] ∧ opts = none then .ok D else .error .typeError) := by
  constructor
  · intro D hD hk kws
    unfold ICMPData.new at hD
    split at hD <;> first | (cases hD; done) | (cases hk; done) | (cases hD; rfl)
  · intro D hD hk kws opts
    unfold ICMPv6Data.new at hD
    split at hD <;> first | (cases hD; done) | (cases hk; done) | (cases hD; rfl)

example : ICMPv6Data.make 128 [(.own .identifier, some (.num 7))] none = .error .typeError ∧
    ICMPData.make 8 [(.own .sequence, some (.num 7))] = .error .typeError := by decide

/-- **C216 is false**: where arguments are taken, one whose name is no attribute is accepted and has no effect. -/
theorem make_unknown_violated (t : Nat) (n : DataName) (v : PyVal) (l r : DataKws) :
    (∀ D, ICMPData.new t = some D → Kw4 t = true → D.getattr n = none →
      ICMPData.make t (l ++ (n, v) :: r) = ICMPData.make t (l ++ r)) ∧
    (∀ D, ICMPv6Data.new t = some D → Kw6 t = true → D.getattr n = none → ∀ opts,
      ICMPv6Data.make t (l ++ (n, v) :: r) opts = ICMPv6Data.make t (l ++ r) opts) := by
  have key : ∀ {D : Type} {set : D → PyVal → DataName → Option (Res D)} {get : D → DataName → Option AVal},
      DataLaws set get → (∀ d w, set d w n = none ↔ get d n = none) → ∀ (l : DataKws) (d : D), get d n = none →
        looseSets set d (l ++ (n, v) :: r) = looseSets set d (l ++ r) := by
    intro D set get L has l
    induction l with
    | nil =>
      intro d hd
      simp only [List.nil_append, looseSets]
      rw [loose_none ((has d v).mpr hd)]
      rfl
    | cons x l ih =>
      intro d hd
      obtain ⟨k, w⟩ := x
      simp only [List.cons_append, looseSets]
      cases hs : looseSet set d w k with
      | error e => rfl
      | ok d1 =>
        simp only [bind_ok]
        refine ih d1 ?_
        rcases loose_eq hs with e | ⟨_, rfl⟩
        · exact (has d1 v).mp ((L.shape e v n).mpr ((has d v).mpr hd))
        · exact hd
  constructor
  · intro D hD ht hn
    obtain ⟨D2, h1, _, h2⟩ := make4_loose ht
    rw [hD] at h1
    cases h1
    rw [h2, h2, key icmp_data_laws (fun d w => icmp_data_has d w n) l D hn]
  · intro D hD ht hn opts
    obtain ⟨D2, h1, _, _, h2⟩ := make6_loose ht
    rw [hD] at h1
    cases h1
    rw [h2, h2, key icmp6_data_laws (fun d w => icmp6_data_has d w n) l D hn]

example : ICMPv6Data.make 135 [(.own (.other "target".toList), some (.text "::1".toList))] none = .ok (.ns 0 [] []) := by decide

/-! ## Prefix information options -/

/-- A network: the bits after the prefix are zero. -/
def IsNet (a : BitVec 128) (n : Nat) : Prop := n ≤ 128 ∧ 2 ^ (128 - n) ∣ a.toNat

theorem ipv6Network_isNet {s : Bool} {a : BitVec 128} {n : Int} {r : BitVec 128 × Nat} (h : ipv6Network s a n = .ok r) :
    IsNet r.1 r.2 ∧ (r.2 : Int) = n ∧ (s = true → r.1 = a) := by
  unfold ipv6Network at h
  by_cases h1 : 0 ≤ n ∧ n ≤ 128
  · rw [if_pos h1] at h
    by_cases h2 : a.toNat % 2 ^ (128 - n.toNat) = 0
    · rw [if_pos h2] at h
      cases h
      exact ⟨⟨by simp only; omega, Nat.dvd_of_mod_eq_zero h2⟩, by simp only; omega, fun _ => rfl⟩
    · rw [if_neg h2] at h
      cases s with
      | true => cases h
      | false =>
        cases h
        refine ⟨⟨by simp only; omega, ?_⟩, by simp only; omega, fun h => by cases h⟩
        simp only
        rw [BitVec.toNat_ofNat, Nat.mod_eq_of_lt (by have := a.isLt; omega)]
        exact Nat.dvd_sub_mod _
  · rw [if_neg h1] at h
    cases h

/-- How an assignment changes a prefix information option. -/
theorem setPfx_put {l a : Bool} {x y : Int} {ad : BitVec 128} {n : Nat} {v : PyVal} {k : PfxName} {o : NDOpt}
    (h : (NDOpt.pfx l a x y ad n).setPfx v k = .ok o) :
    (k = .l ∧ ∃ b, v.bitArg = .ok b ∧ o = .pfx b a x y ad n) ∨
    (k = .a ∧ ∃ b, v.bitArg = .ok b ∧ o = .pfx l b x y ad n) ∨
    (k = .valid ∧ ∃ t, v.rangeArg = .ok t ∧ 0 ≤ t ∧ o = .pfx l a t y ad n) ∨
    (k = .preferred ∧ ∃ t, v.rangeArg = .ok t ∧ 0 ≤ t ∧ o = .pfx l a x t ad n) ∨
    (k = .net ∧ ∃ A r, v.netArg = .ok A ∧ ipv6Network false A.1 A.2 = .ok r ∧ o = .pfx l a x y r.1 r.2) ∨
    (k = .plen ∧ ∃ t r, v.plenArg = .ok t ∧ ipv6Network true ad t = .ok r ∧ o = .pfx l a x y r.1 r.2) := by
  cases k with
  | l => obtain ⟨b, e1, e2⟩ := bind_eq_ok.mp h; cases e2; exact .inl ⟨rfl, b, e1, rfl⟩
  | a => obtain ⟨b, e1, e2⟩ := bind_eq_ok.mp h; cases e2; exact .inr (.inl ⟨rfl, b, e1, rfl⟩)
  | valid =>
    obtain ⟨t, e1, e2⟩ := bind_eq_ok.mp h
    by_cases ht : t < 0
    · simp only [NDOpt.setValid, if_pos ht] at e2; cases e2
    · simp only [NDOpt.setValid, if_neg ht] at e2; cases e2
      exact .inr (.inr (.inl ⟨rfl, t, e1, by omega, rfl⟩))
  | preferred =>
    obtain ⟨t, e1, e2⟩ := bind_eq_ok.mp h
    by_cases ht : t < 0
    · simp only [NDOpt.setPreferred, if_pos ht] at e2; cases e2
    · simp only [NDOpt.setPreferred, if_neg ht] at e2; cases e2
      exact .inr (.inr (.inr (.inl ⟨rfl, t, e1, by omega, rfl⟩)))
  | net =>
    obtain ⟨A, e1, e2⟩ := bind_eq_ok.mp h
    obtain ⟨r, e4, e3⟩ := bind_eq_ok.mp e2
    cases e3
    exact .inr (.inr (.inr (.inr (.inl ⟨rfl, A, r, e1, e4, rfl⟩))))
  | plen =>
    obtain ⟨t, e1, e2⟩ := bind_eq_ok.mp h
    obtain ⟨r, e4, e3⟩ := bind_eq_ok.mp e2
    cases e3
    exact .inr (.inr (.inr (.inr (.inr ⟨rfl, t, r, e1, e4, rfl⟩))))
  | other => cases h

theorem setPfx_l {l a : Bool} {x y : Int} {ad : BitVec 128} {n : Nat} {v : PyVal} {b : Bool} (h : v.bitArg = .ok b) :
    (NDOpt.pfx l a x y ad n).setPfx v .l = .ok (.pfx b a x y ad n) := by simp only [NDOpt.setPfx, h, bind_ok]
theorem setPfx_a {l a : Bool} {x y : Int} {ad : BitVec 128} {n : Nat} {v : PyVal} {b : Bool} (h : v.bitArg = .ok b) :
    (NDOpt.pfx l a x y ad n).setPfx v .a = .ok (.pfx l b x y ad n) := by simp only [NDOpt.setPfx, h, bind_ok]
theorem setPfx_valid {l a : Bool} {x y : Int} {ad : BitVec 128} {n : Nat} {v : PyVal} {t : Int} (h : v.rangeArg = .ok t)
    (ht : 0 ≤ t) : (NDOpt.pfx l a x y ad n).setPfx v .valid = .ok (.pfx l a t y ad n) := by
  simp only [NDOpt.setPfx, h, bind_ok, NDOpt.setValid]; rw [if_neg (by omega)]
theorem setPfx_preferred {l a : Bool} {x y : Int} {ad : BitVec 128} {n : Nat} {v : PyVal} {t : Int} (h : v.rangeArg = .ok t)
    (ht : 0 ≤ t) : (NDOpt.pfx l a x y ad n).setPfx v .preferred = .ok (.pfx l a x t ad n) := by
  simp only [NDOpt.setPfx, h, bind_ok, NDOpt.setPreferred]; rw [if_neg (by omega)]
theorem setPfx_net {l a : Bool} {x y : Int} {ad : BitVec 128} {n : Nat} {v : PyVal} {A : BitVec 128 × Int}
    {r : BitVec 128 × Nat} (h : v.netArg = .ok A) (hr : ipv6Network false A.1 A.2 = .ok r) :
    (NDOpt.pfx l a x y ad n).setPfx v .net = .ok (.pfx l a x y r.1 r.2) := by
  simp only [NDOpt.setPfx, h, bind_ok, NDOpt.setPrefix, hr]
theorem setPfx_plen {l a : Bool} {x y : Int} {ad : BitVec 128} {n : Nat} {v : PyVal} {t : Int}
    {r : BitVec 128 × Nat} (h : v.plenArg = .ok t) (hr : ipv6Network true ad t = .ok r) :
    (NDOpt.pfx l a x y ad n).setPfx v .plen = .ok (.pfx l a x y r.1 r.2) := by
  simp only [NDOpt.setPfx, h, bind_ok, NDOpt.setPrefixLength, hr]

/-- The two names that are about the same thing. -/
def _root_.SY.PfxName.isNet : PfxName → Bool
  | .net | .plen => true
  | _ => false

theorem setPfx_swap {l a : Bool} {x y : Int} {ad : BitVec 128} {n : Nat} {v w : PyVal} {k k' : PfxName} {o1 o2 : NDOpt}
    (h1 : (NDOpt.pfx l a x y ad n).setPfx v k = .ok o1) (h2 : o1.setPfx w k' = .ok o2) (hne : k ≠ k')
    (hk : ¬ (k.isNet = true ∧ k'.isNet = true)) :
    ∃ e, (NDOpt.pfx l a x y ad n).setPfx w k' = .ok e ∧ e.setPfx v k = .ok o2 := by
  rcases setPfx_put h1 with ⟨rfl, b, e, rfl⟩ | ⟨rfl, b, e, rfl⟩ | ⟨rfl, b, e, hb, rfl⟩ | ⟨rfl, b, e, hb, rfl⟩ | ⟨rfl, A, r, e, er, rfl⟩ | ⟨rfl, A, r, e, er, rfl⟩ <;>
  rcases setPfx_put h2 with ⟨rfl, c, f, rfl⟩ | ⟨rfl, c, f, rfl⟩ | ⟨rfl, c, f, hc, rfl⟩ | ⟨rfl, c, f, hc, rfl⟩ | ⟨rfl, B, q, f, fr, rfl⟩ | ⟨rfl, B, q, f, fr, rfl⟩ <;>
  first
    | exact absurd rfl hne
    | exact absurd ⟨rfl, rfl⟩ hk
    | (apply Exists.intro; apply And.intro <;> first
        | exact setPfx_l ‹_› | exact setPfx_a ‹_› | exact setPfx_valid ‹_› ‹_› | exact setPfx_preferred ‹_› ‹_›
        | exact setPfx_net ‹_› ‹_› | exact setPfx_plen ‹_› ‹_›)

/-- It stays a prefix information option, of a network, with lifetimes that are not negative. -/
def PfxOk : NDOpt → Prop
  | .pfx _ _ x y ad n => IsNet ad n ∧ 0 ≤ x ∧ 0 ≤ y
  | _ => False

theorem setPfx_ok {o o' : NDOpt} {v : PyVal} {k : PfxName} (ho : PfxOk o) (h : o.setPfx v k = .ok o') : PfxOk o' := by
  cases o <;> first | exact ho.elim | skip
  obtain ⟨h1, h2, h3⟩ := ho
  rcases setPfx_put h with ⟨rfl, b, e, rfl⟩ | ⟨rfl, b, e, rfl⟩ | ⟨rfl, b, e, hb, rfl⟩ | ⟨rfl, b, e, hb, rfl⟩ | ⟨rfl, A, r, e, er, rfl⟩ | ⟨rfl, A, r, e, er, rfl⟩
  · exact ⟨h1, h2, h3⟩
  · exact ⟨h1, h2, h3⟩
  · exact ⟨h1, hb, h3⟩
  · exact ⟨h1, h2, hb⟩
  · exact ⟨(ipv6Network_isNet er).1, h2, h3⟩
  · exact ⟨(ipv6Network_isNet er).1, h2, h3⟩

/-- Arguments of the option's constructor that say different things. -/
def PfxParts (l : List (PfxName × PyVal)) : Prop :=
  l.Pairwise fun x y => x.1 ≠ y.1 ∧ ¬ (x.1.isNet = true ∧ y.1.isNet = true)

theorem pfxParts_perm {l l' : List (PfxName × PyVal)} (hp : l.Perm l') (h : PfxParts l) : PfxParts l' :=
  (hp.pairwise_iff fun {_ _} h => ⟨h.1.symm, fun e => h.2 ⟨e.2, e.1⟩⟩).mp h

theorem setPfxs_perm {l l' : List (PfxName × PyVal)} (hp : l.Perm l') : ∀ {o o' : NDOpt}, PfxOk o → PfxParts l →
    o.setPfxs l = .ok o' → o.setPfxs l' = .ok o' := by
  induction hp with
  | nil => intro o o' _ _ h; exact h
  | cons x _ ih =>
    intro o o' ho hl h
    obtain ⟨k, v⟩ := x
    obtain ⟨o1, e1, e2⟩ := bind_eq_ok.mp h
    exact bind_eq_ok.mpr ⟨o1, e1, ih (setPfx_ok ho e1) (List.pairwise_cons.mp hl).2 e2⟩
  | swap x y l =>
    intro o o' ho hl h
    obtain ⟨k, v⟩ := y
    obtain ⟨k2, v2⟩ := x
    obtain ⟨hne, hk⟩ := (List.pairwise_cons.mp hl).1 (k2, v2) List.mem_cons_self
    obtain ⟨o1, e1, e2⟩ := bind_eq_ok.mp h
    obtain ⟨o2, e2, e3⟩ := bind_eq_ok.mp e2
    cases o <;> first | exact ho.elim | skip
    obtain ⟨e, e4, e5⟩ := setPfx_swap e1 e2 hne hk
    exact bind_eq_ok.mpr ⟨e, e4, bind_eq_ok.mpr ⟨o2, e5, e3⟩⟩
  | trans p _ ih1 ih2 =>
    intro o o' ho hl h
    exact ih2 ho (pfxParts_perm p hl) (ih1 ho hl h)

theorem defaultPrefix_ok : PfxOk NDOpt.defaultPrefix := ⟨⟨by decide, by decide⟩, by decide, by decide⟩

/-- **C216**: the order of the arguments of a prefix information option does not matter, unless both a prefix and a length
are given.  Missing: that case (`mkPrefix_order_violated`). -/
theorem mkPrefix_order_partial {l l' : List (PfxName × PyVal)} (hp : l.Perm l') (hl : PfxParts l) (o : NDOpt) :
    NDOpt.mkPrefix l = .ok o ↔ NDOpt.mkPrefix l' = .ok o :=
  ⟨setPfxs_perm hp defaultPrefix_ok hl, setPfxs_perm hp.symm defaultPrefix_ok (pfxParts_perm hp hl)⟩

/-- One component of the option: what its assignment makes it, if there is one, and otherwise what it was. -/
theorem setPfxs_field {α : Type} (f : NDOpt → α) (k : PfxName) (touch : PfxName → Bool) (R : α → PyVal → α → Prop)
    (hset : ∀ {o o' : NDOpt} {v : PyVal}, PfxOk o → o.setPfx v k = .ok o' → R (f o) v (f o'))
    (hframe : ∀ {o o' : NDOpt} {v : PyVal} {k' : PfxName}, PfxOk o → touch k' = false → o.setPfx v k' = .ok o' → f o' = f o)
    (hk : touch k = true) (htouch : ∀ k1 k2, touch k1 = true → touch k2 = true → k1 = k2 ∨ (k1.isNet = true ∧ k2.isNet = true))
    {l : List (PfxName × PyVal)} : ∀ {o o' : NDOpt}, PfxOk o → PfxParts l → o.setPfxs l = .ok o' →
      (∀ v, (k, v) ∈ l → R (f o) v (f o')) ∧ ((∀ x ∈ l, touch x.1 = false) → f o' = f o) := by
  induction l with
  | nil => intro o o' _ _ h; cases h; exact ⟨fun v hv => (by cases hv), fun _ => rfl⟩
  | cons x l ih =>
    intro o o' ho hl h
    obtain ⟨k', w⟩ := x
    obtain ⟨o1, e1, e2⟩ := bind_eq_ok.mp h
    obtain ⟨hx, hl⟩ := List.pairwise_cons.mp hl
    obtain ⟨i1, i2⟩ := ih (setPfx_ok ho e1) hl e2
    refine ⟨fun v hv => ?_, fun hall => ?_⟩
    · rcases List.mem_cons.mp hv with e | hv
      · cases e
        rw [i2 fun y hy => ?_]
        · exact hset ho e1
        · cases ht : touch y.1 with
          | false => rfl
          | true =>
            rcases htouch _ _ hk ht with e | e
            · exact absurd e (hx y hy).1
            · exact absurd e (hx y hy).2
      · have := i1 v hv
        rwa [hframe ho ?_ e1] at this
        cases ht : touch k' with
        | false => rfl
        | true =>
          rcases htouch _ _ ht hk with e | e
          · exact absurd e (hx _ hv).1
          · exact absurd e (hx _ hv).2
    · rw [i2 fun y hy => hall y (List.mem_cons_of_mem _ hy)]
      exact hframe ho (hall _ List.mem_cons_self) e1

/-- The number with the bits after the first `n` of 128 cleared. -/
def cleared (a : Nat) (n : Nat) : Nat := a / 2 ^ (128 - n) * 2 ^ (128 - n)

theorem ipv6Network_cleared {a : BitVec 128} {n : Int} {r : BitVec 128 × Nat} (h : ipv6Network false a n = .ok r) :
    r.1.toNat = cleared a.toNat r.2 := by
  unfold ipv6Network at h
  by_cases h1 : 0 ≤ n ∧ n ≤ 128
  · rw [if_pos h1] at h
    by_cases h2 : a.toNat % 2 ^ (128 - n.toNat) = 0
    · rw [if_pos h2] at h
      cases h
      exact (Nat.div_mul_cancel (Nat.dvd_of_mod_eq_zero h2)).symm
    · rw [if_neg h2] at h
      cases h
      simp only [cleared]
      rw [BitVec.toNat_ofNat, Nat.mod_eq_of_lt (by have := a.isLt; omega)]
      have := Nat.div_add_mod a.toNat (2 ^ (128 - n.toNat))
      rw [Nat.mul_comm] at this
      omega
  · rw [if_neg h1] at h
    cases h

/-- **C216**: the option made is about a network; it has the flags, lifetimes and prefix given, bits after the prefix being
cleared, and otherwise those of a new option: on-link, autonomous, 25920000 and 604800 seconds, and `::/64`. -/
theorem mkPrefix_object {l : List (PfxName × PyVal)} (hl : PfxParts l) {o : NDOpt} (h : NDOpt.mkPrefix l = .ok o) :
    ∃ bl ba x y ad n, o = .pfx bl ba x y ad n ∧ IsNet ad n ∧ 0 ≤ x ∧ 0 ≤ y ∧
      ((∀ v, (.l, v) ∈ l → v.bitArg = .ok bl) ∧ ((∀ z ∈ l, z.1 ≠ .l) → bl = true)) ∧
      ((∀ v, (.a, v) ∈ l → v.bitArg = .ok ba) ∧ ((∀ z ∈ l, z.1 ≠ .a) → ba = true)) ∧
      ((∀ v, (.valid, v) ∈ l → v.rangeArg = .ok x) ∧ ((∀ z ∈ l, z.1 ≠ .valid) → x = 25920000)) ∧
      ((∀ v, (.preferred, v) ∈ l → v.rangeArg = .ok y) ∧ ((∀ z ∈ l, z.1 ≠ .preferred) → y = 604800)) ∧
      (∀ v, (.net, v) ∈ l → ∃ A, v.netArg = .ok (A, (n : Int)) ∧ ad.toNat = cleared A.toNat n) ∧
      (∀ v, (.plen, v) ∈ l → v.plenArg = .ok (n : Int) ∧ ad = 0) ∧
      ((∀ z ∈ l, z.1 ≠ .net ∧ z.1 ≠ .plen) → ad = 0 ∧ n = 64) := by
  have hok : ∀ {l : List (PfxName × PyVal)} {o o' : NDOpt}, PfxOk o → o.setPfxs l = .ok o' → PfxOk o' := by
    intro l
    induction l with
    | nil => intro o o' ho h; cases h; exact ho
    | cons x l ih =>
      intro o o' ho h
      obtain ⟨k, v⟩ := x
      obtain ⟨o1, e1, e2⟩ := bind_eq_ok.mp h
      exact ih (setPfx_ok ho e1) e2
  have one : ∀ k k1 k2 : PfxName, (k1 == k) = true → (k2 == k) = true → k1 = k2 ∨ (k1.isNet = true ∧ k2.isNet = true) :=
    fun k k1 k2 h1 h2 => .inl (by rw [eq_of_beq h1, eq_of_beq h2])
  have fl := setPfxs_field (fun o => match o with | .pfx b _ _ _ _ _ => b | _ => true) .l (· == .l) (fun _ v b => v.bitArg = .ok b)
    (by
      intro o o' v ho h
      cases o <;> first | exact ho.elim | skip
      rcases setPfx_put h with ⟨_, b, e, rfl⟩ | ⟨e, _⟩ | ⟨e, _⟩ | ⟨e, _⟩ | ⟨e, _⟩ | ⟨e, _⟩ <;> first | exact e | (cases e; done))
    (by
      intro o o' v k' ho hk h
      cases o <;> first | exact ho.elim | skip
      rcases setPfx_put h with ⟨rfl, b, e, rfl⟩ | ⟨rfl, b, e, rfl⟩ | ⟨rfl, b, e, hb, rfl⟩ | ⟨rfl, b, e, hb, rfl⟩ | ⟨rfl, A, r, e, er, rfl⟩ | ⟨rfl, A, r, e, er, rfl⟩ <;>
        first | rfl | (cases hk; done))
    rfl (one _) defaultPrefix_ok hl h
  have fa := setPfxs_field (fun o => match o with | .pfx _ b _ _ _ _ => b | _ => true) .a (· == .a) (fun _ v b => v.bitArg = .ok b)
    (by
      intro o o' v ho h
      cases o <;> first | exact ho.elim | skip
      rcases setPfx_put h with ⟨e, _⟩ | ⟨_, b, e, rfl⟩ | ⟨e, _⟩ | ⟨e, _⟩ | ⟨e, _⟩ | ⟨e, _⟩ <;> first | exact e | (cases e; done))
    (by
      intro o o' v k' ho hk h
      cases o <;> first | exact ho.elim | skip
      rcases setPfx_put h with ⟨rfl, b, e, rfl⟩ | ⟨rfl, b, e, rfl⟩ | ⟨rfl, b, e, hb, rfl⟩ | ⟨rfl, b, e, hb, rfl⟩ | ⟨rfl, A, r, e, er, rfl⟩ | ⟨rfl, A, r, e, er, rfl⟩ <;>
        first | rfl | (cases hk; done))
    rfl (one _) defaultPrefix_ok hl h
  have fx := setPfxs_field (fun o => match o with | .pfx _ _ x _ _ _ => x | _ => 0) .valid (· == .valid) (fun _ v b => v.rangeArg = .ok b)
    (by
      intro o o' v ho h
      cases o <;> first | exact ho.elim | skip
      rcases setPfx_put h with ⟨e, _⟩ | ⟨e, _⟩ | ⟨_, b, e, _, rfl⟩ | ⟨e, _⟩ | ⟨e, _⟩ | ⟨e, _⟩ <;> first | exact e | (cases e; done))
    (by
      intro o o' v k' ho hk h
      cases o <;> first | exact ho.elim | skip
      rcases setPfx_put h with ⟨rfl, b, e, rfl⟩ | ⟨rfl, b, e, rfl⟩ | ⟨rfl, b, e, hb, rfl⟩ | ⟨rfl, b, e, hb, rfl⟩ | ⟨rfl, A, r, e, er, rfl⟩ | ⟨rfl, A, r, e, er, rfl⟩ <;>
        first | rfl | (cases hk; done))
    rfl (one _) defaultPrefix_ok hl h
  have fy := setPfxs_field (fun o => match o with | .pfx _ _ _ x _ _ => x | _ => 0) .preferred (· == .preferred) (fun _ v b => v.rangeArg = .ok b)
    (by
      intro o o' v ho h
      cases o <;> first | exact ho.elim | skip
      rcases setPfx_put h with ⟨e, _⟩ | ⟨e, _⟩ | ⟨e, _⟩ | ⟨_, b, e, _, rfl⟩ | ⟨e, _⟩ | ⟨e, _⟩ <;> first | exact e | (cases e; done))
    (by
      intro o o' v k' ho hk h
      cases o <;> first | exact ho.elim | skip
      rcases setPfx_put h with ⟨rfl, b, e, rfl⟩ | ⟨rfl, b, e, rfl⟩ | ⟨rfl, b, e, hb, rfl⟩ | ⟨rfl, b, e, hb, rfl⟩ | ⟨rfl, A, r, e, er, rfl⟩ | ⟨rfl, A, r, e, er, rfl⟩ <;>
        first | rfl | (cases hk; done))
    rfl (one _) defaultPrefix_ok hl h
  have two : ∀ k1 k2 : PfxName, k1.isNet = true → k2.isNet = true → k1 = k2 ∨ (k1.isNet = true ∧ k2.isNet = true) :=
    fun _ _ h1 h2 => .inr ⟨h1, h2⟩
  have hframe : ∀ {o o' : NDOpt} {v : PyVal} {k' : PfxName}, PfxOk o → k'.isNet = false → o.setPfx v k' = .ok o' →
      (fun o => match o with | NDOpt.pfx _ _ _ _ ad n => (ad, n) | _ => (0, 0)) o' =
        (fun o => match o with | NDOpt.pfx _ _ _ _ ad n => (ad, n) | _ => (0, 0)) o := by
    intro o o' v k' ho hk h
    cases o <;> first | exact ho.elim | skip
    rcases setPfx_put h with ⟨rfl, b, e, rfl⟩ | ⟨rfl, b, e, rfl⟩ | ⟨rfl, b, e, hb, rfl⟩ | ⟨rfl, b, e, hb, rfl⟩ | ⟨rfl, A, r, e, er, rfl⟩ | ⟨rfl, A, r, e, er, rfl⟩ <;>
      first | rfl | (cases hk; done)
  have fn := setPfxs_field (fun o => match o with | .pfx _ _ _ _ ad n => (ad, n) | _ => (0, 0)) .net PfxName.isNet
    (fun _ v b => ∃ A, v.netArg = .ok (A, (b.2 : Int)) ∧ b.1.toNat = cleared A.toNat b.2)
    (by
      intro o o' v ho h
      cases o <;> first | exact ho.elim | skip
      rcases setPfx_put h with ⟨e, _⟩ | ⟨e, _⟩ | ⟨e, _⟩ | ⟨e, _⟩ | ⟨_, A, r, e, er, rfl⟩ | ⟨e, _⟩ <;> first | (cases e; done) | skip
      exact ⟨A.1, by rw [e]; simp only [(ipv6Network_isNet er).2.1], ipv6Network_cleared er⟩)
    hframe rfl two defaultPrefix_ok hl h
  have fp := setPfxs_field (fun o => match o with | .pfx _ _ _ _ ad n => (ad, n) | _ => (0, 0)) .plen PfxName.isNet
    (fun c v b => v.plenArg = .ok (b.2 : Int) ∧ b.1 = c.1)
    (by
      intro o o' v ho h
      cases o <;> first | exact ho.elim | skip
      rcases setPfx_put h with ⟨e, _⟩ | ⟨e, _⟩ | ⟨e, _⟩ | ⟨e, _⟩ | ⟨e, _⟩ | ⟨_, t, r, e, er, rfl⟩ <;> first | (cases e; done) | skip
      exact ⟨by rw [e]; simp only [(ipv6Network_isNet er).2.1], (ipv6Network_isNet er).2.2 rfl⟩)
    hframe rfl two defaultPrefix_ok hl h
  have ho := hok defaultPrefix_ok h
  cases o <;> first | exact ho.elim | skip
  rename_i bl ba x y ad n
  have b1 : ∀ k : PfxName, (∀ z ∈ l, z.1 ≠ k) → ∀ z ∈ l, (z.1 == k) = false := fun k h z hz => by
    cases hb : z.1 == k with
    | false => rfl
    | true => exact absurd (eq_of_beq hb) (h z hz)
  have b2 : (∀ z ∈ l, z.1 ≠ .net ∧ z.1 ≠ .plen) → ∀ z ∈ l, z.1.isNet = false := fun h z hz => by
    have := h z hz
    generalize z.1 = q at *
    cases q <;> first | rfl | exact absurd rfl this.1 | exact absurd rfl this.2
  refine ⟨bl, ba, x, y, ad, n, rfl, ho.1, ho.2.1, ho.2.2, ⟨fl.1, fun h => fl.2 (b1 _ h)⟩, ⟨fa.1, fun h => fa.2 (b1 _ h)⟩,
    ⟨fx.1, fun h => fx.2 (b1 _ h)⟩, ⟨fy.1, fun h => fy.2 (b1 _ h)⟩, fn.1, fp.1, fun h => ?_⟩
  have := fn.2 (b2 h)
  exact ⟨congrArg Prod.fst this, congrArg Prod.snd this⟩

example : PfxParts [(.net, some (.text "2001:db8::1/32".toList)), (.l, some (.num 0))] ∧
    NDOpt.mkPrefix [(.net, some (.text "2001:db8::1/32".toList)), (.l, some (.num 0))] =
      .ok (.pfx false true 25920000 604800 0x20010db8000000000000000000000000 32) := by
  refine ⟨?_, by decide⟩
  simp [PfxParts, PfxName.isNet]

/-- **C216 is false**: if both are given, the order decides.  With the length first, it is lost: the option has the length that
comes with the prefix. -/
theorem mkPrefix_order_violated {v w : PyVal} {o o' : NDOpt} {A : BitVec 128} {n m : Int} (hv : v.netArg = .ok (A, n))
    (hw : w.plenArg = .ok m) (hne : m ≠ n)
    (h1 : NDOpt.mkPrefix [(.plen, w), (.net, v)] = .ok o) (h2 : NDOpt.mkPrefix [(.net, v), (.plen, w)] = .ok o') :
    NDOpt.mkPrefix [(.net, v)] = .ok o ∧ o ≠ o' := by
  obtain ⟨o1, e1, e2⟩ := bind_eq_ok.mp h1
  obtain ⟨o2, e2, e3⟩ := bind_eq_ok.mp e2
  cases e3
  obtain ⟨p1, f1, f2⟩ := bind_eq_ok.mp h2
  obtain ⟨p2, f2, f3⟩ := bind_eq_ok.mp f2
  cases f3
  rcases setPfx_put e1 with ⟨e, _⟩ | ⟨e, _⟩ | ⟨e, _⟩ | ⟨e, _⟩ | ⟨e, _⟩ | ⟨_, t, r, g1, g2, rfl⟩ <;> first | (cases e; done) | skip
  rcases setPfx_put e2 with ⟨e, _⟩ | ⟨e, _⟩ | ⟨e, _⟩ | ⟨e, _⟩ | ⟨_, B, r2, g3, g4, rfl⟩ | ⟨e, _⟩ <;> first | (cases e; done) | skip
  rcases setPfx_put f1 with ⟨e, _⟩ | ⟨e, _⟩ | ⟨e, _⟩ | ⟨e, _⟩ | ⟨_, C, r3, g5, g6, rfl⟩ | ⟨e, _⟩ <;> first | (cases e; done) | skip
  rcases setPfx_put f2 with ⟨e, _⟩ | ⟨e, _⟩ | ⟨e, _⟩ | ⟨e, _⟩ | ⟨e, _⟩ | ⟨_, u, r4, g7, g8, rfl⟩ <;> first | (cases e; done) | skip
  rw [hw] at g7
  cases g7
  rw [hv] at g3
  cases g3
  refine ⟨bind_eq_ok.mpr ⟨_, setPfx_net hv g4, rfl⟩, fun e => hne ?_⟩
  injection e with _ _ _ _ _ e6
  have a1 := (ipv6Network_isNet g4).2.1
  have a2 := (ipv6Network_isNet g8).2.1
  simp only at a1
  omega

example : NDOpt.mkPrefix [(.plen, some (.num 48)), (.net, some (.text "2001:db8::/32".toList))] =
      .ok (.pfx true true 25920000 604800 0x20010db8000000000000000000000000 32) ∧
    NDOpt.mkPrefix [(.net, some (.text "2001:db8::/32".toList)), (.plen, some (.num 48))] =
      .ok (.pfx true true 25920000 604800 0x20010db8000000000000000000000000 48) := by decide

/-- **C216**: a prefix given as text of an address, a slash and a length is that; an address alone is a prefix of all of its bits. -/
theorem pfx_net_given (a : BitVec 128) (n : Nat) (hn : n ≤ 128) :
    PyVal.netArg (some (.text (IPIface.text ⟨.v6 a, n⟩))) = .ok (a, (n : Int)) ∧
    PyVal.netArg (some (.ip (.v6 a))) = .ok (a, 128) ∧ ∀ b : BitVec 32, PyVal.netArg (some (.ip (.v4 b))) = .error .addressValue := by
  refine ⟨?_, rfl, fun _ => rfl⟩
  have h := ifaceParse_text (.v6 a) n hn
  have h6 : ipv6IfaceParse (IPIface.text ⟨.v6 a, n⟩) = some ⟨.v6 a, n⟩ := by
    unfold ifaceParse at h
    cases h4 : ipv4IfaceParse (IPIface.text ⟨.v6 a, n⟩) with
    | none => rw [h4] at h; exact h
    | some i =>
      rw [h4] at h
      have h : i = ⟨.v6 a, n⟩ := Option.some.inj h
      subst h
      obtain ⟨b, ⟨_, e⟩ | ⟨_, _, _, _, _, e⟩ | ⟨_, _, _, _, e, _⟩⟩ := (ipv4_iface_text_iff _ _).mp h4 <;> cases e
  simp only [PyVal.netArg, h6]

example : IPIface.text ⟨.v6 0x20010db8000000000000000000000000, 32⟩ = "2001:db8::/32".toList := by decide

/-- **C216**: the length of a prefix can be given as a number or as its digits; a word that is not a number, a negative one,
bytes and the like are refused. -/
theorem pfx_length_given (o : NDOpt) (n : Nat) (s : List Char) (hs : s.any (fun c => !c.isDigit) = true) :
    o.setPfx (some (.text (natText n))) .plen = o.setPfx (some (.num n)) .plen ∧
    o.setPfx (some (.text s)) .plen = .error .valueError ∧
    (∀ b, o.setPfx (some (.bytes b)) .plen = .error .valueError) := by
  have e1 : PyVal.plenArg (some (.text (natText n))) = PyVal.plenArg (some (.num n)) := by
    simp only [PyVal.plenArg]
    rw [if_pos ⟨natText_ne_nil n, List.all_eq_true.mpr (natText_digits n)⟩, natText_val]
  have e2 : PyVal.plenArg (some (.text s)) = .error .valueError := by
    simp only [PyVal.plenArg]
    rw [if_neg]
    rintro ⟨_, h⟩
    obtain ⟨c, hc, h'⟩ := List.any_eq_true.mp hs
    rw [List.all_eq_true.mp h c hc] at h'
    cases h'
  refine ⟨?_, ?_, fun b => rfl⟩
  · simp only [NDOpt.setPfx, e1]
  · simp only [NDOpt.setPfx, e2]; rfl

example : NDOpt.defaultPrefix.setPfx (some (.text "48".toList)) .plen = .ok (.pfx true true 25920000 604800 0 48) ∧
    NDOpt.defaultPrefix.setPfx (some (.text "/48".toList)) .plen = .error .valueError := by decide

/-- **C216**: the class of prefix options has no further attributes: `AttributeError`, so that a misspelt argument of its
constructor is noticed. -/
theorem pfx_unknown (o : NDOpt) (v : PyVal) (name : List Char) (l r : List (PfxName × PyVal)) :
    o.setPfx v (.other name) = .error .attributeError ∧ ∀ o', NDOpt.mkPrefix (l ++ (.other name, v) :: r) ≠ .ok o' := by
  refine ⟨rfl, fun o' h => ?_⟩
  have key : ∀ (l : List (PfxName × PyVal)) (o : NDOpt), o.setPfxs (l ++ (.other name, v) :: r) ≠ .ok o' := by
    intro l
    induction l with
    | nil => intro o h; cases h
    | cons x l ih =>
      intro o h
      obtain ⟨k, w⟩ := x
      obtain ⟨o1, _, e2⟩ := bind_eq_ok.mp h
      exact ih o1 e2
  exact key l _ h

end SY.Props
