import Verif.AddrKey
import Verif.Props.EthAddr

/-! # Property C210: Ethernet addresses as keys of dictionaries -/

namespace SY.Props
open SY

variable {V : Type}

/-- What a program does with a dictionary. -/
inductive KeyOp (V : Type)
  | set (k : EthAddr) (v : V)
  | del (k : EthAddr)

/-- One step on a Python dictionary; an exception leaves it as it was. -/
def KeyOp.apply (H : PyHash) (d : List (EthArg × V)) : KeyOp V → List (EthArg × V)
  | .set k v => match kdSet H d (.addr k) v with | .ok r => r | .error _ => d
  | .del k => match kdDel H d (.addr k) with | .ok r => r | .error _ => d

/-- The specification: a function from six bytes to values. -/
def KeyOp.spec (m : Bytes → Option V) : KeyOp V → Bytes → Option V
  | .set k v => fun b => if b = k.raw then some v else m b
  | .del k => fun b => if b = k.raw then none else m b

def KeyOp.key : KeyOp V → EthAddr
  | .set k _ | .del k => k

/-- Dictionaries all of whose keys are addresses of six bytes, no two of them equal. -/
def AddrDict (d : List (EthArg × V)) : Prop :=
  (∀ x ∈ d, ∃ a : EthAddr, x.1 = .addr a ∧ a.raw.length = 6) ∧ (d.map Prod.fst).Nodup

theorem keyEq_addr (a b : EthAddr) (ha : a.raw.length = 6) (hb : b.raw.length = 6) :
    keyEq (.addr a) (.addr b) = .ok (decide (a = b)) := ethaddr_eq_iff a b ha hb

theorem AddrDict.tail {x : EthArg × V} {d : List (EthArg × V)} (h : AddrDict (x :: d)) : AddrDict d :=
  ⟨fun y hy => h.1 y (List.mem_cons_of_mem _ hy), (List.nodup_cons.mp h.2).2⟩

/-- Looking up in such a dictionary finds the item with this very address. -/
theorem kdFind_addr (H : PyHash) (d : List (EthArg × V)) (h : AddrDict d) (a : EthAddr) (ha : a.raw.length = 6) :
    kdFind H d (.addr a) = .ok ((d.find? fun x => decide (x.1 = .addr a)).map Prod.snd) := by
  induction d with
  | nil => rfl
  | cons x d ih =>
    obtain ⟨k, v⟩ := x
    obtain ⟨c, hc, hl⟩ := h.1 _ (List.mem_cons_self ..)
    simp only at hc
    subst hc
    unfold kdFind
    rw [ih h.tail, List.find?_cons]
    by_cases e : c = a
    · subst e
      rw [if_pos rfl, keyEq_addr _ _ hl ha]
      simp
    · have e' : ¬ (EthArg.addr c = EthArg.addr a) := fun he => e (EthArg.addr.inj he)
      simp only [decide_eq_false e']
      by_cases hh : keyHash H (.addr c) = keyHash H (.addr a)
      · rw [if_pos hh, keyEq_addr _ _ hl ha, decide_eq_false e]
        simp
      · rw [if_neg hh]

/-- Storing. -/
theorem kdSet_addr (H : PyHash) (d : List (EthArg × V)) (h : AddrDict d) (a : EthAddr) (ha : a.raw.length = 6) (v : V) :
    ∃ r, kdSet H d (.addr a) v = .ok r ∧ AddrDict r ∧ (∀ x, x ∈ r.map Prod.fst ↔ x ∈ d.map Prod.fst ∨ x = .addr a) ∧
      ∀ b : EthAddr, b.raw.length = 6 → kdFind H r (.addr b) = if b = a then .ok (some v) else kdFind H d (.addr b) := by
  induction d with
  | nil =>
    refine ⟨[(.addr a, v)], rfl, ⟨by simp [ha], by simp⟩, by simp, ?_⟩
    intro b hb
    rw [kdFind_addr H _ ⟨by simp [ha], by simp⟩ b hb]
    by_cases e : b = a
    · subst e; simp
    · have e' : ¬ a = b := fun he => e he.symm
      simp [e, e', kdFind]
  | cons x d ih =>
    obtain ⟨k, w⟩ := x
    obtain ⟨c, hc, hl⟩ := h.1 _ (List.mem_cons_self ..)
    simp only at hc
    subst hc
    obtain ⟨r, hr, hr1, hr2, hr3⟩ := ih h.tail
    have hnot : EthArg.addr c ∉ d.map Prod.fst := (List.nodup_cons.mp h.2).1
    unfold kdSet
    by_cases e : c = a
    · subst e
      have hd : AddrDict ((EthArg.addr c, v) :: d) := by
        refine ⟨?_, h.2⟩
        intro y hy
        rcases List.mem_cons.mp hy with e | e
        · subst e; exact ⟨c, rfl, hl⟩
        · exact h.1 y (List.mem_cons_of_mem _ e)
      refine ⟨(EthArg.addr c, v) :: d, ?_, hd, ?_, ?_⟩
      · rw [if_pos rfl, keyEq_addr _ _ hl ha]; simp
      · intro x; simp only [List.map_cons, List.mem_cons]; grind
      · intro b hb
        rw [kdFind_addr H _ hd b hb, kdFind_addr H _ h b hb]
        by_cases e : b = c
        · subst e; simp
        · have e' : ¬ c = b := fun he => e he.symm
          simp [e, e']
    · have step : (if keyHash H (.addr c) = keyHash H (.addr a) then
          keyEq (.addr c) (.addr a) >>= fun b =>
            if b then .ok ((EthArg.addr c, v) :: d) else kdSet H d (.addr a) v >>= fun r => .ok ((.addr c, w) :: r)
        else kdSet H d (.addr a) v >>= fun r => .ok ((.addr c, w) :: r)) = (.ok ((.addr c, w) :: r) : Res _) := by
        rw [hr, keyEq_addr _ _ hl ha, decide_eq_false e]
        by_cases hh : keyHash H (.addr c) = keyHash H (.addr a)
        · rw [if_pos hh]; rfl
        · rw [if_neg hh]; rfl
      have hd : AddrDict ((EthArg.addr c, w) :: r) := by
        refine ⟨?_, ?_⟩
        · intro y hy
          rcases List.mem_cons.mp hy with e | e
          · subst e; exact ⟨c, rfl, hl⟩
          · exact hr1.1 y e
        · refine List.nodup_cons.mpr ⟨?_, hr1.2⟩
          intro hm
          rcases (hr2 _).mp hm with hm | hm
          · exact hnot hm
          · exact e (EthArg.addr.inj hm)
      refine ⟨(EthArg.addr c, w) :: r, step, hd, ?_, ?_⟩
      · intro x; simp only [List.map_cons, List.mem_cons, hr2]; grind
      · intro b hb
        have hrb := hr3 b hb
        rw [kdFind_addr H _ hr1 b hb, kdFind_addr H _ h.tail b hb] at hrb
        rw [kdFind_addr H _ hd b hb, kdFind_addr H _ h b hb, List.find?_cons, List.find?_cons]
        by_cases eb : c = b
        · subst eb
          simp [e]
        · have eb' : ¬ (EthArg.addr c = EthArg.addr b) := fun he => eb (EthArg.addr.inj he)
          simp only [decide_eq_false eb']
          exact hrb

/-- Deleting. -/
theorem kdDel_addr (H : PyHash) (d : List (EthArg × V)) (h : AddrDict d) (a : EthAddr) (ha : a.raw.length = 6) :
    (EthArg.addr a ∉ d.map Prod.fst ∧ kdDel H d (.addr a) = .error .keyError) ∨
    ∃ r, kdDel H d (.addr a) = .ok r ∧ AddrDict r ∧ (∀ x, x ∈ r.map Prod.fst ↔ x ∈ d.map Prod.fst ∧ x ≠ .addr a) ∧
      ∀ b : EthAddr, b.raw.length = 6 → kdFind H r (.addr b) = if b = a then .ok none else kdFind H d (.addr b) := by
  induction d with
  | nil => exact .inl ⟨by simp, rfl⟩
  | cons x d ih =>
    obtain ⟨k, w⟩ := x
    obtain ⟨c, hc, hl⟩ := h.1 _ (List.mem_cons_self ..)
    simp only at hc
    subst hc
    have hnot : EthArg.addr c ∉ d.map Prod.fst := (List.nodup_cons.mp h.2).1
    unfold kdDel
    by_cases e : c = a
    · subst e
      refine .inr ⟨d, ?_, h.tail, ?_, ?_⟩
      · rw [if_pos rfl, keyEq_addr _ _ hl ha]; simp
      · intro x; simp only [List.map_cons, List.mem_cons]; grind
      · intro b hb
        rw [kdFind_addr H _ h.tail b hb, kdFind_addr H _ h b hb, List.find?_cons]
        by_cases e : b = c
        · subst e
          simp only [if_pos]
          have : (d.find? fun x => decide (x.1 = .addr b)) = none := by
            rw [List.find?_eq_none]
            intro y hy he
            exact hnot (List.mem_map.mpr ⟨y, hy, of_decide_eq_true he⟩)
          rw [this]; rfl
        · have e' : ¬ (EthArg.addr c = EthArg.addr b) := fun he => e (EthArg.addr.inj he).symm
          simp only [decide_eq_false e', if_neg e]
    · have step : ∀ r : Res (List (EthArg × V)), (if keyHash H (.addr c) = keyHash H (.addr a) then
          keyEq (.addr c) (.addr a) >>= fun b => if b then .ok d else r >>= fun r => .ok ((.addr c, w) :: r)
        else r >>= fun r => .ok ((EthArg.addr c, w) :: r)) = (r >>= fun r => .ok ((EthArg.addr c, w) :: r) : Res _) := by
        intro r
        rw [keyEq_addr _ _ hl ha, decide_eq_false e]
        by_cases hh : keyHash H (.addr c) = keyHash H (.addr a)
        · rw [if_pos hh]; rfl
        · rw [if_neg hh]
      rw [step]
      rcases ih h.tail with ⟨h1, h2⟩ | ⟨r, hr, hr1, hr2, hr3⟩
      · refine .inl ⟨?_, by rw [h2]; rfl⟩
        simp only [List.map_cons, List.mem_cons, not_or]
        exact ⟨fun he => e (EthArg.addr.inj he).symm, h1⟩
      · have hd : AddrDict ((EthArg.addr c, w) :: r) := by
          refine ⟨?_, ?_⟩
          · intro y hy
            rcases List.mem_cons.mp hy with e | e
            · subst e; exact ⟨c, rfl, hl⟩
            · exact hr1.1 y e
          · refine List.nodup_cons.mpr ⟨?_, hr1.2⟩
            intro hm
            exact hnot ((hr2 _).mp hm).1
        refine .inr ⟨(EthArg.addr c, w) :: r, by rw [hr]; rfl, hd, ?_, ?_⟩
        · intro x
          simp only [List.map_cons, List.mem_cons, hr2]
          constructor
          · rintro (he | ⟨h1, h2⟩)
            · subst he; exact ⟨.inl rfl, fun he => e (EthArg.addr.inj he)⟩
            · exact ⟨.inr h1, h2⟩
          · rintro ⟨h1 | h1, h2⟩
            · exact .inl h1
            · exact .inr ⟨h1, h2⟩
        · intro b hb
          have hrb := hr3 b hb
          rw [kdFind_addr H _ hr1 b hb, kdFind_addr H _ h.tail b hb] at hrb
          rw [kdFind_addr H _ hd b hb, kdFind_addr H _ h b hb, List.find?_cons, List.find?_cons]
          by_cases eb : c = b
          · subst eb
            simp [e]
          · have eb' : ¬ (EthArg.addr c = EthArg.addr b) := fun he => eb (EthArg.addr.inj he)
            simp only [decide_eq_false eb']
            exact hrb

/-- The dictionary after a history of assignments and deletions. -/
def keyRun (H : PyHash) (ops : List (KeyOp V)) : List (EthArg × V) := ops.foldl (KeyOp.apply H) []

/-- The specification of the same history. -/
def keySpec (ops : List (KeyOp V)) : Bytes → Option V := ops.foldl KeyOp.spec fun _ => none

/-- **C210**, for addresses: after every history of assignments and deletions, whatever the hash function of `bytes`
is, a dictionary with addresses as keys holds for each address what was stored last for it, and holds no
address twice. -/
theorem addr_keys (H : PyHash) (ops : List (KeyOp V)) (h6 : ∀ o ∈ ops, o.key.raw.length = 6) :
    (∀ a : EthAddr, a.raw.length = 6 → kdFind H (keyRun H ops) (.addr a) = .ok (keySpec ops a.raw)) ∧
      ((keyRun H ops).map Prod.fst).Nodup := by
  suffices ∀ (d : List (EthArg × V)) (m : Bytes → Option V), AddrDict d →
      (∀ a : EthAddr, a.raw.length = 6 → kdFind H d (.addr a) = .ok (m a.raw)) →
      (∀ a : EthAddr, a.raw.length = 6 → kdFind H (ops.foldl (KeyOp.apply H) d) (.addr a) =
        .ok (ops.foldl KeyOp.spec m a.raw)) ∧ AddrDict (ops.foldl (KeyOp.apply H) d) by
    obtain ⟨h1, h2⟩ := this [] (fun _ => none) ⟨by simp, by simp⟩ (fun _ _ => rfl)
    exact ⟨h1, h2.2⟩
  induction ops with
  | nil => exact fun d m hd hm => ⟨hm, hd⟩
  | cons o ops ih =>
    intro d m hd hm
    have ho := h6 o (List.mem_cons_self ..)
    refine ih (fun p hp => h6 p (List.mem_cons_of_mem _ hp)) _ _ ?_ ?_
    · cases o with
      | set k v =>
        obtain ⟨r, hr, hr1, _⟩ := kdSet_addr H d hd k ho v
        simp only [KeyOp.apply, hr]; exact hr1
      | del k =>
        rcases kdDel_addr H d hd k ho with ⟨_, h2⟩ | ⟨r, hr, hr1, _⟩
        · simp only [KeyOp.apply, h2]; exact hd
        · simp only [KeyOp.apply, hr]; exact hr1
    · intro a ha
      have raws : ∀ k : EthAddr, (a.raw = k.raw) = (a = k) := by
        intro k; obtain ⟨r⟩ := a; obtain ⟨s⟩ := k; simp
      cases o with
      | set k v =>
        obtain ⟨r, hr, _, _, hr3⟩ := kdSet_addr H d hd k ho v
        simp only [KeyOp.apply, hr, KeyOp.spec, raws]
        rw [hr3 a ha, hm a ha]
        by_cases e : a = k
        · rw [if_pos e, if_pos e]
        · rw [if_neg e, if_neg e]
      | del k =>
        rcases kdDel_addr H d hd k ho with ⟨h1, h2⟩ | ⟨r, hr, _, _, hr3⟩
        · simp only [KeyOp.apply, h2, KeyOp.spec, raws]
          rw [hm a ha]
          by_cases e : a = k
          · subst e
            rw [if_pos rfl, ← hm a ha, kdFind_addr H d hd a ha]
            have : (d.find? fun x => decide (x.1 = .addr a)) = none := by
              rw [List.find?_eq_none]
              intro y hy he
              exact h1 (List.mem_map.mpr ⟨y, hy, of_decide_eq_true he⟩)
            rw [this]; rfl
          · rw [if_neg e]
        · simp only [KeyOp.apply, hr, KeyOp.spec, raws]
          rw [hr3 a ha, hm a ha]
          by_cases e : a = k
          · rw [if_pos e, if_pos e]
          · rw [if_neg e, if_neg e]

/-- A hash function under which everything collides still separates the addresses. -/
example : kdFind ⟨fun _ => 0, fun _ => 0, 0, 0⟩ (keyRun ⟨fun _ => 0, fun _ => 0, 0, 0⟩
      [.set ⟨[1, 2, 3, 4, 5, 6]⟩ 7, .set ⟨[1, 2, 3, 4, 5, 7]⟩ 8, .set ⟨[1, 2, 3, 4, 5, 6]⟩ 9, .del ⟨[1, 2, 3, 4, 5, 7]⟩])
    (.addr ⟨[1, 2, 3, 4, 5, 6]⟩) = .ok (some 9) := by decide

/-- **C210**, for addresses: deleting raises `KeyError` exactly for an address that is not there. -/
theorem addr_key_missing (H : PyHash) (ops : List (KeyOp V)) (h6 : ∀ o ∈ ops, o.key.raw.length = 6) (a : EthAddr)
    (ha : a.raw.length = 6) :
    kdDel H (keyRun H ops) (.addr a) = .error .keyError ↔ keySpec ops a.raw = none := by
  have inv : AddrDict (keyRun H ops) := by
    unfold keyRun
    suffices ∀ d : List (EthArg × V), AddrDict d → AddrDict (ops.foldl (KeyOp.apply H) d) from this [] ⟨by simp, by simp⟩
    clear ha a
    induction ops with
    | nil => exact fun d hd => hd
    | cons o ops ih =>
      intro d hd
      have ho := h6 o (List.mem_cons_self ..)
      refine ih (fun p hp => h6 p (List.mem_cons_of_mem _ hp)) _ ?_
      cases o with
      | set k v =>
        obtain ⟨r, hr, hr1, _⟩ := kdSet_addr H d hd k ho v
        simp only [KeyOp.apply, hr]; exact hr1
      | del k =>
        rcases kdDel_addr H d hd k ho with ⟨_, h2⟩ | ⟨r, hr, hr1, _⟩
        · simp only [KeyOp.apply, h2]; exact hd
        · simp only [KeyOp.apply, hr]; exact hr1
  have hf := (addr_keys H ops h6).1 a ha
  rw [kdFind_addr H _ inv a ha] at hf
  have hf' := Except.ok.inj hf
  rw [← hf', Option.map_eq_none_iff, List.find?_eq_none]
  have hiff : (∀ x ∈ keyRun H ops, ¬ decide (x.1 = EthArg.addr a) = true) ↔ EthArg.addr a ∉ (keyRun H ops).map Prod.fst := by
    simp only [List.mem_map, not_exists, not_and, decide_eq_true_eq]
  rw [hiff]
  rcases kdDel_addr H _ inv a ha with ⟨h1, h2⟩ | ⟨r, hr, hr1, hr2, hr3⟩
  · exact ⟨fun _ => h1, fun _ => h2⟩
  · constructor
    · intro he; rw [hr] at he; cases he
    · intro hn
      exfalso
      clear hf hf' hiff hr3 hr1 hr2
      generalize keyRun H ops = d at inv hr hn
      induction d generalizing r with
      | nil => cases hr
      | cons x d ih =>
        obtain ⟨k, w⟩ := x
        obtain ⟨c, hc, hl⟩ := inv.1 _ (List.mem_cons_self ..)
        simp only at hc
        subst hc
        simp only [List.map_cons, List.mem_cons, not_or] at hn
        have e : c ≠ a := fun he => hn.1 (by rw [he])
        unfold kdDel at hr
        rw [keyEq_addr _ _ hl ha, decide_eq_false e] at hr
        have hr' : (kdDel H d (.addr a) >>= fun r => .ok ((EthArg.addr c, w) :: r)) = .ok r := by
          by_cases hh : keyHash H (.addr c) = keyHash H (.addr a)
          · rw [if_pos hh] at hr; exact hr
          · rw [if_neg hh] at hr; exact hr
        obtain ⟨r', h1, _⟩ := bind_eq_ok.mp hr'
        exact ih r' inv.tail h1 hn.2

example : (⟨[1, 2, 3, 4, 5, 6]⟩ : EthAddr).raw.length = 6 ∧ keySpec [KeyOp.set ⟨[1, 2, 3, 4, 5, 7]⟩ 8] [1, 2, 3, 4, 5, 6] = none := by
  decide

/-- **C210** is false of texts: an address equals its own text, but is not found under it, unless the hash functions
of `str` and `bytes` happen to agree there. -/
theorem text_key_violated (H : PyHash) (a : EthAddr) (ha : a.raw.length = 6) (v : V) (hh : H.raw a.raw ≠ H.text a.toStr) :
    keyEq (.addr a) (.text a.toStr) = .ok true ∧ kdFind H [(.addr a, v)] (.text a.toStr) = .ok none ∧
      ∃ r, kdSet H [(.addr a, v)] (.text a.toStr) v = .ok r ∧ r.length = 2 := by
  refine ⟨(ethaddr_eq_text a ha).1, ?_, [(.addr a, v), (.text a.toStr, v)], ?_, rfl⟩
  · unfold kdFind
    rw [if_neg (show ¬ keyHash H (.addr a) = keyHash H (.text a.toStr) from hh)]
    rfl
  · unfold kdSet
    rw [if_neg (show ¬ keyHash H (.addr a) = keyHash H (.text a.toStr) from hh)]
    rfl

example : (⟨fun _ => 1, fun _ => 2, 0, 0⟩ : PyHash).raw [1, 2, 3, 4, 5, 6] ≠
    (⟨fun _ => 1, fun _ => 2, 0, 0⟩ : PyHash).text (⟨[1, 2, 3, 4, 5, 6]⟩ : EthAddr).toStr := by decide

/-- Membership in a list of addresses, for an address or the text of one. -/
theorem addr_in_list (l : List EthAddr) (a : EthAddr) (hl : ∀ x ∈ l, x.raw.length = 6) (ha : a.raw.length = 6) :
    listIn (l.map .addr) (.addr a) = .ok (decide (a ∈ l)) ∧
      listIn (l.map .addr) (.text a.toStr) = .ok (decide (a ∈ l)) := by
  have ht : ∀ c : EthAddr, keyEq (.addr c) (.text a.toStr) = .ok (decide (c = a)) := by
    intro c
    simp only [keyEq, EthAddr.eqArg, (ethaddr_text_roundtrip a ha).1]
    obtain ⟨r⟩ := a; obtain ⟨s⟩ := c
    simp
  induction l with
  | nil => exact ⟨rfl, rfl⟩
  | cons x l ih =>
    obtain ⟨i1, i2⟩ := ih (fun y hy => hl y (List.mem_cons_of_mem _ hy))
    simp only [List.map_cons, listIn, i1, i2, ht, keyEq_addr _ _ (hl x (List.mem_cons_self ..)) ha, bind_ok]
    by_cases e : x = a
    · subst e; simp
    · have e' : ¬ a = x := fun he => e he.symm
      simp [e, e']

example : ∀ x ∈ ([⟨[1, 2, 3, 4, 5, 6]⟩, ⟨[1, 2, 3, 4, 5, 7]⟩] : List EthAddr), x.raw.length = 6 := by decide

/-- **C210** is false of comparisons with other objects: they raise `RuntimeError`, so that asking whether such an
object is in a list of addresses raises it too, as does a text without five separators; and the address of zeros
equals `None`. -/
theorem addr_compare_violated (a : EthAddr) (l : List EthAddr) :
    keyEq (.addr a) .other = .error .runtimeError ∧
    listIn ((a :: l).map .addr) .other = .error .runtimeError ∧
    (∀ s, countChar ':' s ≠ 5 → countChar '-' s ≠ 5 → listIn ((a :: l).map .addr) (.text s) = .error .runtimeError) ∧
    keyEq (.addr EthAddr.any) .none = .ok true ∧ keyEq .none (.addr EthAddr.any) = .ok true := by
  have ho : keyEq (.addr a) .other = .error .runtimeError := rfl
  refine ⟨ho, ?_, ?_, by decide, by decide⟩
  · simp only [List.map_cons, listIn, ho]; rfl
  · intro s h1 h2
    have : keyEq (.addr a) (.text s) = .error .runtimeError := by
      simp only [keyEq, EthAddr.eqArg, EthAddr.mk', EthAddr.parseArg, if_neg h1, if_neg h2]
      rfl
    simp only [List.map_cons, listIn, this]; rfl

/-- Exactly when comparing an address with something raises: when no address can be made of it. -/
theorem addr_compare_iff (a : EthAddr) (x : EthArg) (e : PyErr) :
    keyEq (.addr a) x = .error e ↔ EthAddr.mk' x = .error e := by
  simp only [keyEq, EthAddr.eqArg]
  cases h : EthAddr.mk' x with
  | error e' =>
    constructor
    · intro h; cases h; rfl
    · intro h; cases h; rfl
  | ok b =>
    constructor
    · intro h; cases h
    · intro h; cases h

example : keyEq (.addr ⟨[1, 2, 3, 4, 5, 6]⟩) (.text "1:2:3:4:5:zz".toList) = .error .valueError := by decide

/-- Entries of flow tables: equal ones (of equal priority) can have different hashes. -/
theorem entry_hash_violated (e : FlowEntry) (c : Int) (h : c % (2 ^ 61 - 1) ≠ e.cookie % (2 ^ 61 - 1)) :
    e.same { e with cookie := c } = true ∧ e.hash ≠ FlowEntry.hash { e with cookie := c } :=
  ⟨by simp [FlowEntry.same], fun he => h he.symm⟩

end SY.Props
