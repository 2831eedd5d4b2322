import Verif.Props.Pcap

/-! # Open devices and their filters (C134), device settings (C135) -/

namespace SY.Props

open SY

/-- What holds of the handles, the registered ones, and the objects, whatever the program did. -/
structure PcapInv (w : PcapWorld) : Prop where
  uh : w.handles.Uniq
  ur : w.reg.Uniq
  uo : w.objs.Uniq
  below : ∀ h ∈ w.handles.keys, h < w.nextHandle
  all : ∀ h < w.nextHandle, h ∈ w.handles.keys ∨ h ∈ w.closed
  regOpen : ∀ id h, w.reg.get? id = some (some h) → h ∈ w.handles.keys ∧ h ∉ w.freeing
  regInj : ∀ id id' h, w.reg.get? id = some (some h) → w.reg.get? id' = some (some h) → id = id'
  objBelow : ∀ id o, w.objs.get? id = some o → o.handle < w.nextHandle
  objReg : ∀ id o x, w.objs.get? id = some o → w.reg.get? id = some x → x = some o.handle
  objOpen : ∀ id o, w.objs.get? id = some o → o.handle ∈ w.handles.keys → o.handle ∉ w.freeing →
    w.reg.get? id = some (some o.handle)
  freeOpen : ∀ h ∈ w.freeing, h ∈ w.handles.keys
  freeNodup : w.freeing.Nodup
  closedGone : ∀ h ∈ w.closed, h < w.nextHandle ∧ h ∉ w.handles.keys
  closedNodup : w.closed.Nodup

/-- Only the contents of handles are changed. -/
def SameKeys (w w' : PcapWorld) : Prop :=
  ∃ H, w' = { w with handles := H } ∧ Dict.keys H = w.handles.keys

theorem SameKeys.refl (w : PcapWorld) : SameKeys w w := ⟨w.handles, rfl, rfl⟩

theorem SameKeys.trans {a b c : PcapWorld} (h1 : SameKeys a b) (h2 : SameKeys b c) : SameKeys a c := by
  obtain ⟨H, rfl, k1⟩ := h1
  obtain ⟨H', rfl, k2⟩ := h2
  exact ⟨H', rfl, k2.trans k1⟩

theorem keys_set_mem {κ ν : Type} [DecidableEq κ] {d : Dict κ ν} {k : κ} (v : ν) (h : k ∈ Dict.keys d) :
    Dict.keys (Dict.set d k v) = Dict.keys d := by
  rw [Dict.keys_set, if_pos h]

theorem mem_keys_of {κ ν : Type} [DecidableEq κ] {d : Dict κ ν} {k : κ} {v : ν} (h : Dict.get? d k = some v) : k ∈ Dict.keys d :=
  (Dict.mem_keys d k).mpr ⟨v, h⟩

theorem same_set {w : PcapWorld} {h : Nat} (x y : PcapHandle) (hx : w.handles.get? h = some x) :
    SameKeys w { w with handles := w.handles.set h y } :=
  ⟨_, rfl, keys_set_mem y (mem_keys_of hx)⟩

theorem PcapInv.same {w w' : PcapWorld} (hi : PcapInv w) (h : SameKeys w w') : PcapInv w' := by
  obtain ⟨H, rfl, hk⟩ := h
  exact ⟨by show (Dict.keys H).Nodup; rw [hk]; exact hi.uh, hi.ur, hi.uo, by simp only [hk]; exact hi.below,
    by simp only [hk]; exact hi.all, by simp only [hk]; exact hi.regOpen, hi.regInj, hi.objBelow, hi.objReg,
    by simp only [hk]; exact hi.objOpen, by simp only [hk]; exact hi.freeOpen, hi.freeNodup,
    by simp only [hk]; exact hi.closedGone, hi.closedNodup⟩

theorem setFilterOn_same {valid : Nat → List Char → Bool} {w w' : PcapWorld} {h : Option Nat} {f : List Char} {e : Option PyErr}
    (hs : w.setFilterOn valid h f = some (w', e)) : SameKeys w w' := by
  unfold PcapWorld.setFilterOn at hs
  split at hs
  · split at hs
    · cases hs
    · split at hs
      · cases hs
      · rename_i x hx
        split at hs
        · cases hs; exact same_set x _ hx
        · cases hs; exact .refl w
  · cases hs; exact .refl w

theorem setFilters_same {valid : Nat → List Char → Bool} {f : List Char} {hs : List (Option Nat)} :
    ∀ {w w' : PcapWorld} {e : Option PyErr}, PcapWorld.setFilters valid f w hs = some (w', e) → SameKeys w w' := by
  induction hs with
  | nil => intro w w' e h; cases h; exact .refl w
  | cons x hs ih =>
    intro w w' e h
    rw [PcapWorld.setFilters] at h
    split at h
    · cases h
    · rename_i w1 e1 h1; cases h; exact setFilterOn_same h1
    · rename_i w1 h1; exact (setFilterOn_same h1).trans (ih h)

theorem inv_newHandle {w : PcapWorld} (hi : PcapInv w) (x : PcapHandle) : PcapInv (w.newHandle x) := by
  have hn : w.nextHandle ∉ w.handles.keys := fun h => Nat.lt_irrefl _ (hi.below _ h)
  have hk : Dict.keys (w.handles.set w.nextHandle x) = w.handles.keys ++ [w.nextHandle] := by
    rw [Dict.keys_set, if_neg hn]
  unfold PcapWorld.newHandle
  refine ⟨Dict.uniq_set hi.uh _ _, hi.ur, hi.uo, ?_, ?_, ?_, hi.regInj, ?_, hi.objReg, ?_, ?_, hi.freeNodup, ?_, hi.closedNodup⟩
  · intro h hm
    simp only [hk, List.mem_append, List.mem_singleton] at hm
    rcases hm with hm | rfl
    · exact Nat.lt_succ_of_lt (hi.below h hm)
    · exact Nat.lt_succ_self _
  · intro h hlt
    simp only [hk, List.mem_append, List.mem_singleton]
    rcases Nat.lt_succ_iff_lt_or_eq.mp hlt with hlt | rfl
    · rcases hi.all h hlt with h1 | h1
      · exact .inl (.inl h1)
      · exact .inr h1
    · exact .inl (.inr rfl)
  · intro id h hr
    simp only [hk, List.mem_append]
    exact ⟨.inl (hi.regOpen id h hr).1, (hi.regOpen id h hr).2⟩
  · intro id o ho; exact Nat.lt_succ_of_lt (hi.objBelow id o ho)
  · intro id o ho hm hf
    simp only [hk, List.mem_append, List.mem_singleton] at hm
    rcases hm with hm | hm
    · exact hi.objOpen id o ho hm hf
    · have := hi.objBelow id o ho; omega
  · intro h hf
    simp only [hk, List.mem_append]
    exact .inl (hi.freeOpen h hf)
  · intro h hc
    obtain ⟨h1, h2⟩ := hi.closedGone h hc
    simp only [hk, List.mem_append, List.mem_singleton, not_or]
    exact ⟨Nat.lt_succ_of_lt h1, h2, by omega⟩

/-- Registering a handle that is open, not being closed and not registered, or NULL, for an id that no object
has. -/
theorem inv_reg {w : PcapWorld} (hi : PcapInv w) {id : Nat} (hid : id ∉ w.objs.keys) (x : Option Nat)
    (hx : ∀ h, x = some h → h ∈ w.handles.keys ∧ h ∉ w.freeing ∧ ∀ id', w.reg.get? id' ≠ some (some h)) :
    PcapInv { w with reg := w.reg.set id x } := by
  refine { hi with ur := Dict.uniq_set hi.ur _ _, regOpen := ?_, regInj := ?_, objReg := ?_, objOpen := ?_ }
  · intro id' h hr
    simp only [Dict.get?_set] at hr
    split at hr
    · cases hr; exact ⟨(hx h rfl).1, (hx h rfl).2.1⟩
    · exact hi.regOpen id' h hr
  · intro a b h ha hb
    simp only [Dict.get?_set] at ha hb
    split at ha <;> split at hb
    · rename_i e1 e2; rw [← e1, ← e2]
    · cases ha; exact absurd hb ((hx h rfl).2.2 b)
    · cases hb; exact absurd ha ((hx h rfl).2.2 a)
    · exact hi.regInj a b h ha hb
  · intro id' o y ho hr
    have hne : id ≠ id' := by rintro rfl; exact hid (mem_keys_of ho)
    simp only [Dict.get?_set, if_neg hne] at hr
    exact hi.objReg id' o y ho hr
  · intro id' o ho hm hf
    have hne : id ≠ id' := by rintro rfl; exact hid (mem_keys_of ho)
    simp only [Dict.get?_set, if_neg hne]
    exact hi.objOpen id' o ho hm hf

/-- The program gets the object of a registered handle. -/
theorem inv_obj {w : PcapWorld} (hi : PcapInv w) {id : Nat} (o : PcapObj) (hr : w.reg.get? id = some (some o.handle)) :
    PcapInv { w with objs := w.objs.set id o } := by
  refine { hi with uo := Dict.uniq_set hi.uo _ _, objBelow := ?_, objReg := ?_, objOpen := ?_ }
  · intro id' o' ho
    simp only [Dict.get?_set] at ho
    split at ho
    · cases ho; exact hi.below _ (hi.regOpen _ _ hr).1
    · exact hi.objBelow id' o' ho
  · intro id' o' x ho hx
    simp only [Dict.get?_set] at ho
    split at ho
    · rename_i e; subst e; cases ho; rw [hr] at hx; exact (Option.some.inj hx).symm
    · exact hi.objReg id' o' x ho hx
  · intro id' o' ho hm hf
    simp only [Dict.get?_set] at ho
    split at ho
    · rename_i e; subst e; cases ho; exact hr
    · exact hi.objOpen id' o' ho hm hf

theorem new_unused {w : PcapWorld} (hi : PcapInv w) (x : PcapHandle) (h : Nat) (hh : some w.nextHandle = some h) :
    h ∈ (w.newHandle x).handles.keys ∧ h ∉ w.freeing ∧ ∀ id', w.reg.get? id' ≠ some (some h) := by
  cases hh
  refine ⟨?_, fun hf => Nat.lt_irrefl _ (hi.below _ (hi.freeOpen _ hf)), fun id' hr => Nat.lt_irrefl _ (hi.below _ (hi.regOpen _ _ hr).1)⟩
  exact mem_keys_of (v := x) (by simp [PcapWorld.newHandle, Dict.get?_set])

theorem inv_step {valid : Nat → List Char → Bool} {w w' : PcapWorld} {op : PcapOp} {e : Option PyErr} (hi : PcapInv w)
    (hs : w.step valid op = some (w', e)) : PcapInv w' := by
  cases op with
  | openLive id r f nb =>
    simp only [PcapWorld.step] at hs
    split at hs
    · cases hs; exact hi
    · rename_i hid
      cases r with
      | noDevice => cases hs; exact hi
      | null => cases hs; exact hi
      | nonblockFailed =>
        cases hs
        split
        · exact inv_newHandle hi _
        · exact hi
      | badDlt => cases hs; exact inv_newHandle hi _
      | ok fd =>
        simp only [PcapWorld.openLive, PcapWorld.register] at hs
        have hn := inv_newHandle hi ⟨true, nb, none⟩
        have hr := inv_reg (id := id) hn hid (some w.nextHandle) (new_unused hi _)
        split at hs
        · cases hs
          exact inv_obj hr ⟨w.nextHandle, nb, some fd⟩ (by simp [Dict.get?_set])
        · split at hs
          · cases hs
          · rename_i h1; cases hs; exact hr.same (setFilterOn_same h1)
          · rename_i w1 h1
            cases hs
            have hw1 := hr.same (setFilterOn_same h1)
            obtain ⟨H, rfl, _⟩ := setFilterOn_same h1
            exact inv_obj hw1 ⟨w.nextHandle, nb, some fd⟩ (by simp [Dict.get?_set])
  | create id null =>
    simp only [PcapWorld.step] at hs
    split at hs
    · cases hs; exact hi
    · rename_i hid
      unfold PcapWorld.create at hs
      cases null <;> cases hs
      rotate_left
      · exact inv_reg hi hid none (by intro h hc; cases hc)
      · have hn := inv_newHandle hi ⟨false, false, none⟩
        have hr := inv_reg (id := id) hn hid (some w.nextHandle) (new_unused hi _)
        exact inv_obj hr ⟨w.nextHandle, false, none⟩ (by simp [Dict.get?_set])
  | activate id rv d =>
    simp only [PcapWorld.step] at hs
    split at hs
    · rename_i o ho
      unfold PcapWorld.activate at hs
      split at hs
      · cases hs
      · rename_i x hx
        split at hs
        · rename_i x' _ _
          cases hs
          have h1 := hi.same (same_set x x' hx)
          refine { h1 with uo := Dict.uniq_set hi.uo _ _, objBelow := ?_, objReg := ?_, objOpen := ?_ }
          · intro id' o' ho'
            simp only [Dict.get?_set] at ho'
            split at ho'
            · cases ho'; exact hi.objBelow id o ho
            · exact hi.objBelow id' o' ho'
          · intro id' o' y ho' hr
            simp only [Dict.get?_set] at ho'
            split at ho'
            · rename_i e1; subst e1; cases ho'; exact hi.objReg _ o y ho hr
            · exact hi.objReg id' o' y ho' hr
          · intro id' o' ho' hm hf
            simp only [Dict.get?_set] at ho'
            split at ho'
            · rename_i e1; subst e1; cases ho'; exact h1.objOpen _ o ho hm hf
            · exact h1.objOpen id' o' ho' hm hf
        · cases hs; exact hi.same (same_set x _ hx)
    · cases hs; exact hi
  | setBlocking id v =>
    simp only [PcapWorld.step] at hs
    split at hs
    · unfold PcapWorld.setBlocking at hs
      split at hs
      · cases hs
      · rename_i x hx; cases hs; exact hi.same (same_set x _ hx)
    · cases hs; exact hi
  | setFilter id f =>
    simp only [PcapWorld.step] at hs
    split at hs
    · exact hi.same (setFilterOn_same hs)
    · cases hs; exact hi
  | setAll f => exact hi.same (setFilters_same hs)
  | closeStart id =>
    simp only [PcapWorld.step] at hs
    split at hs
    · rename_i o ho
      unfold PcapWorld.closeStart at hs
      split at hs
      · cases hs; exact hi
      · rename_i x hr
        have hx := hi.objReg id o x ho hr
        subst hx
        obtain ⟨hop, hnf⟩ := hi.regOpen id _ hr
        cases hs
        refine { hi with ur := Dict.uniq_erase hi.ur _, regOpen := ?_, regInj := ?_, objReg := ?_, objOpen := ?_, freeOpen := ?_, freeNodup := ?_ }
        · intro id' h hr'
          simp only [Dict.get?_erase hi.ur] at hr'
          split at hr'
          · cases hr'
          · rename_i hne
            obtain ⟨a, b⟩ := hi.regOpen id' h hr'
            refine ⟨a, ?_⟩
            simp only [List.mem_cons, not_or]
            refine ⟨?_, b⟩
            rintro rfl
            exact hne (hi.regInj _ _ _ hr hr')
        · intro a b h ha hb
          simp only [Dict.get?_erase hi.ur] at ha hb
          split at ha
          · cases ha
          · split at hb
            · cases hb
            · exact hi.regInj a b h ha hb
        · intro id' o' y ho' hr'
          simp only [Dict.get?_erase hi.ur] at hr'
          split at hr'
          · cases hr'
          · exact hi.objReg id' o' y ho' hr'
        · intro id' o' ho' hm hf
          simp only [List.mem_cons, not_or] at hf
          simp only [Dict.get?_erase hi.ur]
          split
          · rename_i e1; subst e1
            rw [ho] at ho'; cases ho'
            exact absurd rfl hf.1
          · exact hi.objOpen id' o' ho' hm hf.2
        · intro h hf
          simp only [List.mem_cons] at hf
          rcases hf with rfl | hf
          · exact hop
          · exact hi.freeOpen h hf
        · exact List.nodup_cons.mpr ⟨hnf, hi.freeNodup⟩
    · cases hs; exact hi
  | closeEnd h =>
    simp only [PcapWorld.step, PcapWorld.closeEnd] at hs
    split at hs
    · rename_i hf
      split at hs
      · rename_i hk
        cases hs
        have ek : ∀ a, a ∈ Dict.keys (w.handles.erase h) ↔ a ≠ h ∧ a ∈ w.handles.keys := by
          intro a
          rw [Dict.mem_keys, Dict.mem_keys]
          simp only [Dict.get?_erase hi.uh]
          by_cases hah : h = a
          · subst hah; simp
          · simp [hah, Ne.symm hah]
        have ef : ∀ a, a ∈ w.freeing.erase h ↔ a ≠ h ∧ a ∈ w.freeing := fun a => by
          rw [hi.freeNodup.mem_erase_iff]
        refine ⟨Dict.uniq_erase hi.uh _, hi.ur, hi.uo, ?_, ?_, ?_, hi.regInj, hi.objBelow, hi.objReg, ?_, ?_,
          hi.freeNodup.erase _, ?_, ?_⟩
        · intro a ha; exact hi.below a ((ek a).mp ha).2
        · intro a ha
          simp only [ek, List.mem_cons]
          rcases hi.all a ha with h1 | h1
          · by_cases hah : a = h
            · exact .inr (.inl hah)
            · exact .inl ⟨hah, h1⟩
          · exact .inr (.inr h1)
        · intro id a hr
          obtain ⟨h1, h2⟩ := hi.regOpen id a hr
          simp only [ek, ef]
          refine ⟨⟨?_, h1⟩, fun h3 => h2 h3.2⟩
          rintro rfl; exact h2 hf
        · intro id o ho hm hnf
          simp only [ek] at hm
          simp only [ef, not_and] at hnf
          exact hi.objOpen id o ho hm.2 (hnf hm.1)
        · intro a ha
          simp only [ef] at ha
          simp only [ek]
          exact ⟨ha.1, hi.freeOpen a ha.2⟩
        · intro a ha
          simp only [List.mem_cons] at ha
          simp only [ek, not_and]
          rcases ha with rfl | ha
          · exact ⟨hi.below _ hk, fun h => absurd rfl h⟩
          · exact ⟨(hi.closedGone a ha).1, fun _ => (hi.closedGone a ha).2⟩
        · exact List.nodup_cons.mpr ⟨fun hc => (hi.closedGone h hc).2 hk, hi.closedNodup⟩
      · cases hs
    · cases hs; exact hi
  | drop id =>
    cases hs
    refine { hi with uo := Dict.uniq_erase hi.uo _, objBelow := ?_, objReg := ?_, objOpen := ?_ }
    · intro id' o' ho
      simp only [Dict.get?_erase hi.uo] at ho
      split at ho
      · cases ho
      · exact hi.objBelow id' o' ho
    · intro id' o' x ho
      simp only [Dict.get?_erase hi.uo] at ho
      split at ho
      · cases ho
      · exact hi.objReg id' o' x ho
    · intro id' o' ho
      simp only [Dict.get?_erase hi.uo] at ho
      split at ho
      · cases ho
      · exact hi.objOpen id' o' ho

theorem inv_start : PcapInv .start := by
  constructor <;> simp [PcapWorld.start, Dict.Uniq, Dict.keys]

theorem inv_run {valid : Nat → List Char → Bool} {ops : List PcapOp} :
    ∀ {w w' : PcapWorld}, PcapInv w → w.run valid ops = some w' → PcapInv w' := by
  induction ops with
  | nil => intro w w' hi h; cases h; exact hi
  | cons op ops ih =>
    intro w w' hi h
    rw [PcapWorld.run] at h
    split at h
    · cases h
    · rename_i w1 e hs; exact ih (inv_step hi hs) h

/-! ## Filters -/

/-- The filter of the handle `h`, if it is open. -/
def filterAt (w : PcapWorld) (h : Nat) : Option (List Char) := (w.handles.get? h).bind (·.filter)

theorem setFilterOn_ok {valid : Nat → List Char → Bool} {w w' : PcapWorld} {h : Option Nat} {f : List Char}
    (hs : w.setFilterOn valid h f = some (w', none)) :
    ∃ a, h = some a ∧ ∀ b, filterAt w' b = if a = b then some f else filterAt w b := by
  unfold PcapWorld.setFilterOn at hs
  split at hs
  · split at hs
    · cases hs
    · rename_i a
      split at hs
      · cases hs
      · split at hs
        · cases hs
          refine ⟨a, rfl, fun b => ?_⟩
          simp only [filterAt, Dict.get?_set]
          split <;> rfl
        · cases hs
  · cases hs

theorem setFilters_ok {valid : Nat → List Char → Bool} {f : List Char} {hs : List (Option Nat)} :
    ∀ {w w' : PcapWorld}, PcapWorld.setFilters valid f w hs = some (w', none) →
      ∀ b, filterAt w' b = if some b ∈ hs then some f else filterAt w b := by
  induction hs with
  | nil => intro w w' h b; cases h; simp
  | cons x hs ih =>
    intro w w' h b
    rw [PcapWorld.setFilters] at h
    split at h
    · cases h
    · cases h
    · rename_i w1 h1
      obtain ⟨a, rfl, h2⟩ := setFilterOn_ok h1
      rw [ih h b, h2 b]
      simp only [List.mem_cons, Option.some.injEq]
      by_cases e1 : some b ∈ hs
      · simp [e1]
      · by_cases e2 : a = b
        · simp [e2]
        · simp [e1, e2, Ne.symm e2]

/-- A device the program holds and has not begun to close. -/
def OpenDevice (w : PcapWorld) (id : Nat) (o : PcapObj) : Prop :=
  w.objs.get? id = some o ∧ o.handle ∉ w.closed ∧ o.handle ∉ w.freeing

theorem open_registered {w : PcapWorld} (hi : PcapInv w) {id : Nat} {o : PcapObj} (h : OpenDevice w id o) :
    w.reg.get? id = some (some o.handle) := by
  obtain ⟨h1, h2, h3⟩ := h
  rcases hi.all _ (hi.objBelow id o h1) with h4 | h4
  · exact hi.objOpen id o h1 h4 h3
  · exact absurd h4 h2

theorem reg_value {w : PcapWorld} (hi : PcapInv w) (h : Nat) :
    some h ∈ w.reg.map Prod.snd ↔ ∃ id, w.reg.get? id = some (some h) := by
  simp only [List.mem_map]
  constructor
  · rintro ⟨⟨id, x⟩, h1, h2⟩
    cases h2
    exact ⟨id, Dict.get?_of_mem hi.ur h1⟩
  · rintro ⟨id, h1⟩
    exact ⟨_, Dict.mem_of_get? h1, rfl⟩

/-- C134: after any history (also in the middle of closing devices), setting a filter on all devices, if it
returns, has set it on every open device, and on no handle that was not registered. -/
theorem filter_all_partial (valid : Nat → List Char → Bool) (ops : List PcapOp) (w w' : PcapWorld) (f : List Char)
    (hr : PcapWorld.start.run valid ops = some w) (hs : w.setAll valid f = some (w', none)) :
    (∀ id o, OpenDevice w id o → filterAt w' o.handle = some f) ∧
    (∀ h, (∀ id, w.reg.get? id ≠ some (some h)) → filterAt w' h = filterAt w h) ∧
    w'.reg = w.reg ∧ w'.objs = w.objs ∧ w'.handles.keys = w.handles.keys := by
  have hi := inv_run inv_start hr
  have h1 := setFilters_ok hs
  refine ⟨?_, ?_, ?_⟩
  · intro id o ho
    rw [h1, if_pos]
    exact (reg_value hi _).mpr ⟨id, open_registered hi ho⟩
  · intro h hn
    rw [h1, if_neg]
    intro hm
    obtain ⟨id, h2⟩ := (reg_value hi h).mp hm
    exact hn id h2
  · obtain ⟨H, rfl, hk⟩ := setFilters_same hs
    exact ⟨rfl, rfl, hk⟩

theorem setFilters_runs (valid : Nat → List Char → Bool) (f : List Char) (hs : List (Option Nat)) :
    ∀ w : PcapWorld, (∀ x ∈ hs, ∃ h, x = some h ∧ h ∈ w.handles.keys) → PcapWorld.setFilters valid f w hs ≠ none := by
  induction hs with
  | nil => intro w _ h; cases h
  | cons x hs ih =>
    intro w hk
    rw [PcapWorld.setFilters]
    split
    · rename_i hn
      obtain ⟨h, rfl, hm⟩ := hk x (by simp)
      obtain ⟨y, hy⟩ := (Dict.mem_keys _ _).mp hm
      unfold PcapWorld.setFilterOn at hn
      simp only [hy] at hn
      repeat' split at hn
      all_goals cases hn
    · simp
    · rename_i w1 h1
      apply ih
      intro y hy
      obtain ⟨h, rfl, hm⟩ := hk y (by simp [hy])
      obtain ⟨H, rfl, hkk⟩ := setFilterOn_same h1
      exact ⟨h, rfl, by simp only [hkk]; exact hm⟩

theorem dict_erase_sublist {κ ν : Type} [DecidableEq κ] (d : Dict κ ν) (k : κ) : (Dict.erase d k).Sublist d := by
  induction d with
  | nil => exact .slnil
  | cons x d ih =>
    rw [Dict.erase]
    split
    · exact List.sublist_cons_self _ _
    · exact ih.cons₂ _

/-- NULL is registered only by a failed `create`. -/
theorem reg_not_null {valid : Nat → List Char → Bool} {ops : List PcapOp} (hc : ∀ id, PcapOp.create id true ∉ ops) :
    ∀ {w w' : PcapWorld}, w.run valid ops = some w' → (∀ x ∈ w.reg, x.2 ≠ none) → ∀ x ∈ w'.reg, x.2 ≠ none := by
  induction ops with
  | nil => intro w w' h hn; cases h; exact hn
  | cons op ops ih =>
    intro w w' h hn
    rw [PcapWorld.run] at h
    split at h
    · cases h
    · rename_i w1 e hs
      refine ih (fun id hm => hc id (by simp [hm])) h ?_
      have set_ok : ∀ (id h : Nat), ∀ x ∈ w.reg.set id (some h), x.2 ≠ none := by
        intro id h x hx
        rcases Dict.mem_set hx with hx | rfl
        · exact hn x hx
        · simp
      have erase_ok : ∀ (id : Nat), ∀ x ∈ w.reg.erase id, x.2 ≠ none := by
        intro id x hx
        exact hn x ((dict_erase_sublist w.reg id).mem hx)
      cases op with
      | openLive id r f nb =>
        simp only [PcapWorld.step] at hs
        split at hs
        · cases hs; exact hn
        · cases r with
          | noDevice => cases hs; exact hn
          | null => cases hs; exact hn
          | nonblockFailed =>
            cases hs
            split
            · exact hn
            · exact hn
          | badDlt => cases hs; exact hn
          | ok fd =>
            simp only [PcapWorld.openLive, PcapWorld.register] at hs
            split at hs
            · cases hs; exact set_ok _ _
            · split at hs
              · cases hs
              · rename_i h1; cases hs; obtain ⟨H, rfl, _⟩ := setFilterOn_same h1; exact set_ok _ _
              · rename_i h1; cases hs; obtain ⟨H, rfl, _⟩ := setFilterOn_same h1; exact set_ok _ _
      | create id null =>
        simp only [PcapWorld.step] at hs
        split at hs
        · cases hs; exact hn
        · unfold PcapWorld.create at hs
          cases null with
          | true => exact absurd (List.mem_cons_self) (hc id)
          | false => cases hs; exact set_ok _ _
      | activate id rv d =>
        simp only [PcapWorld.step] at hs
        split at hs
        · unfold PcapWorld.activate at hs
          split at hs
          · cases hs
          · split at hs
            · cases hs; exact hn
            · cases hs; exact hn
        · cases hs; exact hn
      | setBlocking id v =>
        simp only [PcapWorld.step] at hs
        split at hs
        · unfold PcapWorld.setBlocking at hs
          split at hs
          · cases hs
          · cases hs; exact hn
        · cases hs; exact hn
      | setFilter id f =>
        simp only [PcapWorld.step] at hs
        split at hs
        · obtain ⟨H, rfl, _⟩ := setFilterOn_same hs; exact hn
        · cases hs; exact hn
      | setAll f => obtain ⟨H, rfl, _⟩ := setFilters_same hs; exact hn
      | closeStart id =>
        simp only [PcapWorld.step] at hs
        split at hs
        · unfold PcapWorld.closeStart at hs
          split at hs
          · cases hs; exact hn
          · cases hs; exact erase_ok _
        · cases hs; exact hn
      | closeEnd h =>
        simp only [PcapWorld.step, PcapWorld.closeEnd] at hs
        split at hs
        · split at hs
          · cases hs; exact hn
          · cases hs
        · cases hs; exact hn
      | drop id => cases hs; exact hn

/-- C134: if no `create` failed, setting a filter on all devices never uses a handle that is closed or NULL:
at any point of any history, also when a device is being closed, it returns or raises. -/
theorem filter_safe_partial (valid : Nat → List Char → Bool) (ops : List PcapOp) (w : PcapWorld) (f : List Char)
    (hr : PcapWorld.start.run valid ops = some w) (hc : ∀ id, PcapOp.create id true ∉ ops) : w.setAll valid f ≠ none := by
  have hi := inv_run inv_start hr
  have hn := reg_not_null hc hr (by simp [PcapWorld.start])
  apply setFilters_runs
  intro x hx
  obtain ⟨⟨id, y⟩, h1, rfl⟩ := List.mem_map.mp hx
  match y, hn _ h1 with
  | some h, _ => exact ⟨h, rfl, (hi.regOpen id h (Dict.get?_of_mem hi.ur h1)).1⟩

/-- C134: a filter that no device takes changes nothing. -/
theorem filter_refused (valid : Nat → List Char → Bool) (w w' : PcapWorld) (f : List Char) (e : Option PyErr)
    (hf : ∀ h, valid h f = false) (hs : w.setAll valid f = some (w', e)) :
    w' = w ∧ (e = none ↔ w.reg = []) := by
  unfold PcapWorld.setAll at hs
  cases hreg : w.reg with
  | nil => rw [hreg] at hs; cases hs; simp
  | cons x xs =>
    rw [hreg, List.map_cons, PcapWorld.setFilters] at hs
    have key : ∀ y, w.setFilterOn valid x.2 f = some y → y.1 = w ∧ y.2 ≠ none := by
      intro y hy
      unfold PcapWorld.setFilterOn at hy
      repeat' split at hy
      all_goals simp_all
      all_goals (obtain rfl := hy; simp)
    cases hon : w.setFilterOn valid x.2 f with
    | none => rw [hon] at hs; cases hs
    | some y =>
      obtain ⟨k1, k2⟩ := key y hon
      obtain ⟨y1, y2⟩ := y
      simp only at k1 k2
      subst k1
      cases y2 with
      | none => exact absurd rfl k2
      | some err => rw [hon] at hs; cases hs; simp

/-- Every filter compiles on every device. -/
def anyFilter : Nat → List Char → Bool := fun _ _ => true

/-- C134, not kept: if a device does not take the filter, those before it have the new filter and those
after it the old one. -/
theorem filter_half_violated :
    ∃ w w', PcapWorld.start.run anyFilter
        [.openLive 1 (.ok 3) none true, .create 2 false, .openLive 3 (.ok 4) (some ['i', 'p']) true] = some w ∧
      w.setAll anyFilter ['a', 'r', 'p'] = some (w', some .generic) ∧
      filterAt w' 0 = some ['a', 'r', 'p'] ∧ filterAt w' 2 = some ['i', 'p'] :=
  ⟨_, _, rfl, rfl, rfl, rfl⟩

/-- C134, not kept: after a `create` that failed, setting a filter on all devices ends the process. -/
theorem filter_null_violated :
    PcapWorld.start.run anyFilter [.openLive 1 (.ok 3) none true, .create 2 true, .setAll ['i', 'p']] = none := rfl

/-- C134, not kept: a constructor that raises because of its filter leaves the device open and
registered, and nobody can close it. -/
theorem open_leak_violated :
    ∃ w, PcapWorld.start.step (fun _ _ => false) (.openLive 1 (.ok 3) (some ['x']) true) = some (w, some .generic) ∧
      w.objs = [] ∧ w.reg = [(1, some 0)] ∧ w.handles.keys = [0] := ⟨_, rfl, rfl, rfl, rfl⟩

/-! ## Closing -/

/-- C134: `pcap_close` is never called twice with a handle, nor with one that is not open, in any history; and
a handle that was closed stays closed. -/
theorem close_once (valid : Nat → List Char → Bool) (ops : List PcapOp) (w : PcapWorld)
    (hr : PcapWorld.start.run valid ops = some w) :
    w.closed.Nodup ∧ (∀ h ∈ w.closed, w.handles.get? h = none) ∧ ∀ h, w.closeEnd h ≠ none := by
  have hi := inv_run inv_start hr
  refine ⟨hi.closedNodup, fun h hc => (Dict.get?_eq_none _ _).mpr (hi.closedGone h hc).2, fun h => ?_⟩
  unfold PcapWorld.closeEnd
  split
  · rename_i hf; rw [if_pos (hi.freeOpen h hf)]; simp
  · simp

/-- C134: closing an open device takes it out of the registered ones and touches no other; closing it again
raises `KeyError` and changes nothing. -/
theorem close_device (valid : Nat → List Char → Bool) (ops : List PcapOp) (w : PcapWorld) (id : Nat) (o : PcapObj)
    (hr : PcapWorld.start.run valid ops = some w) (ho : w.objs.get? id = some o) :
    (OpenDevice w id o → ∃ w', w.closeStart id o = (w', none) ∧ w'.freeing = o.handle :: w.freeing ∧
      w'.handles = w.handles ∧ w'.objs = w.objs ∧
      ∀ id', w'.reg.get? id' = if id = id' then none else w.reg.get? id') ∧
    (¬ OpenDevice w id o → w.closeStart id o = (w, some .keyError)) := by
  have hi := inv_run inv_start hr
  constructor
  · intro hop
    unfold PcapWorld.closeStart
    rw [open_registered hi hop]
    exact ⟨_, rfl, rfl, rfl, rfl, fun id' => Dict.get?_erase hi.ur id id'⟩
  · intro hop
    unfold PcapWorld.closeStart
    cases hx : w.reg.get? id with
    | none => rfl
    | some x =>
      exfalso
      have := hi.objReg id o x ho hx
      subst this
      obtain ⟨h1, h2⟩ := hi.regOpen id _ hx
      exact hop ⟨ho, fun hc => (hi.closedGone _ hc).2 h1, h2⟩

example : ∃ w, PcapWorld.start.run anyFilter
      [.openLive 1 (.ok 3) none true, .openLive 2 (.ok 4) (some ['i', 'p']) true, .closeStart 1, .setAll ['a'], .closeEnd 0,
       .closeStart 1] = some w ∧
    w.closed = [0] ∧ filterAt w 1 = some ['a'] ∧ filterAt w 0 = none ∧ OpenDevice w 2 ⟨1, true, some 4⟩ :=
  ⟨_, rfl, rfl, rfl, rfl, rfl, by decide, by decide⟩

/-! ## Settings (C135) -/

/-- C135, not kept, for any device and either value: after setting `blocking`, reading it does not give that
value: after `False`, which makes the device blocking, it is `False` (if the device is activated); it raises after
`True`, which makes the device nonblocking.  Of a device that is not activated it cannot be read at all. -/
theorem blocking_violated (x : PcapHandle) :
    (x.setBlocking true).getBlocking = .error .generic ∧ (x.setBlocking true).nonblock = true ∧
    (x.activated = true → (x.setBlocking false).getBlocking = .ok false) ∧ (x.setBlocking false).nonblock = false ∧
    (x.activated = false → x.getBlocking = .error .generic) := by
  obtain ⟨a, nb, f⟩ := x
  cases a <;> simp [PcapHandle.setBlocking, PcapHandle.getBlocking]

/-- C135: activating works exactly once, for a device libpcap can activate (with a known warning or none), with a known link type, that is
in blocking mode. -/
theorem activate_iff (x : PcapHandle) (rv : Int) (d : Bool) :
    ((∃ v, (x.activate rv d).2 = .ok v) ↔ x.activated = false ∧ 0 ≤ rv ∧ rv ≤ 3 ∧ d = true ∧ x.nonblock = false) ∧
    (∀ v, (x.activate rv d).2 = .ok v → v = rv) ∧
    ((x.activate rv d).1.activated = true ↔ x.activated = true ∨ 0 ≤ rv) ∧
    (x.activate rv d).1.filter = x.filter ∧ (x.activate rv d).1.nonblock = x.nonblock := by
  obtain ⟨a, nb, f⟩ := x
  by_cases h : rv < 0
  · cases a <;> simp [PcapHandle.activate, h, show ¬ 0 ≤ rv by omega]
  · by_cases h3 : 3 < rv
    · cases a <;> cases nb <;> cases d <;>
        simp [PcapHandle.activate, PcapHandle.getBlocking, h, h3, show 0 ≤ rv by omega, show ¬ rv ≤ 3 by omega]
    · cases a <;> cases nb <;> cases d <;>
        simp [PcapHandle.activate, PcapHandle.getBlocking, h, h3, show 0 ≤ rv by omega, show rv ≤ 3 by omega]

/-- C135, not kept: a device in nonblocking mode is activated, but `activate` raises. -/
theorem activate_violated :
    (⟨false, true, none⟩ : PcapHandle).activate 0 true = (⟨true, true, none⟩, .error .generic) := rfl

/-- The descriptor of an object only comes from `open` or `fd`. -/
theorem created_fd {valid : Nat → List Char → Bool} {ops : List PcapOp} {id : Nat}
    (hops : ∀ op ∈ ops, ∀ r f nb, op ≠ .openLive id r f nb) :
    ∀ {w w' : PcapWorld} {o o' : PcapObj}, PcapInv w → w.run valid ops = some w' → (w.objs.get? id = some o → o.fd = none) →
      w.objs.get? id = some o → w'.objs.get? id = some o' → o'.fd = none := by
  suffices key : ∀ {w w' : PcapWorld}, PcapInv w → w.run valid ops = some w' →
      (∀ o, w.objs.get? id = some o → o.fd = none) → ∀ o, w'.objs.get? id = some o → o.fd = none by
    intro w w' o o' hi hr h1 h2 h3
    exact key hi hr (fun p hp => by rw [h2] at hp; cases hp; exact h1 h2) o' h3
  induction ops with
  | nil => intro w w' _ h hn; cases h; exact hn
  | cons op ops ih =>
    intro w w' hi h hn
    rw [PcapWorld.run] at h
    split at h
    · cases h
    · rename_i w1 e hs
      refine ih (fun op hm => hops op (by simp [hm])) (inv_step hi hs) h ?_
      cases op with
      | openLive id' r f nb =>
        have hne : id' ≠ id := by rintro rfl; exact hops _ (by simp) r f nb rfl
        simp only [PcapWorld.step] at hs
        split at hs
        · cases hs; exact hn
        · cases r with
          | noDevice => cases hs; exact hn
          | null => cases hs; exact hn
          | nonblockFailed => cases hs; split <;> exact hn
          | badDlt => cases hs; exact hn
          | ok fd =>
            simp only [PcapWorld.openLive, PcapWorld.register] at hs
            split at hs
            · cases hs; intro o ho; simp only [Dict.get?_set, if_neg hne] at ho; exact hn o ho
            · split at hs
              · cases hs
              · rename_i h1; cases hs; obtain ⟨H, rfl, _⟩ := setFilterOn_same h1; exact hn
              · rename_i h1; cases hs; obtain ⟨H, rfl, _⟩ := setFilterOn_same h1
                intro o ho; simp only [Dict.get?_set, if_neg hne] at ho; exact hn o ho
      | create id' null =>
        simp only [PcapWorld.step] at hs
        split at hs
        · cases hs; exact hn
        · unfold PcapWorld.create at hs
          cases null <;> cases hs
          rotate_left
          · exact hn
          · intro o ho
            simp only [Dict.get?_set] at ho
            split at ho
            · cases ho; rfl
            · exact hn o ho
      | activate id' rv d =>
        simp only [PcapWorld.step] at hs
        split at hs
        · rename_i o1 ho1
          unfold PcapWorld.activate at hs
          split at hs
          · cases hs
          · split at hs
            · cases hs
              intro o ho
              simp only [Dict.get?_set] at ho
              split at ho
              · rename_i e1; subst e1; cases ho; exact hn o1 ho1
              · exact hn o ho
            · cases hs; exact hn
        · cases hs; exact hn
      | setBlocking id' v =>
        simp only [PcapWorld.step] at hs
        split at hs
        · unfold PcapWorld.setBlocking at hs
          split at hs
          · cases hs
          · cases hs; exact hn
        · cases hs; exact hn
      | setFilter id' f =>
        simp only [PcapWorld.step] at hs
        split at hs
        · obtain ⟨H, rfl, _⟩ := setFilterOn_same hs; exact hn
        · cases hs; exact hn
      | setAll f => obtain ⟨H, rfl, _⟩ := setFilters_same hs; exact hn
      | closeStart id' =>
        simp only [PcapWorld.step] at hs
        split at hs
        · unfold PcapWorld.closeStart at hs
          split at hs
          · cases hs; exact hn
          · cases hs; exact hn
        · cases hs; exact hn
      | closeEnd h' =>
        simp only [PcapWorld.step, PcapWorld.closeEnd] at hs
        split at hs
        · split at hs
          · cases hs; exact hn
          · cases hs
        · cases hs; exact hn
      | drop id' =>
        cases hs
        intro o ho
        simp only [Dict.get?_erase hi.uo] at ho
        split at ho
        · cases ho
        · exact hn o ho

/-- C135, not kept, whatever happens to it: a device made with `create` cannot receive: `recv_packet` raises
`TypeError` for every timeout, also after `activate`, until `fd` is read; then it works. -/
theorem created_recv_violated (valid : Nat → List Char → Bool) (before after : List PcapOp) (id : Nat) (w w' : PcapWorld)
    (o : PcapObj) (hb : PcapWorld.start.run valid before = some w) (hid : id ∉ w.objs.keys)
    (hr : w.run valid (.create id false :: after) = some w') (hops : ∀ op ∈ after, ∀ r f nb, op ≠ .openLive id r f nb)
    (ho : w'.objs.get? id = some o) (env : RecvEnv) (fuel : Nat) (timeout : Option Int) :
    o.recv env fuel timeout = .error .typeError ∧
    ∀ sel, 0 ≤ sel → (o.readFd sel).1.recv env fuel timeout =
      if env.select = some true then recvResult (env.next 0) else .ok none := by
  have hi := inv_run inv_start hb
  have hfd : o.fd = none := by
    rw [PcapWorld.run] at hr
    split at hr
    · cases hr
    · rename_i w1 e hs
      have hi1 := inv_step hi hs
      simp only [PcapWorld.step, if_neg hid] at hs
      cases hs
      refine created_fd hops hi1 hr (o := ⟨w.nextHandle, false, none⟩) (fun _ => rfl) ?_ ho
      simp [PcapWorld.create, PcapWorld.newHandle, Dict.get?_set]
  constructor
  · simp [PcapObj.recv, hfd]
  · intro sel hsel
    exact recv_selects _ sel (by simp [PcapObj.readFd, hfd]) hsel env fuel timeout

example : ∃ w, PcapWorld.start.run anyFilter [.create 1 false, .activate 1 0 true] = some w ∧
    w.objs.get? 1 = some ⟨0, false, none⟩ ∧ w.handles.get? 0 = some ⟨true, false, none⟩ := ⟨_, rfl, rfl, rfl⟩

/-- C135: setting a time stamp type works exactly for the types the device lists, if all types it lists are
known. -/
theorem tstamp_iff (l : List Int) (hl : ∀ v ∈ l, 0 ≤ v ∧ v ≤ 4) (v : Int) :
    ((∃ t, setTstampType (some l) 0 v = .ok t) ↔ v ∈ l) ∧ ∀ t, setTstampType (some l) 0 v = .ok t → (t : Int) = v := by
  have one : ∀ x : Int, 0 ≤ x ∧ x ≤ 4 → enumOf tstampTypes x = .ok x.toNat := by
    intro x hx
    obtain ⟨n, rfl⟩ : ∃ n : Nat, x = n := ⟨x.toNat, by omega⟩
    have : n = 0 ∨ n = 1 ∨ n = 2 ∨ n = 3 ∨ n = 4 := by omega
    rcases this with rfl | rfl | rfl | rfl | rfl <;> rfl
  have hls : ∀ l : List Int, (∀ v ∈ l, 0 ≤ v ∧ v ≤ 4) → tstampList l = .ok (l.map Int.toNat) := by
    intro l
    induction l with
    | nil => intro _; rfl
    | cons a l ih =>
      intro h
      rw [tstampList, one a (h a (by simp)), bind_ok, ih (fun v hv => h v (by simp [hv]))]
      rfl
  by_cases hv : 0 ≤ v ∧ v ≤ 4
  · unfold setTstampType
    rw [one v hv, bind_ok]
    simp only [hls l hl, bind_ok]
    have hm : v.toNat ∈ l.map Int.toNat ↔ v ∈ l := by
      rw [List.mem_map]
      constructor
      · rintro ⟨x, hx, e⟩
        have := hl x hx
        have : x = v := by omega
        exact this ▸ hx
      · exact fun h => ⟨v, h, rfl⟩
    by_cases h : v ∈ l
    · rw [if_pos (hm.mpr h)]; simp [h]; omega
    · rw [if_neg (fun x => h (hm.mp x))]; simp [h]
  · have hb : ∃ e, enumOf tstampTypes v = .error e := by
      cases hE : enumOf tstampTypes v with
      | error e => exact ⟨e, rfl⟩
      | ok t =>
        exfalso
        unfold enumOf at hE
        split at hE
        · rename_i hc
          simp [tstampTypes] at hc
          omega
        · cases hE
    obtain ⟨e, he⟩ := hb
    unfold setTstampType
    rw [he]
    refine ⟨?_, by simp⟩
    constructor
    · rintro ⟨t, ht⟩; simp at ht
    · intro h; exact absurd (hl v h) hv

/-- C135, not kept: if the device lists a type that is not in the enumeration, no type can be set. -/
theorem tstamp_violated (v : Int) (rv : Int) : ∃ e, setTstampType (some [0, 1, 5]) rv v = .error e := by
  unfold setTstampType
  cases enumOf tstampTypes v with
  | error e => exact ⟨e, rfl⟩
  | ok t => exact ⟨_, rfl⟩

end SY.Props
