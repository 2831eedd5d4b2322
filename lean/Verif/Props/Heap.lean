import Verif.Heap
import Verif.Props.PacketSeq

/-!
# Packets that share header objects

C151 (packets do not change each other).
-/

namespace SY.Props

open SY

/-! ## Objects and references -/

/-- The packets that a statement changes or whose headers it puts into another packet.  Looking at a packet,
copying it, and adding something to it with `+` do neither. -/
def _root_.SY.POp.touches : POp → List Nat
  | .new => [] | .parse _ _ => [] | .addNew p _ => [p] | .prependNew p _ => [p] | .insertNew p _ _ => [p]
  | .setNew p _ _ => [p] | .del p _ => [p] | .delCls p _ => [p] | .change p _ _ => [p] | .ser p => [p]
  | .look _ => [] | .copy _ => [] | .plus _ q => [q] | .plusNew _ _ => [] | .share p q _ => [p, q]
  | .join p _ q _ => [p, q]

/-- Packets only hold objects that were made. -/
def _root_.SY.Heap.WF (h : Heap) : Prop := ∀ p r, r ∈ h.refs p → r < h.objs.length

/-- More objects, the same packets. -/
structure Grown (h h' : Heap) : Prop where
  pkts : h'.pkts = h.pkts
  objs : ∃ xs, h'.objs = h.objs ++ xs

theorem Grown.refl (h : Heap) : Grown h h := ⟨rfl, [], by simp⟩

theorem Grown.trans {a b c : Heap} (h : Grown a b) (g : Grown b c) : Grown a c := by
  obtain ⟨h1, xs, h2⟩ := h
  obtain ⟨g1, ys, g2⟩ := g
  exact ⟨g1.trans h1, xs ++ ys, by rw [g2, h2, List.append_assoc]⟩

theorem Grown.len {a b : Heap} (h : Grown a b) : a.objs.length ≤ b.objs.length := by
  obtain ⟨_, xs, h2⟩ := h
  rw [h2, List.length_append]
  omega

theorem Grown.item {a b : Heap} (h : Grown a b) {r : Nat} (hr : r < a.objs.length) : b.item r = a.item r := by
  obtain ⟨_, xs, h2⟩ := h
  simp [Heap.item, h2, List.getD_eq_getElem?_getD, List.getElem?_append_left hr]

theorem Grown.refs {a b : Heap} (h : Grown a b) (p : Nat) : b.refs p = a.refs p := by
  rw [Heap.refs, Heap.refs, h.pkts]

theorem make_grown (h : Heap) (xs : List Item) : Grown h (h.make xs).1 := ⟨rfl, xs, rfl⟩

/-- References that come from the packets named or were made meanwhile. -/
def Sound (h h' : Heap) (us rs : List Nat) : Prop :=
  ∀ r ∈ rs, r < h'.objs.length ∧ ((∃ q ∈ us, r ∈ h.refs q) ∨ h.objs.length ≤ r)

theorem Sound.mono {h h1 h2 : Heap} {us rs : List Nat} (s : Sound h h1 us rs) (g : Grown h1 h2) : Sound h h2 us rs := by
  intro r hr
  obtain ⟨a, b⟩ := s r hr
  exact ⟨Nat.lt_of_lt_of_le a g.len, b⟩

theorem sound_refs {h : Heap} (w : h.WF) {us : List Nat} {p : Nat} (hp : p ∈ us) : Sound h h us (h.refs p) :=
  fun r hr => ⟨w p r hr, Or.inl ⟨p, hp, hr⟩⟩

theorem sound_append {h h' : Heap} {us rs ss : List Nat} (s : Sound h h' us rs) (t : Sound h h' us ss) :
    Sound h h' us (rs ++ ss) := by
  intro r hr
  rcases List.mem_append.mp hr with hr | hr
  · exact s r hr
  · exact t r hr

theorem sound_one {h h' : Heap} {us : List Nat} {x : Nat} (h1 : x < h'.objs.length)
    (h2 : (∃ q ∈ us, x ∈ h.refs q) ∨ h.objs.length ≤ x) : Sound h h' us [x] := by
  intro r hr
  rw [List.mem_singleton] at hr
  subst hr
  exact ⟨h1, h2⟩

theorem append_sound {h h1 h2 : Heap} {us rs rs' : List Nat} {x : Nat} (g : Grown h h1) (s : Sound h h1 us rs)
    (hx : Sound h h1 us [x]) (ha : h1.append rs x = .ok (h2, rs')) : Grown h1 h2 ∧ Sound h h2 us rs' := by
  unfold Heap.append at ha
  split at ha
  · rename_i b _
    cases ha
    have gm := make_grown h1 [.hdr (.raw b)]
    refine ⟨gm, sound_append (s.mono gm) (sound_one ?_ (Or.inr g.len))⟩
    simp [Heap.make]
  · cases ha
    exact ⟨Grown.refl _, sound_append s hx⟩
  · cases ha

theorem appendAll_sound {h : Heap} {us xs : List Nat} : ∀ {h1 h2 : Heap} {rs rs' : List Nat}, Grown h h1 →
    Sound h h1 us rs → Sound h h1 us xs → h1.appendAll rs xs = .ok (h2, rs') → Grown h1 h2 ∧ Sound h h2 us rs' := by
  induction xs with
  | nil =>
    intro h1 h2 rs rs' _ s _ ha
    cases ha
    exact ⟨Grown.refl _, s⟩
  | cons x xs ih =>
    intro h1 h2 rs rs' g s t ha
    obtain ⟨⟨h3, rs3⟩, e1, e2⟩ := bind_eq_ok.mp ha
    obtain ⟨g1, s1⟩ := append_sound g s (fun r hr => t r (by simp_all)) e1
    obtain ⟨g2, s2⟩ := ih (g.trans g1) s1 (fun r hr => (t.mono g1) r (List.mem_cons_of_mem _ hr)) e2
    exact ⟨g1.trans g2, s2⟩

/-- Copies are new objects. -/
theorem copyRefs_sound {h : Heap} {us rs : List Nat} : ∀ {h1 : Heap} {memo : List (Nat × Nat)}, Grown h h1 →
    (∀ x ∈ memo, h.objs.length ≤ x.2 ∧ x.2 < h1.objs.length) →
    Grown h1 (h1.copyRefs memo rs).1 ∧ ∀ r ∈ (h1.copyRefs memo rs).2, h.objs.length ≤ r ∧ r < (h1.copyRefs memo rs).1.objs.length := by
  induction rs with
  | nil =>
    intro h1 memo _ _
    exact ⟨Grown.refl _, fun r hr => by cases hr⟩
  | cons x rs ih =>
    intro h1 memo g hm
    unfold Heap.copyRefs
    split
    · rename_i s hs
      obtain ⟨g1, s1⟩ := ih (memo := memo) g hm
      refine ⟨g1, ?_⟩
      intro r hr
      rcases List.mem_cons.mp hr with rfl | hr
      · have hmem : (x, r) ∈ memo := by
          have := List.lookup_eq_some_iff.mp hs
          obtain ⟨l1, l2, e, _⟩ := this
          rw [e]; simp
        exact ⟨(hm _ hmem).1, Nat.lt_of_lt_of_le (hm _ hmem).2 g1.len⟩
      · exact s1 r hr
    · have gm := make_grown h1 [h1.item x]
      have hl : (h1.make [h1.item x]).1.objs.length = h1.objs.length + 1 := by simp [Heap.make]
      obtain ⟨g1, s1⟩ := ih (h1 := (h1.make [h1.item x]).1) (memo := (x, h1.objs.length) :: memo) (g.trans gm) (by
        intro y hy
        rcases List.mem_cons.mp hy with rfl | hy
        · exact ⟨g.len, by rw [hl]; exact Nat.lt_succ_self _⟩
        · exact ⟨(hm y hy).1, Nat.lt_of_lt_of_le (hm y hy).2 gm.len⟩)
      refine ⟨gm.trans g1, ?_⟩
      intro r hr
      rcases List.mem_cons.mp hr with rfl | hr
      · exact ⟨g.len, Nat.lt_of_lt_of_le (by rw [hl]; exact Nat.lt_succ_self _) g1.len⟩
      · exact s1 r hr

theorem copy_sound (h : Heap) (us rs : List Nat) :
    Grown h (h.copyRefs [] rs).1 ∧ Sound h (h.copyRefs [] rs).1 us (h.copyRefs [] rs).2 := by
  obtain ⟨a, b⟩ := copyRefs_sound (us := us) (rs := rs) (Grown.refl h) (memo := []) (by simp)
  exact ⟨a, fun r hr => ⟨(b r hr).2, Or.inr (b r hr).1⟩⟩

/-- What a statement that names the packets `us` can do: other packets keep their lists, the packets named and
new packets hold only objects of packets named and new objects, and only objects in packets named change. -/
structure Frame (h h' : Heap) (us : List Nat) : Prop where
  objs_len : h.objs.length ≤ h'.objs.length
  pkts_len : h.pkts.length ≤ h'.pkts.length
  kept : ∀ p, p < h.pkts.length → p ∉ us → h'.refs p = h.refs p
  source : ∀ p, p ∈ us ∨ h.pkts.length ≤ p → ∀ r ∈ h'.refs p, (∃ q ∈ us, r ∈ h.refs q) ∨ h.objs.length ≤ r
  same : ∀ r, r < h.objs.length → (∀ q ∈ us, r ∉ h.refs q) → h'.item r = h.item r
  wf : h'.WF

theorem refs_out {h : Heap} {p : Nat} (hp : h.pkts.length ≤ p) : h.refs p = [] := by
  simp [Heap.refs, List.getD_eq_getElem?_getD, List.getElem?_eq_none hp]

theorem Frame.refl {h : Heap} (w : h.WF) (us : List Nat) : Frame h h us := by
  refine ⟨Nat.le_refl _, Nat.le_refl _, fun _ _ _ => rfl, ?_, fun _ _ _ => rfl, w⟩
  rintro p (hp | hp) r hr
  · exact Or.inl ⟨p, hp, hr⟩
  · rw [refs_out hp] at hr
    cases hr

/-- Two steps, the second of which names packets of the first and new ones. -/
theorem Frame.trans {a b c : Heap} {us vs : List Nat} (f : Frame a b us) (g : Frame b c vs)
    (hv : ∀ q ∈ vs, q ∈ us ∨ a.pkts.length ≤ q) : Frame a c us := by
  refine ⟨Nat.le_trans f.objs_len g.objs_len, Nat.le_trans f.pkts_len g.pkts_len, ?_, ?_, ?_, g.wf⟩
  · intro p hp hu
    rw [g.kept p (Nat.lt_of_lt_of_le hp f.pkts_len) (fun hm => (hv p hm).elim hu (by omega)), f.kept p hp hu]
  · intro p hp r hr
    by_cases ht : p ∈ vs ∨ b.pkts.length ≤ p
    · rcases g.source p ht r hr with ⟨q, h1, h2⟩ | h1
      · exact f.source q (hv q h1) r h2
      · exact Or.inr (Nat.le_trans f.objs_len h1)
    · rw [g.kept p (by omega) (fun x => ht (Or.inl x))] at hr
      exact f.source p hp r hr
  · intro r hr hu
    rw [g.same r (Nat.lt_of_lt_of_le hr f.objs_len), f.same r hr hu]
    intro q hq h1
    rcases f.source q (hv q hq) r h1 with ⟨q', h2, h3⟩ | h2
    · exact hu q' h2 h3
    · omega

theorem refs_setRefs (h : Heap) (p q : Nat) (rs : List Nat) :
    (h.setRefs p rs).refs q = if p = q ∧ p < h.pkts.length then rs else h.refs q := by
  simp only [Heap.refs, Heap.setRefs, List.getD_eq_getElem?_getD, List.getElem?_set]
  by_cases e : p = q
  · subst e
    by_cases hl : p < h.pkts.length
    · simp [hl]
    · simp [hl]
  · simp [e]

theorem refs_newPkt (h : Heap) (q : Nat) (rs : List Nat) :
    (h.newPkt rs).refs q = if q = h.pkts.length then rs else h.refs q := by
  simp only [Heap.refs, Heap.newPkt, List.getD_eq_getElem?_getD, List.getElem?_append]
  by_cases e : q = h.pkts.length
  · simp [e]
  · by_cases hl : q < h.pkts.length
    · simp [hl, e]
    · rw [if_neg hl, if_neg e, List.getElem?_eq_none (by simp; omega), List.getElem?_eq_none (by omega)]

theorem frame_setRefs {h h1 : Heap} {us rs : List Nat} {p : Nat} (w : h.WF) (g : Grown h h1) (s : Sound h h1 us rs)
    (hp : p ∈ us) : Frame h (h1.setRefs p rs) us := by
  have hl : h1.pkts.length = h.pkts.length := by rw [g.pkts]
  refine ⟨g.len, by simp [Heap.setRefs, hl], ?_, ?_, ?_, ?_⟩
  · intro q hq hn
    rw [refs_setRefs, if_neg, g.refs]
    rintro ⟨rfl, _⟩
    exact hn hp
  · intro q hq r hr
    rw [refs_setRefs] at hr
    split at hr
    · exact (s r hr).2
    · rw [g.refs] at hr
      rcases hq with hq | hq
      · exact Or.inl ⟨q, hq, hr⟩
      · rw [refs_out hq] at hr
        cases hr
  · intro r hr _
    exact g.item hr
  · intro q r hr
    rw [refs_setRefs] at hr
    split at hr
    · exact (s r hr).1
    · rw [g.refs] at hr
      exact Nat.lt_of_lt_of_le (w q r hr) g.len

theorem frame_newPkt {h h1 : Heap} {us rs : List Nat} (w : h.WF) (g : Grown h h1) (s : Sound h h1 us rs) :
    Frame h (h1.newPkt rs) us := by
  have hl : h1.pkts.length = h.pkts.length := by rw [g.pkts]
  refine ⟨g.len, by simp [Heap.newPkt, hl], ?_, ?_, ?_, ?_⟩
  · intro q hq hn
    rw [refs_newPkt, if_neg (by omega), g.refs]
  · intro q hq r hr
    rw [refs_newPkt] at hr
    split at hr
    · exact (s r hr).2
    · rw [g.refs] at hr
      rcases hq with hq | hq
      · exact Or.inl ⟨q, hq, hr⟩
      · rw [refs_out hq] at hr
        cases hr
  · intro r hr _
    exact g.item hr
  · intro q r hr
    rw [refs_newPkt] at hr
    split at hr
    · exact (s r hr).1
    · rw [g.refs] at hr
      exact Nat.lt_of_lt_of_le (w q r hr) g.len

theorem item_setObj (h : Heap) (r s : Nat) (x : Item) :
    (h.setObj r x).item s = if r = s ∧ r < h.objs.length then x else h.item s := by
  simp only [Heap.item, Heap.setObj, List.getD_eq_getElem?_getD, List.getElem?_set]
  by_cases e : r = s
  · subst e
    by_cases hl : r < h.objs.length
    · simp [hl]
    · simp [hl]
  · simp [e]

/-- Only objects in the packets named change. -/
structure Touched (h h' : Heap) (us : List Nat) : Prop where
  pkts : h'.pkts = h.pkts
  len : h'.objs.length = h.objs.length
  same : ∀ r, (∀ q ∈ us, r ∉ h.refs q) → h'.item r = h.item r

theorem Touched.frame {h h' : Heap} {us : List Nat} (w : h.WF) (t : Touched h h' us) : Frame h h' us := by
  have hr : ∀ p, h'.refs p = h.refs p := fun p => by rw [Heap.refs, Heap.refs, t.pkts]
  refine ⟨Nat.le_of_eq t.len.symm, Nat.le_of_eq (by rw [t.pkts]), fun p _ _ => hr p, ?_, fun r _ h1 => t.same r h1, ?_⟩
  · rintro p (hp | hp) r h1
    · rw [hr] at h1
      exact Or.inl ⟨p, hp, h1⟩
    · rw [hr, refs_out hp] at h1
      cases h1
  · intro p r h1
    rw [hr] at h1
    rw [t.len]
    exact w p r h1

theorem listIndex_mem {α : Type} {l : List α} {i : Int} {x : α} (h : listIndex l i = .ok x) : x ∈ l := by
  unfold listIndex at h
  generalize hk : (if i < 0 then (l.length : Int) + i else i) = k at h
  rcases hx : l[k.toNat]? with _ | y
  · rw [hx] at h; cases h
  · rw [hx] at h
    simp only at h
    split at h
    · cases h; exact List.mem_of_getElem? hx
    · cases h

theorem serLoop_touched {us : List Nat} {rs : List Nat} : ∀ (n : Nat) (h h1 : Heap) (rl : List Bytes),
    Touched h h1 us → (∀ r ∈ rs, ∃ q ∈ us, r ∈ h.refs q) → Touched h (Heap.serLoop rs n h1 rl).1 us := by
  intro n
  induction n with
  | zero => intro h h1 rl t _; exact t
  | succ n ih =>
    intro h h1 rl t hrs
    unfold Heap.serLoop
    split
    · exact t
    · rename_i r hr
      have hm : r ∈ rs := listIndex_mem hr
      split
      · exact t
      · rename_i it' _
        have t' : Touched h (h1.setObj r it') us := by
          refine ⟨t.pkts, by simp [Heap.setObj, t.len], ?_⟩
          intro s hs
          rw [item_setObj, if_neg, t.same s hs]
          rintro ⟨rfl, _⟩
          obtain ⟨q, h1, h2⟩ := hrs r hm
          exact hs q h1 h2
        split
        · exact t'
        · exact ih h _ _ t' hrs

theorem checkIdx_lt {p : Packet} {i : Int} {k : Nat} (h : p.checkIdx i = .ok k) : k < p.length := by
  simp only [Packet.checkIdx] at h
  split at h <;> split at h <;> cases h <;> omega

theorem at_mem {h : Heap} {p : Nat} {i : Int} {r : Nat} (e : h.at p i = .ok r) : r ∈ h.refs p := by
  obtain ⟨k, _, h2⟩ := bind_eq_ok.mp e
  exact listIndex_mem h2

theorem mem_pyInsert {α : Type} {l : List α} {i : Int} {x y : α} (h : y ∈ pyInsert l i x) : y = x ∨ y ∈ l := by
  simp only [pyInsert] at h
  rcases List.mem_append.mp h with h | h
  · exact Or.inr (List.mem_of_mem_take h)
  · rcases List.mem_cons.mp h with h | h
    · exact Or.inl h
    · exact Or.inr (List.mem_of_mem_drop h)

/-- Every statement stays within the packets it names. -/
theorem exec_frame (h : Heap) (w : h.WF) (o : POp) : Frame h (o.exec h).1 o.touches := by
  have fresh : ∀ x us, Sound h (h.make [x]).1 us [h.objs.length] := fun x us =>
    sound_one (by simp [Heap.make]) (Or.inr (Nat.le_refl _))
  cases o with
  | new => exact frame_newPkt w (Grown.refl h) (fun r hr => by cases hr)
  | parse raw first =>
    simp only [POp.exec]
    split
    · exact Frame.refl w _
    · refine frame_newPkt w (make_grown h _) ?_
      intro r hr
      simp only [Heap.make, List.mem_range'_1] at hr
      refine ⟨by simp [Heap.make]; omega, Or.inr hr.1⟩
  | addNew p x =>
    simp only [POp.exec, Heap.addNew, POp.touches]
    split
    · exact Frame.refl w _
    · rename_i r hr
      obtain ⟨g, s⟩ := append_sound (make_grown h [x]) ((sound_refs w (us := [p]) (by simp)).mono (make_grown h [x]))
        (fresh x _) hr
      exact frame_setRefs w ((make_grown h [x]).trans g) s (by simp)
  | prependNew p x =>
    refine frame_setRefs w (make_grown h [x]) (sound_append (rs := [_]) (fresh x _) ?_) (by simp [POp.touches])
    exact (sound_refs w (by simp [POp.touches])).mono (make_grown h [x])
  | insertNew p i x =>
    refine frame_setRefs w (make_grown h [x]) ?_ (by simp [POp.touches])
    intro r hr
    rcases mem_pyInsert hr with rfl | hr
    · exact fresh x _ _ (by simp)
    · exact (sound_refs w (by simp [POp.touches])).mono (make_grown h [x]) r hr
  | setNew p i x =>
    simp only [POp.exec, Heap.setNew, POp.touches]
    split
    · refine frame_setRefs w (make_grown h [x]) ?_ (by simp)
      intro r hr
      rcases List.mem_or_eq_of_mem_set hr with hr | rfl
      · exact (sound_refs w (by simp)).mono (make_grown h [x]) r hr
      · exact fresh x _ _ (by simp)
    · exact Frame.refl w _
    · exact Frame.refl w _
  | del p i =>
    simp only [POp.exec, Heap.del, POp.touches]
    split
    · exact frame_setRefs w (Grown.refl h)
        (fun r hr => sound_refs w (us := [p]) (by simp) r (List.mem_of_mem_eraseIdx hr)) (by simp)
    · exact Frame.refl w _
  | delCls p c =>
    simp only [POp.exec, Heap.delCls, POp.touches]
    split
    · split
      · exact Frame.refl w _
      · exact frame_setRefs w (Grown.refl h)
          (fun r hr => sound_refs w (us := [p]) (by simp) r (List.mem_of_mem_eraseIdx hr)) (by simp)
    · exact Frame.refl w _
  | change p i f =>
    simp only [POp.exec, Heap.change, POp.touches]
    split
    · exact Frame.refl w _
    · split
      · exact Frame.refl w _
      · rename_i r hr
        split
        · refine Touched.frame w ⟨rfl, by simp [Heap.setObj], ?_⟩
          intro s hs
          rw [item_setObj, if_neg]
          rintro ⟨rfl, _⟩
          exact hs p (by simp) (List.mem_of_getElem? hr)
        · exact Frame.refl w _
  | ser p =>
    exact Touched.frame w (serLoop_touched _ h h [] ⟨rfl, rfl, fun _ _ => rfl⟩ (fun r hr => ⟨p, by simp [POp.touches], hr⟩))
  | look p => exact Frame.refl w _
  | copy p =>
    obtain ⟨g, s⟩ := copy_sound h [] (h.refs p)
    exact frame_newPkt w g s
  | plus p q =>
    simp only [POp.exec, Heap.plus, POp.touches]
    split
    · exact Frame.refl w _
    · rename_i r hr
      obtain ⟨g, s⟩ := copy_sound h [q] (h.refs p)
      obtain ⟨g1, s1⟩ := appendAll_sound g s ((sound_refs w (by simp)).mono g) hr
      exact frame_newPkt w (g.trans g1) s1
  | plusNew p x =>
    simp only [POp.exec, Heap.plusNew, POp.touches]
    split
    · exact Frame.refl w _
    · rename_i r hr
      obtain ⟨g, s⟩ := copy_sound h [] (h.refs p)
      have gm := make_grown (h.copyRefs [] (h.refs p)).1 [x]
      obtain ⟨g1, s1⟩ := append_sound (g.trans gm) (s.mono gm)
        (sound_one (by simp [Heap.make]) (Or.inr g.len)) hr
      exact frame_newPkt w ((g.trans gm).trans g1) s1
  | share p q i =>
    simp only [POp.exec, Heap.share, POp.touches]
    split
    · exact Frame.refl w _
    · rename_i r hr
      obtain ⟨x, h1, h2⟩ := bind_eq_ok.mp hr
      obtain ⟨g1, s1⟩ := append_sound (us := [p, q]) (Grown.refl h) (sound_refs w (by simp))
        (fun y hy => sound_refs w (us := [p, q]) (p := q) (by simp) y (by
          rw [List.mem_singleton.mp hy]; exact at_mem h1)) h2
      exact frame_setRefs w g1 s1 (by simp)
  | join p i q j =>
    simp only [POp.exec, Heap.join, POp.touches]
    split
    · exact Frame.refl w _
    · rename_i r hr
      obtain ⟨x, h1, h2⟩ := bind_eq_ok.mp hr
      obtain ⟨y, h3, h4⟩ := bind_eq_ok.mp h2
      split at h4
      · obtain ⟨a, h5, h6⟩ := bind_eq_ok.mp h4
        obtain ⟨g1, s1⟩ := append_sound (us := [p, q]) (Grown.refl h) (rs := []) (fun r hr => by cases hr)
          (fun z hz => sound_refs w (us := [p, q]) (p := p) (by simp) z (by
            rw [List.mem_singleton.mp hz]; exact at_mem h1)) h5
        obtain ⟨g2, s2⟩ := append_sound g1 s1
          ((Sound.mono (fun z hz => sound_refs w (us := [p, q]) (p := q) (by simp) z (by
            rw [List.mem_singleton.mp hz]; exact at_mem h3)) g1)) h6
        exact frame_newPkt w (g1.trans g2) s2
      · cases h4

/-! ## Packets that share nothing -/

/-- **C151**: take any packets that share no header object with a packet outside.  Whatever is done with the
packets outside, the packets inside look as before and share nothing with those outside.  Packets inside may be looked
at, copied, and be the left operand of `+`. -/
theorem packets_apart (os : List POp) : ∀ (h : Heap) (S : Nat → Prop), h.WF → (∀ p, S p → p < h.pkts.length) →
    (∀ p q, S p → ¬ S q → ∀ r ∈ h.refs p, r ∉ h.refs q) → (∀ o ∈ os, ∀ p ∈ o.touches, ¬ S p) →
    (∀ p, S p → (execAll h os).1.view p = h.view p) ∧
      ∀ p q, S p → ¬ S q → ∀ r ∈ (execAll h os).1.refs p, r ∉ (execAll h os).1.refs q := by
  induction os with
  | nil => intro h S _ _ hd _; exact ⟨fun _ _ => rfl, hd⟩
  | cons o os ih =>
    intro h S w hs hd hu
    have f := exec_frame h w o
    have hk : ∀ p, S p → (o.exec h).1.refs p = h.refs p := fun p hp =>
      f.kept p (hs p hp) (fun hm => hu o (by simp) p hm hp)
    have hi : ∀ p, S p → ∀ r ∈ h.refs p, (o.exec h).1.item r = h.item r := fun p hp r hr =>
      f.same r (w p r hr) (fun q hq => hd p q hp (hu o (by simp) q hq) r hr)
    obtain ⟨a, b⟩ := ih (o.exec h).1 S f.wf (fun p hp => Nat.lt_of_lt_of_le (hs p hp) f.pkts_len) (by
      intro p q hp hq r hr hr'
      rw [hk p hp] at hr
      by_cases ht : q ∈ o.touches ∨ h.pkts.length ≤ q
      · rcases f.source q ht r hr' with ⟨q', h1, h2⟩ | h1
        · exact hd p q' hp (hu o (by simp) q' h1) r hr h2
        · exact absurd (w p r hr) (by omega)
      · have ht' : q ∉ o.touches ∧ q < h.pkts.length := ⟨fun x => ht (Or.inl x), by omega⟩
        rw [f.kept q ht'.2 ht'.1] at hr'
        exact hd p q hp hq r hr hr') (fun o' ho' => hu o' (List.mem_cons_of_mem _ ho'))
    refine ⟨fun p hp => ?_, b⟩
    rw [show (execAll h (o :: os)).1 = (execAll (o.exec h).1 os).1 from rfl, a p hp]
    unfold Heap.view Heap.vals
    rw [hk p hp]
    exact List.map_congr_left fun r hr => hi p hp r hr

/-! ## Copies -/

theorem item_make (h : Heap) (x : Item) : (h.make [x]).1.item h.objs.length = x := by
  simp [Heap.item, Heap.make]

theorem vals_grown {h h' : Heap} (g : Grown h h') {rs : List Nat} (hr : ∀ r ∈ rs, r < h.objs.length) :
    h'.vals rs = h.vals rs := List.map_congr_left fun r hm => g.item (hr r hm)

/-- A deep copy looks like the packet, also when a header object is in it more than once. -/
theorem copyRefs_vals {rs : List Nat} : ∀ {h : Heap} {memo : List (Nat × Nat)}, (∀ r ∈ rs, r < h.objs.length) →
    (∀ x ∈ memo, x.2 < h.objs.length ∧ x.1 < h.objs.length ∧ h.item x.2 = h.item x.1) →
    (h.copyRefs memo rs).1.vals (h.copyRefs memo rs).2 = h.vals rs := by
  induction rs with
  | nil => intro h memo _ _; rfl
  | cons x rs ih =>
    intro h memo hr hm
    have hx := hr x (by simp)
    have hr' : ∀ r ∈ rs, r < h.objs.length := fun r h' => hr r (List.mem_cons_of_mem _ h')
    have gc : ∀ (h : Heap) memo, (∀ x ∈ memo, x.2 < h.objs.length) → Grown h (h.copyRefs memo rs).1 := fun h memo h' =>
      (copyRefs_sound (h := ⟨[], h.pkts⟩) (h1 := h) (us := []) ⟨rfl, h.objs, rfl⟩ (fun x hx => ⟨Nat.zero_le _, h' x hx⟩)).1
    unfold Heap.copyRefs
    split
    · rename_i s hs
      have hmem : (x, s) ∈ memo := by
        obtain ⟨l1, l2, e, _⟩ := List.lookup_eq_some_iff.mp hs
        rw [e]; simp
      obtain ⟨m1, _, m2⟩ := hm _ hmem
      show _ :: Heap.vals _ _ = _ :: Heap.vals _ _
      rw [ih hr' hm, (gc h memo (fun x hx => (hm x hx).1)).item m1, m2]
    · have gm := make_grown h [h.item x]
      have hl : (h.make [h.item x]).1.objs.length = h.objs.length + 1 := by simp [Heap.make]
      have hm' : ∀ y ∈ (x, h.objs.length) :: memo, y.2 < (h.make [h.item x]).1.objs.length ∧
          y.1 < (h.make [h.item x]).1.objs.length ∧ (h.make [h.item x]).1.item y.2 = (h.make [h.item x]).1.item y.1 := by
        intro y hy
        rcases List.mem_cons.mp hy with rfl | hy
        · exact ⟨by rw [hl]; exact Nat.lt_succ_self _, by rw [hl]; exact Nat.lt_succ_of_lt hx, by rw [item_make, gm.item hx]⟩
        · obtain ⟨a, b, c⟩ := hm y hy
          exact ⟨by rw [hl]; omega, by rw [hl]; omega, by rw [gm.item a, gm.item b, c]⟩
      show _ :: Heap.vals _ _ = _ :: Heap.vals _ _
      rw [ih (fun r h' => by rw [hl]; exact Nat.lt_succ_of_lt (hr' r h')) hm', vals_grown gm hr',
        (gc _ _ (fun y hy => (hm' y hy).1)).item (by rw [hl]; exact Nat.lt_succ_self _), item_make]

/-- **C151**: a deep copy looks like the packet it was made of.  It stays so whatever is done with all other
packets, and whatever is done with the copy and packets made later does not change the other packets. -/
theorem copy_independent (h : Heap) (w : h.WF) (p : Nat) :
    ((POp.copy p).exec h).1.view h.pkts.length = h.view p ∧
    (∀ os : List POp, (∀ o ∈ os, h.pkts.length ∉ o.touches) →
      (execAll ((POp.copy p).exec h).1 os).1.view h.pkts.length = h.view p) ∧
    ∀ os : List POp, (∀ o ∈ os, ∀ q ∈ o.touches, h.pkts.length ≤ q) → ∀ q, q < h.pkts.length →
      (execAll ((POp.copy p).exec h).1 os).1.view q = h.view q := by
  obtain ⟨g, s⟩ := copy_sound h [] (h.refs p)
  have w' : ((POp.copy p).exec h).1.WF := (exec_frame h w (.copy p)).wf
  have hl : ((h.copyRefs [] (h.refs p)).1).pkts.length = h.pkts.length := by rw [g.pkts]
  have hr : ∀ q, ((POp.copy p).exec h).1.refs q =
      if q = h.pkts.length then (h.copyRefs [] (h.refs p)).2 else h.refs q := by
    intro q
    show (Heap.newPkt _ _).refs q = _
    rw [refs_newPkt, hl, g.refs]
  have hv : ((POp.copy p).exec h).1.view h.pkts.length = h.view p := by
    show Heap.vals _ (Heap.refs _ _) = _
    rw [hr, if_pos rfl]
    exact copyRefs_vals (w p) (by simp)
  have hold : ∀ q, q < h.pkts.length → ((POp.copy p).exec h).1.view q = h.view q := by
    intro q hq
    show Heap.vals _ (Heap.refs _ _) = _
    rw [hr, if_neg (by omega)]
    exact vals_grown g (w q)
  have hpl : ((POp.copy p).exec h).1.pkts.length = h.pkts.length + 1 := by
    show (Heap.newPkt _ _).pkts.length = _
    simp [Heap.newPkt, hl]
  have hdis : ∀ q, q ≠ h.pkts.length → ∀ r ∈ h.refs q, r ∉ (h.copyRefs [] (h.refs p)).2 := by
    intro q _ r h1 h2
    rcases (s r h2).2 with ⟨_, h3, _⟩ | h3
    · cases h3
    · exact absurd (w q r h1) (by omega)
  refine ⟨hv, ?_, ?_⟩
  · intro os ho
    rw [(packets_apart os _ (· = h.pkts.length) w' (by intro q hq; omega) (by
      intro a b ha hb r h1 h2
      rw [hr, if_pos ha] at h1
      rw [hr, if_neg hb] at h2
      exact hdis b hb r h2 h1) (by
      intro o h1 q h2 h3
      exact ho o h1 (h3 ▸ h2))).1 _ rfl, hv]
  · intro os ho q hq
    rw [(packets_apart os _ (· < h.pkts.length) w' (by intro q hq; omega) (by
      intro a b ha hb r h1 h2
      rw [hr, if_neg (by omega)] at h1
      rw [hr] at h2
      split at h2
      · exact hdis a (by omega) r h1 h2
      · rw [refs_out (by omega)] at h2
        cases h2) (by
      intro o h1 q h2 h3
      exact absurd (ho o h1 q h2) (by omega))).1 q hq, hold q hq]

/-! ## Packets as values -/

/-- Packets as values; `none` for a packet whose headers were given to another packet. -/
abbrev VStore := List (Option Packet)

/-- The value of a packet that has one. -/
def VStore.get (s : VStore) (p : Nat) : Option Packet := (s[p]?).join

/-- The packet gets the new value, if there is one. -/
def VStore.put (s : VStore) (p : Nat) : Res Packet → VStore × Res Shown
  | .ok v => (s.set p (some v), .ok .nothing)
  | .error e => (s, .error e)

/-- A new packet, if there is one. -/
def VStore.make (s : VStore) : Res Packet → VStore × Res Shown
  | .ok v => (s ++ [some v], .ok .nothing)
  | .error e => (s, .error e)

/-- The value is no longer of interest, if the statement succeeded. -/
def VStore.drop (p : Nat) : VStore × Res Shown → VStore × Res Shown
  | (s, .ok x) => (s.set p none, .ok x)
  | (s, .error e) => (s, .error e)

/-- A setter or method of the header at an index, on a value. -/
def changeValue (v : Packet) (i : Int) (f : Hdr → Hdr × Res Unit) : Packet × Res Shown :=
  match v.checkIdx i with
  | .error e => (v, .error e)
  | .ok k =>
    match v[k]? with
    | some (.hdr x) => (v.set k (.hdr (f x).1), (fun _ => .nothing) <$> (f x).2)
    | some _ => (v, .error .attributeError)
    | none => (v, .error .indexError)

/-- The sum of two headers, on values. -/
def joinValue (x y : Item) : Res Packet :=
  match x with
  | .hdr _ => Packet.add [] x >>= fun v => v.add y
  | _ => .error .typeError

/-- What each statement means if packets are values: it changes the packet it is about, or makes a new one,
and nothing else.  A packet that lends its headers to another packet (right operand of `+`, `p += q[i]`)
is not used any more; `none` if a statement uses such a packet, or puts a header of a packet into the same packet again. -/
def _root_.SY.POp.value (s : VStore) : POp → Option (VStore × Res Shown)
  | .new => some (s.make (.ok []))
  | .parse raw first => some (s.make (Packet.parse raw first))
  | .addNew p x => (s.get p).map fun v => s.put p (v.add x)
  | .prependNew p x => (s.get p).map fun v => s.put p (.ok (v.prepend x))
  | .insertNew p i x => (s.get p).map fun v => s.put p (.ok (v.insert i x))
  | .setNew p i x => (s.get p).map fun v => s.put p (v.setItem i x)
  | .del p i => (s.get p).map fun v => s.put p (v.delItem i)
  | .delCls p c => (s.get p).map fun v => s.put p (v.delClass c)
  | .change p i f => (s.get p).map fun v => (s.set p (some (changeValue v i f).1), (changeValue v i f).2)
  | .ser p => (s.get p).map fun v => (s.set p (some v.toBytes.1), .bytes <$> v.toBytes.2)
  | .look p => (s.get p).map fun v => (s, .ok (.packet v))
  | .copy p => (s.get p).map fun v => s.make (.ok v)
  | .plus p q => (s.get p).bind fun v => (s.get q).map fun u => VStore.drop q (s.make (v.addPacket u))
  | .plusNew p x => (s.get p).map fun v => s.make (v.add x)
  | .share p q i =>
    if p = q then none
    else (s.get p).bind fun v => (s.get q).map fun u => VStore.drop q (s.put p (u.getItem i >>= fun x => v.add x))
  | .join p i q j =>
    if p = q then none
    else (s.get p).bind fun v => (s.get q).map fun u =>
      VStore.drop p (VStore.drop q (s.make (v.getItem i >>= fun x => u.getItem j >>= fun y => joinValue x y)))

/-- Statements one after the other, on values. -/
def valueAll (s : VStore) : List POp → Option (VStore × List (Res Shown))
  | [] => some (s, [])
  | o :: os => (o.value s).bind fun r => (valueAll r.1 os).map fun t => (t.1, r.2 :: t.2)

/-- The objects stand for the values: packets that are still of interest look like their values and share
no header object with each other or in themselves. -/
structure AgreeV (h : Heap) (s : VStore) : Prop where
  len : s.length = h.pkts.length
  wf : h.WF
  val : ∀ p v, s.get p = some v → h.view p = v
  nodup : ∀ p v, s.get p = some v → (h.refs p).Nodup
  apart : ∀ p q v u, s.get p = some v → s.get q = some u → p ≠ q → ∀ r ∈ h.refs p, r ∉ h.refs q

theorem get_lt {s : VStore} {p : Nat} {v : Packet} (h : s.get p = some v) : p < s.length := by
  unfold VStore.get at h
  rcases hx : s[p]? with _ | x
  · rw [hx] at h; cases h
  · exact (List.getElem?_eq_some_iff.mp hx).1

theorem get_set (s : VStore) (p q : Nat) (x : Option Packet) :
    VStore.get (s.set p x) q = if p = q ∧ p < s.length then x else VStore.get s q := by
  simp only [VStore.get, List.getElem?_set]
  by_cases e : p = q
  · subst e
    by_cases hl : p < s.length
    · simp [hl]
    · simp [hl]
  · simp [e]

theorem get_snoc (s : VStore) (q : Nat) (x : Option Packet) :
    VStore.get (s ++ [x]) q = if q = s.length then x else VStore.get s q := by
  simp only [VStore.get, List.getElem?_append]
  by_cases e : q = s.length
  · simp [e]
  · by_cases hl : q < s.length
    · simp [hl, e]
    · rw [if_neg hl, if_neg e, List.getElem?_eq_none (by simp; omega), List.getElem?_eq_none (by omega)]

/-- One step: all packets but at most one, `a`, are as before or no longer of interest. -/
theorem agree_step {h h' : Heap} {s s' : VStore} {us : List Nat} (a : Nat) (g : AgreeV h s) (f : Frame h h' us)
    (hl : ∀ q ∈ us, ∃ v, s.get q = some v) (hn : s'.length = h'.pkts.length) (ha : a ∈ us ∨ h.pkts.length ≤ a)
    (hs : ∀ p v, s'.get p = some v → p ≠ a → s.get p = some v ∧ p ∉ us)
    (hv : ∀ v, s'.get a = some v → h'.view a = v ∧ (h'.refs a).Nodup) : AgreeV h' s' := by
  have hk : ∀ p v, s'.get p = some v → p ≠ a → h'.refs p = h.refs p := fun p v h1 h2 =>
    f.kept p (by rw [← g.len]; exact get_lt (hs p v h1 h2).1) (hs p v h1 h2).2
  have hd : ∀ p v, s'.get p = some v → p ≠ a → ∀ q ∈ us, ∀ r ∈ h.refs p, r ∉ h.refs q := by
    intro p v h1 h2 q hq
    obtain ⟨u, hu⟩ := hl q hq
    exact g.apart p q v u (hs p v h1 h2).1 hu (fun e => (hs p v h1 h2).2 (e ▸ hq))
  have hx : ∀ p v, s'.get p = some v → p ≠ a → ∀ r ∈ h'.refs p, r ∉ h'.refs a := by
    intro p v h1 h2 r hr hr'
    rw [hk p v h1 h2] at hr
    rcases f.source a ha r hr' with ⟨q, h3, h4⟩ | h3
    · exact hd p v h1 h2 q h3 r hr h4
    · exact absurd (g.wf p r hr) (by omega)
  refine ⟨hn, f.wf, ?_, ?_, ?_⟩
  · intro p v hp
    by_cases e : p = a
    · subst e; exact (hv v hp).1
    · unfold Heap.view Heap.vals
      rw [hk p v hp e]
      rw [← g.val p v (hs p v hp e).1]
      exact List.map_congr_left fun r hr => f.same r (g.wf p r hr) (fun q hq => hd p v hp e q hq r hr)
  · intro p v hp
    by_cases e : p = a
    · subst e; exact (hv v hp).2
    · rw [hk p v hp e]; exact g.nodup p v (hs p v hp e).1
  · intro p q v u hp hq hpq r hr hr'
    by_cases e : p = a
    · subst e; exact hx q u hq (Ne.symm hpq) r hr' hr
    · by_cases e' : q = a
      · subst e'; exact hx p v hp e r hr hr'
      · rw [hk p v hp e] at hr
        rw [hk q u hq e'] at hr'
        exact g.apart p q v u (hs p v hp e).1 (hs q u hq e').1 hpq r hr hr'

theorem put_step {h h1 : Heap} {s : VStore} {p : Nat} {v v' : Packet} {rs : List Nat} (g : AgreeV h s)
    (hp : s.get p = some v) (gr : Grown h h1) (so : Sound h h1 [p] rs) (hn : rs.Nodup) (hv : h1.vals rs = v') :
    AgreeV (h1.setRefs p rs) (s.put p (.ok v')).1 := by
  have hlt := get_lt hp
  have hl : p < h1.pkts.length := by rw [gr.pkts, ← g.len]; exact hlt
  refine agree_step p g (frame_setRefs (us := [p]) g.wf gr so (by simp)) ?_ ?_ (Or.inl (by simp)) ?_ ?_
  · intro q hq
    rw [List.mem_singleton.mp hq]
    exact ⟨v, hp⟩
  · simp [VStore.put, Heap.setRefs, gr.pkts, g.len]
  · intro q u hq hne
    rw [VStore.put, get_set, if_neg (fun e => hne e.1.symm)] at hq
    exact ⟨hq, by simp [hne]⟩
  · intro u hu
    rw [VStore.put, get_set, if_pos ⟨rfl, hlt⟩] at hu
    cases hu
    unfold Heap.view
    rw [refs_setRefs, if_pos ⟨rfl, hl⟩]
    exact ⟨hv, hn⟩

theorem make_step {h h1 : Heap} {s : VStore} {v' : Packet} {rs : List Nat} (g : AgreeV h s)
    (gr : Grown h h1) (so : Sound h h1 [] rs) (hn : rs.Nodup) (hv : h1.vals rs = v') :
    AgreeV (h1.newPkt rs) (s.make (.ok v')).1 := by
  have hl : h1.pkts.length = h.pkts.length := by rw [gr.pkts]
  refine agree_step h.pkts.length g (frame_newPkt (us := []) g.wf gr so) (by simp) ?_ (Or.inr (Nat.le_refl _)) ?_ ?_
  · simp [VStore.make, Heap.newPkt, gr.pkts, g.len]
  · intro q u hq hne
    rw [VStore.make, get_snoc, if_neg (by rw [g.len]; exact hne)] at hq
    exact ⟨hq, by simp⟩
  · intro u hu
    rw [VStore.make, get_snoc, if_pos g.len.symm] at hu
    cases hu
    unfold Heap.view
    rw [refs_newPkt, if_pos hl.symm]
    exact ⟨hv, hn⟩

theorem view_get {h : Heap} {s : VStore} {p : Nat} {v : Packet} (g : AgreeV h s) (hp : s.get p = some v) :
    h.vals (h.refs p) = v := g.val p v hp

theorem vals_append (h : Heap) (rs ss : List Nat) : h.vals (rs ++ ss) = h.vals rs ++ h.vals ss := by
  simp [Heap.vals]

/-- Adding an object to a list of references, on values. -/
theorem append_vals {h : Heap} {rs : List Nat} {x : Nat} (hr : ∀ r ∈ rs, r < h.objs.length) (hx : x < h.objs.length)
    (hn : rs.Nodup) (hd : x ∉ rs) :
    match h.append rs x with
    | .ok r => Packet.add (h.vals rs) (h.item x) = .ok (r.1.vals r.2) ∧ r.2.Nodup
    | .error e => Packet.add (h.vals rs) (h.item x) = .error e := by
  unfold Heap.append Packet.add
  cases hi : h.item x with
  | bytes b =>
    have gm := make_grown h [.hdr (.raw b)]
    refine ⟨?_, ?_⟩
    · show Except.ok _ = Except.ok _
      rw [vals_append, vals_grown gm hr]
      simp only [Heap.vals, List.map_cons, List.map_nil, item_make]
    · refine List.nodup_append.mpr ⟨hn, by simp, ?_⟩
      intro a ha b' hb
      have := hr a ha
      simp at hb
      omega
  | hdr y =>
    refine ⟨?_, ?_⟩
    · show Except.ok _ = Except.ok _
      rw [vals_append]
      simp only [Heap.vals, List.map_cons, List.map_nil, hi]
    · refine List.nodup_append.mpr ⟨hn, by simp, ?_⟩
      intro a ha b' hb
      simp at hb
      subst hb
      exact fun e => hd (e ▸ ha)
  | other n => rfl

theorem sound_lt {h h' : Heap} {us rs : List Nat} (s : Sound h h' us rs) : ∀ r ∈ rs, r < h'.objs.length :=
  fun r hr => (s r hr).1

theorem appendAll_vals {xs : List Nat} : ∀ {h : Heap} {rs : List Nat}, (∀ r ∈ rs, r < h.objs.length) →
    (∀ x ∈ xs, x < h.objs.length) → rs.Nodup → xs.Nodup → (∀ x ∈ xs, x ∉ rs) →
    match h.appendAll rs xs with
    | .ok r => Packet.addPacket (h.vals rs) (h.vals xs) = .ok (r.1.vals r.2) ∧ r.2.Nodup
    | .error e => Packet.addPacket (h.vals rs) (h.vals xs) = .error e := by
  induction xs with
  | nil => intro h rs _ _ hn _ _; exact ⟨rfl, hn⟩
  | cons x xs ih =>
    intro h rs hr hx hn hnx hd
    obtain ⟨hx1, hx2⟩ := List.nodup_cons.mp hnx
    have h1 := append_vals hr (hx x (by simp)) hn (hd x (by simp))
    rw [show h.vals (x :: xs) = h.item x :: h.vals xs from rfl]
    unfold Packet.addPacket Heap.appendAll
    rcases ha : h.append rs x with e | ⟨h', rs'⟩
    · rw [ha] at h1
      simp only at h1
      rw [h1]
      rfl
    · rw [ha] at h1
      obtain ⟨h2, h3⟩ := h1
      rw [h2]
      simp only [bind_ok]
      have hs := append_sound (us := []) (h := ⟨[], h.pkts⟩) (h1 := h) ⟨rfl, h.objs, rfl⟩
        (fun r hm => ⟨hr r hm, Or.inr (Nat.zero_le _)⟩)
        (fun r hm => ⟨by rw [List.mem_singleton.mp hm]; exact hx x (by simp), Or.inr (Nat.zero_le _)⟩) ha
      have hx' : ∀ y ∈ xs, y < h.objs.length := fun y hy => hx y (List.mem_cons_of_mem _ hy)
      have h4 := ih (sound_lt hs.2) (fun y hy => Nat.lt_of_lt_of_le (hx' y hy) hs.1.len) h3 hx2 (by
        intro y hy hm
        unfold Heap.append at ha
        split at ha
        · cases ha
          rcases List.mem_append.mp hm with hm | hm
          · exact hd y (List.mem_cons_of_mem _ hy) hm
          · have := hx' y hy
            simp at hm
            omega
        · cases ha
          rcases List.mem_append.mp hm with hm | hm
          · exact hd y (List.mem_cons_of_mem _ hy) hm
          · simp at hm
            exact hx1 (hm ▸ hy)
        · cases ha)
      rw [vals_grown hs.1 hx'] at h4
      exact h4

/-- A deep copy of a list without repetitions consists of new objects, each once. -/
theorem copyRefs_nodup {rs : List Nat} : ∀ {h : Heap} {memo : List (Nat × Nat)}, rs.Nodup →
    (∀ r ∈ rs, memo.lookup r = none) → (h.copyRefs memo rs).2.Nodup ∧
      ∀ r ∈ (h.copyRefs memo rs).2, h.objs.length ≤ r := by
  induction rs with
  | nil => intro h memo _ _; exact ⟨List.nodup_nil, fun r hr => by cases hr⟩
  | cons x rs ih =>
    intro h memo hn hm
    obtain ⟨h1, h2⟩ := List.nodup_cons.mp hn
    unfold Heap.copyRefs
    rw [hm x (by simp)]
    have hl : (h.make [h.item x]).1.objs.length = h.objs.length + 1 := by simp [Heap.make]
    obtain ⟨a, b⟩ := ih (h := (h.make [h.item x]).1) (memo := (x, h.objs.length) :: memo) h2 (by
      intro r hr
      rw [List.lookup_cons]
      have : (r == x) = false := by
        rw [beq_eq_false_iff_ne]
        exact fun e => h1 (e ▸ hr)
      rw [this]
      exact hm r (List.mem_cons_of_mem _ hr))
    rw [hl] at b
    refine ⟨List.nodup_cons.mpr ⟨?_, a⟩, ?_⟩
    · intro hx
      have := b _ hx
      omega
    · intro r hr
      rcases List.mem_cons.mp hr with rfl | hr
      · exact Nat.le_refl _
      · have := b r hr
        omega

theorem map_pyInsert {α β : Type} (f : α → β) (l : List α) (i : Int) (x : α) :
    (pyInsert l i x).map f = pyInsert (l.map f) i (f x) := by
  simp [pyInsert, List.map_take, List.map_drop]

theorem nodup_pyInsert {α : Type} {l : List α} {i : Int} {x : α} (h : l.Nodup) (hx : x ∉ l) : (pyInsert l i x).Nodup := by
  simp only [pyInsert]
  refine List.Perm.nodup_iff (List.perm_middle) |>.mpr ?_
  rw [List.take_append_drop]
  exact List.nodup_cons.mpr ⟨hx, h⟩

theorem nodup_set {α : Type} : ∀ {l : List α} {k : Nat} {x : α}, l.Nodup → x ∉ l → (l.set k x).Nodup
  | [], _, _, _, _ => by simp
  | a :: l, 0, x, h, hx => by
    obtain ⟨_, h2⟩ := List.nodup_cons.mp h
    exact List.nodup_cons.mpr ⟨fun hm => hx (List.mem_cons_of_mem _ hm), h2⟩
  | a :: l, k + 1, x, h, hx => by
    obtain ⟨h1, h2⟩ := List.nodup_cons.mp h
    refine List.nodup_cons.mpr ⟨?_, nodup_set h2 (fun hm => hx (List.mem_cons_of_mem _ hm))⟩
    intro hm
    rcases List.mem_or_eq_of_mem_set hm with hm | e
    · exact h1 hm
    · exact hx (by simp [e])

theorem map_eraseIdx {α β : Type} (f : α → β) : ∀ (l : List α) (k : Nat), (l.eraseIdx k).map f = (l.map f).eraseIdx k
  | [], _ => by simp
  | a :: l, 0 => by simp
  | a :: l, k + 1 => by simp [map_eraseIdx f l k]

theorem length_view (h : Heap) (p : Nat) : (h.view p).length = (h.refs p).length := by simp [Heap.view, Heap.vals]

/-- Changing one object of a list without repetitions changes one value. -/
theorem vals_setObj {h : Heap} {rs : List Nat} {k r : Nat} {x : Item} (hn : rs.Nodup) (hk : rs[k]? = some r)
    (hr : r < h.objs.length) : (h.setObj r x).vals rs = (h.vals rs).set k x := by
  unfold Heap.vals
  apply List.ext_getElem?
  intro i
  rw [List.getElem?_map, List.getElem?_set, List.getElem?_map]
  have hkl := (List.getElem?_eq_some_iff.mp hk).1
  by_cases e : k = i
  · subst e
    rw [hk]
    simp [item_setObj, hr, hkl]
  · rw [if_neg e]
    rcases hi : rs[i]? with _ | s
    · rfl
    · have hne : r ≠ s := by
        intro e'
        subst e'
        obtain ⟨h1, h2⟩ := List.getElem?_eq_some_iff.mp hk
        obtain ⟨h3, h4⟩ := List.getElem?_eq_some_iff.mp hi
        have hp := List.pairwise_iff_getElem.mp hn
        rcases Nat.lt_or_gt_of_ne e with hlt | hlt
        · exact hp k i h1 h3 hlt (by rw [h2, h4])
        · exact hp i k h3 h1 hlt (by rw [h2, h4])
      simp [item_setObj, hne]

/-- Serialising objects without repetitions is serialising the values. -/
theorem serLoop_vals {rs : List Nat} (hn : rs.Nodup) : ∀ (n : Nat) (h : Heap) (rl : List Bytes), n ≤ rs.length →
    (∀ r ∈ rs, r < h.objs.length) → (Heap.serLoop rs n h rl).1.vals rs = (Packet.serLoop n (h.vals rs) rl).1 ∧
      (Heap.serLoop rs n h rl).2 = (Packet.serLoop n (h.vals rs) rl).2 := by
  intro n
  induction n with
  | zero => intro h rl _ _; exact ⟨rfl, rfl⟩
  | succ n ih =>
    intro h rl hle hr
    have hk : rs[n]? = some rs[n] := List.getElem?_eq_getElem (by omega)
    have h1 : listIndex rs (n : Int) = .ok rs[n] := by
      unfold listIndex
      rw [if_neg (by omega)]
      simp [hk]
    have h2 : listIndex (h.vals rs) (n : Int) = .ok (h.item rs[n]) := by
      unfold listIndex
      rw [if_neg (by omega)]
      simp [Heap.vals, hk]
    have hm : rs[n] ∈ rs := List.getElem_mem _
    unfold Heap.serLoop Packet.serLoop
    rw [h1, h2]
    simp only
    rcases hp : (h.item rs[n]).pre rl.flatten (h.vals rs) with e | it'
    · exact ⟨rfl, rfl⟩
    · simp only
      have hv := vals_setObj (x := it') hn hk (hr _ hm)
      rcases hb : it'.toBytes with e | b
      · exact ⟨hv, rfl⟩
      · simp only
        rw [← hv]
        exact ih _ _ (by omega) (by simpa [Heap.setObj] using hr)

theorem at_value {h : Heap} {s : VStore} {p : Nat} {v : Packet} (g : AgreeV h s) (hp : s.get p = some v) (i : Int) :
    v.getItem i = h.item <$> h.at p i := by
  have hv := g.val p v hp
  subst hv
  unfold Packet.getItem Heap.at
  rcases hc : (h.view p).checkIdx i with e | k
  · rfl
  · simp only [bind_ok]
    have hk := checkIdx_lt hc
    have hk' : k < (h.refs p).length := by rw [← length_view]; exact hk
    unfold listIndex
    rw [if_neg (by omega), if_neg (by omega)]
    simp only [Int.toNat_natCast, List.getElem?_eq_getElem hk, List.getElem?_eq_getElem hk']
    rw [if_pos (by omega), if_pos (by omega)]
    simp [Heap.view, Heap.vals]

theorem make_vals (h : Heap) (v : Packet) : (h.make v).1.vals (h.make v).2 = v := by
  unfold Heap.vals Heap.make
  apply List.ext_getElem
  · simp
  · intro i h1 h2
    simp [Heap.item, List.getElem?_append_right, h2]

theorem touch_step {h h' : Heap} {s : VStore} {p : Nat} {v v' : Packet} (g : AgreeV h s) (hp : s.get p = some v)
    (t : Touched h h' [p]) (hv : h'.vals (h.refs p) = v') : AgreeV h' (s.set p (some v')) := by
  have hlt := get_lt hp
  have hr : h'.refs p = h.refs p := by rw [Heap.refs, Heap.refs, t.pkts]
  refine agree_step p g (t.frame g.wf) ?_ ?_ (Or.inl (by simp)) ?_ ?_
  · intro q hq
    rw [List.mem_singleton.mp hq]
    exact ⟨v, hp⟩
  · simp [t.pkts, g.len]
  · intro q u hq hne
    rw [get_set, if_neg (fun e => hne e.1.symm)] at hq
    exact ⟨hq, by simp [hne]⟩
  · intro u hu
    rw [get_set, if_pos ⟨rfl, hlt⟩] at hu
    cases hu
    unfold Heap.view
    rw [hr]
    exact ⟨hv, g.nodup p v hp⟩

theorem set_self {s : VStore} {p : Nat} {v : Packet} (hp : s.get p = some v) : s.set p (some v) = s := by
  apply List.ext_getElem?
  intro i
  rw [List.getElem?_set]
  by_cases e : p = i
  · subst e
    rw [if_pos rfl, if_pos (get_lt hp)]
    unfold VStore.get at hp
    rcases hx : s[p]? with _ | x
    · rw [hx] at hp; cases hp
    · rw [hx] at hp
      cases hp
      rfl
  · rw [if_neg e]

/-- Each statement does to the objects what it does to the values. -/
theorem exec_value {h : Heap} {s : VStore} (g : AgreeV h s) {o : POp} {r : VStore × Res Shown} (ho : o.value s = some r) :
    (o.exec h).2 = r.2 ∧ AgreeV (o.exec h).1 r.1 := by
  have fresh : ∀ x us, Sound h (h.make [x]).1 us [h.objs.length] := fun x us =>
    sound_one (by simp [Heap.make]) (Or.inr (Nat.le_refl _))
  have notin : ∀ p, h.objs.length ∉ h.refs p := fun p hm => absurd (g.wf p _ hm) (by omega)
  cases o with
  | new =>
    cases ho
    exact ⟨rfl, make_step g (Grown.refl h) (fun r hr => by cases hr) List.nodup_nil rfl⟩
  | parse raw first =>
    cases ho
    simp only [POp.exec]
    rcases hp : Packet.parse raw first with e | v
    · exact ⟨rfl, g⟩
    · refine ⟨rfl, make_step g (make_grown h v) ?_ List.nodup_range' ?_⟩
      · intro r hr
        simp only [Heap.make, List.mem_range'_1] at hr
        exact ⟨by simp [Heap.make]; omega, Or.inr hr.1⟩
      · exact make_vals h v
  | addNew p x =>
    obtain ⟨v, hp, rfl⟩ := Option.map_eq_some_iff.mp ho
    have gm := make_grown h [x]
    have h1 := append_vals (h := (h.make [x]).1) (rs := h.refs p) (x := h.objs.length)
      (fun r hr => Nat.lt_of_lt_of_le (g.wf p r hr) gm.len) (by simp [Heap.make]) (g.nodup p v hp) (notin p)
    rw [vals_grown gm (g.wf p), view_get g hp, item_make] at h1
    simp only [POp.exec, Heap.addNew]
    rcases ha : (h.make [x]).1.append (h.refs p) h.objs.length with e | ⟨h2, rs⟩
    · rw [ha] at h1
      rw [h1]
      exact ⟨rfl, g⟩
    · rw [ha] at h1
      rw [h1.1]
      obtain ⟨g2, s2⟩ := append_sound gm ((sound_refs g.wf (us := [p]) (by simp)).mono gm) (fresh x _) ha
      exact ⟨rfl, put_step g hp (gm.trans g2) s2 h1.2 rfl⟩
  | prependNew p x =>
    obtain ⟨v, hp, rfl⟩ := Option.map_eq_some_iff.mp ho
    have gm := make_grown h [x]
    refine ⟨rfl, put_step g hp gm (sound_append (rs := [_]) (fresh x _) ((sound_refs g.wf (by simp)).mono gm))
      (List.nodup_cons.mpr ⟨notin p, g.nodup p v hp⟩) ?_⟩
    show _ :: Heap.vals _ _ = _
    rw [vals_grown gm (g.wf p), view_get g hp, item_make]
    rfl
  | insertNew p i x =>
    obtain ⟨v, hp, rfl⟩ := Option.map_eq_some_iff.mp ho
    have gm := make_grown h [x]
    refine ⟨rfl, put_step g hp gm ?_ (nodup_pyInsert (g.nodup p v hp) (notin p)) ?_⟩
    · intro r hr
      rcases mem_pyInsert hr with rfl | hr
      · exact fresh x _ _ (by simp)
      · exact (sound_refs g.wf (by simp)).mono gm r hr
    · unfold Heap.vals
      rw [map_pyInsert, item_make]
      show pyInsert (Heap.vals _ _) _ _ = _
      rw [vals_grown gm (g.wf p), view_get g hp]
      rfl
  | setNew p i x =>
    obtain ⟨v, hp, rfl⟩ := Option.map_eq_some_iff.mp ho
    have gm := make_grown h [x]
    simp only [POp.exec, Heap.setNew, g.val p v hp]
    unfold Packet.setItem
    rcases hc : v.checkIdx i with e | k
    · exact ⟨rfl, g⟩
    · have key : AgreeV ((h.make [x]).1.setRefs p ((h.refs p).set k h.objs.length)) (s.put p (.ok (v.set k x))).1 := by
        refine put_step g hp gm ?_ (nodup_set (g.nodup p v hp) (notin p)) ?_
        · intro r hr
          rcases List.mem_or_eq_of_mem_set hr with hr | rfl
          · exact (sound_refs g.wf (by simp)).mono gm r hr
          · exact fresh x _ _ (by simp)
        · unfold Heap.vals
          rw [List.map_set, item_make]
          show (Heap.vals _ _).set _ _ = _
          rw [vals_grown gm (g.wf p), view_get g hp]
      cases x with
      | hdr y => exact ⟨rfl, key⟩
      | bytes y => exact ⟨rfl, key⟩
      | other y => exact ⟨rfl, g⟩
  | del p i =>
    obtain ⟨v, hp, rfl⟩ := Option.map_eq_some_iff.mp ho
    simp only [POp.exec, Heap.del, g.val p v hp]
    unfold Packet.delItem
    rcases hc : v.checkIdx i with e | k
    · exact ⟨rfl, g⟩
    · refine ⟨rfl, put_step g hp (Grown.refl h)
        (fun r hr => sound_refs g.wf (us := [p]) (by simp) r (List.mem_of_mem_eraseIdx hr))
        ((g.nodup p v hp).sublist (List.eraseIdx_sublist _ _)) ?_⟩
      unfold Heap.vals
      rw [map_eraseIdx]
      show (Heap.vals _ _).eraseIdx _ = _
      rw [view_get g hp]
  | delCls p c =>
    obtain ⟨v, hp, rfl⟩ := Option.map_eq_some_iff.mp ho
    simp only [POp.exec, Heap.delCls, g.val p v hp]
    unfold Packet.delClass
    rcases hc : v.headerIndex c 0 with e | k
    · exact ⟨rfl, g⟩
    · simp only [bind_ok]
      by_cases hk : k = -1
      · rw [if_pos hk, if_pos hk]
        exact ⟨rfl, g⟩
      · rw [if_neg hk, if_neg hk]
        refine ⟨rfl, put_step g hp (Grown.refl h)
          (fun r hr => sound_refs g.wf (us := [p]) (by simp) r (List.mem_of_mem_eraseIdx hr))
          ((g.nodup p v hp).sublist (List.eraseIdx_sublist _ _)) ?_⟩
        unfold Heap.vals
        rw [map_eraseIdx]
        show (Heap.vals _ _).eraseIdx _ = _
        rw [view_get g hp]
  | change p i f =>
    obtain ⟨v, hp, rfl⟩ := Option.map_eq_some_iff.mp ho
    simp only [POp.exec, Heap.change, g.val p v hp]
    unfold changeValue
    rcases hc : v.checkIdx i with e | k
    · exact ⟨rfl, by rw [set_self hp]; exact g⟩
    · have hk := checkIdx_lt hc
      have hk' : k < (h.refs p).length := by rw [← length_view, g.val p v hp]; exact hk
      have hrk : (h.refs p)[k]? = some (h.refs p)[k] := List.getElem?_eq_getElem hk'
      have hvk : v[k]? = some (h.item (h.refs p)[k]) := by
        have := g.val p v hp
        subst this
        simp [Heap.view, Heap.vals, hrk]
      have hm : (h.refs p)[k] ∈ h.refs p := List.getElem_mem _
      simp only [hrk, hvk]
      cases hi : h.item (h.refs p)[k] with
      | hdr x =>
        refine ⟨rfl, touch_step g hp ⟨rfl, by simp [Heap.setObj], ?_⟩ ?_⟩
        · intro r hr
          rw [item_setObj, if_neg]
          rintro ⟨rfl, _⟩
          exact hr p (by simp) hm
        · rw [vals_setObj (g.nodup p v hp) hrk (g.wf p _ hm), view_get g hp]
      | bytes x => exact ⟨rfl, by rw [set_self hp]; exact g⟩
      | other x => exact ⟨rfl, by rw [set_self hp]; exact g⟩
  | ser p =>
    obtain ⟨v, hp, rfl⟩ := Option.map_eq_some_iff.mp ho
    have hv := view_get g hp
    obtain ⟨a, b⟩ := serLoop_vals (g.nodup p v hp) (h.refs p).length h [] (Nat.le_refl _) (g.wf p)
    have hl : (h.refs p).length = v.length := by rw [← length_view, g.val p v hp]
    rw [hv, hl] at a b
    refine ⟨?_, touch_step g hp (serLoop_touched _ h h [] ⟨rfl, rfl, fun _ _ => rfl⟩
      (fun r hr => ⟨p, by simp, hr⟩)) ?_⟩
    · simp only [POp.exec, Heap.toBytes, Packet.toBytes, hl, b]
    · show (Heap.serLoop (h.refs p) (h.refs p).length h []).1.vals _ = _
      rw [hl]
      exact a
  | look p =>
    obtain ⟨v, hp, rfl⟩ := Option.map_eq_some_iff.mp ho
    exact ⟨by simp only [POp.exec, g.val p v hp], g⟩
  | copy p =>
    obtain ⟨v, hp, rfl⟩ := Option.map_eq_some_iff.mp ho
    obtain ⟨gc, sc⟩ := copy_sound h [] (h.refs p)
    refine ⟨rfl, make_step g gc sc (copyRefs_nodup (g.nodup p v hp) (by simp)).1 ?_⟩
    rw [copyRefs_vals (g.wf p) (by simp), view_get g hp]
  | plus p q =>
    obtain ⟨v, hp, ho⟩ := Option.bind_eq_some_iff.mp ho
    obtain ⟨u, hq, rfl⟩ := Option.map_eq_some_iff.mp ho
    obtain ⟨gc, sc⟩ := copy_sound h [q] (h.refs p)
    have hnd := copyRefs_nodup (h := h) (memo := []) (g.nodup p v hp) (by simp)
    have h1 := appendAll_vals (h := (h.copyRefs [] (h.refs p)).1) (rs := (h.copyRefs [] (h.refs p)).2) (xs := h.refs q)
      (sound_lt sc) (fun r hr => Nat.lt_of_lt_of_le (g.wf q r hr) gc.len) hnd.1 (g.nodup q u hq)
      (fun r hr hm => absurd (hnd.2 r hm) (by have := g.wf q r hr; omega))
    rw [copyRefs_vals (g.wf p) (by simp), vals_grown gc (g.wf q), view_get g hp, view_get g hq] at h1
    have hf := exec_frame h g.wf (.plus p q)
    simp only [POp.exec, Heap.plus] at hf ⊢
    rcases ha : (h.copyRefs [] (h.refs p)).1.appendAll (h.copyRefs [] (h.refs p)).2 (h.refs q) with e | ⟨h2, rs⟩
    · rw [ha] at h1
      rw [h1]
      exact ⟨rfl, g⟩
    · rw [ha] at h1 hf
      rw [h1.1]
      obtain ⟨g2, s2⟩ := appendAll_sound gc sc ((sound_refs g.wf (by simp)).mono gc) ha
      have hl : h2.pkts.length = h.pkts.length := by rw [(gc.trans g2).pkts]
      refine ⟨rfl, agree_step h.pkts.length g hf ?_ ?_ (Or.inr (Nat.le_refl _)) ?_ ?_⟩
      · intro q' hq'
        rw [List.mem_singleton.mp hq']
        exact ⟨u, hq⟩
      · simp [VStore.make, VStore.drop, Heap.newPkt, hl, g.len]
      · intro q' u' hu' hne
        simp only [VStore.make, VStore.drop] at hu'
        rw [get_set] at hu'
        split at hu'
        · cases hu'
        · rename_i hx
          rw [get_snoc, if_neg (by rw [g.len]; exact hne)] at hu'
          refine ⟨hu', ?_⟩
          intro hm
          rw [List.mem_singleton.mp hm] at hx
          exact hx ⟨rfl, by rw [List.length_append]; have := get_lt hq; omega⟩
      · intro u' hu'
        simp only [VStore.make, VStore.drop] at hu'
        rw [get_set, if_neg (by have := get_lt hq; have := g.len; omega), get_snoc, if_pos g.len.symm] at hu'
        cases hu'
        unfold Heap.view
        rw [refs_newPkt, if_pos hl.symm]
        exact ⟨rfl, h1.2⟩
  | plusNew p x =>
    obtain ⟨v, hp, rfl⟩ := Option.map_eq_some_iff.mp ho
    obtain ⟨gc, sc⟩ := copy_sound h [] (h.refs p)
    have gm := make_grown (h.copyRefs [] (h.refs p)).1 [x]
    have h1 := append_vals (h := ((h.copyRefs [] (h.refs p)).1.make [x]).1) (rs := (h.copyRefs [] (h.refs p)).2)
      (x := (h.copyRefs [] (h.refs p)).1.objs.length)
      (sound_lt (sc.mono gm)) (by simp [Heap.make]) (copyRefs_nodup (g.nodup p v hp) (by simp)).1
      (fun hm => absurd (sound_lt sc _ hm) (by omega))
    rw [vals_grown gm (sound_lt sc), copyRefs_vals (g.wf p) (by simp), view_get g hp, item_make] at h1
    simp only [POp.exec, Heap.plusNew]
    rcases ha : ((h.copyRefs [] (h.refs p)).1.make [x]).1.append (h.copyRefs [] (h.refs p)).2
        (h.copyRefs [] (h.refs p)).1.objs.length with e | ⟨h2, rs⟩
    · rw [ha] at h1
      rw [h1]
      exact ⟨rfl, g⟩
    · rw [ha] at h1
      rw [h1.1]
      obtain ⟨g2, s2⟩ := append_sound (gc.trans gm) (sc.mono gm) (sound_one (by simp [Heap.make]) (Or.inr gc.len)) ha
      exact ⟨rfl, make_step g ((gc.trans gm).trans g2) s2 h1.2 rfl⟩
  | share p q i =>
    simp only [POp.value] at ho
    split at ho
    · cases ho
    · rename_i hpq
      obtain ⟨v, hp, ho⟩ := Option.bind_eq_some_iff.mp ho
      obtain ⟨u, hq, rfl⟩ := Option.map_eq_some_iff.mp ho
      have hf := exec_frame h g.wf (.share p q i)
      rw [at_value g hq i]
      simp only [POp.exec, Heap.share] at hf ⊢
      rcases hat : h.at q i with e | x
      · exact ⟨rfl, g⟩
      · have hx := at_mem hat
        have h1 := append_vals (h := h) (rs := h.refs p) (x := x) (g.wf p) (g.wf q x hx) (g.nodup p v hp)
          (fun hm => g.apart p q v u hp hq hpq x hm hx)
        rw [view_get g hp] at h1
        rw [hat] at hf
        simp only [bind_ok, show h.item <$> (Except.ok x : Res Nat) = .ok (h.item x) from rfl] at hf ⊢
        rcases ha : h.append (h.refs p) x with e | ⟨h2, rs⟩
        · rw [ha] at h1
          rw [h1]
          exact ⟨rfl, g⟩
        · rw [ha] at h1 hf
          rw [h1.1]
          obtain ⟨g2, _⟩ := append_sound (us := [p, q]) (Grown.refl h) (sound_refs g.wf (by simp))
            (fun y hy => sound_refs g.wf (us := [p, q]) (p := q) (by simp) y (by
              rw [List.mem_singleton.mp hy]; exact hx)) ha
          have hlp := get_lt hp
          have hlq := get_lt hq
          refine ⟨rfl, agree_step p g hf ?_ ?_ (Or.inl (by simp [POp.touches])) ?_ ?_⟩
          · intro q' hq'
            simp only [POp.touches, List.mem_cons, List.not_mem_nil, or_false] at hq'
            rcases hq' with rfl | rfl
            · exact ⟨v, hp⟩
            · exact ⟨u, hq⟩
          · simp [VStore.put, VStore.drop, Heap.setRefs, g2.pkts, g.len]
          · intro q' u' hu' hne
            simp only [VStore.put, VStore.drop] at hu'
            rw [get_set] at hu'
            split at hu'
            · cases hu'
            · rename_i hx'
              rw [get_set, if_neg (fun e => hne e.1.symm)] at hu'
              refine ⟨hu', ?_⟩
              simp only [POp.touches, List.mem_cons, List.not_mem_nil, or_false, not_or]
              refine ⟨hne, ?_⟩
              rintro rfl
              exact hx' ⟨rfl, by simpa using hlq⟩
          · intro u' hu'
            simp only [VStore.put, VStore.drop] at hu'
            rw [get_set, if_neg (fun e => hpq e.1.symm), get_set, if_pos ⟨rfl, hlp⟩] at hu'
            cases hu'
            unfold Heap.view
            rw [refs_setRefs, if_pos ⟨rfl, by rw [g2.pkts, ← g.len]; exact hlp⟩]
            exact ⟨rfl, h1.2⟩
  | join p i q j =>
    simp only [POp.value] at ho
    split at ho
    · cases ho
    · rename_i hpq
      obtain ⟨v, hp, ho⟩ := Option.bind_eq_some_iff.mp ho
      obtain ⟨u, hq, rfl⟩ := Option.map_eq_some_iff.mp ho
      have hf := exec_frame h g.wf (.join p i q j)
      rw [at_value g hp i, at_value g hq j]
      simp only [POp.exec, Heap.join] at hf ⊢
      rcases hat : h.at p i with e | x
      · exact ⟨rfl, g⟩
      · rcases hat' : h.at q j with e | y
        · exact ⟨rfl, g⟩
        · have hx := at_mem hat
          have hy := at_mem hat'
          rw [hat, hat'] at hf
          simp only [bind_ok, show ∀ z, h.item <$> (Except.ok z : Res Nat) = .ok (h.item z) from fun _ => rfl] at hf ⊢
          unfold joinValue
          cases hix : h.item x with
          | bytes b => exact ⟨rfl, g⟩
          | other b => exact ⟨rfl, g⟩
          | hdr hx' =>
            rw [hix] at hf
            have e1 : h.append [] x = .ok (h, [x]) := by
              unfold Heap.append
              rw [hix]
              rfl
            have e2 : Packet.add [] (.hdr hx') = .ok (h.vals [x]) := by
              simp [Packet.add, Heap.vals, hix]
            simp only [e1, e2, bind_ok] at hf ⊢
            have hxy : y ∉ [x] := by
              intro hm
              rw [List.mem_singleton.mp hm] at hy
              exact g.apart p q v u hp hq hpq x hx hy
            have h1 := append_vals (h := h) (rs := [x]) (x := y)
              (fun r hr => by rw [List.mem_singleton.mp hr]; exact g.wf p x hx) (g.wf q y hy) (by simp) hxy
            rcases ha : h.append [x] y with e | ⟨h2, rs⟩
            · rw [ha] at h1
              rw [h1]
              exact ⟨rfl, g⟩
            · rw [ha] at h1 hf
              rw [h1.1]
              have g2 : Grown h h2 := by
                unfold Heap.append at ha
                split at ha
                · cases ha; exact make_grown h _
                · cases ha; exact Grown.refl h
                · cases ha
              have hl : h2.pkts.length = h.pkts.length := by rw [g2.pkts]
              have hlp := get_lt hp
              have hlq := get_lt hq
              refine ⟨rfl, agree_step h.pkts.length g hf ?_ ?_ (Or.inr (Nat.le_refl _)) ?_ ?_⟩
              · intro q' hq'
                simp only [POp.touches, List.mem_cons, List.not_mem_nil, or_false] at hq'
                rcases hq' with rfl | rfl
                · exact ⟨v, hp⟩
                · exact ⟨u, hq⟩
              · simp [VStore.make, VStore.drop, Heap.newPkt, hl, g.len]
              · intro q' u' hu' hne
                simp only [VStore.make, VStore.drop] at hu'
                rw [get_set] at hu'
                split at hu'
                · cases hu'
                · rename_i ha'
                  rw [get_set] at hu'
                  split at hu'
                  · cases hu'
                  · rename_i hb'
                    rw [get_snoc, if_neg (by rw [g.len]; exact hne)] at hu'
                    refine ⟨hu', ?_⟩
                    simp only [POp.touches, List.mem_cons, List.not_mem_nil, or_false, not_or]
                    constructor
                    · rintro rfl
                      exact ha' ⟨rfl, by simp; omega⟩
                    · rintro rfl
                      exact hb' ⟨rfl, by simp; omega⟩
              · intro u' hu'
                have hgl := g.len
                simp only [VStore.make, VStore.drop] at hu'
                rw [get_set, if_neg (by omega), get_set, if_neg (by omega), get_snoc, if_pos g.len.symm] at hu'
                cases hu'
                unfold Heap.view
                rw [refs_newPkt, if_pos hl.symm]
                exact ⟨rfl, h1.2⟩

/-- **C151**, partial: every program that does not use a packet any more after its headers were given to
another one, and does not put a header into the packet it is in, sees exactly what it would see if packets were values; the
values change as `Verif/Packet.lean` says.  Missing are programs that go on using a packet after it
was the right operand of `+`, for which this is false. -/
theorem packets_are_values_partial (os : List POp) (s : VStore) (rs : List (Res Shown))
    (hv : valueAll [] os = some (s, rs)) : (execAll ⟨[], []⟩ os).2 = rs ∧
      ∀ p v, s.get p = some v → (execAll ⟨[], []⟩ os).1.view p = v := by
  have main : ∀ (os : List POp) (h : Heap) (s s' : VStore) (rs : List (Res Shown)), AgreeV h s →
      valueAll s os = some (s', rs) → (execAll h os).2 = rs ∧ AgreeV (execAll h os).1 s' := by
    intro os
    induction os with
    | nil => intro h s s' rs g hv; cases hv; exact ⟨rfl, g⟩
    | cons o os ih =>
      intro h s s' rs g hv
      obtain ⟨r, h1, h2⟩ := Option.bind_eq_some_iff.mp hv
      obtain ⟨t, h3, h4⟩ := Option.map_eq_some_iff.mp h2
      cases h4
      obtain ⟨a, b⟩ := exec_value g h1
      obtain ⟨c, d⟩ := ih _ _ _ _ b h3
      exact ⟨by rw [← c, ← a]; rfl, d⟩
  have g0 : AgreeV ⟨[], []⟩ [] := by
    refine ⟨rfl, ?_, ?_, ?_, ?_⟩
    · intro p r hr
      simp [Heap.refs] at hr
    · intro p v hp
      simp [VStore.get] at hp
    · intro p v hp
      simp [VStore.get] at hp
    · intro p q v u hp
      simp [VStore.get] at hp
  obtain ⟨a, b⟩ := main os _ _ _ _ g0 hv
  exact ⟨a, b.val⟩

/-! ## The right operand of `+` -/

theorem appendAll_hdrs {xs : List Nat} : ∀ {h : Heap} {rs : List Nat}, (∀ x ∈ xs, ∃ y, h.item x = .hdr y) →
    h.appendAll rs xs = .ok (h, rs ++ xs) := by
  induction xs with
  | nil => intro h rs _; simp [Heap.appendAll]
  | cons x xs ih =>
    intro h rs hx
    obtain ⟨y, hy⟩ := hx x (by simp)
    have e : h.append rs x = .ok (h, rs ++ [x]) := by
      unfold Heap.append
      rw [hy]
    unfold Heap.appendAll
    rw [e, bind_ok, ih (fun z hz => hx z (List.mem_cons_of_mem _ hz)), List.append_assoc]
    rfl

theorem copyRefs_length {rs : List Nat} : ∀ {h : Heap} {memo : List (Nat × Nat)}, (h.copyRefs memo rs).2.length = rs.length := by
  induction rs with
  | nil => intro h memo; rfl
  | cons x rs ih =>
    intro h memo
    unfold Heap.copyRefs
    split
    · simp [ih]
    · simp [ih]

/-- The negation of **C151**: for all packets `p` and `q`, a header of `q` that is changed in `p + q` is
changed in `q`. -/
theorem sum_changes_operand_violated (h : Heap) (w : h.WF) (p q : Nat) (hp : p < h.pkts.length) (hq : q < h.pkts.length)
    (hh : ∀ x ∈ h.view q, ∃ y, x = .hdr y) (i : Nat) (x : Hdr) (hi : (h.view q)[i]? = some (.hdr x))
    (f : Hdr → Hdr × Res Unit) :
    ((POp.plus p q).exec h).2 = .ok .nothing ∧
      ((execAll h [.plus p q, .change h.pkts.length ((h.view p).length + i : Nat) f]).1.view q)[i]? = some (.hdr (f x).1) := by
  obtain ⟨gc, _⟩ := copy_sound h [] (h.refs p)
  have ha := appendAll_hdrs (h := (h.copyRefs [] (h.refs p)).1) (rs := (h.copyRefs [] (h.refs p)).2) (xs := h.refs q) (by
    intro r hr
    rw [gc.item (w q r hr)]
    exact hh _ (List.mem_map.mpr ⟨r, hr, rfl⟩))
  have e1 : (POp.plus p q).exec h = ((h.copyRefs [] (h.refs p)).1.newPkt ((h.copyRefs [] (h.refs p)).2 ++ h.refs q), .ok .nothing) := by
    simp only [POp.exec, Heap.plus, ha]
  refine ⟨by rw [e1], ?_⟩
  simp only [execAll, e1]
  have hpl : (h.copyRefs [] (h.refs p)).1.pkts.length = h.pkts.length := by rw [gc.pkts]
  generalize hh1 : (h.copyRefs [] (h.refs p)).1.newPkt ((h.copyRefs [] (h.refs p)).2 ++ h.refs q) = h1
  have hrn : h1.refs h.pkts.length = (h.copyRefs [] (h.refs p)).2 ++ h.refs q := by
    rw [← hh1, refs_newPkt, if_pos hpl.symm]
  have hrq : h1.refs q = h.refs q := by
    rw [← hh1, refs_newPkt, if_neg (by omega), gc.refs]
  have hit : ∀ r, r < h.objs.length → h1.item r = h.item r := by
    intro r hr
    rw [← hh1]
    exact gc.item hr
  have hol : h.objs.length ≤ h1.objs.length := by rw [← hh1]; exact gc.len
  obtain ⟨r, hr, hx⟩ : ∃ r, (h.refs q)[i]? = some r ∧ h.item r = .hdr x := by
    simpa [Heap.view, Heap.vals] using hi
  have hil := (List.getElem?_eq_some_iff.mp hr).1
  have hrl := w q r (List.mem_of_getElem? hr)
  have hcl : (h.copyRefs [] (h.refs p)).2.length = (h.view p).length := by rw [copyRefs_length, length_view]
  have hck : (h1.view h.pkts.length).checkIdx ((h.view p).length + i : Nat) = .ok ((h.view p).length + i) := by
    have hvl : (h1.view h.pkts.length).length = (h.view p).length + (h.refs q).length := by
      rw [length_view, hrn, List.length_append, hcl]
    have hz : ¬ (((h.view p).length + i : Nat) : Int) < 0 := by omega
    simp only [Packet.checkIdx, if_neg hz]
    rw [if_pos (by omega), Int.toNat_natCast]
  have hrk : (h1.refs h.pkts.length)[(h.view p).length + i]? = some r := by
    rw [hrn, ← hcl, List.getElem?_append_right (by omega), Nat.add_sub_cancel_left]
    exact hr
  simp only [POp.exec, Heap.change, hck, hrk, hit r hrl, hx]
  unfold Heap.view Heap.vals
  rw [List.getElem?_map, show (h1.setObj r (.hdr (f x).1)).refs q = h1.refs q from rfl, hrq, hr]
  rw [Option.map_some, item_setObj, if_pos ⟨rfl, by omega⟩]

/-- A packet with a UDP header is added to one with Ethernet and IPv4 headers. -/
def exSum : List POp :=
  [.new, .addNew 0 (.hdr (.eth ⟨⟨[1, 2, 3, 4, 5, 6]⟩, ⟨[2, 0, 0, 0, 0, 1]⟩, 0x0800⟩)),
   .addNew 0 (.hdr (.ip4 ⟨0, 0, 7, 2, 0, 64, 17, .v4 0x0a000001, .v4 0x0a000002, []⟩)),
   .new, .addNew 1 (.hdr (.udp ⟨5353, 53, 0, 0⟩)), .plus 0 1]

/-- The negation of **C151**: serialising `p + q` changes `q`: its UDP header gets a length and a checksum. -/
theorem sum_serialised_violated :
    (execAll ⟨[], []⟩ exSum).1.view 1 = [.hdr (.udp ⟨5353, 53, 0, 0⟩)] ∧
    (execAll ⟨[], []⟩ (exSum ++ [.ser 2])).1.view 1 ≠ [.hdr (.udp ⟨5353, 53, 0, 0⟩)] := by decide +kernel

/-- `packets_are_values_partial`, `packets_apart`, `copy_independent`: a sum whose right operand is not used any more, a
copy, changes of the copy and of the sum. -/
example : (valueAll [] (exSum ++ [.copy 2, .ser 2, .del 3 0, .look 0])).isSome = true ∧
    (execAll ⟨[], []⟩ (exSum ++ [.copy 2, .ser 2, .del 3 0])).1.view 0 = (execAll ⟨[], []⟩ exSum).1.view 0 ∧
    ((execAll ⟨[], []⟩ (exSum ++ [.copy 2, .ser 2, .del 3 0])).1.view 3).length = 2 ∧
    ((execAll ⟨[], []⟩ (exSum ++ [.copy 2, .ser 2, .del 3 0])).1.view 2).length = 3 := by decide +kernel

end SY.Props
