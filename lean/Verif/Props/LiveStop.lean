import Verif.LiveStop

/-! # Stopping live networks: properties C219, C220 -/

namespace SY.Props

open SY

@[simp] theorem fnSet_self {α : Type} (f : Nat → α) (d : Nat) (v : α) : fnSet f d v d = v := by simp [fnSet]

theorem fnSet_of_ne {α : Type} (f : Nat → α) {d x : Nat} (v : α) (h : x ≠ d) : fnSet f d v x = f x := by
  simp [fnSet, h]

theorem fnSet_apply {α : Type} (f : Nat → α) (d x : Nat) (v : α) : fnSet f d v x = if x = d then v else f x := rfl

/-- What holds in every history holds by induction over its steps. -/
theorem liveProc_invariant {P : LiveProc → Prop} {Q : StopEv → Prop}
    (hstep : ∀ s s' e, P s → Q e → s.step e = some s' → P s') :
    ∀ {es : List StopEv} {s s' : LiveProc}, P s → (∀ e ∈ es, Q e) → s.run es = some s' → P s' := by
  intro es
  induction es with
  | nil => intro s s' hp _ h; simp only [LiveProc.run, Option.some.injEq] at h; exact h ▸ hp
  | cons e es ih =>
    intro s s' hp hq h
    simp only [LiveProc.run] at h
    cases hs : s.step e with
    | none => rw [hs] at h; cases h
    | some t =>
      rw [hs] at h
      exact ih (hstep s t e hp (hq e (by simp)) hs) (fun e' he => hq e' (by simp [he])) h

/-! ## Receivers and closed devices -/

/-- The frames of one device in a history. -/
def framesOf (d : Nat) (l : List (Nat × Frame)) : List Frame := (l.filter fun x => x.1 = d).map (·.2)

theorem framesOf_append (d : Nat) (l : List (Nat × Frame)) (x : Nat) (f : Frame) :
    framesOf d (l ++ [(x, f)]) = framesOf d l ++ if x = d then [f] else [] := by
  by_cases h : x = d <;> simp [framesOf, List.filter_append, h]

/-- The frame a receiver got and did not put into the queue yet. -/
def stillHeld : ReceiverAt → List Frame
  | .holding f => [f]
  | _ => []

/-- The invariant of every history. -/
structure StopInv (s : LiveProc) : Prop where
  /-- the devices of the networks were made -/
  known : ∀ all ∈ s.nets, ∀ d ∈ all, d < s.made
  closedMade : ∀ d ∈ s.closed, d < s.made
  closedEnded : ∀ d ∈ s.closed, s.recv d = .ended
  once : s.closed.Nodup
  entered : ∀ c all, s.call c = .entered all → all ∈ s.nets
  joining : ∀ c all left, s.call c = .joining all left → all ∈ s.nets ∧ ∀ d ∈ all, d ∈ left ∨ s.recv d = .ended
  closing : ∀ c left, s.call c = .closing left → ∀ d ∈ left, d < s.made ∧ s.recv d = .ended
  frames : ∀ d, framesOf d s.captured = framesOf d s.queued ++ stillHeld (s.recv d)

theorem stopInv_init : StopInv LiveProc.init := by
  constructor <;> simp [LiveProc.init, framesOf, stillHeld]

/-- A step of a receiver that has not ended keeps the invariant. -/
theorem stopInv_recv {s : LiveProc} (hi : StopInv s) {d : Nat} {v : ReceiverAt} (hne : s.recv d ≠ .ended)
    {cap que : List (Nat × Frame)}
    (hf : ∀ x, framesOf x cap = framesOf x que ++ stillHeld (fnSet s.recv d v x)) :
    StopInv { s with recv := fnSet s.recv d v, captured := cap, queued := que } := by
  have key : ∀ x, s.recv x = .ended → fnSet s.recv d v x = .ended := by
    intro x hx
    rw [fnSet_of_ne]
    · exact hx
    · rintro rfl; exact hne hx
  exact ⟨hi.known, hi.closedMade, fun x hx => key x (hi.closedEnded x hx), hi.once, hi.entered,
    fun c all left h => ⟨(hi.joining c all left h).1, fun x hx => ((hi.joining c all left h).2 x hx).imp id (key x)⟩,
    fun c left h x hx => ⟨(hi.closing c left h x hx).1, key x (hi.closing c left h x hx).2⟩, hf⟩

/-- Setting where a caller is keeps the invariant if what is said about that place holds. -/
theorem stopInv_call {s : LiveProc} (hi : StopInv s) (r : Bool) (c : Nat) (v : StopAt)
    (he : ∀ all, v = .entered all → all ∈ s.nets)
    (hj : ∀ all left, v = .joining all left → all ∈ s.nets ∧ ∀ d ∈ all, d ∈ left ∨ s.recv d = .ended)
    (hc : ∀ left, v = .closing left → ∀ d ∈ left, d < s.made ∧ s.recv d = .ended) :
    StopInv { s with running := r, call := fnSet s.call c v } := by
  refine ⟨hi.known, hi.closedMade, hi.closedEnded, hi.once, ?_, ?_, ?_, hi.frames⟩
  · intro x all h
    simp only [fnSet_apply] at h
    split at h
    · exact he all h
    · exact hi.entered x all h
  · intro x all left h
    simp only [fnSet_apply] at h
    split at h
    · exact hj all left h
    · exact hi.joining x all left h
  · intro x left h
    simp only [fnSet_apply] at h
    split at h
    · exact hc left h
    · exact hi.closing x left h

theorem stopInv_crash {s : LiveProc} (hi : StopInv s) : StopInv { s with crashed := true } :=
  ⟨hi.known, hi.closedMade, hi.closedEnded, hi.once, hi.entered, hi.joining, hi.closing, hi.frames⟩

theorem stopInv_flag {s : LiveProc} (hi : StopInv s) (b : Bool) : StopInv { s with running := b } :=
  ⟨hi.known, hi.closedMade, hi.closedEnded, hi.once, hi.entered, hi.joining, hi.closing, hi.frames⟩

/-- The frames do not change when a receiver that holds none moves to a place where it holds none. -/
theorem frames_move {s : LiveProc} (hi : StopInv s) {d : Nat} {v : ReceiverAt} (h1 : stillHeld (s.recv d) = [])
    (h2 : stillHeld v = []) (x : Nat) :
    framesOf x s.captured = framesOf x s.queued ++ stillHeld (fnSet s.recv d v x) := by
  rw [hi.frames x, fnSet_apply]
  by_cases hx : x = d
  · rw [if_pos hx, h2, hx, h1]
  · rw [if_neg hx]

theorem stopInv_make {s : LiveProc} (hi : StopInv s) (k : Nat)
    (hfree : ∀ d, s.made ≤ d → stillHeld (s.recv d) = []) :
    StopInv { s with
      running := true, nets := s.nets ++ [List.range' s.made k], made := s.made + k,
      recv := fun d => if s.made ≤ d ∧ d < s.made + k then .top else s.recv d } := by
  have old : ∀ d, d < s.made → (if s.made ≤ d ∧ d < s.made + k then ReceiverAt.top else s.recv d) = s.recv d := by
    intro d hd; rw [if_neg (by omega)]
  refine ⟨?_, ?_, ?_, hi.once, ?_, ?_, ?_, ?_⟩
  · intro all hall d hd
    rcases List.mem_append.mp hall with h | h
    · exact Nat.lt_of_lt_of_le (hi.known all h d hd) (Nat.le_add_right _ _)
    · simp only [List.mem_singleton] at h
      subst h
      simp only [List.mem_range'_1] at hd
      exact hd.2
  · intro d hd; exact Nat.lt_of_lt_of_le (hi.closedMade d hd) (Nat.le_add_right _ _)
  · intro d hd
    exact (old d (hi.closedMade d hd)).trans (hi.closedEnded d hd)
  · intro c all h; exact List.mem_append_left _ (hi.entered c all h)
  · intro c all left h
    obtain ⟨h1, h2⟩ := hi.joining c all left h
    refine ⟨List.mem_append_left _ h1, fun d hd => (h2 d hd).imp id fun he => ?_⟩
    exact (old d (hi.known all h1 d hd)).trans he
  · intro c left h d hd
    obtain ⟨h1, h2⟩ := hi.closing c left h d hd
    exact ⟨Nat.lt_of_lt_of_le h1 (Nat.le_add_right _ _), (old d h1).trans h2⟩
  · intro d
    show framesOf d s.captured = framesOf d s.queued ++ stillHeld (if s.made ≤ d ∧ d < s.made + k then .top else s.recv d)
    rw [hi.frames d]
    by_cases h : s.made ≤ d ∧ d < s.made + k
    · rw [if_pos h, hfree d h.1]; rfl
    · rw [if_neg h]

/-- The invariant with the fact that only devices that were made have receivers at work. -/
structure StopInv' (s : LiveProc) : Prop extends StopInv s where
  fresh : ∀ d, s.made ≤ d → s.recv d = .ended

theorem fresh_set {s : LiveProc} (h : ∀ d, s.made ≤ d → s.recv d = .ended) {d : Nat} (hne : s.recv d ≠ .ended)
    (v : ReceiverAt) (x : Nat) (hx : s.made ≤ x) : fnSet s.recv d v x = .ended := by
  rw [fnSet_of_ne]
  · exact h x hx
  · rintro rfl; exact hne (h _ hx)

theorem stopInv_step (s s' : LiveProc) (e : StopEv) (hi : StopInv' s) (hs : s.step e = some s') : StopInv' s' := by
  have hi0 := hi.toStopInv
  cases e with
  | make k =>
    simp only [LiveProc.step, Option.some.injEq] at hs
    subst hs
    refine ⟨stopInv_make hi0 k (fun d hd => by rw [hi.fresh d hd]; rfl), ?_⟩
    intro d hd
    show (if s.made ≤ d ∧ d < s.made + k then ReceiverAt.top else s.recv d) = .ended
    have hd' : s.made + k ≤ d := hd
    rw [if_neg (by omega)]
    exact hi.fresh d (by omega)
  | check d =>
    cases hr : s.recv d <;> simp only [LiveProc.step, hr, Option.some.injEq, reduceCtorEq] at hs
    subst hs
    have hne : s.recv d ≠ .ended := by rw [hr]; simp
    exact ⟨stopInv_recv hi0 hne (frames_move hi0 (by rw [hr]; rfl) (by split <;> rfl)),
      fresh_set hi.fresh hne _⟩
  | poll d r =>
    cases hr : s.recv d <;> simp only [LiveProc.step, hr, reduceCtorEq] at hs
    have hne : s.recv d ≠ .ended := by rw [hr]; simp
    split at hs
    · simp only [Option.some.injEq] at hs; subst hs
      exact ⟨stopInv_crash hi0, hi.fresh⟩
    · rcases r with _ | _ | f <;> simp only [Option.some.injEq] at hs <;> subst hs
      · exact ⟨stopInv_recv hi0 hne (frames_move hi0 (by rw [hr]; rfl) rfl), fresh_set hi.fresh hne _⟩
      · exact ⟨stopInv_recv hi0 hne (frames_move hi0 (by rw [hr]; rfl) rfl), fresh_set hi.fresh hne _⟩
      · refine ⟨stopInv_recv hi0 hne ?_, fresh_set hi.fresh hne _⟩
        intro x
        rw [framesOf_append, hi0.frames x, fnSet_apply]
        by_cases hx : x = d
        · subst hx; rw [hr]; simp [stillHeld]
        · rw [if_neg hx, if_neg (Ne.symm hx), List.append_nil]
  | put d =>
    cases hr : s.recv d <;> simp only [LiveProc.step, hr, Option.some.injEq, reduceCtorEq] at hs
    rename_i f
    subst hs
    have hne : s.recv d ≠ .ended := by rw [hr]; simp
    refine ⟨stopInv_recv hi0 hne ?_, fresh_set hi.fresh hne _⟩
    intro x
    rw [framesOf_append, hi0.frames x, fnSet_apply]
    by_cases hx : x = d
    · subst hx; rw [hr]; simp [stillHeld]
    · rw [if_neg hx, if_neg (Ne.symm hx), List.append_nil]
  | stats d =>
    cases hr : s.recv d <;> simp only [LiveProc.step, hr, reduceCtorEq] at hs
    have hne : s.recv d ≠ .ended := by rw [hr]; simp
    split at hs <;> simp only [Option.some.injEq] at hs <;> subst hs
    · exact ⟨stopInv_crash hi0, hi.fresh⟩
    · exact ⟨stopInv_recv hi0 hne (frames_move hi0 (by rw [hr]; rfl) rfl), fresh_set hi.fresh hne _⟩
  | enter c n =>
    cases hc : s.call c <;> simp only [LiveProc.step, hc, reduceCtorEq] at hs
    cases hn : s.nets[n]? with
    | none => simp only [hn, reduceCtorEq] at hs
    | some all =>
      simp only [hn, Option.some.injEq] at hs
      subst hs
      by_cases hr : s.running = true
      · rw [if_pos hr]
        refine ⟨stopInv_call hi0 s.running c (.entered all) ?_ (by intro _ _ h; cases h) (by intro _ h; cases h), hi.fresh⟩
        intro a h
        cases h
        exact List.mem_of_getElem? hn
      · rw [if_neg hr]; exact hi
  | clear c =>
    cases hc : s.call c <;> simp only [LiveProc.step, hc, Option.some.injEq, reduceCtorEq] at hs
    subst hs
    refine ⟨stopInv_call hi0 false c _ (by intro _ h; cases h) ?_ (by intro _ h; cases h), hi.fresh⟩
    intro a l h
    cases h
    exact ⟨hi0.entered c _ hc, fun d hd => Or.inl hd⟩
  | join c =>
    cases hc : s.call c with
    | joining all left =>
      obtain ⟨h1, h2⟩ := hi0.joining c all left hc
      cases left with
      | nil =>
        simp only [LiveProc.step, hc, Option.some.injEq] at hs
        subst hs
        refine ⟨stopInv_call hi0 s.running c _ (by intro _ h; cases h) (by intro _ _ h; cases h) ?_, hi.fresh⟩
        intro l h d hd
        cases h
        exact ⟨hi0.known _ h1 d hd, ((h2 d hd).resolve_left (by simp))⟩
      | cons d ds =>
        simp only [LiveProc.step, hc] at hs
        split at hs
        · rename_i hd
          simp only [Option.some.injEq] at hs
          subst hs
          refine ⟨stopInv_call hi0 s.running c _ (by intro _ h; cases h) ?_ (by intro _ h; cases h), hi.fresh⟩
          intro a l h
          cases h
          refine ⟨h1, fun x hx => ?_⟩
          rcases h2 x hx with h | h
          · rcases List.mem_cons.mp h with h | h
            · exact Or.inr (h ▸ hd)
            · exact Or.inl h
          · exact Or.inr h
        · cases hs
    | _ => simp only [LiveProc.step, hc, reduceCtorEq] at hs
  | close c =>
    cases hc : s.call c with
    | closing left =>
      have h2 := hi0.closing c left hc
      cases left with
      | nil =>
        simp only [LiveProc.step, hc, Option.some.injEq] at hs
        subst hs
        exact ⟨stopInv_call hi0 s.running c _ (by intro _ h; cases h) (by intro _ _ h; cases h)
          (by intro _ h; cases h), hi.fresh⟩
      | cons d ds =>
        simp only [LiveProc.step, hc] at hs
        split at hs <;> simp only [Option.some.injEq] at hs <;> subst hs
        · exact ⟨stopInv_call hi0 s.running c _ (by intro _ h; cases h) (by intro _ _ h; cases h)
            (by intro _ h; cases h), hi.fresh⟩
        · rename_i hnd
          have hcall := stopInv_call hi0 s.running c (.closing ds) (by intro _ h; cases h) (by intro _ _ h; cases h)
            (by intro l h x hx; cases h; exact h2 x (List.mem_cons_of_mem _ hx))
          refine ⟨⟨hcall.known, ?_, ?_, List.nodup_cons.mpr ⟨hnd, hi0.once⟩, hcall.entered, hcall.joining,
            hcall.closing, hcall.frames⟩, hi.fresh⟩
          · intro x hx
            rcases List.mem_cons.mp hx with h | h
            · exact h ▸ (h2 d (by simp)).1
            · exact hi0.closedMade x h
          · intro x hx
            rcases List.mem_cons.mp hx with h | h
            · exact h ▸ (h2 d (by simp)).2
            · exact hi0.closedEnded x h
    | _ => simp only [LiveProc.step, hc, reduceCtorEq] at hs
  | signal i =>
    simp only [LiveProc.step, Option.some.injEq] at hs
    subst hs
    split
    · exact ⟨stopInv_flag hi0 false, hi.fresh⟩
    · exact hi
  | send d =>
    simp only [LiveProc.step, Option.some.injEq] at hs
    subst hs
    split
    · exact ⟨stopInv_crash hi0, hi.fresh⟩
    · exact hi

theorem stopInv_run {es : List StopEv} {s : LiveProc} (h : LiveProc.init.run es = some s) : StopInv' s :=
  liveProc_invariant (P := StopInv') (Q := fun _ => True) (fun s s' e hp _ hs => stopInv_step s s' e hp hs)
    ⟨stopInv_init, fun _ _ => rfl⟩ (fun _ _ => trivial) h

/-- A step that sends a packet. -/
def isSend : StopEv → Bool
  | .send _ => true
  | _ => false

/-- A step that makes a network. -/
def isMake : StopEv → Bool
  | .make _ => true
  | _ => false

theorem crashed_step (s s' : LiveProc) (e : StopEv) (hi : StopInv' s) (he : isSend e = false) (hs : s.step e = some s') :
    s'.crashed = s.crashed := by
  have hi0 := hi.toStopInv
  have open' : ∀ d, s.recv d ≠ .ended → d ∉ s.closed := fun d hd hc => hd (hi0.closedEnded d hc)
  cases e with
  | make k => simp only [LiveProc.step, Option.some.injEq] at hs; subst hs; rfl
  | check d =>
    cases hr : s.recv d <;> simp only [LiveProc.step, hr, Option.some.injEq, reduceCtorEq] at hs
    subst hs; rfl
  | poll d r =>
    cases hr : s.recv d <;> simp only [LiveProc.step, hr, reduceCtorEq] at hs
    rw [if_neg (open' d (by rw [hr]; simp))] at hs
    rcases r with _ | _ | f <;> simp only [Option.some.injEq] at hs <;> subst hs <;> rfl
  | put d =>
    cases hr : s.recv d <;> simp only [LiveProc.step, hr, Option.some.injEq, reduceCtorEq] at hs
    subst hs; rfl
  | stats d =>
    cases hr : s.recv d <;> simp only [LiveProc.step, hr, reduceCtorEq] at hs
    rw [if_neg (open' d (by rw [hr]; simp))] at hs
    simp only [Option.some.injEq] at hs
    subst hs; rfl
  | enter c n =>
    cases hc : s.call c <;> simp only [LiveProc.step, hc, reduceCtorEq] at hs
    cases hn : s.nets[n]? <;> simp only [hn, reduceCtorEq, Option.some.injEq] at hs
    subst hs
    split <;> rfl
  | clear c =>
    cases hc : s.call c <;> simp only [LiveProc.step, hc, Option.some.injEq, reduceCtorEq] at hs
    subst hs; rfl
  | join c =>
    cases hc : s.call c with
    | joining all left =>
      cases left with
      | nil => simp only [LiveProc.step, hc, Option.some.injEq] at hs; subst hs; rfl
      | cons d ds =>
        simp only [LiveProc.step, hc] at hs
        split at hs
        · simp only [Option.some.injEq] at hs; subst hs; rfl
        · cases hs
    | _ => simp only [LiveProc.step, hc, reduceCtorEq] at hs
  | close c =>
    cases hc : s.call c with
    | closing left =>
      cases left with
      | nil => simp only [LiveProc.step, hc, Option.some.injEq] at hs; subst hs; rfl
      | cons d ds =>
        simp only [LiveProc.step, hc] at hs
        split at hs <;> simp only [Option.some.injEq] at hs <;> subst hs <;> rfl
    | _ => simp only [LiveProc.step, hc, reduceCtorEq] at hs
  | signal i =>
    simp only [LiveProc.step, Option.some.injEq] at hs
    subst hs
    split <;> rfl
  | send d => cases he

/-- C219: in every history of a process with any number of live networks, whichever threads stop them and whatever
signals arrive: no device is closed twice, a device is closed only after its receiver has ended, and the receivers
never use a device that is closed: only sending a packet can do that. -/
theorem receivers_safe (es : List StopEv) (s : LiveProc) (h : LiveProc.init.run es = some s) :
    s.closed.Nodup ∧ (∀ d ∈ s.closed, s.recv d = .ended) ∧ ((∀ e ∈ es, isSend e = false) → s.crashed = false) := by
  have hi := stopInv_run h
  refine ⟨hi.once, hi.closedEnded, fun hns => ?_⟩
  have := liveProc_invariant (P := fun s => StopInv' s ∧ s.crashed = false) (Q := fun e => isSend e = false)
    (fun s s' e hp hq hs => ⟨stopInv_step s s' e hp.1 hs, (crashed_step s s' e hp.1 hq hs).trans hp.2⟩)
    ⟨⟨stopInv_init, fun _ _ => rfl⟩, rfl⟩ hns h
  exact this.2

/-- A process that stops its network of two devices: a frame of the first arrives while it is being stopped. -/
def exStop : List StopEv :=
  [.make 2, .check 0, .check 1, .enter 0 0, .clear 0, .poll 0 (some (some ⟨['a'], 1, 7, []⟩)), .put 0, .check 0,
   .stats 0, .join 0, .poll 1 (some none), .check 1, .stats 1, .join 0, .join 0, .close 0, .close 0, .close 0]

example : (LiveProc.init.run exStop).map (fun s => (s.closed, s.crashed, s.call 0, s.queued.length)) =
    some ([1, 0], false, .out, 1) := by decide

/-- C219: sending on a device that was closed uses what libpcap has freed. -/
theorem send_closed_violated (s : LiveProc) (d : Nat) (h : d ∈ s.closed) :
    (s.step (.send d)).map (·.crashed) = some true := by
  simp [LiveProc.step, h]

example : ∃ s, LiveProc.init.run exStop = some s ∧ 1 ∈ s.closed := ⟨_, rfl, by decide⟩

/-- C219: of each device, the frames put into the queue are the frames it gave, in this order, up to the one frame its
receiver has in hand; when the receiver has ended they are all there. -/
theorem captured_queued (es : List StopEv) (s : LiveProc) (d : Nat) (h : LiveProc.init.run es = some s) :
    (∃ l, framesOf d s.captured = framesOf d s.queued ++ l ∧ l.length ≤ 1) ∧
    (s.recv d = .ended → framesOf d s.queued = framesOf d s.captured) := by
  have hi := (stopInv_run h).frames d
  refine ⟨⟨_, hi, by cases s.recv d <;> simp [stillHeld]⟩, fun he => ?_⟩
  rw [hi, he]
  simp [stillHeld]

/-! ## After the flag is cleared -/

/-- A step of the receiver of this device. -/
def recvStep (d : Nat) : StopEv → Bool
  | .check x => x = d
  | .poll x _ => x = d
  | .put x => x = d
  | .stats x => x = d
  | _ => false

/-- How many steps a receiver has left when the flag is cleared. -/
def stepsLeft : ReceiverAt → Nat
  | .polling => 4
  | .holding _ => 3
  | .top => 2
  | .leaving => 1
  | .ended => 0

/-- How many frames a receiver can still put into the queue when the flag is cleared. -/
def framesLeft : ReceiverAt → Nat
  | .polling => 1
  | .holding _ => 1
  | _ => 0

/-- While the flag is cleared it stays so until a network is made; a step of a receiver counts down, other steps
leave it where it is. -/
theorem stopped_step (s s' : LiveProc) (e : StopEv) (d : Nat) (hi : StopInv' s) (hr : s.running = false)
    (he : isMake e = false) (hs : s.step e = some s') :
    s'.running = false ∧
    (stepsLeft (s'.recv d) + (if recvStep d e then 1 else 0) ≤ stepsLeft (s.recv d)) ∧
    (∃ l, framesOf d s'.queued = framesOf d s.queued ++ l ∧ l.length + framesLeft (s'.recv d) ≤ framesLeft (s.recv d)) := by
  have hi0 := hi.toStopInv
  have open' : ∀ d, s.recv d ≠ .ended → d ∉ s.closed := fun d hd hc => hd (hi0.closedEnded d hc)
  cases e with
  | make k => cases he
  | check x =>
    cases hx : s.recv x <;> simp only [LiveProc.step, hx, Option.some.injEq, reduceCtorEq] at hs
    subst hs
    refine ⟨hr, ?_, [], by simp, ?_⟩ <;>
      (by_cases hd : d = x
       · subst hd; simp [hx, hr, recvStep, stepsLeft, framesLeft]
       · simp [fnSet_of_ne _ _ hd, recvStep, Ne.symm hd])
  | poll x r =>
    cases hx : s.recv x <;> simp only [LiveProc.step, hx, reduceCtorEq] at hs
    rw [if_neg (open' x (by rw [hx]; simp))] at hs
    rcases r with _ | _ | f <;> simp only [Option.some.injEq] at hs <;> subst hs <;>
      (refine ⟨hr, ?_, [], by simp, ?_⟩ <;>
        (by_cases hd : d = x
         · subst hd; simp [hx, recvStep, stepsLeft, framesLeft]
         · simp [fnSet_of_ne _ _ hd, recvStep, Ne.symm hd]))
  | put x =>
    cases hx : s.recv x <;> simp only [LiveProc.step, hx, Option.some.injEq, reduceCtorEq] at hs
    subst hs
    refine ⟨hr, ?_, _, framesOf_append _ _ _ _, ?_⟩ <;>
      (by_cases hd : d = x
       · subst hd; simp [hx, recvStep, stepsLeft, framesLeft]
       · simp [fnSet_of_ne _ _ hd, recvStep, Ne.symm hd])
  | stats x =>
    cases hx : s.recv x <;> simp only [LiveProc.step, hx, reduceCtorEq] at hs
    rw [if_neg (open' x (by rw [hx]; simp))] at hs
    simp only [Option.some.injEq] at hs
    subst hs
    refine ⟨hr, ?_, [], by simp, ?_⟩ <;>
      (by_cases hd : d = x
       · subst hd; simp [hx, recvStep, stepsLeft, framesLeft]
       · simp [fnSet_of_ne _ _ hd, recvStep, Ne.symm hd])
  | enter c n =>
    cases hc : s.call c <;> simp only [LiveProc.step, hc, reduceCtorEq] at hs
    cases hn : s.nets[n]? <;> simp only [hn, reduceCtorEq, Option.some.injEq] at hs
    subst hs
    rw [if_neg (by simp [hr])]
    exact ⟨hr, by simp [recvStep], [], by simp, by simp⟩
  | clear c =>
    cases hc : s.call c <;> simp only [LiveProc.step, hc, Option.some.injEq, reduceCtorEq] at hs
    subst hs
    exact ⟨rfl, by simp [recvStep], [], by simp, by simp⟩
  | join c =>
    cases hc : s.call c with
    | joining all left =>
      cases left with
      | nil =>
        simp only [LiveProc.step, hc, Option.some.injEq] at hs; subst hs
        exact ⟨hr, by simp [recvStep], [], by simp, by simp⟩
      | cons y ds =>
        simp only [LiveProc.step, hc] at hs
        split at hs
        · simp only [Option.some.injEq] at hs; subst hs
          exact ⟨hr, by simp [recvStep], [], by simp, by simp⟩
        · cases hs
    | _ => simp only [LiveProc.step, hc, reduceCtorEq] at hs
  | close c =>
    cases hc : s.call c with
    | closing left =>
      cases left with
      | nil =>
        simp only [LiveProc.step, hc, Option.some.injEq] at hs; subst hs
        exact ⟨hr, by simp [recvStep], [], by simp, by simp⟩
      | cons y ds =>
        simp only [LiveProc.step, hc] at hs
        split at hs <;> simp only [Option.some.injEq] at hs <;> subst hs <;>
          exact ⟨hr, by simp [recvStep], [], by simp, by simp⟩
    | _ => simp only [LiveProc.step, hc, reduceCtorEq] at hs
  | signal i =>
    simp only [LiveProc.step, Option.some.injEq] at hs
    subst hs
    cases i <;> exact ⟨by simp [hr], by simp [recvStep], [], by simp, by simp⟩
  | send x =>
    simp only [LiveProc.step, Option.some.injEq] at hs
    subst hs
    split <;> exact ⟨hr, by simp [recvStep], [], by simp, by simp⟩

theorem stopped_run (d : Nat) : ∀ (es : List StopEv) (s s' : LiveProc), StopInv' s → s.running = false →
    (∀ e ∈ es, isMake e = false) → s.run es = some s' →
    s'.running = false ∧ stepsLeft (s'.recv d) + (es.filter (recvStep d)).length ≤ stepsLeft (s.recv d) ∧
    (∃ l, framesOf d s'.queued = framesOf d s.queued ++ l ∧ l.length + framesLeft (s'.recv d) ≤ framesLeft (s.recv d)) := by
  intro es
  induction es with
  | nil =>
    intro s s' _ hr _ h
    simp only [LiveProc.run, Option.some.injEq] at h
    subst h
    exact ⟨hr, by simp, [], by simp, by simp⟩
  | cons e es ih =>
    intro s s' hi hr he h
    simp only [LiveProc.run] at h
    cases hs : s.step e with
    | none => rw [hs] at h; cases h
    | some t =>
      rw [hs] at h
      obtain ⟨h1, h2, l, h3, h4⟩ := stopped_step s t e d hi hr (he e (by simp)) hs
      obtain ⟨k1, k2, m, k3, k4⟩ := ih t s' (stopInv_step s t e hi hs) h1 (fun e' h => he e' (by simp [h])) h
      refine ⟨k1, ?_, l ++ m, by rw [k3, h3, List.append_assoc], ?_⟩
      · by_cases hd : recvStep d e = true
        · rw [if_pos hd] at h2
          simp only [List.filter_cons_of_pos hd, List.length_cons]
          omega
        · rw [if_neg hd] at h2
          rw [List.filter_cons_of_neg hd]
          omega
      · rw [List.length_append]; omega

/-- C219: once the networks are stopped, by `shutdown` or a signal, and while no other one is made: each receiver takes
at most four more steps and puts at most one more frame into the queue, and as long as it has not ended it can take
a step, so that nobody waits for it in vain. -/
theorem receivers_end (es more : List StopEv) (s s' : LiveProc) (d : Nat) (h : LiveProc.init.run es = some s)
    (hr : s.running = false) (hm : ∀ e ∈ more, isMake e = false) (h' : s.run more = some s') :
    (more.filter (recvStep d)).length ≤ 4 ∧
    (∃ l, framesOf d s'.queued = framesOf d s.queued ++ l ∧ l.length ≤ 1) ∧
    (s'.recv d ≠ .ended → ∃ e, recvStep d e = true ∧ (s'.step e).isSome) := by
  obtain ⟨_, h2, l, h3, h4⟩ := stopped_run d more s s' (stopInv_run h) hr hm h'
  have b1 : stepsLeft (s.recv d) ≤ 4 := by cases s.recv d <;> simp [stepsLeft]
  have b2 : framesLeft (s.recv d) ≤ 1 := by cases s.recv d <;> simp [framesLeft]
  refine ⟨by omega, ⟨l, h3, by omega⟩, fun hne => ?_⟩
  cases hx : s'.recv d with
  | top => exact ⟨.check d, by simp [recvStep], by simp [LiveProc.step, hx]⟩
  | polling =>
    by_cases hc : d ∈ s'.closed
    · exact ⟨.poll d none, by simp [recvStep], by simp [LiveProc.step, hx, if_pos hc]⟩
    · exact ⟨.poll d none, by simp [recvStep], by simp [LiveProc.step, hx, if_neg hc]⟩
  | holding f => exact ⟨.put d, by simp [recvStep], by simp [LiveProc.step, hx]⟩
  | leaving =>
    by_cases hc : d ∈ s'.closed
    · exact ⟨.stats d, by simp [recvStep], by simp [LiveProc.step, hx, if_pos hc]⟩
    · exact ⟨.stats d, by simp [recvStep], by simp [LiveProc.step, hx, if_neg hc]⟩
  | ended => exact absurd hx hne

/-- The bounds are reached: a receiver that was waiting takes four steps more and puts a frame into the queue. -/
example : ∃ s s', LiveProc.init.run [.make 1, .check 0, .signal true] = some s ∧ s.running = false ∧
    s.run [.poll 0 (some (some ⟨['a'], 1, 7, []⟩)), .put 0, .check 0, .stats 0] = some s' ∧
    s'.queued.length = 1 ∧ s'.recv 0 = .ended := ⟨_, _, rfl, rfl, rfl, rfl, rfl⟩

/-! ## Closing the devices -/

/-- The thread that takes a step of `shutdown`. -/
def callerOf : StopEv → Option Nat
  | .enter c _ => some c
  | .clear c => some c
  | .join c => some c
  | .close c => some c
  | _ => none

/-- A step of the process with one network, in which only thread 0 calls `shutdown`. -/
def OneCaller (e : StopEv) : Prop := isMake e = false ∧ ∀ c, callerOf e = some c → c = 0

/-- `SIGINT`. -/
def isInt : StopEv → Bool
  | .signal true => true
  | _ => false

/-- Where thread 0 is, the flag and the devices closed; `quiet` means that there was no `SIGINT`. -/
def ClosePoint (devs : List Nat) (quiet : Prop) (s : LiveProc) : Prop :=
  s.nets = [devs] ∧
  match s.call 0 with
  | .out => (s.closed = [] ∧ (s.running = true ∨ ¬quiet)) ∨ (s.closed.reverse = devs ∧ s.running = false)
  | .entered all => all = devs ∧ s.closed = []
  | .joining all _ => all = devs ∧ s.closed = [] ∧ s.running = false
  | .closing left => s.closed.reverse ++ left = devs ∧ s.running = false
  | .failed => False

theorem closePoint_other {devs : List Nat} {quiet : Prop} {s s' : LiveProc} (h : ClosePoint devs quiet s)
    (h1 : s'.nets = s.nets) (h2 : s'.call = s.call) (h3 : s'.closed = s.closed) (h4 : s'.running = s.running) :
    ClosePoint devs quiet s' := by
  unfold ClosePoint at h ⊢
  rw [h1, h2, h3, h4]
  exact h

theorem closePoint_step {devs : List Nat} (hn : devs.Nodup) {quiet : Prop} (s s' : LiveProc) (e : StopEv)
    (h : ClosePoint devs quiet s) (he : OneCaller e) (hq : quiet → isInt e = false) (hs : s.step e = some s') :
    ClosePoint devs quiet s' := by
  obtain ⟨hm, hc0⟩ := he
  cases e with
  | make k => cases hm
  | check x =>
    cases hx : s.recv x <;> simp only [LiveProc.step, hx, Option.some.injEq, reduceCtorEq] at hs
    subst hs; exact closePoint_other h rfl rfl rfl rfl
  | poll x r =>
    cases hx : s.recv x <;> simp only [LiveProc.step, hx, reduceCtorEq] at hs
    split at hs
    · simp only [Option.some.injEq] at hs; subst hs; exact closePoint_other h rfl rfl rfl rfl
    · rcases r with _ | _ | f <;> simp only [Option.some.injEq] at hs <;> subst hs <;>
        exact closePoint_other h rfl rfl rfl rfl
  | put x =>
    cases hx : s.recv x <;> simp only [LiveProc.step, hx, Option.some.injEq, reduceCtorEq] at hs
    subst hs; exact closePoint_other h rfl rfl rfl rfl
  | stats x =>
    cases hx : s.recv x <;> simp only [LiveProc.step, hx, reduceCtorEq] at hs
    split at hs <;> simp only [Option.some.injEq] at hs <;> subst hs <;> exact closePoint_other h rfl rfl rfl rfl
  | enter c n =>
    obtain rfl := hc0 c rfl
    cases hc : s.call 0 <;> simp only [LiveProc.step, hc, reduceCtorEq] at hs
    cases hnn : s.nets[n]? with
    | none => simp only [hnn, reduceCtorEq] at hs
    | some all =>
      simp only [hnn, Option.some.injEq] at hs
      subst hs
      by_cases hr : s.running = true
      · rw [if_pos hr]
        obtain ⟨h1, h2⟩ := h
        rw [hc] at h2
        have hall : all = devs := by
          have := List.mem_of_getElem? hnn
          rw [h1] at this
          exact List.mem_singleton.mp this
        refine ⟨h1, ?_⟩
        simp only [fnSet_self]
        refine ⟨hall, ?_⟩
        rcases h2 with h2 | h2
        · exact h2.1
        · rw [hr] at h2; exact absurd h2.2 (by simp)
      · rw [if_neg hr]; exact h
  | clear c =>
    obtain rfl := hc0 c rfl
    cases hc : s.call 0 <;> simp only [LiveProc.step, hc, Option.some.injEq, reduceCtorEq] at hs
    subst hs
    obtain ⟨h1, h2⟩ := h
    rw [hc] at h2
    refine ⟨h1, ?_⟩
    simp only [fnSet_self]
    exact ⟨h2.1, h2.2, trivial⟩
  | join c =>
    obtain rfl := hc0 c rfl
    obtain ⟨h1, h2⟩ := h
    cases hc : s.call 0 with
    | joining all left =>
      rw [hc] at h2
      cases left with
      | nil =>
        simp only [LiveProc.step, hc, Option.some.injEq] at hs; subst hs
        refine ⟨h1, ?_⟩
        simp only [fnSet_self]
        exact ⟨by rw [h2.2.1, h2.1]; rfl, h2.2.2⟩
      | cons y ds =>
        simp only [LiveProc.step, hc] at hs
        split at hs
        · simp only [Option.some.injEq] at hs; subst hs
          refine ⟨h1, ?_⟩
          simp only [fnSet_self]
          exact h2
        · cases hs
    | _ => simp only [LiveProc.step, hc, reduceCtorEq] at hs
  | close c =>
    obtain rfl := hc0 c rfl
    obtain ⟨h1, h2⟩ := h
    cases hc : s.call 0 with
    | closing left =>
      rw [hc] at h2
      cases left with
      | nil =>
        simp only [LiveProc.step, hc, Option.some.injEq] at hs; subst hs
        refine ⟨h1, ?_⟩
        simp only [fnSet_self]
        exact Or.inr ⟨by rw [← h2.1, List.append_nil], h2.2⟩
      | cons y ds =>
        simp only [LiveProc.step, hc] at hs
        have hy : y ∉ s.closed := by
          intro hy
          rw [← h2.1] at hn
          exact (List.nodup_append.mp hn).2.2 y (List.mem_reverse.mpr hy) y (by simp) rfl
        rw [if_neg hy] at hs
        simp only [Option.some.injEq] at hs; subst hs
        refine ⟨h1, ?_⟩
        simp only [fnSet_self]
        exact ⟨by rw [← h2.1]; simp, h2.2⟩
    | _ => simp only [LiveProc.step, hc, reduceCtorEq] at hs
  | signal i =>
    simp only [LiveProc.step, Option.some.injEq] at hs
    subst hs
    cases i with
    | false => exact h
    | true =>
      rw [if_pos rfl]
      have nq : ¬quiet := fun q => by have := hq q; cases this
      obtain ⟨h1, h2⟩ := h
      refine ⟨h1, ?_⟩
      show match s.call 0 with
        | .out => (s.closed = [] ∧ (false = true ∨ ¬quiet)) ∨ (s.closed.reverse = devs ∧ false = false)
        | .entered all => all = devs ∧ s.closed = []
        | .joining all _ => all = devs ∧ s.closed = [] ∧ false = false
        | .closing left => s.closed.reverse ++ left = devs ∧ false = false
        | .failed => False
      cases hc : s.call 0 <;> rw [hc] at h2 <;> simp only at h2 ⊢
      · exact h2.imp (fun x => ⟨x.1, Or.inr nq⟩) (fun x => ⟨x.1, trivial⟩)
      · exact h2
      · exact ⟨h2.1, h2.2.1, trivial⟩
      · exact ⟨h2.1, trivial⟩
  | send x =>
    simp only [LiveProc.step, Option.some.injEq] at hs
    subst hs
    split
    · exact closePoint_other h rfl rfl rfl rfl
    · exact h

theorem closePoint_run {k : Nat} {es : List StopEv} {s : LiveProc} (h : LiveProc.init.run (.make k :: es) = some s)
    (ho : ∀ e ∈ es, OneCaller e) : ClosePoint (List.range' 0 k) (∀ e ∈ es, isInt e = false) s := by
  simp only [LiveProc.run, LiveProc.step, Option.bind_some] at h
  refine liveProc_invariant (P := ClosePoint (List.range' 0 k) (∀ e ∈ es, isInt e = false))
    (Q := fun e => OneCaller e ∧ ((∀ e ∈ es, isInt e = false) → isInt e = false))
    (fun s s' e hp hq hs => closePoint_step List.nodup_range' s s' e hp hq.1 hq.2 hs) ?_
    (fun e he => ⟨ho e he, fun hq => hq e he⟩) h
  exact ⟨rfl, Or.inl ⟨rfl, Or.inl rfl⟩⟩

/-- C220: with one network, stopped by one thread, however often and whenever it calls `shutdown`: no call raises, and
without `SIGINT` every device is closed when a call has returned, that is, unless the network is still running or the
call is not over. -/
theorem shutdown_closes_partial (k : Nat) (es : List StopEv) (s : LiveProc)
    (h : LiveProc.init.run (.make k :: es) = some s) (ho : ∀ e ∈ es, OneCaller e) :
    s.call 0 ≠ .failed ∧
    ((∀ e ∈ es, isInt e = false) → s.call 0 = .out → s.running = false → s.closed.reverse = List.range' 0 k) := by
  have hp := closePoint_run h ho
  refine ⟨fun hf => by have := hp.2; rw [hf] at this; exact this, fun hq ho hr => ?_⟩
  have := hp.2
  rw [ho] at this
  rcases this with h1 | h1
  · rcases h1.2 with h2 | h2
    · rw [hr] at h2; cases h2
    · exact absurd hq h2
  · exact h1.1

example : ∃ es s, StopEv.make 2 :: es = exStop ∧ LiveProc.init.run exStop = some s ∧ (∀ e ∈ es, OneCaller e) ∧
    (∀ e ∈ es, isInt e = false) ∧ s.call 0 = .out ∧ s.running = false ∧ List.range' 0 2 = [0, 1] := by
  refine ⟨exStop.tail, _, rfl, rfl, ?_, by decide, by decide, by decide, by decide⟩
  intro e he
  simp only [exStop, List.tail_cons, List.mem_cons, List.not_mem_nil, or_false] at he
  rcases he with rfl | rfl | rfl | rfl | rfl | rfl | rfl | rfl | rfl | rfl | rfl | rfl | rfl | rfl | rfl | rfl | rfl <;>
    exact ⟨rfl, by intro c h; simpa [callerOf, eq_comm] using h⟩

/-- While the flag is cleared and nobody is in a call of `shutdown` nothing is closed. -/
def Idle (closed : List Nat) (s : LiveProc) : Prop :=
  s.running = false ∧ s.closed = closed ∧ ∀ c, s.call c = .out ∨ s.call c = .failed

theorem idle_step (closed : List Nat) (s s' : LiveProc) (e : StopEv) (h : Idle closed s) (he : isMake e = false)
    (hs : s.step e = some s') : Idle closed s' := by
  obtain ⟨h1, h2, h3⟩ := h
  cases e with
  | make k => cases he
  | check x =>
    cases hx : s.recv x <;> simp only [LiveProc.step, hx, Option.some.injEq, reduceCtorEq] at hs
    subst hs; exact ⟨h1, h2, h3⟩
  | poll x r =>
    cases hx : s.recv x <;> simp only [LiveProc.step, hx, reduceCtorEq] at hs
    split at hs
    · simp only [Option.some.injEq] at hs; subst hs; exact ⟨h1, h2, h3⟩
    · rcases r with _ | _ | f <;> simp only [Option.some.injEq] at hs <;> subst hs <;> exact ⟨h1, h2, h3⟩
  | put x =>
    cases hx : s.recv x <;> simp only [LiveProc.step, hx, Option.some.injEq, reduceCtorEq] at hs
    subst hs; exact ⟨h1, h2, h3⟩
  | stats x =>
    cases hx : s.recv x <;> simp only [LiveProc.step, hx, reduceCtorEq] at hs
    split at hs <;> simp only [Option.some.injEq] at hs <;> subst hs <;> exact ⟨h1, h2, h3⟩
  | enter c n =>
    cases hc : s.call c <;> simp only [LiveProc.step, hc, reduceCtorEq] at hs
    cases hn : s.nets[n]? <;> simp only [hn, reduceCtorEq, Option.some.injEq] at hs
    subst hs
    rw [if_neg (by simp [h1])]
    exact ⟨h1, h2, h3⟩
  | clear c => rcases h3 c with hc | hc <;> simp only [LiveProc.step, hc, reduceCtorEq] at hs
  | join c => rcases h3 c with hc | hc <;> simp only [LiveProc.step, hc, reduceCtorEq] at hs
  | close c => rcases h3 c with hc | hc <;> simp only [LiveProc.step, hc, reduceCtorEq] at hs
  | signal i =>
    simp only [LiveProc.step, Option.some.injEq] at hs
    subst hs
    split
    · exact ⟨rfl, h2, h3⟩
    · exact ⟨h1, h2, h3⟩
  | send x =>
    simp only [LiveProc.step, Option.some.injEq] at hs
    subst hs
    split <;> exact ⟨h1, h2, h3⟩

theorem liveProc_run_append : ∀ (es fs : List StopEv) (s : LiveProc),
    s.run (es ++ fs) = (s.run es).bind fun t => t.run fs := by
  intro es
  induction es with
  | nil => intro fs s; rfl
  | cons e es ih =>
    intro fs s
    simp only [List.cons_append, LiveProc.run]
    cases s.step e with
    | none => rfl
    | some t => exact ih fs t

/-- Before `shutdown` is called for the first time. -/
def NoCalls (s : LiveProc) : Prop := s.closed = [] ∧ ∀ c, s.call c = .out

theorem noCalls_step (s s' : LiveProc) (e : StopEv) (h : NoCalls s) (he : callerOf e = none)
    (hs : s.step e = some s') : NoCalls s' := by
  obtain ⟨h2, h3⟩ := h
  cases e with
  | make k => simp only [LiveProc.step, Option.some.injEq] at hs; subst hs; exact ⟨h2, h3⟩
  | check x =>
    cases hx : s.recv x <;> simp only [LiveProc.step, hx, Option.some.injEq, reduceCtorEq] at hs
    subst hs; exact ⟨h2, h3⟩
  | poll x r =>
    cases hx : s.recv x <;> simp only [LiveProc.step, hx, reduceCtorEq] at hs
    split at hs
    · simp only [Option.some.injEq] at hs; subst hs; exact ⟨h2, h3⟩
    · rcases r with _ | _ | f <;> simp only [Option.some.injEq] at hs <;> subst hs <;> exact ⟨h2, h3⟩
  | put x =>
    cases hx : s.recv x <;> simp only [LiveProc.step, hx, Option.some.injEq, reduceCtorEq] at hs
    subst hs; exact ⟨h2, h3⟩
  | stats x =>
    cases hx : s.recv x <;> simp only [LiveProc.step, hx, reduceCtorEq] at hs
    split at hs <;> simp only [Option.some.injEq] at hs <;> subst hs <;> exact ⟨h2, h3⟩
  | enter c n => cases he
  | clear c => cases he
  | join c => cases he
  | close c => cases he
  | signal i =>
    simp only [LiveProc.step, Option.some.injEq] at hs
    subst hs
    split <;> exact ⟨h2, h3⟩
  | send x =>
    simp only [LiveProc.step, Option.some.injEq] at hs
    subst hs
    split <;> exact ⟨h2, h3⟩

/-- C220: if `SIGINT` arrives before `shutdown` is called, which is how a live program is usually ended, no call of
`shutdown` closes a device or waits for a receiver, whatever happens (unless another network is made). -/
theorem shutdown_after_sigint_violated (before more : List StopEv) (s : LiveProc)
    (hb : ∀ e ∈ before, callerOf e = none) (hm : ∀ e ∈ more, isMake e = false)
    (h : LiveProc.init.run (before ++ .signal true :: more) = some s) :
    s.closed = [] ∧ ∀ c, s.call c = .out ∨ s.call c = .failed := by
  rw [liveProc_run_append] at h
  cases hs : LiveProc.init.run before with
  | none => rw [hs] at h; cases h
  | some t =>
    rw [hs] at h
    have ht := liveProc_invariant (P := NoCalls) (Q := fun e => callerOf e = none)
      (fun s s' e hp hq hs => noCalls_step s s' e hp hq hs) ⟨rfl, fun _ => rfl⟩ hb hs
    simp only [Option.bind_some, LiveProc.run, LiveProc.step, if_true] at h
    have hidle : Idle [] { t with running := false } := ⟨rfl, ht.1, fun c => Or.inl (ht.2 c)⟩
    have := liveProc_invariant (P := Idle []) (Q := fun e => isMake e = false)
      (fun s s' e hp hq hs => idle_step [] s s' e hp hq hs) hidle hm h
    exact this.2

example : ((LiveProc.init.run ([.make 1, .check 0] ++ .signal true :: [.enter 0 0, .enter 0 0])).map
    fun s => (s.closed, s.recv 0)) = some ([], .polling) := by decide

/-- C220: two threads that stop the same network at once: each device is closed by one of them only, the other gets a
`KeyError` and leaves. -/
theorem shutdown_race_violated : ∃ es s, LiveProc.init.run (.make 2 :: es) = some s ∧ s.call 1 = .failed ∧
    s.closed = [0] ∧ s.call 0 = .closing [1] :=
  ⟨[.enter 0 0, .enter 1 0, .clear 0, .clear 1, .check 0, .check 1, .stats 0, .stats 1, .join 0, .join 0, .join 0,
    .join 1, .join 1, .join 1, .close 0, .close 1], _, rfl, by decide, by decide, by decide⟩

/-- C220: stopping one network stops the receivers of every other one, whose devices are never closed then. -/
theorem shutdown_other_violated : ∃ es s, LiveProc.init.run (.make 1 :: .make 1 :: es) = some s ∧
    s.closed = [0] ∧ s.recv 1 = .ended ∧ (∀ c, s.call c = .out) ∧ s.running = false ∧
    ∀ more s', (∀ e ∈ more, isMake e = false) → s.run more = some s' → s'.closed = [0] := by
  have key : ∀ s : LiveProc, s.running = false → s.closed = [0] → (∀ c, s.call c = .out) →
      ∀ more s', (∀ e ∈ more, isMake e = false) → s.run more = some s' → s'.closed = [0] := by
    intro s hr hc ho more s' hm h
    exact (liveProc_invariant (P := Idle [0]) (Q := fun e => isMake e = false)
      (fun s s' e hp hq hs => idle_step [0] s s' e hp hq hs) ⟨hr, hc, fun c => Or.inl (ho c)⟩ hm h).2.1
  have hcall : ∀ c, (fnSet (fnSet (fnSet (fnSet (fnSet (fnSet (fun _ : Nat => StopAt.out) 0 (.entered [0])) 0 (.joining [0] [0])) 0
      (.joining [0] [])) 0 (.closing [0])) 0 (.closing [])) 0 StopAt.out) c = .out := by
    intro c; by_cases hc : c = 0 <;> simp [fnSet_apply, hc]
  refine ⟨[.check 1, .enter 0 0, .clear 0, .check 0, .stats 0, .join 0, .join 0, .close 0, .close 0,
    .poll 1 (some none), .check 1, .stats 1], _, rfl, by decide, by decide, hcall, rfl, ?_⟩
  exact key _ rfl (by decide) hcall

/-- C220: a network that was stopped runs again when another one is made: a receiver that had not noticed goes on, and the
thread that waits for it waits on. -/
theorem networks_restart_violated : ∃ es s, LiveProc.init.run (.make 1 :: es) = some s ∧ s.running = true ∧
    s.recv 0 = .polling ∧ s.call 0 = .joining [0] [0] :=
  ⟨[.check 0, .enter 0 0, .clear 0, .make 1, .poll 0 (some none), .check 0], _, rfl, rfl, by decide, by decide⟩

/-- C220: none of the signals but `SIGINT` has any effect, so that they do not end a live program either. -/
theorem other_signals_ignored (s : LiveProc) : s.step (.signal false) = some s ∧
    (s.step (.signal true)).map (·.running) = some false := ⟨rfl, rfl⟩

end SY.Props
