import Verif.Props.OfMatch
import Verif.Props.OfMsg

/-!
# C129: match objects and port numbers hold what they are given

A match object is changed by assignments and by the four methods on wildcards.  The specification below
speaks about the history of these operations only.
-/

namespace SY.Props

/-- **C121**: a port number is accepted exactly if it is below 0xff00 or one of the reserved ones, and is
kept as it is; every other integer raises. -/
theorem of_port_iff (v : Int) :
    (∀ p, getPort v = .ok p ↔ v = p ∧ (p < 0xff00 ∨
      p ∈ [0xff00, 0xfff8, 0xfff9, 0xfffa, 0xfffb, 0xfffc, 0xfffd, 0xfffe, 0xffff])) ∧
    (∀ e, getPort v = .error e → e = .valueError) := by
  constructor
  · intro p
    constructor
    · unfold getPort
      intro h
      split at h
      · rename_i c; cases h; exact ⟨by omega, .inr c.2⟩
      · split at h
        · cases h; exact ⟨by omega, .inl (by omega)⟩
        · cases h
    · rintro ⟨rfl, h⟩
      exact getPort_of_ok h
  · unfold getPort
    intro e h
    split at h
    · cases h
    · split at h <;> cases h; rfl

example : getPort 0xfffb = .ok 0xfffb ∧ getPort 0xff01 = .error .valueError ∧ getPort 0xfeff = .ok 0xfeff := by
  decide

/-- Fields that hold integers. -/
inductive NumField
  | inPort | dlVlan | dlVlanPcp | dlType | nwTos | nwProto | tpSrc | tpDst
  deriving DecidableEq, Repr

/-- Operations on a match object. -/
inductive MatchOp
  | assign (f : NumField) (v : Int)
  | dlSrc (a : EthAddr) | dlDst (a : EthAddr)
  | nwSrc (a : IPAddr) | nwDst (a : IPAddr)
  | srcBits (v : Int) | dstBits (v : Int)
  | add (v : Int) | remove (v : Int) | reset | all
  deriving DecidableEq, Repr

/-- The assignment of an integer. -/
def assignNum (m : OfMatch) : NumField → Int → Res OfMatch
  | .inPort, v => m.setInPort v
  | .dlVlan, v => m.setDlVlan v
  | .dlVlanPcp, v => m.setDlVlanPcp v
  | .dlType, v => m.setDlType v
  | .nwTos, v => m.setNwTos v
  | .nwProto, v => m.setNwProto v
  | .tpSrc, v => m.setTpSrc v
  | .tpDst, v => m.setTpDst v

/-- An operation on an object. -/
def applyOp (m : OfMatch) : MatchOp → Res OfMatch
  | .assign f v => assignNum m f v
  | .dlSrc a => m.setDlSrc (.addr a)
  | .dlDst a => m.setDlDst (.addr a)
  | .nwSrc a => m.setNwSrc (.addr a)
  | .nwDst a => m.setNwDst (.addr a)
  | .srcBits v => .ok (m.setNwSrcWild v)
  | .dstBits v => .ok (m.setNwDstWild v)
  | .add v => m.addWildcard v
  | .remove v => .ok (m.removeWildcard v)
  | .reset => .ok m.resetWildcards
  | .all => .ok m.wildcardAll

/-- A history, most recent operation first; an operation that raises leaves the object as it was. -/
def history (ops : List MatchOp) : OfMatch :=
  ops.foldr (fun op m => (applyOp m op).toOption.getD m) OfMatch.default

/-- What a field reads. -/
def readNum (m : OfMatch) : NumField → Int
  | .inPort => m.inPort | .dlVlan => m.dlVlan | .dlVlanPcp => m.dlVlanPcp | .dlType => m.dlType
  | .nwTos => m.nwTos | .nwProto => m.nwProto | .tpSrc => m.tpSrc | .tpDst => m.tpDst

/-- The values a field accepts: ports are not negative, TOS is a byte, transport ports have 16 bits,
types and protocols are those the library knows; 0 is accepted as a type. -/
def Fitting : NumField → Int → Prop
  | .inPort, v => 0 ≤ v
  | .dlVlan, _ => True
  | .dlVlanPcp, _ => True
  | .dlType, v => v = 0 ∨ ∃ t ∈ etherTypes, v = t
  | .nwTos, v => 0 ≤ v ∧ v < 256
  | .nwProto, v => ∃ t ∈ ipProtocols, v = t
  | .tpSrc, v => 0 ≤ v ∧ v < 65536
  | .tpDst, v => 0 ≤ v ∧ v < 65536

/-- What is kept: type 0 stands for the absence of a type. -/
def kept (f : NumField) (v : Int) : Int := if f = .dlType ∧ v = 0 then 0xffff else v

/-- The values of a new match. -/
def initial : NumField → Int
  | .dlType => 0x0800
  | .nwProto => 1
  | _ => 0

/-- An operation that assigns an accepted value to the field. -/
def Sets (f : NumField) (op : MatchOp) : Prop := ∃ v, op = .assign f v ∧ Fitting f v

theorem assign_iff (m : OfMatch) (f : NumField) (v : Int) :
    ((∃ m', assignNum m f v = .ok m') ↔ Fitting f v) ∧
    ∀ m', assignNum m f v = .ok m' → readNum m' f = kept f v ∧ (∀ g, g ≠ f → readNum m' g = readNum m g) ∧
      m'.wildcards = m.wildcards ∧ m'.nwSrcWild = m.nwSrcWild ∧ m'.nwDstWild = m.nwDstWild ∧
      m'.dlSrc = m.dlSrc ∧ m'.dlDst = m.dlDst ∧ m'.nwSrc = m.nwSrc ∧ m'.nwDst = m.nwDst := by
  cases f
  · simp only [assignNum, OfMatch.setInPort, Fitting, kept]
    refine ⟨?_, ?_⟩
    · split <;> simp <;> omega
    · intro m' h; split at h <;> cases h
      refine ⟨by simp [readNum]; omega, fun g hg => by cases g <;> first | rfl | exact absurd rfl hg, ?_⟩
      simp
  · simp only [assignNum, OfMatch.setDlVlan, Fitting, kept]
    refine ⟨by simp, ?_⟩
    intro m' h; cases h
    exact ⟨by simp [readNum], fun g hg => by cases g <;> first | rfl | exact absurd rfl hg, by simp⟩
  · simp only [assignNum, OfMatch.setDlVlanPcp, Fitting, kept]
    refine ⟨by simp, ?_⟩
    intro m' h; cases h
    exact ⟨by simp [readNum], fun g hg => by cases g <;> first | rfl | exact absurd rfl hg, by simp⟩
  · simp only [assignNum, OfMatch.setDlType, Fitting, kept]
    refine ⟨⟨?_, ?_⟩, ?_⟩
    · rintro ⟨m', h⟩
      obtain ⟨t, e, h⟩ := bind_eq_ok.mp h
      obtain ⟨i, e⟩ := enumOf_ok e
      by_cases hv : v = 0
      · exact .inl hv
      · rw [if_neg hv] at e; exact .inr ⟨t, i, e⟩
    · rintro (rfl | ⟨t, ht, rfl⟩)
      · rw [if_pos rfl]
        exact ⟨_, by rw [show (0xFFFF : Int) = ((0xFFFF : Nat) : Int) from rfl, enumOf_nat (by decide +kernel)]; rfl⟩
      · by_cases h0 : (t : Int) = 0
        · rw [if_pos h0]
          exact ⟨_, by rw [show (0xFFFF : Int) = ((0xFFFF : Nat) : Int) from rfl, enumOf_nat (by decide +kernel)]; rfl⟩
        · rw [if_neg h0, enumOf_nat ht]; exact ⟨_, rfl⟩
    · intro m' h
      obtain ⟨t, e, h⟩ := bind_eq_ok.mp h
      obtain ⟨i, e⟩ := enumOf_ok e
      cases h
      refine ⟨by simp only [readNum, true_and]; exact e.symm, fun g hg => by cases g <;> first | rfl | exact absurd rfl hg, by simp⟩
  · simp only [assignNum, OfMatch.setNwTos, Fitting, kept]
    refine ⟨?_, ?_⟩
    · split <;> simp <;> omega
    · intro m' h; split at h <;> cases h
      exact ⟨by simp [readNum]; omega, fun g hg => by cases g <;> first | rfl | exact absurd rfl hg, by simp⟩
  · simp only [assignNum, OfMatch.setNwProto, Fitting, kept]
    refine ⟨⟨?_, ?_⟩, ?_⟩
    · rintro ⟨m', h⟩
      obtain ⟨t, e, h⟩ := bind_eq_ok.mp h
      obtain ⟨i, e⟩ := enumOf_ok e
      exact ⟨t, i, e⟩
    · rintro ⟨t, ht, rfl⟩
      rw [enumOf_nat ht]; exact ⟨_, rfl⟩
    · intro m' h
      obtain ⟨t, e, h⟩ := bind_eq_ok.mp h
      obtain ⟨i, e⟩ := enumOf_ok e
      cases h
      exact ⟨by simp [readNum, e], fun g hg => by cases g <;> first | rfl | exact absurd rfl hg, by simp⟩
  · simp only [assignNum, OfMatch.setTpSrc, Fitting, kept]
    refine ⟨?_, ?_⟩
    · split <;> simp <;> omega
    · intro m' h; split at h <;> cases h
      exact ⟨by simp [readNum]; omega, fun g hg => by cases g <;> first | rfl | exact absurd rfl hg, by simp⟩
  · simp only [assignNum, OfMatch.setTpDst, Fitting, kept]
    refine ⟨?_, ?_⟩
    · split <;> simp <;> omega
    · intro m' h; split at h <;> cases h
      exact ⟨by simp [readNum]; omega, fun g hg => by cases g <;> first | rfl | exact absurd rfl hg, by simp⟩

/-- One step of a history. -/
theorem history_cons (op : MatchOp) (ops : List MatchOp) :
    history (op :: ops) = (applyOp (history ops) op).toOption.getD (history ops) := rfl

theorem history_ok {op : MatchOp} {ops : List MatchOp} {m : OfMatch} (h : applyOp (history ops) op = .ok m) :
    history (op :: ops) = m := by rw [history_cons, h]; rfl

theorem history_error {op : MatchOp} {ops : List MatchOp} {e : PyErr}
    (h : applyOp (history ops) op = .error e) : history (op :: ops) = history ops := by
  rw [history_cons, h]; rfl

/-- Operations other than assignments of integers change no field that holds an integer. -/
theorem step_num (op : MatchOp) (ops : List MatchOp) (f : NumField) (h : ¬Sets f op) :
    readNum (history (op :: ops)) f = readNum (history ops) f := by
  cases hr : applyOp (history ops) op with
  | error e => rw [history_error hr]
  | ok m =>
    rw [history_ok hr]
    cases op with
    | assign g v =>
      have := assign_iff (history ops) g v
      by_cases hg : f = g
      · subst hg; exact absurd ⟨v, rfl, this.1.mp ⟨m, hr⟩⟩ h
      · exact (this.2 m hr).2.1 f hg
    | dlSrc a => obtain ⟨_, _, h⟩ := bind_eq_ok.mp hr; cases h; cases f <;> rfl
    | dlDst a => obtain ⟨_, _, h⟩ := bind_eq_ok.mp hr; cases h; cases f <;> rfl
    | nwSrc a => obtain ⟨_, _, h⟩ := bind_eq_ok.mp hr; cases h; cases f <;> rfl
    | nwDst a => obtain ⟨_, _, h⟩ := bind_eq_ok.mp hr; cases h; cases f <;> rfl
    | srcBits v => cases hr; cases f <;> rfl
    | dstBits v => cases hr; cases f <;> rfl
    | add v => obtain ⟨_, _, h⟩ := bind_eq_ok.mp hr; cases h; cases f <;> rfl
    | remove v => cases hr; cases f <;> rfl
    | reset => cases hr; cases f <;> rfl
    | all => cases hr; cases f <;> rfl

/-- **C129**: after any history of operations, a field reads the last value assigned to it that it accepts,
type 0 as 0xffff, and its initial value if there is none. -/
theorem match_field_history (f : NumField) :
    (∀ ops, (∀ op ∈ ops, ¬Sets f op) → readNum (history ops) f = initial f) ∧
    (∀ later earlier v, (∀ op ∈ later, ¬Sets f op) → Fitting f v →
      readNum (history (later ++ .assign f v :: earlier)) f = kept f v) := by
  constructor
  · intro ops
    induction ops with
    | nil => intro _; cases f <;> rfl
    | cons op ops ih =>
      intro h
      rw [step_num _ _ _ (h op (by simp)), ih fun o ho => h o (by simp [ho])]
  · intro later earlier v
    induction later with
    | nil =>
      intro _ ha
      obtain ⟨m, hm⟩ := (assign_iff (history earlier) f v).1.mpr ha
      rw [List.nil_append, history_ok (op := .assign f v) hm]
      exact ((assign_iff _ _ _).2 m hm).1
    | cons op ops ih =>
      intro h ha
      rw [List.cons_append, step_num _ _ _ (h op (by simp)), ih (fun o ho => h o (by simp [ho])) ha]

/-- **C129**: an assignment raises exactly if the field does not accept the value, and then nothing has
changed. -/
theorem match_field_refused (ops : List MatchOp) (f : NumField) (v : Int) :
    ((∃ e, assignNum (history ops) f v = .error e) ↔ ¬Fitting f v) ∧
    (¬Fitting f v → history (.assign f v :: ops) = history ops) := by
  have := (assign_iff (history ops) f v).1
  cases hr : assignNum (history ops) f v with
  | error e =>
    rw [hr] at this
    refine ⟨⟨fun _ ha => ?_, fun _ => ⟨e, rfl⟩⟩, fun _ => history_error (op := .assign f v) hr⟩
    obtain ⟨m, hm⟩ := this.mpr ha; cases hm
  | ok m =>
    rw [hr] at this
    have ha := this.mp ⟨m, rfl⟩
    refine ⟨⟨?_, fun h => absurd ha h⟩, fun h => absurd ha h⟩
    rintro ⟨e, h⟩; cases h

example : readNum (history [.assign .nwTos 300, .all, .assign .tpSrc 80, .assign .nwTos 255, .assign .nwTos 1]) .nwTos = 255 ∧
    readNum (history [.assign .dlType 0, .assign .dlType 0x86dd]) .dlType = 0xffff := by decide +kernel

/-! ### Wildcards -/

/-- The members of `OpenflowWildcard`: ten flags, the two address masks and their
"everything" values, and `All`. -/
def wildcardNames : List Nat :=
  [2 ^ 0, 2 ^ 1, 2 ^ 2, 2 ^ 3, 2 ^ 4, 2 ^ 5, 2 ^ 6, 2 ^ 7, 63 * 2 ^ 8, 63 * 2 ^ 14, 2 ^ 20, 2 ^ 21, 32 * 2 ^ 8,
   32 * 2 ^ 14, 2 ^ 22 - 1]

/-- Whether a wildcard is set after a history, most recent operation first. -/
def IsSet (w : Nat) : List MatchOp → Prop
  | [] => False
  | .add v :: ops => v = w ∨ IsSet w ops
  | .remove v :: ops => v ≠ w ∧ IsSet w ops
  | .reset :: _ => False
  | .all :: _ => w = 2 ^ 22 - 1
  | _ :: ops => IsSet w ops

theorem wildcards_listed (ops : List MatchOp) : ∀ w ∈ (history ops).wildcards, w ∈ ofWildcards := by
  induction ops with
  | nil => intro w h; cases h
  | cons op ops ih =>
    cases hr : applyOp (history ops) op with
    | error e => rw [history_error hr]; exact ih
    | ok m =>
      rw [history_ok hr]
      cases op with
      | assign g v => rw [((assign_iff _ _ _).2 m hr).2.2.1]; exact ih
      | dlSrc a => obtain ⟨_, _, h⟩ := bind_eq_ok.mp hr; cases h; exact ih
      | dlDst a => obtain ⟨_, _, h⟩ := bind_eq_ok.mp hr; cases h; exact ih
      | nwSrc a => obtain ⟨_, _, h⟩ := bind_eq_ok.mp hr; cases h; exact ih
      | nwDst a => obtain ⟨_, _, h⟩ := bind_eq_ok.mp hr; cases h; exact ih
      | srcBits v => cases hr; exact ih
      | dstBits v => cases hr; exact ih
      | add v =>
        obtain ⟨_, _, h⟩ := bind_eq_ok.mp hr; cases h
        intro w hw; exact (List.mem_filter.mp hw).1
      | remove v => cases hr; intro w hw; exact ih w (List.mem_filter.mp hw).1
      | reset => cases hr; intro w hw; cases hw
      | all => cases hr; intro w hw; simp [OfMatch.wildcardAll] at hw; subst hw; decide

/-- **C129**: after any history, a wildcard is in the set exactly if it was added, and not removed since by
its number, by a reset or by wildcarding everything, which sets `All` alone. -/
theorem wildcard_history (ops : List MatchOp) (w : Nat) (hw : w ∈ wildcardNames) :
    w ∈ (history ops).wildcards ↔ IsSet w ops := by
  replace hw : w ∈ ofWildcards := hw
  have hw' := hw
  clear hw
  induction ops with
  | nil => simp [history, OfMatch.default, IsSet]
  | cons op ops ih =>
    cases hr : applyOp (history ops) op with
    | error e =>
      rw [history_error hr]; refine ih.trans ?_
      cases op <;> simp only [IsSet] <;> (try cases hr)
      rename_i v
      constructor
      · exact .inr
      · rintro (rfl | h)
        · simp only [applyOp, OfMatch.addWildcard, enumOf_nat hw', bind_ok] at hr
          cases hr
        · exact h
    | ok m =>
      rw [history_ok hr]
      cases op with
      | assign g v => rw [((assign_iff _ _ _).2 m hr).2.2.1]; exact ih
      | dlSrc a => obtain ⟨_, _, h⟩ := bind_eq_ok.mp hr; cases h; exact ih
      | dlDst a => obtain ⟨_, _, h⟩ := bind_eq_ok.mp hr; cases h; exact ih
      | nwSrc a => obtain ⟨_, _, h⟩ := bind_eq_ok.mp hr; cases h; exact ih
      | nwDst a => obtain ⟨_, _, h⟩ := bind_eq_ok.mp hr; cases h; exact ih
      | srcBits v => cases hr; exact ih
      | dstBits v => cases hr; exact ih
      | add v =>
        obtain ⟨n, e, h⟩ := bind_eq_ok.mp hr; cases h
        obtain ⟨i, rfl⟩ := enumOf_ok e
        simp only [setAdd, List.mem_filter, hw', true_and, Bool.or_eq_true, List.contains_iff_mem, beq_iff_eq,
          IsSet, ih]
        constructor
        · rintro (h | rfl)
          · exact .inr h
          · exact .inl rfl
        · rintro (h | h)
          · exact .inr (by omega)
          · exact .inl h
      | remove v =>
        cases hr
        simp only [OfMatch.removeWildcard, List.mem_filter, IsSet, ih]
        constructor
        · rintro ⟨h, n⟩; exact ⟨fun c => by simp [c] at n, h⟩
        · rintro ⟨n, h⟩; exact ⟨h, by simpa using fun c => n c.symm⟩
      | reset => cases hr; simp [OfMatch.resetWildcards, IsSet]
      | all => cases hr; simp [OfMatch.wildcardAll, IsSet]

/-- **C129**: nothing else is ever in the set, no matter what was passed to the methods. -/
theorem wildcard_set (ops : List MatchOp) (w : Nat) (h : w ∈ (history ops).wildcards) : w ∈ wildcardNames :=
  wildcards_listed ops w h

example : 4 ∈ (history [.remove 8, .add 8, .add 77, .add 4, .all]).wildcards ∧
    IsSet 4 [.remove 8, .add 8, .add 77, .add 4, .all] := by
  refine ⟨by decide +kernel, ?_⟩
  simp [IsSet]

/-- A number of bits brought between 0 and 32. -/
def within (v : Int) : Int := if v < 0 then 0 else if 32 < v then 32 else v

/-- The number of ignored bits of the source address after a history. -/
def srcIgnored : List MatchOp → Int
  | [] => 0
  | .srcBits v :: _ => within v
  | .reset :: _ => 0
  | .all :: _ => 32
  | _ :: ops => srcIgnored ops

/-- The number of ignored bits of the destination address after a history. -/
def dstIgnored : List MatchOp → Int
  | [] => 0
  | .dstBits v :: _ => within v
  | .reset :: _ => 0
  | .all :: _ => 32
  | _ :: ops => dstIgnored ops

theorem clamp_within (v : Int) : (clampBits v : Int) = within v := by
  unfold clampBits within; split <;> (try split) <;> omega

/-- **C129**, partial: the numbers of ignored address bits are those last assigned, brought between 0 and 32,
unless the wildcards were reset (0) or everything wildcarded (32).  Missing: reading the number for the
destination, which gives the one for the source (`nwdst_wildcard_violated`); the statement
is about the number that comparisons with packets use. -/
theorem ignored_history_partial (ops : List MatchOp) :
    ((history ops).getNwSrcWild : Int) = srcIgnored ops ∧ ((history ops).nwDstWild : Int) = dstIgnored ops := by
  unfold OfMatch.getNwSrcWild
  induction ops with
  | nil => exact ⟨rfl, rfl⟩
  | cons op ops ih =>
    cases hr : applyOp (history ops) op with
    | error e =>
      rw [history_error hr]
      cases op <;> simp only [srcIgnored, dstIgnored] <;> first | exact ih | cases hr
    | ok m =>
      rw [history_ok hr]
      cases op with
      | assign g v =>
        have := (assign_iff _ _ _).2 m hr
        rw [this.2.2.2.1, this.2.2.2.2.1]; exact ih
      | dlSrc a => obtain ⟨_, _, h⟩ := bind_eq_ok.mp hr; cases h; exact ih
      | dlDst a => obtain ⟨_, _, h⟩ := bind_eq_ok.mp hr; cases h; exact ih
      | nwSrc a => obtain ⟨_, _, h⟩ := bind_eq_ok.mp hr; cases h; exact ih
      | nwDst a => obtain ⟨_, _, h⟩ := bind_eq_ok.mp hr; cases h; exact ih
      | srcBits v => cases hr; exact ⟨clamp_within v, ih.2⟩
      | dstBits v => cases hr; exact ⟨ih.1, clamp_within v⟩
      | add v => obtain ⟨_, _, h⟩ := bind_eq_ok.mp hr; cases h; exact ih
      | remove v => cases hr; exact ih
      | reset => cases hr; exact ⟨rfl, rfl⟩
      | all => cases hr; exact ⟨rfl, rfl⟩

example : srcIgnored [.add 4, .srcBits 40, .all] = 32 ∧ (history [.add 4, .srcBits 40, .all]).getNwSrcWild = 32 ∧
    dstIgnored [.dstBits 8, .reset] = 8 := by decide +kernel

/-! ### Addresses -/

/-- The last addresses assigned, or the initial ones.  The source must be an IPv4 address. -/
def lastAddrs : List MatchOp → EthAddr × EthAddr × IPAddr × IPAddr
  | [] => (⟨[0, 0, 0, 0, 0, 0]⟩, ⟨[0, 0, 0, 0, 0, 0]⟩, .v4 0, .v4 0)
  | .dlSrc a :: ops => (a, (lastAddrs ops).2)
  | .dlDst a :: ops => ((lastAddrs ops).1, a, (lastAddrs ops).2.2)
  | .nwSrc (.v4 a) :: ops => ((lastAddrs ops).1, (lastAddrs ops).2.1, .v4 a, (lastAddrs ops).2.2.2)
  | .nwDst a :: ops => ((lastAddrs ops).1, (lastAddrs ops).2.1, (lastAddrs ops).2.2.1, a)
  | _ :: ops => lastAddrs ops

/-- **C129**: the addresses of a match are those last assigned, whatever else was done in between; an IPv6
address as source raises and changes nothing. -/
theorem match_address_history (ops : List MatchOp)
    (hl : ∀ a, .dlSrc a ∈ ops ∨ .dlDst a ∈ ops → a.raw.length = 6) :
    ((history ops).dlSrc, (history ops).dlDst, IPAddr.v4 (history ops).nwSrc, (history ops).nwDst) =
      lastAddrs ops := by
  induction ops with
  | nil => decide +kernel
  | cons op ops ih =>
    have ih := ih fun a h => hl a (h.imp (List.mem_cons_of_mem _) (List.mem_cons_of_mem _))
    have ne : ∀ a : EthAddr, a.raw.length = 6 → a.raw ≠ [] := fun a h c => by simp [c] at h
    simp only [Prod.ext_iff] at ih ⊢
    obtain ⟨i1, i2, i3, i4⟩ := ih
    cases hr : applyOp (history ops) op with
    | error e =>
      rw [history_error hr]
      cases op with
      | dlSrc a =>
        simp only [applyOp, OfMatch.setDlSrc, EthAddr.mk'_addr (ne a (hl a (by simp))), bind_ok] at hr
        cases hr
      | dlDst a =>
        simp only [applyOp, OfMatch.setDlDst, EthAddr.mk'_addr (ne a (hl a (by simp))), bind_ok] at hr
        cases hr
      | nwSrc a => cases a <;> first | cases hr; done | exact ⟨i1, i2, i3, i4⟩
      | nwDst a => cases hr
      | _ => exact ⟨i1, i2, i3, i4⟩
    | ok m =>
      rw [history_ok hr]
      cases op with
      | assign g v =>
        have := (assign_iff _ _ _).2 m hr
        obtain ⟨-, -, -, -, -, e1, e2, e3, e4⟩ := this
        rw [e1, e2, e3, e4]; exact ⟨i1, i2, i3, i4⟩
      | dlSrc a =>
        simp only [applyOp, OfMatch.setDlSrc, EthAddr.mk'_addr (ne a (hl a (by simp))), bind_ok] at hr
        cases hr; exact ⟨rfl, i2, i3, i4⟩
      | dlDst a =>
        simp only [applyOp, OfMatch.setDlDst, EthAddr.mk'_addr (ne a (hl a (by simp))), bind_ok] at hr
        cases hr; exact ⟨i1, rfl, i3, i4⟩
      | nwSrc a =>
        cases a with
        | v4 a => cases hr; exact ⟨i1, i2, rfl, i4⟩
        | v6 a => cases hr
      | nwDst a => cases hr; exact ⟨i1, i2, i3, rfl⟩
      | srcBits v => cases hr; exact ⟨i1, i2, i3, i4⟩
      | dstBits v => cases hr; exact ⟨i1, i2, i3, i4⟩
      | add v => obtain ⟨_, _, h⟩ := bind_eq_ok.mp hr; cases h; exact ⟨i1, i2, i3, i4⟩
      | remove v => cases hr; exact ⟨i1, i2, i3, i4⟩
      | reset => cases hr; exact ⟨i1, i2, i3, i4⟩
      | all => cases hr; exact ⟨i1, i2, i3, i4⟩

example : (history [.nwSrc (.v6 1), .all, .nwSrc (.v4 0x0a000001), .nwDst (.v6 7)]).nwSrc = 0x0a000001 := by
  decide +kernel

/-- **C120**: a match falls under another of a different input port only if the other wildcards the port. -/
theorem match_entry_port (m o : OfMatch) (h : m.matchesEntry o = true) :
    WildBit o 0 ∨ m.inPort = o.inPort := by
  unfold OfMatch.matchesEntry at h
  rw [Bool.and_eq_true, Bool.or_eq_true, beq_iff_eq, List.contains_iff_mem] at h
  exact h.2.imp (fun h => ⟨1, h, by decide⟩) id

example : exNetMatch.matchesEntry { exNetMatch with inPort := 7 } = true ∧ WildBit exNetMatch 0 :=
  ⟨by decide +kernel, 1, by decide +kernel, by decide⟩

end SY.Props
