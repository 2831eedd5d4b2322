import Verif.OutEvent
import Verif.Props.Matcher
import Verif.Props.Scenario

/-! # C225: output expectations are what their author wrote -/

namespace SY.Props
open SY

theorem obind_ok {ε α β : Type} {a : α} {f : α → Except ε β} : ((Except.ok a : Except ε α) >>= f) = f a := rfl
theorem obind_err {ε α β : Type} {e : ε} {f : α → Except ε β} : ((Except.error e : Except ε α) >>= f) = .error e := rfl

theorem obind_eq_ok {ε α β : Type} {x : Except ε α} {f : α → Except ε β} {b : β} :
    x >>= f = .ok b ↔ ∃ a, x = .ok a ∧ f a = .ok b := by
  cases x with
  | ok a => simp [obind_ok]
  | error e => simp [obind_err]

theorem liftOut_ok {α : Type} {x : Res α} {a : α} : liftOut x = .ok a ↔ x = .ok a := by
  cases x <;> simp [liftOut]

/-- Headers of the class have the field. -/
def HasField (c : Cls) (a : HdrAttr) : Prop := a ∈ fieldsOf c ∨ (c = .ext ∧ (a = .nextheader ∨ a = .protocol))

theorem classAttrs_iff (c : Cls) (a : HdrAttr) : a ∈ classAttrs c ↔ HasField c a := by
  cases c <;> simp [classAttrs, HasField, fieldsOf, tcpFlagsByName]

/-- A pair of a header class and a name that objects of the class have. -/
def GoodWild (more : Cls → List Char → Bool) (w : WildObj) : Prop :=
  ∃ c, (∃ a, w = .seq [.cls c, .attr a] ∧ HasField c a) ∨ (∃ s, w = .seq [.cls c, .text s] ∧ more c s = true)

/-- The field that a wildcard names. -/
def wildPairs : WildObj → List (Cls × HdrAttr)
  | .seq [.cls c, .attr a] => [(c, a)]
  | _ => []

theorem mem_wildPairs (ws : List WildObj) (c : Cls) (a : HdrAttr) :
    (c, a) ∈ ws.flatMap wildPairs ↔ .seq [.cls c, .attr a] ∈ ws := by
  simp only [List.mem_flatMap]
  constructor
  · rintro ⟨w, hw, h⟩
    unfold wildPairs at h
    split at h
    · simp only [List.mem_singleton, Prod.mk.injEq] at h
      obtain ⟨rfl, rfl⟩ := h
      exact hw
    · simp at h
  · intro h; exact ⟨_, h, by simp [wildPairs]⟩

theorem checkWildcard_ok (more : Cls → List Char → Bool) (w : WildObj) (l : List (Cls × HdrAttr)) :
    checkWildcard more w = .ok l ↔ GoodWild more w ∧ l = wildPairs w := by
  unfold checkWildcard
  split
  · rename_i k a
    cases k with
    | cls c =>
      cases a with
      | attr a =>
        by_cases h : a ∈ classAttrs c
        · have h' := (classAttrs_iff c a).1 h
          simp only [if_pos h]
          exact ⟨fun e => ⟨⟨c, .inl ⟨a, rfl, h'⟩⟩, (Except.ok.inj e).symm⟩, fun e => by rw [e.2]; rfl⟩
        · have h' : ¬ HasField c a := fun x => h ((classAttrs_iff c a).2 x)
          simp [h, GoodWild, wildPairs, h']
      | text s =>
        by_cases h : more c s = true
        · simp only [h, if_true]
          exact ⟨fun e => ⟨⟨c, .inr ⟨s, rfl, h⟩⟩, (Except.ok.inj e).symm⟩, fun e => by rw [e.2]; rfl⟩
        · simp [h, GoodWild, wildPairs]
      | _ => simp [GoodWild]
    | _ => simp [GoodWild]
  · rename_i h
    simp only [reduceCtorEq, false_iff, GoodWild]
    rintro ⟨⟨c, ⟨a, rfl, _⟩ | ⟨s, rfl, _⟩⟩, _⟩
    · exact h _ _ rfl
    · exact h _ _ rfl

theorem checkWildcards_ok (more : Cls → List Char → Bool) (ws : List WildObj) (l : List (Cls × HdrAttr)) :
    checkWildcards more ws = .ok l ↔ (∀ w ∈ ws, GoodWild more w) ∧ l = ws.flatMap wildPairs := by
  induction ws generalizing l with
  | nil => simp [checkWildcards, eq_comm]
  | cons w ws ih =>
    simp only [checkWildcards, obind_eq_ok, checkWildcard_ok, ih, Except.ok.injEq, List.mem_cons, forall_eq_or_imp,
      List.flatMap_cons]
    constructor
    · rintro ⟨x, ⟨h1, rfl⟩, y, ⟨h2, rfl⟩, rfl⟩; exact ⟨⟨h1, h2⟩, rfl⟩
    · rintro ⟨⟨h1, h2⟩, rfl⟩; exact ⟨_, ⟨h1, rfl⟩, _, ⟨h2, rfl⟩, rfl⟩

theorem checkPredicates_ok (ev : Evaluator) (ps : List PredObj) (ss : List (List Char)) :
    checkPredicates ev ps = .ok ss ↔ ps = ss.map .text ∧ ∀ s ∈ ss, ∃ f, ev s = .func f := by
  induction ps generalizing ss with
  | nil => cases ss <;> simp [checkPredicates]
  | cons p ps ih =>
    cases p with
    | other => cases ss <;> simp [checkPredicates]
    | text s =>
      unfold checkPredicates
      cases hs : ev s with
      | func f =>
        simp only [obind_eq_ok, ih, Except.ok.injEq]
        constructor
        · rintro ⟨l, ⟨rfl, h⟩, rfl⟩
          refine ⟨rfl, ?_⟩
          simp only [List.mem_cons, forall_eq_or_imp]
          exact ⟨⟨f, hs⟩, h⟩
        · rintro ⟨h1, h2⟩
          cases ss with
          | nil => cases h1
          | cons t ss =>
            simp only [List.map_cons, List.cons.injEq, PredObj.text.injEq] at h1
            obtain ⟨rfl, rfl⟩ := h1
            exact ⟨ss, ⟨rfl, fun x hx => h2 x (List.mem_cons_of_mem _ hx)⟩, rfl⟩
      | _ =>
        simp only [reduceCtorEq, false_iff]
        rintro ⟨h1, h2⟩
        cases ss with
        | nil => cases h1
        | cons t ss =>
          simp only [List.map_cons, List.cons.injEq, PredObj.text.injEq] at h1
          obtain ⟨rfl, _⟩ := h1
          obtain ⟨f, hf⟩ := h2 s List.mem_cons_self
          rw [hs] at hf; cases hf

/-- These are the predicates given: those of the list `predicates` (the characters, if it is a text), then `predicate`. -/
def GivenPreds (kw : OutKw) (ps : List PredObj) : Prop :=
  ∃ l, ((kw.predicates = .absent ∧ l = []) ∨ kw.predicates = .seq l ∨
      ∃ s, kw.predicates = .text s ∧ l = s.map fun c => .text [c]) ∧ ps = l ++ kw.predicate.toList

/-- These are the wildcards given. -/
def GivenWilds (kw : OutKw) (ws : List WildObj) : Prop :=
  ∃ l, ((kw.wildcards = .absent ∧ l = []) ∨ kw.wildcards = .seq l ∨
      ∃ s, kw.wildcards = .text s ∧ l = s.map fun _ => .other) ∧ ws = l ++ kw.wildcard.toList

theorem extendPreds_ok (kw : OutKw) (l : List PredObj) : extendPreds kw.predicates = .ok l ↔
    ((kw.predicates = .absent ∧ l = []) ∨ kw.predicates = .seq l ∨ ∃ s, kw.predicates = .text s ∧ l = s.map fun c => .text [c]) := by
  cases kw.predicates <;> simp [extendPreds, eq_comm]

theorem extendWilds_ok (kw : OutKw) (l : List WildObj) : extendWilds kw.wildcards = .ok l ↔
    ((kw.wildcards = .absent ∧ l = []) ∨ kw.wildcards = .seq l ∨ ∃ s, kw.wildcards = .text s ∧ l = s.map fun _ => .other) := by
  cases kw.wildcards <;> simp [extendWilds, eq_comm]

theorem matcherOf_ok (ev : Evaluator) (more : Cls → List Char → Bool) (exact : Option Bool) (ws : List WildObj)
    (ps : List PredObj) (p : Packet) (m : Matcher) :
    matcherOf ev more exact ws ps p = .ok m ↔ (∀ w ∈ ws, GoodWild more w) ∧ ∃ ss : List (List Char), ps = ss.map .text ∧
      (∀ s ∈ ss, ∃ f, ev s = .func f) ∧ Matcher.new p (exact.getD true) (ws.flatMap wildPairs) (ss.map (predFn ev)) = .ok m := by
  simp only [matcherOf, obind_eq_ok, checkWildcards_ok, checkPredicates_ok, liftOut_ok]
  constructor
  · rintro ⟨_, ⟨h1, rfl⟩, ss, ⟨h2, h3⟩, h4⟩; exact ⟨h1, ss, h2, h3, h4⟩
  · rintro ⟨h1, ss, h2, h3, h4⟩; exact ⟨_, ⟨h1, rfl⟩, ss, ⟨h2, h3⟩, h4⟩

theorem predTexts_inj {ss tt : List (List Char)} (h : ss.map PredObj.text = tt.map PredObj.text) : ss = tt :=
  (List.map_inj_right (fun _ _ h => by injection h)).1 h

theorem waitingOf_ok (ev : Evaluator) (more : Cls → List Char → Bool) (exact : Option Bool) (ws : List WildObj)
    (ss : List (List Char)) (hw : ∀ w ∈ ws, GoodWild more w) (hs : ∀ s ∈ ss, ∃ f, ev s = .func f)
    (args : List (List Char × Packet)) (d e : Dict (List Char) Matcher) :
    waitingOf ev more exact ws (ss.map .text) d args = .ok e ↔
      mkWaiting (exact.getD true) (ws.flatMap wildPairs) (ss.map (predFn ev)) d args = .ok e := by
  induction args generalizing d with
  | nil => simp [waitingOf, mkWaiting]
  | cons x args ih =>
    obtain ⟨dev, p⟩ := x
    simp only [waitingOf, mkWaiting, obind_eq_ok, matcherOf_ok, ih]
    constructor
    · rintro ⟨m, ⟨_, tt, ht, _, hm⟩, h⟩
      rw [predTexts_inj ht]
      rw [← predTexts_inj ht] at hm
      exact ⟨m, by rw [← predTexts_inj ht]; exact hm, by rw [← predTexts_inj ht]; exact h⟩
    · rintro ⟨m, hm, h⟩; exact ⟨m, ⟨hw, ss, rfl, hs, hm⟩, h⟩

/-- **C225**: an output expectation is made exactly if there are pairs of a device and a packet, every predicate given is
the text of a function and every wildcard given is a pair of a header class and a name it has, and the packets can be
matched; it is then the expectation with all these predicates and wildcards, and exact unless `exact=False` was given. -/
theorem output_event_iff (ev : Evaluator) (more : Cls → List Char → Bool) (args : List (List Char × Packet)) (odd : Bool)
    (kw : OutKw) (e : Event) :
    outputEvent ev more args odd kw = .ok e ↔ args ≠ [] ∧ odd = false ∧
      ∃ (ss : List (List Char)) (ws : List WildObj), GivenPreds kw (ss.map .text) ∧ GivenWilds kw ws ∧ (∀ s ∈ ss, ∃ f, ev s = .func f) ∧
        (∀ w ∈ ws, GoodWild more w) ∧
        Event.mkOutput args false (kw.exact != some false) (ws.flatMap wildPairs) (ss.map (predFn ev)) = .ok e := by
  have hx : (kw.exact != some false) = kw.exact.getD true := by
    cases kw.exact with
    | none => rfl
    | some b => cases b <;> rfl
  rw [hx]
  simp only [outputEvent, obind_eq_ok, extendPreds_ok, extendWilds_ok]
  by_cases ha : args = []
  · subst ha
    cases odd <;> simp
  · cases odd with
    | true => simp [ha]
    | false =>
      simp only [ha, false_and, if_false, Bool.false_eq_true, obind_eq_ok, Event.mkOutput, ne_eq, not_false_eq_true, true_and]
      constructor
      · rintro ⟨ps, hp, ws, hw, d, hd, he⟩
        cases args with
        | nil => exact absurd rfl ha
        | cons x args =>
          have h0 := hd
          simp only [waitingOf, obind_eq_ok, matcherOf_ok] at h0
          obtain ⟨m, ⟨hg, ss, hss, hs, _⟩, _⟩ := h0
          rw [hss, waitingOf_ok ev more _ _ ss hg hs] at hd
          exact ⟨ss, _, ⟨ps, hp, hss.symm⟩, ⟨ws, hw, rfl⟩, hs, hg, d, hd, by rw [Except.ok.inj he]⟩
      · rintro ⟨ss, ws, ⟨ps, hp, hss⟩, ⟨wl, hw, rfl⟩, hs, hg, d, hd, he⟩
        exact ⟨ps, hp, wl, hw, d, by rw [← hss, waitingOf_ok ev more _ _ ss hg hs]; exact hd, by rw [Except.ok.inj he]⟩

/-- **C225**: of an expectation made from packets for different devices, a packet sent on one of them is accepted exactly
if it can be serialised like the one expected there, looks like it but for the fields named by wildcards, and every function
given as a predicate, in either way, holds of it. -/
theorem output_event_accepts (ev : Evaluator) (more : Cls → List Char → Bool) (args : List (List Char × Packet))
    (kw : OutKw) (e : Event) (he : outputEvent ev more args false kw = .ok e) (hn : (args.map Prod.fst).Nodup)
    (ps : List PredObj) (hps : GivenPreds kw ps) (ws : List WildObj) (hws : GivenWilds kw ws)
    (dev : List Char) (ref : Packet) (hd : (dev, ref) ∈ args) (q : Packet) :
    (∃ v, (e.matchOutput dev q).2.2 = .ok v ∧ (v = .success ∨ v = .part)) ↔
      ∃ q' b r b', q.toBytes = (q', .ok b) ∧ ref.toBytes = (r, .ok b') ∧
        LooksLike (kw.exact != some false) (ws.flatMap wildPairs) r q' ∧
        ∀ s f, .text s ∈ ps → ev s = .func f → f q' = .ok true := by
  obtain ⟨_, _, ss, ws', ⟨l, hl, hss⟩, ⟨wl, hwl, rfl⟩, hs, hg, hm⟩ := (output_event_iff _ _ _ _ _ _).1 he
  obtain ⟨l', hl', rfl⟩ := hps
  obtain ⟨wl', hwl', rfl⟩ := hws
  have e1 : l' = l := by
    rcases hl with ⟨h1, rfl⟩ | h1 | ⟨s, h1, rfl⟩ <;> rw [h1] at hl' <;> simp at hl' <;> simp [hl']
  have e2 : wl' = wl := by
    rcases hwl with ⟨h1, rfl⟩ | h1 | ⟨s, h1, rfl⟩ <;> rw [h1] at hwl' <;> simp at hwl' <;> simp [hwl']
  subst e1; subst e2
  obtain ⟨w, rfl, _, _, _, hw⟩ := output_new_partial _ _ _ _ _ _ hm hn
  obtain ⟨m, hm1, hm2⟩ := hw _ hd
  have key := matcher_accepts ref _ _ _ m hm2 q
  have hpred : ∀ q' : Packet, (∀ f ∈ ss.map (predFn ev), f q' = .ok true) ↔
      ∀ s f, PredObj.text s ∈ l' ++ kw.predicate.toList → ev s = .func f → f q' = .ok true := by
    intro q'
    rw [← hss]
    simp only [List.mem_map, PredObj.text.injEq, exists_eq_right]
    constructor
    · intro h s f hs1 hf
      have := h _ ⟨s, hs1, rfl⟩
      simpa [predFn, hf] using this
    · rintro h _ ⟨s, hs1, rfl⟩
      obtain ⟨f, hf⟩ := hs s hs1
      simpa [predFn, hf] using h s f hs1 hf
  simp only [hpred] at key
  rw [← key]
  simp only [Event.matchOutput, hm1]
  rcases hmm : m.matchPkt q with ⟨m', p', r⟩
  cases r with
  | error x => simp
  | ok b =>
    cases b with
    | false => simp
    | true =>
      refine ⟨fun _ => rfl, fun _ => ⟨_, rfl, ?_⟩⟩
      by_cases h0 : w.erase dev = []
      · exact .inl (if_pos h0)
      · exact .inr (if_neg h0)

/-! ## Refusals -/

theorem checkWildcards_refuses (more : Cls → List Char → Bool) (good : List WildObj) (bad : WildObj) (rest : List WildObj)
    (hg : ∀ w ∈ good, GoodWild more w) (x : OutErr) (hb : checkWildcard more bad = .error x) :
    checkWildcards more (good ++ bad :: rest) = .error x := by
  induction good with
  | nil => simp [checkWildcards, hb, obind_err]
  | cons w ws ih =>
    have h1 := (checkWildcard_ok more w _).2 ⟨hg w List.mem_cons_self, rfl⟩
    simp [checkWildcards, h1, obind_ok, ih (fun w h => hg w (List.mem_cons_of_mem _ h)), obind_err]

theorem checkPredicates_refuses (ev : Evaluator) (good : List (List Char)) (bad : PredObj) (rest : List PredObj)
    (hg : ∀ s ∈ good, ∃ f, ev s = .func f) (x : OutErr) (hb : checkPredicates ev (bad :: rest) = .error x) :
    checkPredicates ev (good.map .text ++ bad :: rest) = .error x := by
  induction good with
  | nil => exact hb
  | cons s ss ih =>
    obtain ⟨f, hf⟩ := hg s List.mem_cons_self
    simp [checkPredicates, hf, ih (fun w h => hg w (List.mem_cons_of_mem _ h)), obind_err]

theorem outputEvent_given (ev : Evaluator) (more : Cls → List Char → Bool) (x : List Char × Packet)
    (args : List (List Char × Packet)) (kw : OutKw) (ps : List PredObj) (hps : GivenPreds kw ps) (ws : List WildObj)
    (hws : GivenWilds kw ws) (er : OutErr) (h : ∀ p, matcherOf ev more kw.exact ws ps p = .error er) :
    outputEvent ev more (x :: args) false kw = .error er := by
  obtain ⟨l, hl, rfl⟩ := hps
  obtain ⟨wl, hwl, rfl⟩ := hws
  simp only [outputEvent, (extendPreds_ok kw l).2 hl, (extendWilds_ok kw wl).2 hwl, obind_ok]
  simp [waitingOf, h, obind_err]

/-- The wildcard is not even a pair that begins with a class. -/
def NoClass : WildObj → Prop
  | .seq [.cls _, _] => False
  | .seq [.otherCls, _] => False
  | .seq [_, _] => True
  | _ => False

/-- **C225**: the first wildcard that is none (unless it is a pair whose first member is no class) is refused with
`ValueError`. -/
theorem wildcard_refused_partial (ev : Evaluator) (more : Cls → List Char → Bool) (x : List Char × Packet)
    (args : List (List Char × Packet)) (kw : OutKw) (ps : List PredObj) (hps : GivenPreds kw ps)
    (good rest : List WildObj) (bad : WildObj) (hws : GivenWilds kw (good ++ bad :: rest)) (hg : ∀ w ∈ good, GoodWild more w)
    (hb : ¬ GoodWild more bad) (hc : ¬ NoClass bad) :
    outputEvent ev more (x :: args) false kw = .error (.py .valueError) := by
  refine outputEvent_given ev more x args kw ps hps _ hws _ fun p => ?_
  have h : checkWildcard more bad = .error (.py .valueError) := by
    cases hx : checkWildcard more bad with
    | ok l => exact absurd ((checkWildcard_ok more bad l).1 hx).1 hb
    | error er =>
      revert hx
      unfold checkWildcard
      split
      · rename_i k a
        cases k with
        | cls c =>
          cases a with
          | attr a => simp only; split <;> simp [eq_comm]
          | text s => simp only; split <;> simp [eq_comm]
          | _ => simp [eq_comm]
        | otherCls => simp [eq_comm]
        | _ => exact absurd (by simp [NoClass]) hc
      · simp [eq_comm]
  simp [matcherOf, checkWildcards_refuses more good bad rest hg _ h, obind_err]

/-- **C225**: with good wildcards, the first predicate that is none is refused: what is no text with an exception, and a
text that is no Python expression with `SyntaxError`; a text whose evaluation raises, with that exception. -/
theorem predicate_refused_partial (ev : Evaluator) (more : Cls → List Char → Bool) (x : List Char × Packet)
    (args : List (List Char × Packet)) (kw : OutKw) (good : List (List Char)) (rest : List PredObj) (bad : PredObj)
    (hps : GivenPreds kw (good.map .text ++ bad :: rest)) (ws : List WildObj) (hws : GivenWilds kw ws)
    (hg : ∀ s ∈ good, ∃ f, ev s = .func f) (hw : ∀ w ∈ ws, GoodWild more w) :
    (bad = .other → outputEvent ev more (x :: args) false kw = .error (.py .generic)) ∧
    (∀ s, bad = .text s → ev s = .syntaxErr → outputEvent ev more (x :: args) false kw = .error .syntaxErr) ∧
    (∀ s y, bad = .text s → ev s = .raises y → outputEvent ev more (x :: args) false kw = .error (.py y)) := by
  have key : ∀ er, checkPredicates ev (bad :: rest) = .error er → outputEvent ev more (x :: args) false kw = .error er := by
    intro er h
    refine outputEvent_given ev more x args kw _ hps _ hws _ fun p => ?_
    simp [matcherOf, (checkWildcards_ok more ws _).2 ⟨hw, rfl⟩, checkPredicates_refuses ev good bad rest hg _ h, obind_err,
      obind_ok]
  refine ⟨?_, ?_, ?_⟩
  · rintro rfl; exact key _ (by simp [checkPredicates])
  · rintro s rfl h; exact key _ (by simp [checkPredicates, h])
  · rintro s y rfl h; exact key _ (by simp [checkPredicates, h])

/-- False of the code: a predicate that is no lambda expression is refused with `NameError`, because the code that makes the
message uses a name that does not exist. -/
theorem predicate_refused_violated (ev : Evaluator) (more : Cls → List Char → Bool) (x : List Char × Packet) (s : List Char)
    (hs : ev s = .value) : outputEvent ev more [x] false { predicate := some (.text s) } = .error (.py .nameError) := by
  refine outputEvent_given ev more x [] _ [.text s] ⟨[], .inl ⟨rfl, rfl⟩, rfl⟩ [] ⟨[], .inl ⟨rfl, rfl⟩, rfl⟩ _ fun p => ?_
  simp [matcherOf, checkWildcards, checkPredicates, hs, obind_ok, obind_err]

/-- False of the code: two wildcards given as one raise `TypeError`, not the `ValueError` that says what a wildcard is. -/
theorem wildcard_refused_violated (ev : Evaluator) (more : Cls → List Char → Bool) (x : List Char × Packet) :
    outputEvent ev more [x] false { wildcard := some (.seq [.other, .other]) } = .error (.py .typeError) := by
  refine outputEvent_given ev more x [] _ [] ⟨[], .inl ⟨rfl, rfl⟩, rfl⟩ [.seq [.other, .other]]
    ⟨[], .inl ⟨rfl, rfl⟩, rfl⟩ _ fun p => ?_
  simp [matcherOf, checkWildcards, checkWildcard, obind_err]

/-- False of the code: the text of a function given as `predicates` is taken for as many predicates as it has characters,
and refused because the first one is no function. -/
theorem predicates_text_violated (ev : Evaluator) (more : Cls → List Char → Bool) (x : List Char × Packet) (c : Char)
    (r : List Char) (f : Packet → Res Bool) (_hf : ev (c :: r) = .func f) (hc : ev [c] = .raises .nameError) :
    outputEvent ev more [x] false { predicates := .text (c :: r) } = .error (.py .nameError) := by
  refine outputEvent_given ev more x [] _ ((c :: r).map fun c => .text [c]) ⟨_, .inr (.inr ⟨_, rfl, rfl⟩), by simp⟩ []
    ⟨[], .inl ⟨rfl, rfl⟩, rfl⟩ _ fun p => ?_
  simp [matcherOf, checkWildcards, checkPredicates, hc, obind_ok, obind_err]

/-! ## Examples -/

/-- An evaluator that knows one function and that a single letter is an unbound name. -/
def exEval : Evaluator := fun s =>
  if s = "lambda p: p.num_headers() > 1".toList then .func fun p => .ok (decide (1 < p.length))
  else if s = "3".toList then .value
  else if s.length = 1 then .raises .nameError else .syntaxErr

def exOutKw : OutKw :=
  { predicates := .seq [.text "lambda p: p.num_headers() > 1".toList], wildcard := some (.seq [.cls .udp, .attr .src]) }

example : GivenPreds exOutKw [.text "lambda p: p.num_headers() > 1".toList] := ⟨_, .inr (.inl rfl), rfl⟩
example : GivenWilds exOutKw [.seq [.cls .udp, .attr .src]] := ⟨[], .inl ⟨rfl, rfl⟩, rfl⟩
example : GoodWild (fun _ _ => false) (.seq [.cls .udp, .attr .src]) := ⟨.udp, .inl ⟨.src, rfl, .inl (by decide)⟩⟩
example : ¬ GoodWild (fun _ _ => false) (.seq [.cls .udp, .attr .ttl]) := by
  rintro ⟨c, ⟨a, h, h'⟩ | ⟨s, h, _⟩⟩
  · simp at h
    obtain ⟨rfl, rfl⟩ := h
    simp [HasField, fieldsOf] at h'
  · simp at h
example : ∃ e, outputEvent exEval (fun _ _ => false) [("eth0".toList, [.hdr (.raw [1, 2])])] false exOutKw = .ok e := by
  refine ⟨_, (output_event_iff _ _ _ _ _ _).2 ⟨by simp, rfl, ["lambda p: p.num_headers() > 1".toList], [.seq [.cls .udp, .attr .src]],
    ⟨_, .inr (.inl rfl), rfl⟩, ⟨[], .inl ⟨rfl, rfl⟩, rfl⟩, ?_, ?_, rfl⟩⟩
  · intro s hs
    rw [List.mem_singleton] at hs
    exact ⟨_, by rw [hs]; exact if_pos rfl⟩
  · intro w hw
    rw [List.mem_singleton] at hw
    exact ⟨.udp, .inl ⟨.src, hw, .inl (by decide)⟩⟩
example (x : List Char × Packet) : outputEvent exEval (fun _ _ => false) [x] false { predicate := some (.text "3".toList) } =
    .error (.py .nameError) := predicate_refused_violated _ _ _ _ rfl

end SY.Props
