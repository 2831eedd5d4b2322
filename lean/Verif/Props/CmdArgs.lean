import Verif.CmdArgs
import Verif.Props.Start

/-! # C212: the command line means what its options say

The grammar of command lines and their meaning are written here without the model's reading of words. -/

namespace SY.Props
open SY

/-! ### The specification -/

/-- The long names of the options. -/
def longs : List (List Char × Dest) :=
  [("help".toList, .help), ("include".toList, .intf), ("exclude".toList, .exclude), ("codearg".toList, .codearg),
   ("compile".toList, .compile), ("test".toList, .tests), ("dryrun".toList, .dryrun),
   ("verbose".toList, .verbose), ("debug".toList, .debug), ("logfile".toList, .logfile),
   ("nocolor".toList, .nocolor), ("nopdb".toList, .nopdb), ("firewall".toList, .fwconfig), ("app".toList, .app),
   ("nohandle".toList, .nohandle), ("cli".toList, .cli), ("topology".toList, .topology),
   ("listif".toList, .listif)]

/-- The letters of the options. -/
def shorts : List (Char × Dest) :=
  [('h', .help), ('i', .intf), ('x', .exclude), ('g', .codearg), ('c', .compile), ('t', .tests), ('v', .verbose),
   ('d', .debug), ('l', .logfile), ('f', .fwconfig), ('a', .app), ('e', .nohandle)]

/-- The options that need a value. -/
def valued : List Dest := [.intf, .exclude, .codearg, .compile, .tests, .logfile, .fwconfig, .app, .topology]

/-- `p` stands for the long option `d`: it is the beginning, not empty, of its name and of no other. -/
def Abbrev (p : List Char) (d : Dest) : Prop :=
  p ≠ [] ∧ (∃ q ∈ longs, q.2 = d ∧ p <+: q.1) ∧ ∀ q ∈ longs, p <+: q.1 → q.2 = d

instance (p : List Char) (d : Dest) : Decidable (Abbrev p d) := by unfold Abbrev; infer_instance

/-- A negative number: digits, or digits with a point and digits after it; Python's `$` lets a newline pass. -/
def NegNum (v : List Char) : Prop :=
  ∃ ds es nl : List Char, ds.all Char.isDigit ∧ es.all Char.isDigit ∧ (nl = [] ∨ nl = ['\n']) ∧
    ((v = '-' :: ds ++ nl ∧ ds ≠ []) ∨ (v = '-' :: ds ++ '.' :: es ++ nl ∧ es ≠ []))

/-- The word begins as an option does: two dashes and the beginning, up to a `=`, of a long name, or one dash and
the letter of an option. -/
def OptLike (v : List Char) : Prop :=
  (∃ p r, v = '-' :: '-' :: p ++ r ∧ '=' ∉ p ∧ (r = [] ∨ r.head? = some '=') ∧ ∃ q ∈ longs, p <+: q.1) ∨
  (∃ a r, v = '-' :: a :: r ∧ a ∈ shorts.map (·.1))

/-- A word that can be the value of an option or the user's code: it does not begin with a dash, it is a dash, or
it is a negative number or contains a blank and does not begin as an option does. -/
def ArgLike (v : List Char) : Prop :=
  v.head? ≠ some '-' ∨ v = ['-'] ∨ ((NegNum v ∨ ' ' ∈ v) ∧ ¬ OptLike v)

/-- How a group of letters ends: with a letter that needs no value, or with a letter and its value, which stands
at once behind it, behind a `=`, or in the next word. -/
inductive Ending
  | plain
  | glued (a : Char) (v : List Char)
  | equals (a : Char) (v : List Char)
  | next (a : Char) (v : List Char)

/-- The things that can be given on a command line. -/
inductive Item
  | long (p : List Char) (d : Dest)
  | longEq (p : List Char) (d : Dest) (v : List Char)
  | longNext (p : List Char) (d : Dest) (v : List Char)
  | letters (fs : List (Char × Dest)) (e : Ending) (d : Dest)
  | code (w : List Char)

/-- How they are written. -/
def Item.words : Item → List (List Char)
  | .long p _ => ["--".toList ++ p]
  | .longEq p _ v => ["--".toList ++ p ++ '=' :: v]
  | .longNext p _ v => ["--".toList ++ p, v]
  | .letters fs .plain _ => ['-' :: fs.map (·.1)]
  | .letters fs (.glued a v) _ => ['-' :: fs.map (·.1) ++ a :: v]
  | .letters fs (.equals a v) _ => ['-' :: fs.map (·.1) ++ a :: '=' :: v]
  | .letters fs (.next a v) _ => ['-' :: fs.map (·.1) ++ [a], v]
  | .code w => [w]

/-- When they are well formed. -/
def Item.Valid : Item → Prop
  | .long p d => Abbrev p d ∧ d ∉ valued
  | .longEq p d _ => Abbrev p d ∧ d ∈ valued
  | .longNext p d v => Abbrev p d ∧ d ∈ valued ∧ ArgLike v
  | .letters fs e d =>
    (∀ f ∈ fs, f ∈ shorts ∧ f.2 ∉ valued) ∧
    match e with
    | .plain => fs ≠ []
    | .glued a v => (a, d) ∈ shorts ∧ d ∈ valued ∧ v ≠ [] ∧ v.head? ≠ some '='
    | .equals a _ => (a, d) ∈ shorts ∧ d ∈ valued
    | .next a v => (a, d) ∈ shorts ∧ d ∈ valued ∧ ArgLike v
  | .code w => ArgLike w

/-- What they give: options with their values. -/
def Item.gives : Item → List (Dest × List Char)
  | .long _ d => [(d, [])]
  | .longEq _ d v => [(d, v)]
  | .longNext _ d v => [(d, v)]
  | .letters fs e d =>
    fs.map (fun f => (f.2, [])) ++
      (match e with | .plain => [] | .glued _ v => [(d, v)] | .equals _ v => [(d, v)] | .next _ v => [(d, v)])
  | .code _ => []

/-- The user's code in an item. -/
def Item.codes : Item → List (List Char)
  | .code w => [w]
  | _ => []

/-- The values given for an option, in order. -/
def vals (g : List (Dest × List Char)) (d : Dest) : List (List Char) := (g.filter (·.1 = d)).map (·.2)

/-- Whether the option is given. -/
def has (g : List (Dest × List Char)) (d : Dest) : Bool := g.any (·.1 = d)

/-- What the given options mean: all values in order for `-i`, `-x`, `-c`, `-t` and `-f`, the last value for `-g`,
`-l`, `-a` and `--topology`, the number of times for `-v`, whether it is there for the others. -/
def meaning (g : List (Dest × List Char)) (code : Option (List Char)) : CmdLine where
  intf := vals g .intf
  exclude := vals g .exclude
  usercode := code
  codearg := (vals g .codearg).getLast?.getD []
  compile := vals g .compile
  tests := vals g .tests
  dryrun := has g .dryrun
  firewall := vals g .fwconfig
  app := (vals g .app).getLast?
  nohandle := has g .nohandle
  cli := has g .cli
  topology := (vals g .topology).getLast?
  listif := has g .listif
  verbose := (vals g .verbose).length
  debug := has g .debug
  logfile := (vals g .logfile).getLast?
  nocolor := has g .nocolor
  nopdb := has g .nopdb

/-- What may stand behind the items, and which word is then the user's code: at most one item is code; the word
`--` may be followed by any word, which is then the code if there is none before; and it may follow the code. -/
inductive CmdEnds : List Item → List (List Char) → Option (List Char) → Prop
  | none (its : List Item) : its.flatMap Item.codes = [] → CmdEnds its [] none
  | one (its : List Item) (w : List Char) : its.flatMap Item.codes = [w] → CmdEnds its [] (some w)
  | dash (its : List Item) : its.flatMap Item.codes = [] → CmdEnds its ["--".toList] Option.none
  | dashCode (its : List Item) (w : List Char) :
      its.flatMap Item.codes = [] → CmdEnds its ["--".toList, w] (some w)
  | codeDash (its : List Item) (w : List Char) :
      its.flatMap Item.codes = [] → CmdEnds (its ++ [.code w]) ["--".toList] (some w)

/-! ### Taking actions -/

theorem ebind_ok {α β : Type} (a : α) (f : α → Except Nat β) : (Except.ok a >>= f) = f a := id rfl

theorem ebind_eq_ok {α β : Type} {x : Except Nat α} {f : α → Except Nat β} {b : β} :
    (x >>= f) = .ok b ↔ ∃ a, x = .ok a ∧ f a = .ok b := by
  cases x with
  | ok a => rw [ebind_ok]; simp
  | error e => exact ⟨fun h => (by cases h), fun ⟨a, h, _⟩ => (by cases h)⟩

theorem cmdVals_append (g : List (Dest × List Char)) (d e : Dest) (v : List Char) :
    vals (g ++ [(d, v)]) e = if d = e then vals g e ++ [v] else vals g e := by
  unfold vals
  by_cases h : d = e <;> simp [h]

theorem has_append (g : List (Dest × List Char)) (d e : Dest) (v : List Char) :
    has (g ++ [(d, v)]) e = (has g e || decide (d = e)) := by
  simp [has]

theorem take_meaning (g : List (Dest × List Char)) (u : Option (List Char)) (d : Dest) (v : List Char)
    (h : d ≠ .help) : (meaning g u).take d v = .ok (meaning (g ++ [(d, v)]) u) := by
  cases d <;> simp_all [CmdLine.take, meaning, cmdVals_append, has_append]

theorem take_help (c : CmdLine) (v : List Char) : c.take .help v = .error 0 := rfl

theorem takeAll_meaning (u : Option (List Char)) (l : List (Dest × List Char)) :
    ∀ g, (∀ p ∈ l, p.1 ≠ .help) → (meaning g u).takeAll l = .ok (meaning (g ++ l) u) := by
  induction l with
  | nil => intro g _; simp [CmdLine.takeAll]
  | cons p l ih =>
    intro g h
    obtain ⟨d, v⟩ := p
    simp only [CmdLine.takeAll]
    rw [take_meaning g u d v (h (d, v) (by simp)), ebind_ok, ih _ (fun q hq => h q (by simp [hq]))]
    simp

theorem takeAll_help (l : List (Dest × List Char)) :
    ∀ (c c' : CmdLine), c.takeAll l = .ok c' → ∀ p ∈ l, p.1 ≠ .help := by
  induction l with
  | nil => simp
  | cons p l ih =>
    intro c c' h
    obtain ⟨d, v⟩ := p
    simp only [CmdLine.takeAll] at h
    obtain ⟨c1, h1, h2⟩ := ebind_eq_ok.mp h
    intro q hq
    rcases List.mem_cons.mp hq with rfl | hq
    · intro hd
      simp only at hd
      subst hd
      simp [take_help] at h1
    · exact ih c1 c' h2 q hq

/-! ### Reading words -/

theorem mem_valued (d : Dest) : d ∈ valued ↔ d.takes = true := by cases d <;> decide

theorem optionOf_short (a : Char) (d : Dest) (h : (a, d) ∈ shorts) : optionOf ['-', a] = some d := by
  have : ∀ p ∈ shorts, optionOf ['-', p.1] = some p.2 := by decide
  exact this (a, d) h

/-- every option string is two dashes and a long name or a dash and a letter -/
theorem optionStrings_mem (s : List Char) (d : Dest) :
    (s, d) ∈ optionStrings ↔ (∃ n, s = '-' :: '-' :: n ∧ (n, d) ∈ longs) ∨ (∃ a, s = ['-', a] ∧ (a, d) ∈ shorts) := by
  constructor
  · intro h
    have : ∀ p ∈ optionStrings, (p.1.take 2 = ['-', '-'] ∧ (p.1.drop 2, p.2) ∈ longs) ∨
        (p.1.length = 2 ∧ p.1.take 1 = ['-'] ∧ (p.1.getD 1 ' ', p.2) ∈ shorts) := by decide
    rcases this (s, d) h with ⟨h1, h2⟩ | ⟨h1, h2, h3⟩
    · left
      refine ⟨s.drop 2, ?_, h2⟩
      have := List.take_append_drop 2 s
      simp only at h1
      rw [h1] at this
      simpa using this.symm
    · right
      match s, h1, h2, h3 with
      | [x, y], _, h2, h3 =>
        simp at h2
        exact ⟨y, by simp [h2], by simpa using h3⟩
  · rintro (⟨n, rfl, h⟩ | ⟨a, rfl, h⟩)
    · have : ∀ p ∈ longs, ('-' :: '-' :: p.1, p.2) ∈ optionStrings := by decide
      exact this (n, d) h
    · have : ∀ p ∈ shorts, (['-', p.1], p.2) ∈ optionStrings := by decide
      exact this (a, d) h

theorem optionOf_iff (s : List Char) (d : Dest) : optionOf s = some d ↔ (s, d) ∈ optionStrings := by
  constructor
  · intro h
    unfold optionOf at h
    rw [Option.map_eq_some_iff] at h
    obtain ⟨p, h1, h2⟩ := h
    have hm := List.mem_of_find?_eq_some h1
    have hp := List.find?_some h1
    simp only [beq_iff_eq] at hp
    rw [← h2, ← hp]
    exact hm
  · intro h
    have : ∀ p ∈ optionStrings, optionOf p.1 = some p.2 := by decide
    exact this (s, d) h

theorem shorts_char (a : Char) (d : Dest) (h : (a, d) ∈ shorts) : a ≠ '-' ∧ a ≠ '=' := by
  have : ∀ p ∈ shorts, p.1 ≠ '-' ∧ p.1 ≠ '=' := by decide
  exact this (a, d) h

theorem shorts_fun (a : Char) (d e : Dest) (h : (a, d) ∈ shorts) (h' : (a, e) ∈ shorts) : d = e := by
  have : ∀ p ∈ shorts, ∀ q ∈ shorts, p.1 = q.1 → p.2 = q.2 := by decide
  exact this _ h _ h' rfl

theorem longs_char (n : List Char) (d : Dest) (h : (n, d) ∈ longs) : '=' ∉ n ∧ n ≠ [] := by
  have : ∀ p ∈ longs, '=' ∉ p.1 ∧ p.1 ≠ [] := by decide
  exact this (n, d) h

theorem longs_fun (n m : List Char) (d : Dest) (h : (n, d) ∈ longs) (h' : (m, d) ∈ longs) : n = m := by
  have : ∀ p ∈ longs, ∀ q ∈ longs, p.2 = q.2 → p.1 = q.1 := by decide
  exact this _ h _ h' rfl

/-- no long name is the beginning of another -/
theorem longs_prefix (n m : List Char) (d e : Dest) (h : (n, d) ∈ longs) (h' : (m, e) ∈ longs) (hp : n <+: m) :
    d = e := by
  have : ∀ p ∈ longs, ∀ q ∈ longs, p.1 <+: q.1 → p.2 = q.2 := by decide
  exact this _ h _ h' hp

theorem partEq_append (p v : List Char) (h : '=' ∉ p) : partEq (p ++ '=' :: v) = (p, some v) := by
  induction p with
  | nil => simp [partEq]
  | cons c p ih =>
    simp only [List.mem_cons, not_or] at h
    simp [partEq, ih h.2, Ne.symm h.1]

theorem partEq_none (p : List Char) (h : '=' ∉ p) : partEq p = (p, none) := by
  induction p with
  | nil => simp [partEq]
  | cons c p ih =>
    simp only [List.mem_cons, not_or] at h
    simp [partEq, ih h.2, Ne.symm h.1]

/-- what `partEq` finds -/
theorem partEq_inv (w : List Char) : '=' ∉ (partEq w).1 ∧
    (((partEq w).2 = none ∧ w = (partEq w).1) ∨ ∃ v, (partEq w).2 = some v ∧ w = (partEq w).1 ++ '=' :: v) := by
  induction w with
  | nil => simp [partEq]
  | cons c w ih =>
    by_cases h : c = '='
    · subst h; simp [partEq]
    · simp only [partEq, if_neg h]
      refine ⟨by simp [Ne.symm h, ih.1], ?_⟩
      rcases ih.2 with ⟨h1, h2⟩ | ⟨v, h1, h2⟩
      · left; exact ⟨h1, by rw [← h2]⟩
      · right; exact ⟨v, h1, by rw [List.cons_append, ← h2]⟩

/-- The long options that a beginning may stand for. -/
def cands (p : List Char) : List (List Char × Dest) := longs.filter fun q => p.isPrefixOf q.1

theorem cands_of_strings (p : List Char) :
    (optionStrings.filter fun q => ('-' :: '-' :: p).isPrefixOf q.1) =
      (cands p).map fun q => ('-' :: '-' :: q.1, q.2) := by
  have h1 : (optionStrings.filter fun q => ['-', '-'].isPrefixOf q.1) =
      longs.map fun q => ('-' :: '-' :: q.1, q.2) := by decide
  have h2 : (optionStrings.filter fun q => ('-' :: '-' :: p).isPrefixOf q.1) =
      ((optionStrings.filter fun q => ['-', '-'].isPrefixOf q.1).filter
        fun q => ('-' :: '-' :: p).isPrefixOf q.1) := by
    rw [List.filter_filter]
    apply List.filter_congr
    intro q _
    match q.1 with
    | [] => simp
    | [_] => simp
    | x :: y :: r => simp [List.isPrefixOf]; grind
  rw [h2, h1, List.filter_map, cands]
  congr 1

theorem filter_single {α : Type} (q : α → Bool) (l : List α) (x : α) (hn : l.Nodup) (hx : x ∈ l) (hq : q x = true)
    (hu : ∀ y ∈ l, q y = true → y = x) : l.filter q = [x] := by
  induction l with
  | nil => simp at hx
  | cons a l ih =>
    rw [List.nodup_cons] at hn
    by_cases ha : q a = true
    · have hax := hu a (by simp) ha
      subst hax
      rw [List.filter_cons_of_pos ha]
      have : l.filter q = [] := by
        rw [List.filter_eq_nil_iff]
        intro y hy hqy
        have := hu y (by simp [hy]) hqy
        exact hn.1 (this ▸ hy)
      rw [this]
    · rw [List.filter_cons_of_neg ha]
      rcases List.mem_cons.mp hx with rfl | hx
      · exact absurd hq ha
      · exact ih hn.2 hx (fun y hy h => hu y (by simp [hy]) h)

theorem abbrev_iff (p : List Char) (d : Dest) : Abbrev p d ↔ ∃ n, cands p = [(n, d)] := by
  constructor
  · rintro ⟨-, ⟨⟨n, e⟩, hq, rfl, hp⟩, hu⟩
    refine ⟨n, filter_single _ _ _ (by decide) hq (by simpa using hp) ?_⟩
    rintro ⟨m, f⟩ hm hpm
    have hf := hu _ hm (by simpa using hpm)
    simp only at hf
    subst hf
    rw [longs_fun m n f hm hq]
  · rintro ⟨n, h⟩
    have hm : ∀ q, q ∈ longs → p <+: q.1 → q = (n, d) := by
      intro q hq hp
      have : q ∈ cands p := by simp [cands, hq, hp]
      rw [h] at this
      simpa using this
    have hn : (n, d) ∈ cands p := by simp [h]
    simp only [cands, List.mem_filter, List.isPrefixOf_iff_prefix] at hn
    refine ⟨?_, ⟨_, hn.1, rfl, hn.2⟩, fun q hq hp => by rw [hm q hq hp]⟩
    rintro rfl
    have : cands [] = longs := by decide
    rw [this] at h
    have := congrArg List.length h
    simp [longs] at this

theorem cands_nil_iff (p : List Char) : cands p = [] ↔ ¬ ∃ q ∈ longs, p <+: q.1 := by
  simp [cands, List.filter_eq_nil_iff]

/-- the rest of a word with two dashes, read up to a `=` -/
theorem read_long (p : List Char) (hp : '=' ∉ p) (r : List Char) (hr : r = [] ∨ r.head? = some '=') :
    readWord ('-' :: '-' :: p ++ r) =
      match cands p with
      | [] => .ok (readUnknown ('-' :: '-' :: p ++ r))
      | [q] => .ok (.opt (some q.2) false (!r.isEmpty) (if r = [] then none else some r.tail))
      | _ => .error 2 := by
  have hpe : partEq ('-' :: '-' :: p ++ r) = ('-' :: '-' :: p, if r = [] then none else some r.tail) := by
    rcases hr with rfl | hr
    · rw [List.append_nil, partEq_none _ (by simp [hp])]; rfl
    · match r, hr with
      | c :: v, hr =>
        simp only [List.head?_cons, Option.some.injEq] at hr
        subst hr
        rw [partEq_append _ _ (by simp [hp])]; simp
  have hex : ∀ d, optionOf ('-' :: '-' :: p) = some d → cands p = [(p, d)] := by
    intro d hd
    rw [optionOf_iff, optionStrings_mem] at hd
    rcases hd with ⟨n, h1, h2⟩ | ⟨a, h1, h2⟩
    · simp only [List.cons.injEq, true_and] at h1
      subst h1
      refine filter_single _ _ _ (by decide) h2 (by simp) ?_
      rintro ⟨m, e⟩ hm hpm
      have := longs_prefix p m d e h2 hm (by simpa using hpm)
      subst this
      rw [longs_fun m p d hm h2]
    · simp only [List.cons.injEq, true_and] at h1
      exact absurd h1.1.symm (shorts_char a d h2).1
  have htup : readTuples ('-' :: '-' :: p ++ r) = match cands p with
      | [] => .ok (readUnknown ('-' :: '-' :: p ++ r))
      | [q] => .ok (.opt (some q.2) false (!r.isEmpty) (if r = [] then none else some r.tail))
      | _ => .error 2 := by
    have ho : optionTuples ('-' :: '-' :: p ++ r) = (cands p).map fun q =>
        .opt (some q.2) false (!r.isEmpty) (if r = [] then none else some r.tail) := by
      unfold optionTuples
      rw [if_pos (by simp [List.isPrefixOf]), hpe]
      simp only
      rw [cands_of_strings, List.map_map]
      apply List.map_congr_left
      intro q _
      simp only [Function.comp]
      cases r <;> simp
    unfold readTuples
    rw [ho]
    match cands p with
    | [] => rfl
    | [q] => rfl
    | _ :: _ :: _ => rfl
  have hshort : isShort ('-' :: '-' :: p) = false := by simp [isShort, List.isPrefixOf]
  have hlen : ('-' :: '-' :: p ++ r).length ≠ 1 := by simp
  unfold readWord
  rw [if_neg (by simp)]
  rcases hr with rfl | hr
  · cases ho : optionOf ('-' :: '-' :: p ++ []) with
    | some d =>
      rw [List.append_nil] at ho
      simp [hex d ho, hshort]
    | none => simp only [hlen, if_false, hpe]; exact htup
  · match r, hr with
    | c :: v, hr =>
      simp only [List.head?_cons, Option.some.injEq] at hr
      subst hr
      have ho : optionOf ('-' :: '-' :: p ++ '=' :: v) = none := by
        cases ho : optionOf ('-' :: '-' :: p ++ '=' :: v) with
        | none => rfl
        | some d =>
          rw [optionOf_iff, optionStrings_mem] at ho
          rcases ho with ⟨n, h1, h2⟩ | ⟨a, h1, h2⟩
          · simp only [List.cons_append, List.cons.injEq, true_and] at h1
            exact absurd (h1 ▸ (by simp) : '=' ∈ n) (longs_char n d h2).1
          · simp at h1
      rw [ho]
      simp only [hlen, if_false, hpe]
      cases hd : optionOf ('-' :: '-' :: p) with
      | none => exact htup
      | some d => simp [hex d hd, hshort]

theorem letter_none (a : Char) : optionOf ['-', a] = none ↔ a ∉ shorts.map (·.1) := by
  constructor
  · intro h hm
    obtain ⟨⟨b, d⟩, hb, rfl⟩ := List.mem_map.mp hm
    rw [optionOf_short b d hb] at h
    simp at h
  · intro h
    cases ho : optionOf ['-', a] with
    | none => rfl
    | some d =>
      rw [optionOf_iff, optionStrings_mem] at ho
      rcases ho with ⟨n, h1, h2⟩ | ⟨b, h1, h2⟩
      · have := (longs_char n d h2).2
        simp at h1
        exact absurd h1.2 this
      · simp only [List.cons.injEq, true_and, and_true] at h1
        subst h1
        exact absurd (List.mem_map.mpr ⟨_, h2, rfl⟩) h

theorem letter_some (a : Char) (d : Dest) : optionOf ['-', a] = some d ↔ (a, d) ∈ shorts := by
  constructor
  · intro ho
    rw [optionOf_iff, optionStrings_mem] at ho
    rcases ho with ⟨n, h1, h2⟩ | ⟨b, h1, h2⟩
    · have := (longs_char n d h2).2
      simp at h1
      exact absurd h1.2 this
    · simp only [List.cons.injEq, true_and, and_true] at h1
      subst h1
      exact h2
  · exact optionOf_short a d

theorem optionOf_three (a b : Char) (r : List Char) (ha : a ≠ '-') : optionOf ('-' :: a :: b :: r) = none := by
  cases ho : optionOf ('-' :: a :: b :: r) with
  | none => rfl
  | some d =>
    rw [optionOf_iff, optionStrings_mem] at ho
    rcases ho with ⟨n, h1, h2⟩ | ⟨b, h1, h2⟩
    · simp only [List.cons.injEq, true_and] at h1
      exact absurd h1.1 ha
    · simp at h1

theorem filterMap_agree {α β : Type} (f g : α → Option β) (l : List α) (h : ∀ x ∈ l, f x = g x) :
    l.filterMap f = l.filterMap g := by
  induction l with
  | nil => rfl
  | cons a l ih => simp [List.filterMap_cons, h a (by simp), ih (fun x hx => h x (by simp [hx]))]

/-- a word with one dash, of at least three characters -/
theorem tuples_short (a b : Char) (r : List Char) (ha : a ≠ '-') :
    optionTuples ('-' :: a :: b :: r) =
      match optionOf ['-', a] with
      | none => []
      | some d => [.opt (some d) true false (some (b :: r))] := by
  have hno : ∀ q ∈ optionStrings, ('-' :: a :: b :: r).isPrefixOf q.1 = false := by
    intro q hq
    rw [Bool.eq_false_iff]
    intro h
    rw [List.isPrefixOf_iff_prefix] at h
    obtain ⟨t, ht⟩ := h
    rcases (optionStrings_mem q.1 q.2).mp hq with ⟨n, h1, -⟩ | ⟨c, h1, -⟩
    · rw [h1] at ht
      simp only [List.cons_append, List.cons.injEq, true_and] at ht
      exact ha ht.1
    · rw [h1] at ht
      simp at ht
  unfold optionTuples
  rw [if_neg (by simp [List.isPrefixOf, Ne.symm ha])]
  have h1 : (optionStrings.filterMap fun p =>
      if p.1 = ('-' :: a :: b :: r).take 2 then some (.opt (some p.2) true false (some (('-' :: a :: b :: r).drop 2)))
      else if ('-' :: a :: b :: r).isPrefixOf p.1 then some (.opt (some p.2) true false none) else none) =
      (optionStrings.filter fun p => p.1 == ['-', a]).map fun p => Tok.opt (some p.2) true false (some (b :: r)) := by
    rw [← List.filterMap_eq_map, List.filterMap_filter]
    apply filterMap_agree
    intro q hq
    by_cases h : q.1 = ['-', a]
    · simp [h]
    · simp [h, hno q hq]
  rw [h1]
  cases ho : optionOf ['-', a] with
  | none =>
    have : (optionStrings.filter fun p => p.1 == ['-', a]) = [] := by
      rw [List.filter_eq_nil_iff]
      intro q hq hqa
      simp only [beq_iff_eq] at hqa
      have := (optionOf_iff q.1 q.2).mpr hq
      rw [hqa, ho] at this
      simp at this
    rw [this]; rfl
  | some d =>
    have : (optionStrings.filter fun p => p.1 == ['-', a]) = [(['-', a], d)] := by
      refine filter_single _ _ _ (by decide) ((optionOf_iff _ _).mp ho) (by simp) ?_
      intro q hq hqa
      simp only [beq_iff_eq] at hqa
      have := (optionOf_iff q.1 q.2).mpr hq
      rw [hqa, ho] at this
      simp only [Option.some.injEq] at this
      rw [this, ← hqa]
    rw [this]; rfl

/-- what stands behind the letter of an option -/
def behind : List Char → Bool × Option (List Char)
  | [] => (false, none)
  | c :: r => if c = '=' then (true, some r) else (false, some (c :: r))

/-- a word with one dash -/
theorem read_short (a : Char) (r : List Char) (ha : a ≠ '-') :
    readWord ('-' :: a :: r) =
      match optionOf ['-', a] with
      | none => .ok (readUnknown ('-' :: a :: r))
      | some d => .ok (.opt (some d) true (behind r).1 (behind r).2) := by
  have hs : isShort ['-', a] = true := by simp [isShort, List.isPrefixOf, Ne.symm ha]
  unfold readWord
  rw [if_neg (by simp)]
  match r with
  | [] =>
    cases ho : optionOf ['-', a] with
    | some d => simp [hs, behind]
    | none =>
      simp only [List.length_cons, List.length_nil]
      have hp : (partEq ['-', a]).2 = none ∨ a = '=' := by
        by_cases h : a = '='
        · right; exact h
        · left; simp [partEq, h]
      have ht : readTuples ['-', a] = .ok (readUnknown ['-', a]) := by
        have : optionTuples ['-', a] = [] := by
          unfold optionTuples
          rw [if_neg (by simp [List.isPrefixOf, Ne.symm ha]), List.filterMap_eq_nil_iff]
          intro q hq
          have hne : q.1 ≠ ['-', a] := by
            intro h
            have := (optionOf_iff q.1 q.2).mpr hq
            rw [h, ho] at this
            simp at this
          have hnp : ['-', a].isPrefixOf q.1 = false := by
            rw [Bool.eq_false_iff]
            intro h
            rw [List.isPrefixOf_iff_prefix] at h
            obtain ⟨t, ht⟩ := h
            rcases (optionStrings_mem q.1 q.2).mp hq with ⟨n, h1, -⟩ | ⟨c, h1, -⟩
            · rw [h1] at ht
              simp only [List.cons_append, List.cons.injEq, true_and] at ht
              exact ha ht.1
            · rw [h1] at ht hne
              simp at ht
              exact hne (by rw [ht.1])
          simp [hne, hnp]
        unfold readTuples; rw [this]
      rcases hp with hp | rfl
      · rw [if_neg (by decide), hp]; exact ht
      · simp [partEq]
        have : optionOf ['-'] = none := by decide
        rw [this]; exact ht
  | b :: r =>
    rw [optionOf_three a b r ha]
    simp only
    rw [if_neg (by simp)]
    have ht : b ≠ '=' → readTuples ('-' :: a :: b :: r) = match optionOf ['-', a] with
        | none => .ok (readUnknown ('-' :: a :: b :: r))
        | some d => .ok (.opt (some d) true (behind (b :: r)).1 (behind (b :: r)).2) := by
      intro hb
      unfold readTuples
      rw [tuples_short a b r ha]
      cases optionOf ['-', a] with
      | none => rfl
      | some d => simp [behind, hb]
    have htn : optionOf ['-', a] = none →
        readTuples ('-' :: a :: b :: r) = .ok (readUnknown ('-' :: a :: b :: r)) := by
      intro h
      unfold readTuples
      rw [tuples_short a b r ha, h]
    by_cases hae : a = '='
    · subst hae
      have h1 : optionOf ['-', '='] = none := by decide
      have h2 : partEq ('-' :: '=' :: b :: r) = (['-'], some (b :: r)) := by simp [partEq]
      have h3 : optionOf ['-'] = none := by decide
      rw [h1, h2]
      simp only [h3]
      exact htn h1
    · by_cases hb : b = '='
      · subst hb
        have h2 : partEq ('-' :: a :: '=' :: r) = (['-', a], some r) := by simp [partEq, hae]
        rw [h2]
        cases ho : optionOf ['-', a] with
        | none => simp only; exact htn ho
        | some d => simp [behind, hs]
      · have h2 : ∃ s, (partEq ('-' :: a :: b :: r)).1 = '-' :: a :: b :: s := by simp [partEq, hae, hb]
        obtain ⟨s, h2⟩ := h2
        rw [h2, optionOf_three a b s ha]
        cases hq : (partEq ('-' :: a :: b :: r)).2 with
        | none => simp only; rw [ht hb]
        | some v => simp only; rw [ht hb]

/-! ### Arguments -/

theorem negBody_iff (w : List Char) : negNumber.negBody w = true ↔
    ∃ ds es : List Char, ds.all Char.isDigit ∧ es.all Char.isDigit ∧
      ((w = '-' :: ds ∧ ds ≠ []) ∨ (w = '-' :: ds ++ '.' :: es ∧ es ≠ [])) := by
  constructor
  · intro h
    match w with
    | [] => simp [negNumber.negBody] at h
    | c :: cs =>
      by_cases hc : c = '-'
      · subst hc
        simp only [negNumber.negBody, Bool.or_eq_true, Bool.and_eq_true, decide_eq_true_eq] at h
        rcases h with ⟨h1, h2⟩ | h
        · exact ⟨cs, [], h2, rfl, Or.inl ⟨rfl, h1⟩⟩
        · split at h
          · rename_i ds hd
            simp only [Bool.and_eq_true, decide_eq_true_eq] at h
            refine ⟨cs.takeWhile Char.isDigit, ds, ?_, h.2, Or.inr ⟨?_, h.1⟩⟩
            · exact List.all_takeWhile
            · rw [List.cons_append, ← hd, List.takeWhile_append_dropWhile]
          · simp at h
      · simp [negNumber.negBody] at h
        split at h
        · rename_i heq; simp at heq; exact absurd heq.1 hc
        · simp at h
  · rintro ⟨ds, es, h1, h2, ⟨rfl, h3⟩ | ⟨rfl, h3⟩⟩
    · simp [negNumber.negBody, h3]
      left; simpa using h1
    · have : (ds ++ '.' :: es).dropWhile Char.isDigit = '.' :: es := by
        rw [List.dropWhile_append_of_pos (by simpa using h1)]
        rw [List.dropWhile_cons_of_neg (by decide)]
      simp only [List.cons_append, negNumber.negBody, this]
      simp [h3]
      simpa using h2

theorem getLast?_digits (ds : List Char) (h : ds.all Char.isDigit) : ds.getLast? ≠ some '\n' := by
  intro hl
  have hm := List.mem_of_getLast? hl
  rw [List.all_eq_true] at h
  exact absurd (h _ hm) (by decide)

theorem negNumber_iff (w : List Char) : negNumber w = true ↔ NegNum w := by
  unfold negNumber NegNum
  by_cases hl : w.getLast? = some '\n'
  · rw [if_pos hl, negBody_iff]
    obtain ⟨t, rfl⟩ := List.getLast?_eq_some_iff.mp hl
    rw [List.dropLast_concat]
    constructor
    · rintro ⟨ds, es, h1, h2, ⟨rfl, h3⟩ | ⟨rfl, h3⟩⟩
      · exact ⟨ds, es, ['\n'], h1, h2, Or.inr rfl, Or.inl ⟨rfl, h3⟩⟩
      · exact ⟨ds, es, ['\n'], h1, h2, Or.inr rfl, Or.inr ⟨rfl, h3⟩⟩
    · rintro ⟨ds, es, nl, h1, h2, rfl | rfl, ⟨h, h3⟩ | ⟨h, h3⟩⟩
      · exfalso
        rw [h, List.append_nil] at hl
        rw [List.getLast?_cons_of_ne_nil h3] at hl
        exact getLast?_digits ds h1 hl
      · exfalso
        rw [h, List.append_nil, List.getLast?_append, List.getLast?_cons_of_ne_nil h3] at hl
        cases he : es.getLast? with
        | none => exact h3 (List.getLast?_eq_none_iff.mp he)
        | some x =>
          rw [he] at hl
          simp only [Option.some_or, Option.some.injEq] at hl
          exact getLast?_digits es h2 (hl ▸ he)
      · exact ⟨ds, es, h1, h2, Or.inl ⟨(List.append_inj' h rfl).1, h3⟩⟩
      · exact ⟨ds, es, h1, h2, Or.inr ⟨(List.append_inj' h rfl).1, h3⟩⟩
  · rw [if_neg hl, negBody_iff]
    constructor
    · rintro ⟨ds, es, h1, h2, ⟨rfl, h3⟩ | ⟨rfl, h3⟩⟩
      · exact ⟨ds, es, [], h1, h2, Or.inl rfl, Or.inl ⟨by simp, h3⟩⟩
      · exact ⟨ds, es, [], h1, h2, Or.inl rfl, Or.inr ⟨by simp, h3⟩⟩
    · rintro ⟨ds, es, nl, h1, h2, rfl | rfl, ⟨h, h3⟩ | ⟨h, h3⟩⟩
      · exact ⟨ds, es, h1, h2, Or.inl ⟨by simpa using h, h3⟩⟩
      · exact ⟨ds, es, h1, h2, Or.inr ⟨by simpa using h, h3⟩⟩
      · exfalso; apply hl; rw [h, List.getLast?_concat]
      · exfalso; apply hl; rw [h, List.getLast?_concat]

theorem readUnknown_arg (w : List Char) : readUnknown w = .arg ↔ (NegNum w ∨ ' ' ∈ w) := by
  unfold readUnknown
  rw [← negNumber_iff]
  by_cases h1 : negNumber w = true
  · simp [h1]
  · by_cases h2 : ' ' ∈ w <;> simp [h1, h2]

/-- splitting a word with two dashes -/
theorem split_long (q : List Char) : ∃ p r, q = p ++ r ∧ '=' ∉ p ∧ (r = [] ∨ r.head? = some '=') := by
  obtain ⟨h1, h2⟩ := partEq_inv q
  rcases h2 with ⟨-, h3⟩ | ⟨v, -, h3⟩
  · exact ⟨_, [], by rw [List.append_nil]; exact h3, h1, Or.inl rfl⟩
  · exact ⟨_, _, h3, h1, Or.inr rfl⟩

theorem split_uniq (p p' r r' : List Char) (h : p ++ r = p' ++ r') (h1 : '=' ∉ p) (h2 : '=' ∉ p')
    (h3 : r = [] ∨ r.head? = some '=') (h4 : r' = [] ∨ r'.head? = some '=') : p = p' := by
  have key : ∀ p r : List Char, '=' ∉ p → (r = [] ∨ r.head? = some '=') → (partEq (p ++ r)).1 = p := by
    intro p r hp hr
    rcases hr with rfl | hr
    · rw [List.append_nil, partEq_none p hp]
    · match r, hr with
      | c :: v, hr =>
        simp only [List.head?_cons, Option.some.injEq] at hr
        subst hr
        rw [partEq_append p v hp]
  rw [← key p r h1 h3, h, key p' r' h2 h4]

theorem optLike_long (p r : List Char) (hp : '=' ∉ p) (hr : r = [] ∨ r.head? = some '=') :
    OptLike ('-' :: '-' :: p ++ r) ↔ cands p ≠ [] := by
  rw [Ne, cands_nil_iff, Classical.not_not]
  constructor
  · rintro (⟨p', r', h, h1, h2, h3⟩ | ⟨a, t, h, h1⟩)
    · simp only [List.cons_append, List.cons.injEq, true_and] at h
      rwa [split_uniq p p' r r' h hp h1 hr h2]
    · simp only [List.cons_append, List.cons.injEq, true_and] at h
      rw [← h.1] at h1
      exact absurd h1 (by decide)
  · intro h
    exact Or.inl ⟨p, r, rfl, hp, hr, h⟩

theorem optLike_short (a : Char) (r : List Char) (ha : a ≠ '-') :
    OptLike ('-' :: a :: r) ↔ a ∈ shorts.map (·.1) := by
  constructor
  · rintro (⟨p', r', h, -⟩ | ⟨b, t, h, h1⟩)
    · simp only [List.cons_append, List.cons.injEq, true_and] at h
      exact absurd h.1 ha
    · simp only [List.cons.injEq, true_and] at h
      rw [h.1]; exact h1
  · intro h
    exact Or.inr ⟨a, r, rfl, h⟩

/-- the words that are read as arguments are exactly those that look like one -/
theorem arg_iff (w : List Char) : readWord w = .ok .arg ↔ ArgLike w := by
  match w with
  | [] => simp [readWord, ArgLike]
  | c :: q =>
    by_cases hc : c = '-'
    · subst hc
      match q with
      | [] =>
        have : readWord ['-'] = .ok .arg := by decide
        simp [this, ArgLike]
      | a :: q =>
        have hA : ArgLike ('-' :: a :: q) ↔
            (NegNum ('-' :: a :: q) ∨ ' ' ∈ ('-' :: a :: q)) ∧ ¬ OptLike ('-' :: a :: q) := by
          simp [ArgLike]
        rw [hA]
        by_cases ha : a = '-'
        · subst ha
          obtain ⟨p, r, rfl, hp, hr⟩ := split_long q
          have h1 := read_long p hp r hr
          have h2 := optLike_long p r hp hr
          simp only [List.cons_append] at h1 h2
          rw [h1, h2, ← readUnknown_arg]
          match cands p with
          | [] => simp
          | [_] => simp
          | _ :: _ :: _ => simp
        · rw [read_short a q ha, optLike_short a q ha, ← readUnknown_arg, ← letter_none]
          cases optionOf ['-', a] <;> simp
    · simp [readWord, ArgLike, hc]

theorem argLike_dash (w : List Char) (h : ArgLike w) : w ≠ "--".toList := by
  rintro rfl
  rw [← arg_iff] at h
  exact absurd h (by decide)

/-! ### Groups of letters -/

/-- the reading of the letters behind a dash -/
def group (next : Option Tok) : List Char → Except Nat Found
  | [] => .error 2
  | a :: r =>
    match optionOf ['-', a] with
    | none => .error 2
    | some d => consumeOpt next d true (behind r).1 (behind r).2

theorem joined_takes (next : Option Tok) (short : Bool) (d : Dest) (sep : Bool) (v : List Char)
    (h : d.takes = true) : joined next short d sep v = .ok ⟨[(d, v)], 0, false⟩ := by
  rw [joined.eq_def]; simp only; rw [if_pos h]

theorem joined_step (next : Option Tok) (d : Dest) (a : Char) (r : List Char) (h : d.takes = false) (ha : a ≠ '-') :
    joined next true d false (a :: r) =
      match optionOf ['-', a] with
      | none => .ok ⟨[(d, [])], 0, true⟩
      | some e => consumeOpt next e true (behind r).1 (behind r).2 >>=
          fun f => .ok { f with acts := (d, []) :: f.acts } := by
  rw [joined.eq_def]
  simp only [h, Bool.false_eq_true, if_false, false_or, ha, reduceCtorEq]
  cases optionOf ['-', a] with
  | none => rfl
  | some e =>
    match r with
    | [] => rfl
    | b :: r' =>
      by_cases hb : b = '='
      · subst hb; simp [behind, consumeOpt]
      · simp [behind, consumeOpt, hb]

theorem group_last (next : Option Tok) (a : Char) (d : Dest) (r : List Char) (h : (a, d) ∈ shorts) :
    group next (a :: r) = consumeOpt next d true (behind r).1 (behind r).2 := by
  simp [group, optionOf_short a d h]

theorem group_cons (next : Option Tok) (a b : Char) (d e : Dest) (r : List Char) (h : (a, d) ∈ shorts)
    (hd : d.takes = false) (hb : (b, e) ∈ shorts) :
    group next (a :: b :: r) = group next (b :: r) >>= fun f => .ok { f with acts := (d, []) :: f.acts } := by
  obtain ⟨h1, h2⟩ := shorts_char b e hb
  rw [group_last next a d _ h, group_last next b e _ hb]
  have hbe : behind (b :: r) = (false, some (b :: r)) := by simp [behind, h2]
  rw [hbe]
  show joined next true d false (b :: r) = _
  rw [joined_step next d b r hd h1, optionOf_short b e hb]

/-- letters in front of a group -/
theorem group_front (next : Option Tok) (b : Char) (e : Dest) (r : List Char) (hb : (b, e) ∈ shorts)
    (f : Found) (hf : group next (b :: r) = .ok f) (fs : List (Char × Dest)) :
    (∀ f ∈ fs, f ∈ shorts ∧ f.2 ∉ valued) →
    group next (fs.map (·.1) ++ b :: r) = .ok { f with acts := fs.map (fun f => (f.2, [])) ++ f.acts } := by
  induction fs with
  | nil => intro _; simpa using hf
  | cons p fs ih =>
    intro h
    obtain ⟨a, d⟩ := p
    have hp := h (a, d) (by simp)
    have hd : d.takes = false := by
      have := hp.2; rw [mem_valued] at this; simpa using this
    have hi := ih (fun q hq => h q (by simp [hq]))
    match fs, hi with
    | [], hi =>
      simp only [List.map_cons, List.map_nil, List.cons_append, List.nil_append]
      rw [group_cons next a b d e r hp.1 hd hb, hf, ebind_ok]
    | (a2, d2) :: fs, hi =>
      simp only [List.map_cons, List.cons_append] at hi ⊢
      rw [group_cons next a a2 d d2 _ hp.1 hd (h (a2, d2) (by simp)).1, hi, ebind_ok]

theorem _root_.SY.Found.ext' {f g : Found} (h1 : f.acts = g.acts) (h2 : f.used = g.used) (h3 : f.extra = g.extra) :
    f = g := by cases f; cases g; simp_all

/-- What a group of letters in an item is read as. -/
def Ending.text : Ending → List Char
  | .plain => []
  | .glued a v => a :: v
  | .equals a v => a :: '=' :: v
  | .next a _ => [a]

/-- the conditions on groups of letters -/
def GroupOk (fs : List (Char × Dest)) (e : Ending) (d : Dest) : Prop :=
  (∀ f ∈ fs, f ∈ shorts ∧ f.2 ∉ valued) ∧
    match e with
    | .plain => fs ≠ []
    | .glued a v => (a, d) ∈ shorts ∧ d ∈ valued ∧ v ≠ [] ∧ v.head? ≠ some '='
    | .equals a _ => (a, d) ∈ shorts ∧ d ∈ valued
    | .next a _ => (a, d) ∈ shorts ∧ d ∈ valued

/-- what a group gives when the value that may be the next word is still open -/
def groupActs (fs : List (Char × Dest)) (e : Ending) (d : Dest) : List (Dest × List Char) :=
  fs.map (fun f => (f.2, [])) ++
    (match e with | .plain => [] | .glued _ v => [(d, v)] | .equals _ v => [(d, v)] | .next _ _ => [(d, [])])

/-- how many further words it needs -/
def Ending.used : Ending → Nat
  | .next _ _ => 1
  | _ => 0

theorem group_reads (next : Option Tok) (fs : List (Char × Dest)) (e : Ending) (d : Dest) (h : GroupOk fs e d)
    (hn : e.used = 1 → next = some .arg) :
    group next (fs.map (·.1) ++ e.text) = .ok ⟨groupActs fs e d, e.used, false⟩ := by
  obtain ⟨h1, h2⟩ := h
  match e, h2 with
  | .plain, h2 =>
    obtain ⟨gs, ⟨a, d'⟩, rfl⟩ : ∃ gs x, fs = gs ++ [x] := ⟨_, _, (List.dropLast_concat_getLast h2).symm⟩
    have ha := h1 (a, d') (by simp)
    have hd : d'.takes = false := by have := ha.2; rw [mem_valued] at this; simpa using this
    have hl : group next [a] = .ok ⟨[(d', [])], 0, false⟩ := by
      rw [group_last next a d' [] ha.1]; simp [behind, consumeOpt, lastOpt, hd]
    have := group_front next a d' [] ha.1 _ hl gs (fun q hq => h1 q (by simp [hq]))
    simpa [Ending.text, groupActs, Ending.used] using this
  | .glued a v, h2 =>
    obtain ⟨ha, hd, hv, he⟩ := h2
    rw [mem_valued] at hd
    have hl : group next (a :: v) = .ok ⟨[(d, v)], 0, false⟩ := by
      rw [group_last next a d v ha]
      match v, hv, he with
      | c :: r, _, he =>
        have : c ≠ '=' := by simpa using he
        simp [behind, this, consumeOpt, joined_takes _ _ _ _ _ hd]
    have := group_front next a d v ha _ hl fs h1
    simpa [Ending.text, groupActs, Ending.used] using this
  | .equals a v, h2 =>
    obtain ⟨ha, hd⟩ := h2
    rw [mem_valued] at hd
    have hl : group next (a :: '=' :: v) = .ok ⟨[(d, v)], 0, false⟩ := by
      rw [group_last next a d _ ha]
      simp [behind, consumeOpt, joined_takes _ _ _ _ _ hd]
    have := group_front next a d _ ha _ hl fs h1
    simpa [Ending.text, groupActs, Ending.used] using this
  | .next a v, h2 =>
    obtain ⟨ha, hd⟩ := h2
    rw [mem_valued] at hd
    have hl : group next [a] = .ok ⟨[(d, [])], 1, false⟩ := by
      rw [group_last next a d _ ha]
      simp [behind, consumeOpt, lastOpt, hd, hn rfl]
    have := group_front next a d _ ha _ hl fs h1
    simpa [Ending.text, groupActs, Ending.used] using this

/-- whatever is read as a group without anything left over is one -/
theorem group_inv (next : Option Tok) (n : Nat) : ∀ (t : List Char) (f : Found), t.length ≤ n →
    group next t = .ok f → f.extra = false →
    ∃ fs e d, GroupOk fs e d ∧ t = fs.map (·.1) ++ e.text ∧ f = ⟨groupActs fs e d, e.used, false⟩ ∧
      (e.used = 1 → next = some .arg ∧ ∃ a, e = .next a []) := by
  induction n with
  | zero =>
    intro t f h h1
    have : t = [] := List.length_eq_zero_iff.mp (by omega)
    subst this
    simp [group] at h1
  | succ n ih =>
    intro t f hlen h1 hx
    match t, h1 with
    | [], h1 => simp [group] at h1
    | a :: r, h1 =>
      cases ho : optionOf ['-', a] with
      | none => simp [group, ho] at h1
      | some d =>
        have ha := (letter_some a d).mp ho
        rw [group_last next a d r ha] at h1
        by_cases hd : d.takes = true
        · have hdv := (mem_valued d).mpr hd
          match r, h1 with
          | [], h1 =>
            simp only [behind, consumeOpt, lastOpt, if_pos hd] at h1
            by_cases hn : next = some .arg
            · rw [if_pos hn] at h1
              cases h1
              exact ⟨[], .next a [], d, ⟨by simp, ha, hdv⟩, by simp [Ending.text], rfl, fun _ => ⟨hn, a, rfl⟩⟩
            · rw [if_neg hn] at h1; cases h1
          | b :: r, h1 =>
            by_cases hb : b = '='
            · subst hb
              simp only [behind, if_true, consumeOpt, joined_takes _ _ _ _ _ hd] at h1
              cases h1
              exact ⟨[], .equals a r, d, ⟨by simp, ha, hdv⟩, by simp [Ending.text], rfl,
                fun h => by simp [Ending.used] at h⟩
            · simp only [behind, if_neg hb, consumeOpt, joined_takes _ _ _ _ _ hd] at h1
              cases h1
              exact ⟨[], .glued a (b :: r), d, ⟨by simp, ha, hdv, by simp, by simpa using hb⟩, by simp [Ending.text],
                rfl, fun h => by simp [Ending.used] at h⟩
        · have hdv : d ∉ valued := by rw [mem_valued]; exact hd
          have hd' : d.takes = false := by simpa using hd
          match r, h1 with
          | [], h1 =>
            simp only [behind, consumeOpt, lastOpt, if_neg hd] at h1
            cases h1
            exact ⟨[(a, d)], .plain, d, ⟨by simp [ha, hdv], by simp⟩, by simp [Ending.text],
              by simp [groupActs, Ending.used], fun h => by simp [Ending.used] at h⟩
          | b :: r, h1 =>
            by_cases hb : b = '='
            · subst hb
              simp only [behind, if_true, consumeOpt] at h1
              rw [joined.eq_def] at h1
              simp only [if_neg hd] at h1
              cases r <;> simp at h1
            · simp only [behind, if_neg hb, consumeOpt] at h1
              by_cases hb2 : b = '-'
              · subst hb2
                rw [joined.eq_def] at h1
                simp [hd'] at h1
              · rw [joined_step next d b r hd' hb2] at h1
                cases ho2 : optionOf ['-', b] with
                | none =>
                  rw [ho2] at h1
                  cases h1
                  simp at hx
                | some e =>
                  rw [ho2] at h1
                  obtain ⟨g, hg, h2⟩ := ebind_eq_ok.mp h1
                  cases h2
                  have hbe := (letter_some b e).mp ho2
                  rw [← group_last next b e r hbe] at hg
                  obtain ⟨fs, en, d2, h3, h4, h5, h6⟩ := ih (b :: r) g (by simp at hlen ⊢; omega) hg hx
                  refine ⟨(a, d) :: fs, en, d2, ⟨?_, ?_⟩, by simp [h4], by simp [h5, groupActs], h6⟩
                  · intro q hq
                    rcases List.mem_cons.mp hq with rfl | hq
                    · exact ⟨ha, hdv⟩
                    · exact h3.1 q hq
                  · have := h3.2
                    cases en <;> simp_all

/-! ### Items -/

/-- the further words of a group -/
def Ending.more : Ending → List (List Char)
  | .next _ v => [v]
  | _ => []

/-- the words of an item as they are read -/
def Item.toks : Item → List (List Char × Tok)
  | .long p d => [("--".toList ++ p, .opt (some d) false false none)]
  | .longEq p d v => [("--".toList ++ p ++ '=' :: v, .opt (some d) false true (some v))]
  | .longNext p d v => [("--".toList ++ p, .opt (some d) false false none), (v, .arg)]
  | .letters fs e _ =>
    ('-' :: (fs.map (·.1) ++ e.text),
      match fs.map (·.1) ++ e.text with
      | [] => .arg
      | a :: r => .opt (optionOf ['-', a]) true (behind r).1 (behind r).2) ::
    e.more.map (fun v => (v, .arg))
  | .code w => [(w, .arg)]

theorem valid_group (fs : List (Char × Dest)) (e : Ending) (d : Dest) (h : (Item.letters fs e d).Valid) :
    GroupOk fs e d ∧ ∀ a v, e = .next a v → ArgLike v := by
  obtain ⟨h1, h2⟩ := h
  refine ⟨⟨h1, ?_⟩, ?_⟩
  · cases e <;> simp_all
  · rintro a v rfl
    exact h2.2.2

/-- the first letter of a group is one of an option -/
theorem group_first (fs : List (Char × Dest)) (e : Ending) (d : Dest) (h : GroupOk fs e d) :
    ∃ a r d', fs.map (·.1) ++ e.text = a :: r ∧ (a, d') ∈ shorts := by
  obtain ⟨h1, h2⟩ := h
  match fs with
  | (a, d') :: fs => exact ⟨a, _, d', rfl, (h1 (a, d') (by simp)).1⟩
  | [] =>
    cases e with
    | plain => simp at h2
    | glued a v => exact ⟨a, v, d, rfl, h2.1⟩
    | equals a v => exact ⟨a, _, d, rfl, h2.1⟩
    | next a v => exact ⟨a, _, d, rfl, h2.1⟩

theorem abbrev_eq (p : List Char) (d : Dest) (h : Abbrev p d) : '=' ∉ p := by
  obtain ⟨-, ⟨⟨n, e⟩, hq, -, ⟨t, ht⟩⟩, -⟩ := h
  intro hm
  simp only at ht
  exact (longs_char n e hq).1 (ht ▸ List.mem_append_left _ hm)

theorem read_item (it : Item) (h : it.Valid) (ws : List (List Char)) :
    readWords (it.words ++ ws) = readWords ws >>= fun r => .ok (it.toks ++ r) := by
  have one : ∀ w t, w ≠ "--".toList → readWord w = .ok t →
      ∀ ws, readWords (w :: ws) = readWords ws >>= fun r => .ok ((w, t) :: r) := by
    intro w t h1 h2 ws
    rw [readWords, if_neg h1, h2, ebind_ok]
  have hlong : ∀ p d, Abbrev p d → "--".toList ++ p ≠ "--".toList ∧
      readWord ("--".toList ++ p) = .ok (.opt (some d) false false none) := by
    intro p d hp
    refine ⟨by simpa using hp.1, ?_⟩
    obtain ⟨n, hn⟩ := (abbrev_iff p d).mp hp
    have := read_long p (abbrev_eq p d hp) [] (Or.inl rfl)
    rw [hn, List.append_nil] at this
    exact this
  have harg : ∀ v, ArgLike v → ∀ ws, readWords (v :: ws) = readWords ws >>= fun r => .ok ((v, .arg) :: r) :=
    fun v hv => one v .arg (argLike_dash v hv) ((arg_iff v).mpr hv)
  match it, h with
  | .long p d, h =>
    obtain ⟨h1, h2⟩ := hlong p d h.1
    exact one _ _ h1 h2 ws
  | .longEq p d v, h =>
    have := read_long p (abbrev_eq p d h.1) ('=' :: v) (Or.inr rfl)
    obtain ⟨n, hn⟩ := (abbrev_iff p d).mp h.1
    rw [hn] at this
    exact one _ _ (by simp) this ws
  | .longNext p d v, h =>
    obtain ⟨h1, h2⟩ := hlong p d h.1
    show readWords (_ :: v :: ws) = _
    rw [one _ _ h1 h2, harg v h.2.2]
    cases readWords ws <;> rfl
  | .letters fs e d, h =>
    obtain ⟨h1, h2⟩ := valid_group fs e d h
    obtain ⟨a, r, d', h3, h4⟩ := group_first fs e d h1
    have ha := (shorts_char a d' h4).1
    have h5 : readWord ('-' :: a :: r) = .ok (.opt (some d') true (behind r).1 (behind r).2) := by
      rw [read_short a r ha, optionOf_short a d' h4]
    have h6 : '-' :: a :: r ≠ "--".toList := by
      intro h; simp at h; exact ha h.1
    have hw : (Item.letters fs e d).words = ('-' :: a :: r) :: e.more := by
      rw [← h3]
      cases e <;> simp [Item.words, Ending.text, Ending.more]
    have ht : (Item.letters fs e d).toks = ('-' :: a :: r, .opt (some d') true (behind r).1 (behind r).2) ::
        e.more.map (fun v => (v, .arg)) := by
      simp [Item.toks, h3, optionOf_short a d' h4]
    rw [hw, ht]
    cases e with
    | next b v =>
      show readWords (_ :: v :: ws) = _
      rw [one _ _ h6 h5, harg v (h2 b v rfl)]
      cases readWords ws <;> rfl
    | plain => exact one _ _ h6 h5 ws
    | glued b v => exact one _ _ h6 h5 ws
    | equals b v => exact one _ _ h6 h5 ws
  | .code w, h => exact harg w h ws

/-- doing an item that is not the user's code -/
theorem consume_item (it : Item) (h : it.Valid) (hc : it.codes = []) (c : CmdLine) (pos extra : Bool)
    (r : List (List Char × Tok)) :
    consume c pos extra (it.toks ++ r) = c.takeAll it.gives >>= fun c' => consume c' pos extra r := by
  match it, h, hc with
  | .long p d, h, _ =>
    have hd : d.takes = false := by have := h.2; rw [mem_valued] at this; simpa using this
    simp only [Item.toks, List.cons_append, List.nil_append]
    rw [consume]
    simp [consumeOpt, lastOpt, hd, ebind_ok, Found.fill, Item.gives]
  | .longEq p d v, h, _ =>
    have hd := (mem_valued d).mp h.2
    simp only [Item.toks, List.cons_append, List.nil_append]
    rw [consume]
    simp [consumeOpt, joined_takes _ _ _ _ _ hd, ebind_ok, Found.fill, Item.gives]
  | .longNext p d v, h, _ =>
    have hd := (mem_valued d).mp h.2.1
    simp only [Item.toks, List.cons_append, List.nil_append]
    rw [consume]
    simp [consumeOpt, lastOpt, hd, ebind_ok, Found.fill, Item.gives]
  | .letters fs e d, h, _ =>
    obtain ⟨h1, h2⟩ := valid_group fs e d h
    obtain ⟨a, t, d', h3, h4⟩ := group_first fs e d h1
    have ht : (Item.letters fs e d).toks = ('-' :: a :: t, .opt (some d') true (behind t).1 (behind t).2) ::
        e.more.map (fun v => (v, .arg)) := by
      simp [Item.toks, h3, optionOf_short a d' h4]
    rw [ht, List.cons_append, consume]
    have hg := fun next hn => group_reads next fs e d h1 hn
    rw [h3] at hg
    simp only [group_last _ a d' t h4] at hg
    rw [hg]
    · rw [ebind_ok]
      cases e with
      | next b v => simp [Found.fill, groupActs, Item.gives, Ending.used, Ending.more]
      | plain => simp [Found.fill, groupActs, Item.gives, Ending.used, Ending.more]
      | glued b v => simp [Found.fill, groupActs, Item.gives, Ending.used, Ending.more]
      | equals b v => simp [Found.fill, groupActs, Item.gives, Ending.used, Ending.more]
    · intro hu
      cases e <;> simp_all [Ending.used, Ending.more]
  | .code w, _, hc => simp [Item.codes] at hc

/-! ### Command lines -/

theorem ebind_assoc {α β γ : Type} (x : Except Nat α) (f : α → Except Nat β) (g : β → Except Nat γ) :
    ((x >>= f) >>= g) = x >>= fun a => f a >>= g := by cases x <;> rfl

theorem read_items (its : List Item) (h : ∀ it ∈ its, it.Valid) (ws : List (List Char)) :
    readWords (its.flatMap Item.words ++ ws) = readWords ws >>= fun r => .ok (its.flatMap Item.toks ++ r) := by
  induction its with
  | nil => simp; cases readWords ws <;> rfl
  | cons it its ih =>
    rw [List.flatMap_cons, List.append_assoc, read_item it (h it (by simp)), ih (fun i hi => h i (by simp [hi])),
      ebind_assoc]
    cases readWords ws
    · rfl
    · simp [ebind_ok]

theorem consume_items (its : List Item) (h : ∀ it ∈ its, it.Valid) (hc : its.flatMap Item.codes = [])
    (u : Option (List Char)) (pos : Bool) (r : List (List Char × Tok)) :
    ∀ g, (∀ it ∈ its, ∀ p ∈ it.gives, p.1 ≠ .help) →
    consume (meaning g u) pos false (its.flatMap Item.toks ++ r) =
      consume (meaning (g ++ its.flatMap Item.gives) u) pos false r := by
  induction its with
  | nil => intro g _; simp
  | cons it its ih =>
    intro g hh
    rw [List.flatMap_cons, List.append_eq_nil_iff] at hc
    rw [List.flatMap_cons, List.append_assoc, consume_item it (h it (by simp)) hc.1,
      takeAll_meaning u _ g (hh it (by simp)), ebind_ok,
      ih (fun i hi => h i (by simp [hi])) hc.2 _ (fun i hi => hh i (by simp [hi]))]
    simp

theorem consume_code (c : CmdLine) (extra : Bool) (w : List Char) (hw : w ≠ "--".toList)
    (r : List (List Char × Tok)) (hr : (r.map (·.2)).takeWhile (· = .dash) = []) :
    consume c false extra ((w, .arg) :: r) = consume { c with usercode := some w } true extra r := by
  rw [consume]
  · have h1 : posSpan (((w, Tok.arg) :: r).map (·.2)) = 1 := by
      simp [posSpan, posSpan.posRest, hr]
    have h2 : [w].erase "--".toList = [w] := by
      rw [List.erase_of_not_mem]
      simpa using Ne.symm hw
    rw [if_neg (by simp), h1]
    simp only [List.take_succ_cons, List.take_zero, List.map_cons, List.map_nil,
      posValue, h2, Nat.sub_self, List.drop_zero, List.head?_cons]
  · simp
  · simp

theorem consume_code_dash (c : CmdLine) (extra : Bool) (w : List Char) (hw : w ≠ "--".toList)
    (r : List (List Char × Tok)) (hr : (r.map (·.2)).takeWhile (· = .dash) = []) :
    consume c false extra ((w, .arg) :: ("--".toList, .dash) :: r) =
      consume { c with usercode := some w } true extra r := by
  rw [consume]
  · have h1 : posSpan (((w, Tok.arg) :: ("--".toList, .dash) :: r).map (·.2)) = 2 := by
      simp [posSpan, posSpan.posRest, hr]
    have h2 : posValue [w, "--".toList] = some w := by
      have hw' : w ≠ ['-', '-'] := hw
      simp [posValue, List.erase_cons, hw']
    rw [if_neg (by simp), h1]
    simp only [List.take_succ_cons, List.take_zero, List.map_cons, List.map_nil,
      h2, Nat.reduceSub, List.drop_succ_cons, List.drop_zero]
  · simp
  · simp

theorem consume_dash (c : CmdLine) (extra : Bool) :
    consume c false extra [("--".toList, .dash)] = .ok ({ c with usercode := none }, extra) := by
  rw [consume]
  · rw [if_neg (by simp)]
    have h1 : posSpan ([("--".toList, Tok.dash)].map (·.2)) = 1 := by decide
    have h2 : posValue ["--".toList] = none := by decide
    rw [h1]
    simp only [List.take_succ_cons, List.take_zero, List.map_cons, List.map_nil, h2, Nat.sub_self, List.drop_zero]
    rw [consume]
  · simp
  · simp

theorem consume_dash_code (c : CmdLine) (extra : Bool) (w : List Char) (r : List (List Char × Tok))
    (hr : (r.map (·.2)).takeWhile (· = .dash) = []) :
    consume c false extra (("--".toList, .dash) :: (w, .arg) :: r) =
      consume { c with usercode := some w } true extra r := by
  rw [consume]
  · rw [if_neg (by simp)]
    have h1 : posSpan ((("--".toList, Tok.dash) :: (w, .arg) :: r).map (·.2)) = 2 := by
      simp [posSpan, posSpan.posRest, hr]
    have h2 : posValue ["--".toList, w] = some w := by simp [posValue]
    rw [h1]
    simp only [List.take_succ_cons, List.take_zero, List.map_cons, List.map_nil, h2, Nat.reduceSub,
      List.drop_succ_cons, List.drop_zero]
  · simp
  · simp

/-- no item is read as the word `--` -/
theorem toks_dash (its : List Item) (h : ∀ it ∈ its, it.Valid) :
    ((its.flatMap Item.toks).map (·.2)).takeWhile (· = .dash) = [] := by
  match its with
  | [] => rfl
  | it :: its =>
    have hv := h it (by simp)
    cases it with
    | long p d => simp [Item.toks]
    | longEq p d v => simp [Item.toks]
    | longNext p d v => simp [Item.toks]
    | code w => simp [Item.toks]
    | letters fs e d =>
      obtain ⟨h1, h2⟩ := valid_group fs e d hv
      obtain ⟨a, t, d', h3, h4⟩ := group_first fs e d h1
      simp [Item.toks, h3]

theorem codes_split (its : List Item) (w : List Char) (h : its.flatMap Item.codes = [w]) :
    ∃ l r, its = l ++ .code w :: r ∧ l.flatMap Item.codes = [] ∧ r.flatMap Item.codes = [] := by
  induction its with
  | nil => simp at h
  | cons it its ih =>
    rw [List.flatMap_cons] at h
    cases it with
    | code v =>
      simp only [Item.codes, List.singleton_append, List.cons.injEq] at h
      exact ⟨[], its, by rw [h.1]; rfl, rfl, h.2⟩
    | long p d => obtain ⟨l, r, rfl, h1, h2⟩ := ih (by simpa [Item.codes] using h); exact ⟨.long p d :: l, r, rfl, by simpa [Item.codes] using h1, h2⟩
    | longEq p d v => obtain ⟨l, r, rfl, h1, h2⟩ := ih (by simpa [Item.codes] using h); exact ⟨.longEq p d v :: l, r, rfl, by simpa [Item.codes] using h1, h2⟩
    | longNext p d v => obtain ⟨l, r, rfl, h1, h2⟩ := ih (by simpa [Item.codes] using h); exact ⟨.longNext p d v :: l, r, rfl, by simpa [Item.codes] using h1, h2⟩
    | letters fs e d => obtain ⟨l, r, rfl, h1, h2⟩ := ih (by simpa [Item.codes] using h); exact ⟨.letters fs e d :: l, r, rfl, by simpa [Item.codes] using h1, h2⟩

/-- **every well-formed command line is accepted and means what it says** -/
theorem cmdline_accepts (its : List Item) (tail : List (List Char)) (code : Option (List Char))
    (h : ∀ it ∈ its, it.Valid) (hh : ∀ it ∈ its, ∀ p ∈ it.gives, p.1 ≠ .help) (he : CmdEnds its tail code) :
    parseArgs (its.flatMap Item.words ++ tail) = .ok (meaning (its.flatMap Item.gives) code) := by
  have h0 : ({} : CmdLine) = meaning [] none := rfl
  have nil : ∀ c e pos, consume c pos e [] = .ok (c, e) := by intro c e pos; rw [consume]
  unfold parseArgs
  rw [read_items its h, h0]
  cases he with
  | none its hc =>
    simp only [readWords, ebind_ok]
    rw [consume_items its h hc none false [] [] hh, nil, ebind_ok]
    simp
  | one its w hc =>
    obtain ⟨l, r, rfl, h1, h2⟩ := codes_split its w hc
    have hw : w ≠ "--".toList := argLike_dash w (h (.code w) (by simp))
    have hlv : ∀ it ∈ l, it.Valid := fun i hi => h i (by simp [hi])
    have hrv : ∀ it ∈ r, it.Valid := fun i hi => h i (by simp [hi])
    simp only [readWords, ebind_ok]
    rw [List.flatMap_append, List.append_assoc,
      consume_items l hlv h1 none false _ [] (fun i hi => hh i (by simp [hi])),
      List.flatMap_cons]
    show consume _ false false ((w, .arg) :: (r.flatMap Item.toks ++ [])) >>= _ = _
    rw [consume_code _ _ w hw _ (by rw [List.append_nil]; exact toks_dash r hrv)]
    show consume (meaning ([] ++ l.flatMap Item.gives) (some w)) true false _ >>= _ = _
    rw [consume_items r hrv h2 (some w) true [] _ (fun i hi => hh i (by simp [hi])), nil, ebind_ok]
    simp [Item.gives]
  | dash its hc =>
    have : readWords ["--".toList] = .ok [("--".toList, .dash)] := by decide
    rw [this, ebind_ok, ebind_ok, consume_items its h hc none false _ [] hh, consume_dash, ebind_ok]
    simp [meaning]
  | dashCode its w hc =>
    have : readWords ["--".toList, w] = .ok [("--".toList, .dash), (w, .arg)] := by simp [readWords]
    rw [this, ebind_ok, ebind_ok, consume_items its h hc none false _ [] hh, consume_dash_code _ _ _ _ rfl, nil,
      ebind_ok]
    simp [meaning]
  | codeDash l w hc =>
    have : readWords ["--".toList] = .ok [("--".toList, .dash)] := by decide
    have hw : w ≠ "--".toList := argLike_dash w (h (.code w) (by simp))
    rw [this, ebind_ok, ebind_ok, List.flatMap_append, List.append_assoc,
      consume_items l (fun i hi => h i (by simp [hi])) hc none false _ [] (fun i hi => hh i (by simp [hi]))]
    show consume _ false false [(w, .arg), ("--".toList, .dash)] >>= _ = _
    rw [consume_code_dash _ _ w hw _ rfl, nil, ebind_ok]
    simp [meaning, Item.gives]

/-! ### Nothing else is accepted -/

theorem consume_extra (n : Nat) : ∀ (ts : List (List Char × Tok)) (c : CmdLine) (pos : Bool) (r : CmdLine × Bool),
    ts.length ≤ n → consume c pos true ts = .ok r → r.2 = true := by
  induction n with
  | zero =>
    intro ts c pos r h h1
    have : ts = [] := List.length_eq_zero_iff.mp (by omega)
    subst this
    rw [consume] at h1
    cases h1
    rfl
  | succ n ih =>
    intro ts c pos r h h1
    match ts, h1 with
    | [], h1 => rw [consume] at h1; cases h1; rfl
    | (w, .opt none _ _ _) :: ts, h1 =>
      rw [consume] at h1
      exact ih ts c pos r (by simp at h; omega) h1
    | (w, .opt (some d) sh sep v) :: ts, h1 =>
      rw [consume] at h1
      obtain ⟨f, -, h2⟩ := ebind_eq_ok.mp h1
      obtain ⟨c', -, h3⟩ := ebind_eq_ok.mp h2
      rw [Bool.true_or] at h3
      exact ih _ c' pos r (by simp at h ⊢; omega) h3
    | (w, .arg) :: ts, h1 =>
      rw [consume] at h1
      · split at h1
        · exact ih ts _ _ r (by simp at h; omega) h1
        · exact ih _ _ _ r (by simp at h ⊢; omega) h1
      · simp
      · simp
    | (w, .dash) :: ts, h1 =>
      rw [consume] at h1
      · split at h1
        · exact ih ts _ _ r (by simp at h; omega) h1
        · exact ih _ _ _ r (by simp at h ⊢; omega) h1
      · simp
      · simp

theorem readUnknown_opt (w : List Char) (d : Dest) (sh sep : Bool) (v : Option (List Char)) :
    readUnknown w ≠ .opt (some d) sh sep v := by
  unfold readUnknown
  split
  · simp
  · split <;> simp

theorem fill_used (f : Found) (x : Option (List Char)) (h : f.used = 0) : f.fill x = f.acts := by
  simp [Found.fill, h]

/-- a word that is read as an option is written as an item is -/
theorem word_inv (w : List Char) (d : Dest) (sh sep : Bool) (v : Option (List Char)) (next : Option Tok) (f : Found)
    (h1 : readWord w = .ok (.opt (some d) sh sep v)) (h2 : consumeOpt next d sh sep v = .ok f)
    (h3 : f.extra = false) :
    (f.used = 0 ∧ ∃ it : Item, it.Valid ∧ it.codes = [] ∧ it.words = [w] ∧ it.gives = f.acts) ∨
    (f.used = 1 ∧ next = some .arg ∧ ∀ x, ArgLike x →
      ∃ it : Item, it.Valid ∧ it.codes = [] ∧ it.words = [w, x] ∧ it.gives = f.fill (some x)) := by
  match w, h1 with
  | [], h1 => simp [readWord] at h1
  | c :: q, h1 =>
    by_cases hc : c = '-'
    · subst hc
      match q, h1 with
      | [], h1 =>
        have : readWord ['-'] = .ok .arg := by decide
        simp [this] at h1
      | a :: q, h1 =>
        by_cases ha : a = '-'
        · subst ha
          obtain ⟨p, r, rfl, hp, hr⟩ := split_long q
          have h4 := read_long p hp r hr
          simp only [List.cons_append] at h4
          rw [h4] at h1
          match hcd : cands p, h1 with
          | [], h1 =>
            simp only [Except.ok.injEq] at h1
            exact absurd h1 (readUnknown_opt _ _ _ _ _)
          | [(n, d')], h1 =>
            simp only [Except.ok.injEq, Tok.opt.injEq, Option.some.injEq] at h1
            obtain ⟨rfl, rfl, rfl, rfl⟩ := h1
            have hab : Abbrev p d' := (abbrev_iff p d').mpr ⟨n, hcd⟩
            rcases hr with rfl | hr
            · simp only [if_true, consumeOpt, lastOpt] at h2
              by_cases hd : d'.takes = true
              · rw [if_pos hd] at h2
                by_cases hn : next = some .arg
                · rw [if_pos hn] at h2
                  cases h2
                  right
                  refine ⟨rfl, hn, fun x hx => ⟨.longNext p d' x, ⟨hab, (mem_valued d').mpr hd, hx⟩, rfl, by simp [Item.words], ?_⟩⟩
                  simp [Item.gives, Found.fill]
                · rw [if_neg hn] at h2; cases h2
              · rw [if_neg hd] at h2
                cases h2
                left
                exact ⟨rfl, .long p d', ⟨hab, by rw [mem_valued]; exact hd⟩, rfl, by simp [Item.words], rfl⟩
            · match r, hr with
              | e :: v, hr =>
                simp only [List.head?_cons, Option.some.injEq] at hr
                subst hr
                simp only [reduceCtorEq, if_false, consumeOpt, List.tail_cons] at h2
                by_cases hd : d'.takes = true
                · rw [joined_takes _ _ _ _ _ hd] at h2
                  cases h2
                  left
                  exact ⟨rfl, .longEq p d' v, ⟨hab, (mem_valued d').mpr hd⟩, rfl, by simp [Item.words], rfl⟩
                · rw [joined.eq_def] at h2
                  simp only [if_neg hd] at h2
                  cases v <;> simp at h2
          | _ :: _ :: _, h1 => simp at h1
        · rw [read_short a q ha] at h1
          cases ho : optionOf ['-', a] with
          | none =>
            rw [ho] at h1
            simp only [Except.ok.injEq] at h1
            exact absurd h1 (readUnknown_opt _ _ _ _ _)
          | some d' =>
            rw [ho] at h1
            simp only [Except.ok.injEq, Tok.opt.injEq, Option.some.injEq] at h1
            obtain ⟨rfl, rfl, rfl, rfl⟩ := h1
            rw [← group_last next a d' q ((letter_some a d').mp ho)] at h2
            obtain ⟨fs, e, d2, h4, h5, h6, h7⟩ := group_inv next _ _ f (Nat.le_refl _) h2 h3
            subst h6
            cases e with
            | plain =>
              left
              exact ⟨rfl, .letters fs .plain d2, h4, rfl, by rw [h5]; simp [Item.words, Ending.text], rfl⟩
            | glued b v =>
              left
              exact ⟨rfl, .letters fs (.glued b v) d2, h4, rfl, by rw [h5]; simp [Item.words, Ending.text], rfl⟩
            | equals b v =>
              left
              exact ⟨rfl, .letters fs (.equals b v) d2, h4, rfl, by rw [h5]; simp [Item.words, Ending.text], rfl⟩
            | next b v =>
              right
              refine ⟨rfl, (h7 rfl).1, fun x hx => ⟨.letters fs (.next b x) d2, ⟨h4.1, h4.2.1, h4.2.2, hx⟩, rfl, ?_, ?_⟩⟩
              · rw [h5]; simp [Item.words, Ending.text]
              · simp [Item.gives, Found.fill, Ending.used, groupActs]
    · simp [readWord, hc] at h1

/-- reading goes on word by word -/
theorem readWords_cons (w : List Char) (ws : List (List Char)) (ts : List (List Char × Tok))
    (h : readWords (w :: ws) = .ok ts) :
    (w = "--".toList ∧ ts = (w, .dash) :: ws.map fun v => (v, .arg)) ∨
    (w ≠ "--".toList ∧ ∃ t r, readWord w = .ok t ∧ t ≠ .dash ∧ readWords ws = .ok r ∧ ts = (w, t) :: r) := by
  rw [readWords] at h
  by_cases hw : w = "--".toList
  · rw [if_pos hw] at h
    cases h
    exact Or.inl ⟨hw, rfl⟩
  · rw [if_neg hw] at h
    obtain ⟨t, h1, h2⟩ := ebind_eq_ok.mp h
    obtain ⟨r, h3, h4⟩ := ebind_eq_ok.mp h2
    cases h4
    refine Or.inr ⟨hw, t, r, h1, ?_, h3, rfl⟩
    rintro rfl
    have hu : ∀ w, readUnknown w ≠ .dash := by
      intro w; unfold readUnknown; split
      · simp
      · split <;> simp
    match w, h1 with
    | [], h1 => simp [readWord] at h1
    | c :: q, h1 =>
      by_cases hc : c = '-'
      · subst hc
        match q, h1 with
        | [], h1 =>
          have : readWord ['-'] = .ok .arg := by decide
          simp [this] at h1
        | a :: q, h1 =>
          by_cases ha : a = '-'
          · subst ha
            obtain ⟨p, r, rfl, hp, hr⟩ := split_long q
            have h4 := read_long p hp r hr
            simp only [List.cons_append] at h4
            rw [h4] at h1
            match cands p, h1 with
            | [], h1 => simp only [Except.ok.injEq] at h1; exact hu _ h1
            | [_], h1 => simp at h1
            | _ :: _ :: _, h1 => simp at h1
          · rw [read_short a q ha] at h1
            cases ho : optionOf ['-', a] with
            | none => rw [ho] at h1; simp only [Except.ok.injEq] at h1; exact hu _ h1
            | some d' => rw [ho] at h1; simp at h1
      · simp [readWord, hc] at h1

/-- an option at the beginning -/
theorem option_step (w : List Char) (ws : List (List Char)) (d : Dest) (sh sep : Bool) (v : Option (List Char))
    (r : List (List Char × Tok)) (g : List (Dest × List Char)) (u : Option (List Char)) (pos : Bool) (c' : CmdLine)
    (h1 : readWord w = .ok (.opt (some d) sh sep v)) (h2 : readWords ws = .ok r)
    (h3 : consume (meaning g u) pos false ((w, .opt (some d) sh sep v) :: r) = .ok (c', false)) :
    ∃ (it : Item) (ws' : List (List Char)) (r' : List (List Char × Tok)), it.Valid ∧ it.codes = [] ∧ (∀ p ∈ it.gives, p.1 ≠ .help) ∧ w :: ws = it.words ++ ws' ∧
      ws'.length ≤ ws.length ∧ readWords ws' = .ok r' ∧
      consume (meaning (g ++ it.gives) u) pos false r' = .ok (c', false) := by
  rw [consume] at h3
  obtain ⟨f, h4, h5⟩ := ebind_eq_ok.mp h3
  obtain ⟨c1, h6, h7⟩ := ebind_eq_ok.mp h5
  rw [Bool.false_or] at h7
  have hx : f.extra = false := by
    cases hf : f.extra with
    | false => rfl
    | true =>
      rw [hf] at h7
      have := consume_extra _ _ _ _ _ (Nat.le_refl _) h7
      simp at this
  rw [hx] at h7
  rcases word_inv w d sh sep v _ f h1 h4 hx with ⟨h8, it, h9, h10, h11, h12⟩ | ⟨h8, h9, h10⟩
  · rw [fill_used f _ h8, ← h12] at h6
    have hh := takeAll_help _ _ _ h6
    rw [takeAll_meaning u _ g hh] at h6
    cases h6
    rw [h8, List.drop_zero] at h7
    exact ⟨it, ws, r, h9, h10, hh, by rw [h11]; rfl, Nat.le_refl _, h2, h7⟩
  · match ws, h2 with
    | [], h2 =>
      simp only [readWords, Except.ok.injEq] at h2
      subst h2
      simp at h9
    | x :: ws, h2 =>
      rcases readWords_cons x ws r h2 with ⟨rfl, rfl⟩ | ⟨h11, t, r', h12, h13, h14, rfl⟩
      · simp at h9
      · simp only [List.head?_cons, Option.map_some, Option.some.injEq] at h9
        subst h9
        obtain ⟨it, h15, h16, h17, h18⟩ := h10 x ((arg_iff x).mp h12)
        simp only [List.head?_cons, Option.map_some] at h6
        rw [← h18] at h6
        have hh := takeAll_help _ _ _ h6
        rw [takeAll_meaning u _ g hh] at h6
        cases h6
        rw [h8] at h7
        exact ⟨it, ws, r', h15, h16, hh, by rw [h17]; rfl, by simp, h14, h7⟩

/-- after the user's code only options are accepted -/
theorem after_code (n : Nat) : ∀ (ws : List (List Char)) (ts : List (List Char × Tok)) (g : List (Dest × List Char))
    (u : Option (List Char)) (c' : CmdLine), ws.length ≤ n → readWords ws = .ok ts →
    consume (meaning g u) true false ts = .ok (c', false) →
    ∃ its : List Item, (∀ it ∈ its, it.Valid) ∧ (∀ it ∈ its, ∀ p ∈ it.gives, p.1 ≠ .help) ∧
      its.flatMap Item.codes = [] ∧ ws = its.flatMap Item.words ∧ c' = meaning (g ++ its.flatMap Item.gives) u := by
  induction n with
  | zero =>
    intro ws ts g u c' h h1 h2
    have : ws = [] := List.length_eq_zero_iff.mp (by omega)
    subst this
    simp only [readWords, Except.ok.injEq] at h1
    subst h1
    rw [consume] at h2
    cases h2
    exact ⟨[], by simp, by simp, rfl, rfl, by simp⟩
  | succ n ih =>
    intro ws ts g u c' h h1 h2
    have bad : ∀ w t r, (t = .arg ∨ t = .dash) → consume (meaning g u) true false ((w, t) :: r) ≠ .ok (c', false) := by
      intro w t r ht hb
      rw [consume] at hb
      · rw [if_pos rfl] at hb
        have := consume_extra _ _ _ _ _ (Nat.le_refl _) hb
        simp at this
      · rcases ht with rfl | rfl <;> simp
      · rcases ht with rfl | rfl <;> simp
    match ws, h1 with
    | [], h1 => exact ih [] ts g u c' (by simp) h1 h2
    | w :: ws, h1 =>
      rcases readWords_cons w ws ts h1 with ⟨rfl, rfl⟩ | ⟨h3, t, r, h4, h5, h6, rfl⟩
      · exact absurd h2 (bad _ _ _ (Or.inr rfl))
      · cases t with
        | dash => exact absurd rfl h5
        | arg => exact absurd h2 (bad _ _ _ (Or.inl rfl))
        | opt o sh sep v =>
          cases o with
          | none =>
            rw [consume] at h2
            have := consume_extra _ _ _ _ _ (Nat.le_refl _) h2
            simp at this
          | some d =>
            obtain ⟨it, ws', r', k1, k2, k3, k4, k5, k6, k7⟩ := option_step w ws d sh sep v r g u true c' h4 h6 h2
            obtain ⟨its, m1, m2, m3, m4, m5⟩ := ih ws' r' _ u c' (by simp at h; omega) k6 k7
            refine ⟨it :: its, ?_, ?_, by simp [k2, m3], by rw [k4, m4]; rfl, by simp [m5]⟩
            · intro i hi
              rcases List.mem_cons.mp hi with rfl | hi
              · exact k1
              · exact m1 i hi
            · intro i hi
              rcases List.mem_cons.mp hi with rfl | hi
              · exact k3
              · exact m2 i hi

theorem cmdEnds_cons (it : Item) (its : List Item) (tail : List (List Char)) (code : Option (List Char))
    (h : it.codes = []) (he : CmdEnds its tail code) : CmdEnds (it :: its) tail code := by
  cases he with
  | none its hc => exact .none _ (by simp [h, hc])
  | one its w hc => exact .one _ w (by simp [h, hc])
  | dash its hc => exact .dash _ (by simp [h, hc])
  | dashCode its w hc => exact .dashCode _ w (by simp [h, hc])
  | codeDash its w hc => exact .codeDash (it :: its) w (by simp [h, hc])

/-- before the user's code -/
theorem before_code (n : Nat) : ∀ (ws : List (List Char)) (ts : List (List Char × Tok)) (g : List (Dest × List Char))
    (c' : CmdLine), ws.length ≤ n → readWords ws = .ok ts →
    consume (meaning g none) false false ts = .ok (c', false) →
    ∃ (its : List Item) (tail : List (List Char)) (code : Option (List Char)), (∀ it ∈ its, it.Valid) ∧
      (∀ it ∈ its, ∀ p ∈ it.gives, p.1 ≠ .help) ∧ ws = its.flatMap Item.words ++ tail ∧ CmdEnds its tail code ∧
      c' = meaning (g ++ its.flatMap Item.gives) code := by
  induction n with
  | zero =>
    intro ws ts g c' h h1 h2
    have : ws = [] := List.length_eq_zero_iff.mp (by omega)
    subst this
    simp only [readWords, Except.ok.injEq] at h1
    subst h1
    rw [consume] at h2
    cases h2
    exact ⟨[], [], none, by simp, by simp, rfl, .none _ rfl, by simp⟩
  | succ n ih =>
    intro ws ts g c' h h1 h2
    have argsOnly : ∀ (l : List (List Char)) (u : Option (List Char)),
        consume (meaning g u) true false (l.map fun v => (v, .arg)) = .ok (c', false) →
        l = [] ∧ c' = meaning g u := by
      intro l u hb
      match l, hb with
      | [], hb =>
        simp only [List.map_nil] at hb
        rw [consume] at hb
        cases hb
        exact ⟨rfl, rfl⟩
      | x :: l, hb =>
        exfalso
        simp only [List.map_cons] at hb
        rw [consume] at hb
        · rw [if_pos rfl] at hb
          have := consume_extra _ _ _ _ _ (Nat.le_refl _) hb
          simp at this
        · simp
        · simp
    have nodash : ∀ l : List (List Char),
        ((l.map fun v => (v, Tok.arg)).map (·.2)).takeWhile (· = .dash) = [] := by
      intro l; cases l <;> simp
    match ws, h1 with
    | [], h1 => exact ih [] ts g c' (by simp) h1 h2
    | w :: ws, h1 =>
      rcases readWords_cons w ws ts h1 with ⟨rfl, rfl⟩ | ⟨h3, t, r, h4, h5, h6, rfl⟩
      · match ws, h2 with
        | [], h2 =>
          simp only [List.map_nil] at h2
          rw [consume_dash] at h2
          cases h2
          exact ⟨[], ["--".toList], none, by simp, by simp, rfl, .dash _ rfl, by simp [meaning]⟩
        | x :: ws, h2 =>
          simp only [List.map_cons] at h2
          rw [consume_dash_code _ _ _ _ (nodash ws)] at h2
          obtain ⟨rfl, h7⟩ := argsOnly ws (some x) h2
          exact ⟨[], ["--".toList, x], some x, by simp, by simp, rfl, .dashCode _ x rfl, by simpa using h7⟩
      · cases t with
        | dash => exact absurd rfl h5
        | arg =>
          have ha := (arg_iff w).mp h4
          match ws, h6 with
          | [], h6 =>
            simp only [readWords, Except.ok.injEq] at h6
            subst h6
            rw [consume_code _ _ w h3 [] rfl, consume] at h2
            cases h2
            exact ⟨[.code w], [], some w, by simpa [Item.Valid] using ha, by simp [Item.gives], rfl, .one _ w rfl,
              by simp [meaning, Item.gives]⟩
          | x :: ws, h6 =>
            rcases readWords_cons x ws r h6 with ⟨rfl, rfl⟩ | ⟨k3, t', r', k4, k5, k6, rfl⟩
            · rw [consume_code_dash _ _ w h3 _ (nodash ws)] at h2
              obtain ⟨rfl, h7⟩ := argsOnly ws (some w) h2
              exact ⟨[.code w], ["--".toList], some w, by simpa [Item.Valid] using ha, by simp [Item.gives], rfl,
                .codeDash [] w rfl, by simpa [Item.gives] using h7⟩
            · rw [consume_code _ _ w h3 _ (by simp [k5])] at h2
              obtain ⟨its, m1, m2, m3, m4, m5⟩ := after_code _ (x :: ws) _ g (some w) c' (Nat.le_refl _) h6 h2
              refine ⟨.code w :: its, [], some w, ?_, ?_, by simp [m4, Item.words], .one _ w (by simp [Item.codes, m3]),
                by simp [m5, Item.gives]⟩
              · intro i hi
                rcases List.mem_cons.mp hi with rfl | hi
                · exact ha
                · exact m1 i hi
              · intro i hi
                rcases List.mem_cons.mp hi with rfl | hi
                · simp [Item.gives]
                · exact m2 i hi
        | opt o sh sep v =>
          cases o with
          | none =>
            rw [consume] at h2
            have := consume_extra _ _ _ _ _ (Nat.le_refl _) h2
            simp at this
          | some d =>
            obtain ⟨it, ws', r', k1, k2, k3, k4, k5, k6, k7⟩ := option_step w ws d sh sep v r g none false c' h4 h6 h2
            obtain ⟨its, tail, code, m1, m2, m3, m4, m5⟩ := ih ws' r' _ c' (by simp at h; omega) k6 k7
            refine ⟨it :: its, tail, code, ?_, ?_, by rw [k4, m3]; simp, cmdEnds_cons it its tail code k2 m4, by simp [m5]⟩
            · intro i hi
              rcases List.mem_cons.mp hi with rfl | hi
              · exact k1
              · exact m1 i hi
            · intro i hi
              rcases List.mem_cons.mp hi with rfl | hi
              · exact k3
              · exact m2 i hi

/-- **C212: the command line.** A command line is accepted exactly if it is written as the options allow: long
options by an unambiguous beginning of their names, letters singly or in groups, values in the next word, behind a
`=` or at once behind the letter, and at most one word with the user's code, before, between or behind the options or
behind `--`.  Then it means what was given: every value of `-i`, `-x`, `-c`, `-t` and `-f` in order, the last value of
`-g`, `-l`, `-a` and `--topology`, how often `-v` was given, and whether each of the others was. -/
theorem cmdline_iff (ws : List (List Char)) (c : CmdLine) :
    parseArgs ws = .ok c ↔
      ∃ (its : List Item) (tail : List (List Char)) (code : Option (List Char)),
        (∀ it ∈ its, it.Valid) ∧ (∀ it ∈ its, ∀ p ∈ it.gives, p.1 ≠ .help) ∧
        ws = its.flatMap Item.words ++ tail ∧ CmdEnds its tail code ∧ c = meaning (its.flatMap Item.gives) code := by
  constructor
  · intro h
    unfold parseArgs at h
    obtain ⟨ts, h1, h2⟩ := ebind_eq_ok.mp h
    obtain ⟨⟨c1, x⟩, h3, h4⟩ := ebind_eq_ok.mp h2
    cases x with
    | true => simp at h4
    | false =>
      simp only [Bool.false_eq_true, if_false, Except.ok.injEq] at h4
      subst h4
      have h0 : ({} : CmdLine) = meaning [] none := rfl
      rw [h0] at h3
      obtain ⟨its, tail, code, m1, m2, m3, m4, m5⟩ := before_code _ ws ts [] c1 (Nat.le_refl _) h1 h3
      exact ⟨its, tail, code, m1, m2, m3, m4, by simpa using m5⟩
  · rintro ⟨its, tail, code, h1, h2, rfl, h4, rfl⟩
    exact cmdline_accepts its tail code h1 h2 h4

/-! ### Consequences -/

/-- the statuses of refused command lines -/
theorem joined_status (next : Option Tok) (sh : Bool) (n : Nat) : ∀ (v : List Char) (d : Dest) (sep : Bool) (e : Nat),
    v.length ≤ n → joined next sh d sep v = .error e → e = 2 := by
  induction n with
  | zero =>
    intro v d sep e h h1
    have : v = [] := List.length_eq_zero_iff.mp (by omega)
    subst this
    rw [joined.eq_def] at h1
    by_cases hd : d.takes = true <;> simp [hd] at h1
    exact h1.symm
  | succ n ih =>
    intro v d sep e h h1
    have hl : ∀ d e, lastOpt d next = .error e → e = 2 := by
      intro d e he
      unfold lastOpt at he
      by_cases hd : d.takes = true
      · rw [if_pos hd] at he
        split at he
        · cases he
        · cases he; rfl
      · rw [if_neg hd] at he; cases he
    have hb : ∀ (x : Except Nat Found) (f : Found → Found), (x >>= fun a => Except.ok (f a)) = .error e →
        x = .error e := by
      intro x f hx
      cases x with
      | ok a => cases hx
      | error e' => cases hx; rfl
    rw [joined.eq_def] at h1
    simp only at h1
    split at h1
    · cases h1
    · split at h1
      · cases h1; rfl
      · split at h1
        · cases h1; rfl
        · split at h1
          · cases h1; rfl
          · split at h1
            · cases h1
            · rename_i d' _
              split at h1
              · exact hl d' e (hb _ _ h1)
              · split at h1
                · exact ih _ _ _ _ (by simp at h ⊢; omega) (hb _ _ h1)
                · exact ih _ _ _ _ (by simp at h ⊢; omega) (hb _ _ h1)

theorem readWord_status (w : List Char) (e : Nat) (h : readWord w = .error e) : e = 2 := by
  have ht : readTuples w = .error e → e = 2 := by
    intro h
    unfold readTuples at h
    split at h
    · cases h
    · cases h
    · cases h; rfl
  unfold readWord at h
  split at h
  · cases h
  · split at h
    · cases h
    · split at h
      · cases h
      · split at h
        · cases h
        · exact ht h

theorem readWords_status (ws : List (List Char)) (e : Nat) (h : readWords ws = .error e) : e = 2 := by
  induction ws with
  | nil => cases h
  | cons w ws ih =>
    rw [readWords] at h
    split at h
    · cases h
    · cases h1 : readWord w with
      | error e' => rw [h1] at h; cases h; exact readWord_status w e h1
      | ok t =>
        rw [h1, ebind_ok] at h
        cases h2 : readWords ws with
        | error e' => rw [h2] at h; cases h; exact ih h2
        | ok r => rw [h2] at h; cases h

theorem takeAll_status (l : List (Dest × List Char)) : ∀ (c : CmdLine) (e : Nat), c.takeAll l = .error e → e = 0 := by
  induction l with
  | nil => intro c e h; cases h
  | cons p l ih =>
    intro c e h
    obtain ⟨d, v⟩ := p
    rw [CmdLine.takeAll] at h
    cases h1 : c.take d v with
    | error e' =>
      rw [h1] at h; cases h
      cases d <;> simp [CmdLine.take] at h1
      exact h1.symm
    | ok c' => rw [h1] at h; exact ih c' e h

theorem consume_status (n : Nat) : ∀ (ts : List (List Char × Tok)) (c : CmdLine) (pos x : Bool) (e : Nat),
    ts.length ≤ n → consume c pos x ts = .error e → e = 0 ∨ e = 2 := by
  induction n with
  | zero =>
    intro ts c pos x e h h1
    have : ts = [] := List.length_eq_zero_iff.mp (by omega)
    subst this
    rw [consume] at h1
    cases h1
  | succ n ih =>
    intro ts c pos x e h h1
    match ts, h1 with
    | [], h1 => rw [consume] at h1; cases h1
    | (w, .opt none _ _ _) :: ts, h1 =>
      rw [consume] at h1
      exact ih ts c pos _ e (by simp at h; omega) h1
    | (w, .opt (some d) sh sep v) :: ts, h1 =>
      rw [consume] at h1
      cases h2 : consumeOpt (ts.head?.map (·.2)) d sh sep v with
      | error e' =>
        rw [h2] at h1
        cases h1
        right
        cases v with
        | some v => exact joined_status _ _ _ v d sep e (Nat.le_refl _) h2
        | none =>
          simp only [consumeOpt, lastOpt] at h2
          split at h2
          · split at h2
            · cases h2
            · cases h2; rfl
          · cases h2
      | ok f =>
        rw [h2, ebind_ok] at h1
        cases h3 : c.takeAll (f.fill (ts.head?.map (·.1))) with
        | error e' => rw [h3] at h1; cases h1; exact Or.inl (takeAll_status _ _ _ h3)
        | ok c' =>
          rw [h3, ebind_ok] at h1
          exact ih _ c' pos _ e (by simp at h ⊢; omega) h1
    | (w, .arg) :: ts, h1 =>
      rw [consume] at h1
      · split at h1
        · exact ih ts _ _ _ e (by simp at h; omega) h1
        · exact ih _ _ _ _ e (by simp at h ⊢; omega) h1
      · simp
      · simp
    | (w, .dash) :: ts, h1 =>
      rw [consume] at h1
      · split at h1
        · exact ih ts _ _ _ e (by simp at h; omega) h1
        · exact ih _ _ _ _ e (by simp at h ⊢; omega) h1
      · simp
      · simp

/-- **C212 (and C147): starting from the command line.** Either `swyard` ends with the status 0 or 2 before anything
is started, or the command line is well formed and the program does what `main` does with what was given. -/
theorem cmdline_starts (env : StartEnv) (ws : List (List Char)) :
    (∃ e, swyardCommand env ws = .error e ∧ (e = 0 ∨ e = 2) ∧
      ¬ ∃ (its : List Item) (tail : List (List Char)) (code : Option (List Char)),
        (∀ it ∈ its, it.Valid) ∧ (∀ it ∈ its, ∀ p ∈ it.gives, p.1 ≠ .help) ∧
        ws = its.flatMap Item.words ++ tail ∧ CmdEnds its tail code) ∨
    (∃ (its : List Item) (tail : List (List Char)) (code : Option (List Char)),
        (∀ it ∈ its, it.Valid) ∧ (∀ it ∈ its, ∀ p ∈ it.gives, p.1 ≠ .help) ∧
        ws = its.flatMap Item.words ++ tail ∧ CmdEnds its tail code ∧
        swyardCommand env ws = .ok (swyardMain env (meaning (its.flatMap Item.gives) code).toSwyardArgs)) := by
  cases h : parseArgs ws with
  | error e =>
    left
    refine ⟨e, by rw [swyardCommand, h]; rfl, ?_, ?_⟩
    · unfold parseArgs at h
      cases h1 : readWords ws with
      | error e' => rw [h1] at h; cases h; exact Or.inr (readWords_status ws e h1)
      | ok ts =>
        rw [h1, ebind_ok] at h
        cases h2 : consume {} false false ts with
        | error e' => rw [h2] at h; cases h; exact consume_status _ ts _ _ _ _ (Nat.le_refl _) h2
        | ok r =>
          rw [h2, ebind_ok] at h
          split at h
          · cases h; exact Or.inr rfl
          · cases h
    · rintro ⟨its, tail, code, h1, h2, h3, h4⟩
      have := cmdline_accepts its tail code h1 h2 h4
      rw [← h3, h] at this
      cases this
  | ok c =>
    right
    obtain ⟨its, tail, code, h1, h2, h3, h4, rfl⟩ := (cmdline_iff ws c).mp h
    exact ⟨its, tail, code, h1, h2, h3, h4, by rw [swyardCommand, h]; rfl⟩

/-- **C212 (part): arguments for the user's code.** Written as `--codearg=…`, any text at all reaches the user's
code. -/
theorem codearg_equals (s code : List Char) (h : code.head? ≠ some '-') :
    ∃ c, parseArgs ["--codearg=".toList ++ s, code] = .ok c ∧ c.codearg = s ∧ c.usercode = some code := by
  have := cmdline_accepts [.longEq "codearg".toList .codearg s, .code code] [] (some code)
    (by
      intro it hi
      rcases List.mem_cons.mp hi with rfl | hi
      · exact ⟨by decide, by decide⟩
      · rw [List.mem_singleton] at hi; subst hi; exact Or.inl h)
    (by
      intro it hi
      rcases List.mem_cons.mp hi with rfl | hi
      · simp [Item.gives]
      · rw [List.mem_singleton] at hi; subst hi; simp [Item.gives])
    (.one _ _ rfl)
  refine ⟨_, (by simpa [Item.words] using this), ?_, rfl⟩
  simp [meaning, Item.gives, vals]

/-- **C212 (part): arguments for the user's code in a word of their own.** `-g` followed by the text is accepted
exactly if the text looks like an argument: not if it begins with a dash and the letter of an option, blanks or
not. -/
theorem codearg_next_iff (s code : List Char) (h : code.head? ≠ some '-') :
    (∃ c, parseArgs ["-g".toList, s, code] = .ok c) ↔ ArgLike s := by
  constructor
  · rintro ⟨c, hc⟩
    unfold parseArgs at hc
    obtain ⟨ts, h1, h2⟩ := ebind_eq_ok.mp hc
    obtain ⟨r, h3, -⟩ := ebind_eq_ok.mp h2
    have hg : readWord "-g".toList = .ok (.opt (some .codearg) true false none) := by decide
    rcases readWords_cons _ _ _ h1 with ⟨h4, -⟩ | ⟨-, t, r1, h4, -, h6, rfl⟩
    · simp at h4
    · rw [hg] at h4
      cases h4
      rw [consume] at h3
      obtain ⟨f, h7, -⟩ := ebind_eq_ok.mp h3
      simp only [consumeOpt, lastOpt, Dest.takes, if_true] at h7
      have hn : r1.head?.map (·.2) = some .arg := by
        cases hq : decide (r1.head?.map (·.2) = some .arg) with
        | true => simpa using hq
        | false =>
          have hq' := of_decide_eq_false hq
          rw [if_neg hq'] at h7
          cases h7
      rcases readWords_cons _ _ _ h6 with ⟨-, rfl⟩ | ⟨-, t, r2, h8, -, -, rfl⟩
      · simp at hn
      · simp only [List.head?_cons, Option.map_some, Option.some.injEq] at hn
        subst hn
        exact (arg_iff s).mp h8
  · intro hs
    have := cmdline_accepts [.letters [] (.next 'g' s) .codearg, .code code] [] (some code)
      (by
        intro it hi
        rcases List.mem_cons.mp hi with rfl | hi
        · exact ⟨by simp, by decide, by decide, hs⟩
        · rw [List.mem_singleton] at hi; subst hi; exact Or.inl h)
      (by
        intro it hi
        rcases List.mem_cons.mp hi with rfl | hi
        · simp [Item.gives]
        · rw [List.mem_singleton] at hi; subst hi; simp [Item.gives])
      (.one _ _ rfl)
    exact ⟨_, by simpa [Item.words] using this⟩

/-- So the arguments `-v 5` cannot be given to the user's code as the help text says, quoted behind `-g`, while
`-z 5` can. -/
theorem codearg_violated :
    parseArgs ["-g".toList, "-v 5".toList, "code.py".toList] = .error 2 ∧
    (∃ c, parseArgs ["-g".toList, "-z 5".toList, "code.py".toList] = .ok c ∧ c.codearg = "-z 5".toList) := by
  constructor
  · unfold parseArgs
    have : readWords ["-g".toList, "-v 5".toList, "code.py".toList] =
        .ok [("-g".toList, .opt (some .codearg) true false none), ("-v 5".toList, .opt (some .verbose) true false (some " 5".toList)), ("code.py".toList, .arg)] := by decide
    rw [this, ebind_ok, consume]
    rfl
  · obtain ⟨c, hc⟩ := (codearg_next_iff "-z 5".toList "code.py".toList (by decide)).mpr
      ((arg_iff _).mp (by decide))
    refine ⟨c, hc, ?_⟩
    have := cmdline_accepts [.letters [] (.next 'g' "-z 5".toList) .codearg, .code "code.py".toList] []
      (some "code.py".toList)
      (by
        intro it hi
        rcases List.mem_cons.mp hi with rfl | hi
        · exact ⟨by simp, by decide, by decide, (arg_iff _).mp (by decide)⟩
        · rw [List.mem_singleton] at hi; subst hi; exact Or.inl (by decide))
      (by
        intro it hi
        rcases List.mem_cons.mp hi with rfl | hi
        · simp [Item.gives]
        · rw [List.mem_singleton] at hi; subst hi; simp [Item.gives])
      (.one _ _ rfl)
    have hw : [Item.letters [] (.next 'g' "-z 5".toList) .codearg, .code "code.py".toList].flatMap Item.words ++ [] =
        ["-g".toList, "-z 5".toList, "code.py".toList] := by decide
    rw [hw, hc] at this
    cases this
    decide

/-- Behind `--` any word is the user's code. -/
theorem code_behind_dashes (w : List Char) :
    ∃ c, parseArgs ["--".toList, w] = .ok c ∧ c.usercode = some w :=
  ⟨_, cmdline_accepts [] ["--".toList, w] (some w) (by simp) (by simp) (.dashCode _ w rfl), rfl⟩

/-- A command line with an abbreviation, a group of letters, a value behind `=` and the code in the middle. -/
example : ∃ c, parseArgs ["-vvd".toList, "--inc".toList, "eth0".toList, "code.py".toList, "-ieth1".toList,
      "--codearg=-v 5".toList, "-vt".toList, "a.srpy".toList] = .ok c ∧
    c.intf = ["eth0".toList, "eth1".toList] ∧ c.verbose = 3 ∧ c.debug = true ∧ c.tests = ["a.srpy".toList] ∧
    c.codearg = "-v 5".toList ∧ c.usercode = some "code.py".toList := by
  have := cmdline_accepts
    [.letters [('v', .verbose), ('v', .verbose), ('d', .debug)] .plain .help, .longNext "inc".toList .intf "eth0".toList,
     .code "code.py".toList, .letters [] (.glued 'i' "eth1".toList) .intf,
     .longEq "codearg".toList .codearg "-v 5".toList,
     .letters [('v', .verbose)] (.next 't' "a.srpy".toList) .tests] [] (some "code.py".toList)
    (by
      intro it hi
      simp only [List.mem_cons, List.not_mem_nil, or_false] at hi
      rcases hi with rfl | rfl | rfl | rfl | rfl | rfl
      · exact ⟨by decide, by simp⟩
      · exact ⟨by decide, by decide, Or.inl (by decide)⟩
      · exact Or.inl (by decide)
      · exact ⟨by decide, by decide, by decide, by decide, by decide⟩
      · exact ⟨by decide, by decide⟩
      · exact ⟨by decide, by decide, by decide, Or.inl (by decide)⟩)
    (by
      intro it hi
      simp only [List.mem_cons, List.not_mem_nil, or_false] at hi
      rcases hi with rfl | rfl | rfl | rfl | rfl | rfl <;> simp [Item.gives])
    (.one _ _ rfl)
  exact ⟨_, this, by decide, by decide, by decide, by decide, by decide, by decide⟩

end SY.Props
