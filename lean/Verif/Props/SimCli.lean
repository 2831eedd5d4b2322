import Verif.SimCli
import Verif.Props.Sim
import Verif.Props.NetBase
import Verif.Props.Firewall

/-! # Properties of the command line of the simulator: C139–C144 -/

namespace SY.Props

variable {α : Type}

/-! ## Words -/

theorem splitWords_trail (sp : List Char) (h : ∀ c ∈ sp, isSpace c = true) (s : List Char) : ∀ cur,
    splitWords cur (s ++ sp) = splitWords cur s := by
  induction s with
  | nil =>
    intro cur
    cases sp with
    | nil => rfl
    | cons c sp =>
      have := splitWords_space cur (c :: sp) [] h (.inl (by simp))
      rw [List.append_nil] at this
      rw [List.nil_append, this]; simp [splitWords]
  | cons c s ih =>
    intro cur
    simp only [List.cons_append, splitWords]
    split
    · split <;> simp [ih]
    · exact ih _

theorem takeWhile_holds {β : Type} (p : β → Bool) (l : List β) : ∀ x ∈ l.takeWhile p, p x = true := by
  induction l with
  | nil => simp
  | cons a l ih =>
    simp only [List.takeWhile_cons]
    split
    · rename_i ha
      intro x hx
      rcases List.mem_cons.mp hx with rfl | hx
      · exact ha
      · exact ih x hx
    · simp

theorem strip_parts (s : List Char) : ∃ a b, s = a ++ strip s ++ b ∧ (∀ c ∈ a, isSpace c = true) ∧ ∀ c ∈ b, isSpace c = true := by
  refine ⟨s.takeWhile isSpace, (((s.dropWhile isSpace).reverse.takeWhile isSpace)).reverse, ?_, takeWhile_holds _ _, ?_⟩
  · rw [strip, List.append_assoc, ← List.reverse_append, List.takeWhile_append_dropWhile, List.reverse_reverse,
      List.takeWhile_append_dropWhile]
  · intro c hc
    exact takeWhile_holds _ _ c (List.mem_reverse.mp hc)

/-- White space around a text does not change its words. -/
theorem words_strip (s : List Char) : splitWords [] (strip s) = splitWords [] s := by
  obtain ⟨a, b, hs, ha, hb⟩ := strip_parts s
  conv => rhs; rw [hs]
  rw [splitWords_trail b hb, splitWords_space [] a _ ha (.inr rfl)]
  simp

theorem strip_head_nonspace (s : List Char) (c : Char) (r : List Char) (h : strip s = c :: r) : isSpace c = false := by
  have hd : s.dropWhile isSpace ≠ [] := by
    intro e; simp [strip, e] at h
  obtain ⟨d, u, hu⟩ := List.exists_cons_of_ne_nil hd
  have hdn : isSpace d = false := by
    have := List.head?_dropWhile_not isSpace s
    rw [hu] at this; simpa using this
  obtain ⟨s', hs'⟩ := strip_head d u hdn
  have : strip s = strip (d :: u) := by
    simp only [strip, hu]
    simp [List.dropWhile, hdn]
  rw [this, hs'] at h
  cases h; exact hdn

/-- The first word of a text that does not begin with white space. -/
theorem splitWords_first (c : Char) (r : List Char) (hc : isSpace c = false) :
    splitWords [] (c :: r) = (c :: r).takeWhile (fun x => !isSpace x) :: splitWords [] ((c :: r).dropWhile fun x => !isSpace x) := by
  have h := splitWords_word [] ((c :: r).takeWhile fun x => !isSpace x) ((c :: r).dropWhile fun x => !isSpace x)
    (fun x hx => by simpa using takeWhile_holds _ _ x hx)
  rw [List.takeWhile_append_dropWhile] at h
  rw [h]
  have hne : (c :: r).takeWhile (fun x => !isSpace x) ≠ [] := by simp [List.takeWhile, hc]
  cases hd : (c :: r).dropWhile fun x => !isSpace x with
  | nil => simp [splitWords, hne]
  | cons d t =>
    have hdn : isSpace d = true := by
      have := List.head?_dropWhile_not (fun x => !isSpace x) (c :: r)
      rw [hd] at this; simpa using this
    have h2 := splitWords_space (((c :: r).takeWhile fun x => !isSpace x).reverse ++ []) [d] t (by simpa using hdn) (.inl (by simp))
    rw [List.singleton_append] at h2
    rw [h2]
    simp [hne, splitWords, hdn]

theorem splitWords_isWord (s : List Char) : ∀ cur, (∀ c ∈ cur, isSpace c = false) → ∀ w ∈ splitWords cur s, IsWord w := by
  induction s with
  | nil =>
    intro cur hc w hw
    simp only [splitWords] at hw
    split at hw
    · cases hw
    · rename_i hne
      rw [List.mem_singleton] at hw; subst hw
      exact ⟨by simpa using hne, fun c h => hc c (List.mem_reverse.mp h)⟩
  | cons c s ih =>
    intro cur hc w hw
    simp only [splitWords] at hw
    split at hw
    · split at hw
      · exact ih [] (by simp) w hw
      · rename_i hne
        rcases List.mem_cons.mp hw with rfl | hw
        · exact ⟨by simpa using hne, fun c h => hc c (List.mem_reverse.mp h)⟩
        · exact ih [] (by simp) w hw
    · rename_i hn
      refine ih (c :: cur) ?_ w hw
      intro x hx
      rcases List.mem_cons.mp hx with rfl | hx
      · simpa using hn
      · exact hc x hx

/-- Words put together are found again. -/
theorem words_unwords (ws : List Name) (h : ∀ w ∈ ws, IsWord w) : splitWords [] (unwords ws) = ws := by
  induction ws with
  | nil => rfl
  | cons w ws ih =>
    have hw := h w List.mem_cons_self
    cases ws with
    | nil =>
      have := splitWords_word [] w [] hw.2
      simp only [List.append_nil] at this
      simp only [unwords, joinChar]
      rw [this]; simp [splitWords, hw.1]
    | cons v vs =>
      have ih := ih fun x hx => h x (List.mem_cons_of_mem _ hx)
      simp only [unwords, joinChar] at ih ⊢
      rw [splitWords_word [] w _ hw.2]
      have h2 := splitWords_space (w.reverse ++ []) [' '] (joinChar ' ' (v :: vs)) (by decide) (.inl (by simp))
      rw [List.singleton_append] at h2
      rw [h2, ih]
      simp [hw.1]

/-! ## C139: abbreviated commands -/

theorem short_sub : ∀ c ∈ CliCmd.short, c ∈ CliCmd.all := by decide

theorem all_complete (c : CliCmd) : c ∈ CliCmd.all := by cases c <;> decide

theorem word_ident (c : CliCmd) : ∀ x ∈ c.word.toList, identChar x = true := by
  cases c <;> decide

theorem pre_ident {w : Name} {c : CliCmd} (h : pre w c.word = true) : ∀ x ∈ w, identChar x = true := by
  intro x hx
  exact word_ident c x (List.IsPrefix.subset (List.isPrefixOf_iff_prefix.mp h) hx)

theorem pre_self (s : String) : pre s.toList s = true := List.isPrefixOf_iff_prefix.mpr (List.prefix_refl _)

theorem space_not_ident {c : Char} (h : isSpace c = true) : identChar c = false := by
  simp only [isSpace, Bool.or_eq_true, Bool.and_eq_true, decide_eq_true_eq] at h
  simp only [identChar, Char.isAlphanum, Char.isAlpha, Char.isUpper, Char.isLower, Char.isDigit, Bool.or_eq_false_iff,
    Bool.and_eq_false_iff, decide_eq_false_iff_not]
  have key : c.toNat ≤ 32 := by
    rcases h with (rfl | h) | h
    · decide
    · omega
    · omega
  have e : ∀ (k : UInt32), 32 < k.toNat → ¬ c.val ≥ k := by
    intro k hk hge
    have : k.toNat ≤ c.val.toNat := hge
    have h2 : c.val.toNat = c.toNat := rfl
    omega
  refine ⟨⟨⟨fun h => e 65 (by decide) h.1, .inl (e 97 (by decide))⟩, .inl (e 48 (by decide))⟩, ?_⟩
  intro hc; subst hc
  exact absurd key (by decide)

theorem takeWhile_ident {w r : List Char} (hw : ∀ x ∈ w, identChar x = true) (hr : ∀ x ∈ r.head?, isSpace x = true) :
    (w ++ r).takeWhile identChar = w ∧ (w ++ r).dropWhile identChar = r := by
  induction w with
  | nil =>
    cases r with
    | nil => exact ⟨rfl, rfl⟩
    | cons c r => simp [space_not_ident (hr c rfl)]
  | cons c w ih =>
    have := ih fun x hx => hw x (List.mem_cons_of_mem _ hx)
    have hc := hw c List.mem_cons_self
    simp [hc, this.1, this.2]

theorem word_inj : ∀ c ∈ CliCmd.all, ∀ c' ∈ CliCmd.all, c.word.toList = c'.word.toList → c = c' := by decide

theorem find_only {β : Type} {l : List β} {p : β → Bool} {x : β} (hx : x ∈ l) (hp : p x = true) (hu : ∀ y ∈ l, p y = true → y = x) :
    l.find? p = some x := by
  cases h : l.find? p with
  | none => exact absurd hp (by simpa using List.find?_eq_none.mp h x hx)
  | some y => rw [hu y (List.mem_of_find?_eq_some h) (List.find?_some h)]

/-- How a line that begins with letters is taken apart. -/
theorem line_call {line w : Name} {ws : List Name} (hl : splitWords [] line = w :: ws) (hi : ∀ x ∈ w, identChar x = true) :
    ∃ l r, cliCall line = cliCommand l ∧ l.takeWhile identChar = w ∧ l.dropWhile identChar = r ∧ splitWords [] r = ws ∧
      splitWords [] l = w :: ws := by
  have hwords : splitWords [] (strip line) = w :: ws := by rw [words_strip, hl]
  cases hs : strip line with
  | nil => rw [hs] at hwords; simp [splitWords] at hwords
  | cons d r =>
    have hd := strip_head_nonspace line d r hs
    have hf := splitWords_first d r hd
    rw [hs] at hwords
    rw [hwords] at hf
    injection hf with hw1 hw2
    have hsplit : d :: r = w ++ (d :: r).dropWhile fun x => !isSpace x := by
      conv => lhs; rw [← List.takeWhile_append_dropWhile (p := fun x => !isSpace x) (l := d :: r)]
      rw [hw1]
    have hrest : ∀ x ∈ ((d :: r).dropWhile fun x => !isSpace x).head?, isSpace x = true := by
      intro x hx
      have := List.head?_dropWhile_not (fun x => !isSpace x) (d :: r)
      cases he : (d :: r).dropWhile fun x => !isSpace x with
      | nil => rw [he] at hx; cases hx
      | cons y t =>
        rw [he] at hx this
        cases hx
        simpa using this
    have hdw : identChar d = true := by
      apply hi
      rw [hw1]; simp [List.takeWhile, hd]
    have hcall : cliCall line = cliCommand (d :: r) := by
      simp only [cliCall, hs]
      split
      · rename_i h; cases h
      · rename_i h; cases h; exact absurd hdw (by decide)
      · rename_i h; cases h; exact absurd hdw (by decide)
      · rename_i h; rfl
    have htake := takeWhile_ident hi hrest
    rw [← hsplit] at htake
    exact ⟨d :: r, _, hcall, htake.1, htake.2, hw2.symm, hwords⟩

/-- C139: a line whose first word is the beginning of the name of exactly one command runs that command, with the rest of the
line, for the commands other than `exit`, `help` and `EOF`. -/
theorem cli_abbreviation_partial (line w : Name) (ws : List Name) (c : CliCmd) (hl : splitWords [] line = w :: ws)
    (hc : c ≠ .exit ∧ c ≠ .help ∧ c ≠ .eof) (hw : w <+: c.word.toList) (hu : ∀ c' : CliCmd, w <+: c'.word.toList → c' = c) :
    ∃ arg, cliCall line = .run c arg ∧ splitWords [] arg = ws := by
  have hcs : c ∈ CliCmd.short := by cases c <;> simp_all [CliCmd.short]
  have hpw : pre w c.word = true := List.isPrefixOf_iff_prefix.mpr hw
  have hpu : ∀ c' : CliCmd, pre w c'.word = true → c' = c := fun c' h => hu c' (List.isPrefixOf_iff_prefix.mp h)
  have hi := pre_ident hpw
  obtain ⟨l, r, hcall, ht1, ht2, hw2, hwords⟩ := line_call hl hi
  rw [hcall, cliCommand, ht1, ht2]
  by_cases hex : c.word.toList = w
  · have : (CliCmd.all.find? fun c => decide (c.word.toList = w)) = some c :=
      find_only (all_complete c) (by simpa using hex) (by
        intro y hy hyw
        exact word_inj y hy c (all_complete c) ((of_decide_eq_true hyw).trans hex.symm))
    rw [this]
    exact ⟨_, rfl, by rw [words_strip, hw2]⟩
  · have : (CliCmd.all.find? fun c => decide (c.word.toList = w)) = none := by
      rw [List.find?_eq_none]
      intro y _ hyw
      have hyw := of_decide_eq_true hyw
      have := hpu y (by rw [← hyw]; exact pre_self _)
      exact hex (this ▸ hyw)
    rw [this]
    have hfind : (CliCmd.short.find? fun c => pre w c.word) = some c :=
      find_only hcs hpw fun y _ hy => hpu y hy
    simp only [cliDefault, hwords, hfind]
    refine ⟨_, rfl, words_unwords ws ?_⟩
    intro x hx
    have := splitWords_isWord line [] (by simp) x
    rw [hl] at this
    exact this (List.mem_cons_of_mem _ hx)

example : splitWords [] "  mon  any dump f ".toList = ["mon".toList, "any".toList, "dump".toList, "f".toList] ∧
    cliCall "  mon  any dump f ".toList = .run .monitor "any dump f".toList := by decide +kernel

/-- C139 is false for `exit` and `help`. -/
theorem cli_abbreviation_violated :
    ¬ ∀ (w : Name) (c : CliCmd), w ≠ [] → w <+: c.word.toList → (∀ c' : CliCmd, w <+: c'.word.toList → c' = c) →
      ∃ arg, cliCall w = .run c arg := by
  intro h
  obtain ⟨arg, ha⟩ := h "exi".toList .exit (by decide) (by decide) (by
    intro c' h; revert h; cases c' <;> decide)
  have : cliCall "exi".toList = .unknown := by decide +kernel
  rw [this] at ha; cases ha

/-- C139: the line that is not understood does nothing. -/
theorem cli_unknown (c : Cli α) (env : CliEnv α) (line w : Name) (ws : List Name) (hl : splitWords [] line = w :: ws)
    (hw : ∀ x ∈ w, x.isAlphanum = true) (hu : ∀ c' : CliCmd, ¬ w <+: c'.word.toList) :
    c.onecmd env line = (c, .done true) := by
  have hi : ∀ x ∈ w, identChar x = true := fun x hx => by simp [identChar, hw x hx]
  obtain ⟨l, r, hcall, ht1, ht2, hw2, hwords⟩ := line_call hl hi
  have h1 : (CliCmd.all.find? fun c => decide (c.word.toList = w)) = none := by
    rw [List.find?_eq_none]
    intro y _ hyw
    exact hu y (of_decide_eq_true hyw ▸ List.prefix_refl _)
  have h2 : (CliCmd.short.find? fun c => pre w c.word) = none := by
    rw [List.find?_eq_none]
    intro y _ hyw
    exact hu y (List.isPrefixOf_iff_prefix.mp hyw)
  have : cliCall line = .unknown := by
    rw [hcall, cliCommand, ht1, h1]
    simp only [cliDefault, hwords, h2]
  simp [Cli.onecmd, this]

/-! ## Stopping and starting -/

/-- The simulator between two commands: all nodes run, none waits for the debugger, and no monitor failed to be made. -/
structure Steady (c : Cli α) : Prop where
  topo : TopoOk c.topo
  monitors : RegMon.half ∉ c.glue.registered
  nodes : ∀ x ∈ c.glue.xnode, x.2.phase = .running ∧ x.2.blocked = false

/-- The simulator has just been started with a topology: its nodes, wired along its links, nothing received or sent, and no
monitors. -/
def Simulates (t : Topo) (g : Glue α) : Prop :=
  g.xnode.keys = t.nodes.keys ∧ g.mons = [] ∧ g.registered = [] ∧
  ∀ u x, g.xnode.get? u = some x → x.phase = .starting ∧ (∀ f p, x.pipes.get? f = some p ↔ Wired t u f p) ∧
    (∀ f m, x.mons.get? f = some m → m = .null) ∧ x.queue = [] ∧ x.sent = [] ∧ x.calls = [] ∧ x.blocked = false

theorem stop_running (xs : Dict Name (NodeExec α)) (h : ∀ x ∈ xs, x.2.phase = .running ∧ x.2.blocked = false) :
    stopNodes xs = (xs.map fun x => (x.1, { x.2 with phase := .stopped }), none) := by
  induction xs with
  | nil => rfl
  | cons x xs ih =>
    obtain ⟨n, x⟩ := x
    have h0 := h (n, x) List.mem_cons_self
    have := ih fun y hy => h y (List.mem_cons_of_mem _ hy)
    simp only at h0
    simp [stopNodes, NodeExec.shutdown, h0.1, h0.2, this]

theorem build_simulates {t : Topo} (h : TopoOk t) (hs : Simulable t) (g : Glue α) (hg : RegMon.half ∉ g.registered) :
    ∃ g', g.build t = (g', none) ∧ Simulates t g' := by
  obtain ⟨d, hd, hi⟩ := build_ok h hs g hg
  refine ⟨_, hd, ?_, rfl, rfl, ?_⟩
  · rw [← hi.keys]; simp [startNodes, Dict.keys, Function.comp_def]
  · intro u y hy
    rw [startNodes_get] at hy
    cases hx : d.get? u with
    | none => rw [hx] at hy; cases hy
    | some x =>
      rw [hx] at hy; cases hy
      obtain ⟨h1, h2, h3, h4, h5⟩ := hi.rest u x hx
      refine ⟨rfl, hi.pipes u x hx, ?_, h2, h3, h4, h5⟩
      intro f m hm
      have := hi.mons u x hx f
      simp only at hm
      rw [hm] at this
      split at this
      · cases this; rfl
      · cases this

theorem rebuild_steady {c : Cli α} (hc : Steady c) {t : Topo} (h : TopoOk t) (hs : Simulable t) (e : Option Name) :
    ∃ g, c.glue.rebuild t e = (g, none) ∧ Simulates t g := by
  obtain ⟨g', hg', hsim⟩ := build_simulates h hs { c.glue with xnode := (stopNodes c.glue.xnode).1 } hc.monitors
  refine ⟨g', ?_, hsim⟩
  simp only [Glue.rebuild, Glue.stop, stop_running _ hc.nodes] at hg' ⊢
  exact hg'

theorem changed_steady {c : Cli α} (hc : Steady c) {t : Topo} (h : TopoOk t) (hs : Simulable t) (b : Bool) :
    ∃ g, c.changed t b = (⟨t, true, g⟩, .done b) ∧ Simulates t g := by
  obtain ⟨g, hg, hsim⟩ := rebuild_steady hc h hs none
  exact ⟨g, by simp [Cli.changed, hg], hsim⟩

/-! ## C140: commands that change the network -/

/-- The word for a kind of node. -/
def kindWord : NodeKind → Name
  | .host => "host".toList
  | .switch => "switch".toList
  | .router => "router".toList

/-- A nonempty beginning of a word. -/
def Abbr (w word : Name) : Prop := w ≠ [] ∧ w <+: word

/-- A word that announces the capacity. -/
def CapWord (w : Name) : Prop := w = "bw".toList ∨ Abbr w "bandwidth".toList ∨ Abbr w "capacity".toList

/-- A word that announces the delay. -/
def DelayWord (w : Name) : Prop := Abbr w "delay".toList

/-- The words of a value, among which none announces a value. -/
def Value (vs : List Name) : Prop := vs ≠ [] ∧ ∀ v ∈ vs, v ≠ [] ∧ ¬ CapWord v ∧ ¬ DelayWord v

/-- What the words after `add` and `remove` mean, following the help texts. -/
inductive Means : CliCmd → List Name → TopoOp → Prop
  | node (k : NodeKind) (w : Name) (name : Option Name) : Abbr w (kindWord k) → Means .add (w :: name.toList) (.add k name)
  | link (w a b kc kd : Name) (vs us : List Name) : Abbr w "link".toList → CapWord kc → DelayWord kd → Value vs → Value us →
      Means .add (w :: a :: b :: kc :: vs ++ kd :: us) (.addLink a b (.text (unwords vs)) (.text (unwords us)))
  | link' (w a b kc kd : Name) (vs us : List Name) : Abbr w "link".toList → CapWord kc → DelayWord kd → Value vs → Value us →
      Means .add (w :: a :: b :: kd :: us ++ kc :: vs) (.addLink a b (.text (unwords vs)) (.text (unwords us)))
  | removeNode (w n : Name) : Abbr w "node".toList ∨ (∃ k, Abbr w (kindWord k)) → Means .remove [w, n] (.removeNode n)
  | removeLink (w a b : Name) : Abbr w "link".toList ∨ Abbr w "edge".toList → Means .remove [w, a, b] (.removeLink a b)

theorem pre_iff (w : Name) (s : String) : pre w s = true ↔ w <+: s.toList := List.isPrefixOf_iff_prefix

theorem abbr_pre {w : Name} {s : String} (h : Abbr w s.toList) : pre w s = true := (pre_iff w s).mpr h.2

/-- Beginnings of words with different first letters differ. -/
theorem abbr_head {w : Name} {c : Char} {l : List Char} (h : Abbr w (c :: l)) {d : Char} {m : List Char} (hcd : c ≠ d) :
    ¬ w <+: d :: m := by
  obtain ⟨hne, t, ht⟩ := h
  rintro ⟨t', ht'⟩
  cases w with
  | nil => exact hne rfl
  | cons x w => cases ht; cases ht'; exact hcd rfl

theorem abbr_not_pre {w : Name} {c : Char} {l : List Char} (h : Abbr w (c :: l)) {s : String} {d : Char} {m : List Char}
    (hs : s.toList = d :: m) (hcd : c ≠ d) : pre w s = false := by
  rw [Bool.eq_false_iff, ne_eq, pre_iff, hs]
  exact abbr_head h hcd

theorem linkKey_cap {w : Name} (h : CapWord w) : linkKey w = some .capacity := by
  rcases h with h | h | h
  · simp [linkKey, h]
  · simp [linkKey, abbr_pre h]
  · simp [linkKey, abbr_pre h]

theorem linkKey_delay {w : Name} (h : DelayWord w) : linkKey w = some .delay := by
  have h0 : w ≠ "bw".toList := by
    rintro rfl
    exact absurd h.2 (by decide)
  have h1 : pre w "bandwidth" = false := abbr_not_pre (c := 'd') (l := "elay".toList) h (d := 'b') (m := "andwidth".toList) rfl (by decide)
  have h2 : pre w "capacity" = false := abbr_not_pre (c := 'd') (l := "elay".toList) h (d := 'c') (m := "apacity".toList) rfl (by decide)
  simp only [linkKey, h1, h2, abbr_pre (s := "delay") h]
  simp at h0 ⊢
  exact h0

theorem linkKey_none {v : Name} (h : v ≠ [] ∧ ¬ CapWord v ∧ ¬ DelayWord v) : linkKey v = none := by
  obtain ⟨h0, h1, h2⟩ := h
  simp only [CapWord, not_or] at h1
  have e1 : pre v "bandwidth" = false := by
    rw [Bool.eq_false_iff, ne_eq, pre_iff]; exact fun h => h1.2.1 ⟨h0, h⟩
  have e2 : pre v "capacity" = false := by
    rw [Bool.eq_false_iff, ne_eq, pre_iff]; exact fun h => h1.2.2 ⟨h0, h⟩
  have e3 : pre v "delay" = false := by
    rw [Bool.eq_false_iff, ne_eq, pre_iff]; exact fun h => h2 ⟨h0, h⟩
  have e0 : ¬ v = "bw".toList := h1.1
  simp only [linkKey, e1, e2, e3]
  simp at e0 ⊢
  exact e0

theorem gatherLoop_value (vs : List Name) (h : ∀ v ∈ vs, v ≠ [] ∧ ¬ CapWord v ∧ ¬ DelayWord v) (s : LinkSettings)
    (cur : Option LinkKey) : ∀ (val rest : List Name),
    gatherLoop s cur val (vs ++ rest) = gatherLoop s cur (val ++ vs) rest := by
  induction vs with
  | nil => simp
  | cons v vs ih =>
    intro val rest
    simp only [List.cons_append, gatherLoop, linkKey_none (h v List.mem_cons_self)]
    rw [ih fun x hx => h x (List.mem_cons_of_mem _ hx)]
    simp

theorem gatherLink_values (kc kd : Name) (vs us : List Name) (hc : CapWord kc) (hd : DelayWord kd) (hv : Value vs) (hu : Value us) :
    gatherLink (kc :: vs ++ kd :: us) = .ok (unwords vs, unwords us) ∧
    gatherLink (kd :: us ++ kc :: vs) = .ok (unwords vs, unwords us) := by
  have e1 := gatherLoop_value vs hv.2
  have e2 := gatherLoop_value us hu.2
  constructor
  · simp only [gatherLink, List.cons_append, gatherLoop, linkKey_cap hc, e1, linkKey_delay hd]
    have := e2 (((⟨none, none⟩ : LinkSettings).put none []).put (some .capacity) ([] ++ vs)) (some .delay) [] []
    rw [List.append_nil] at this
    rw [this]
    simp [gatherLoop, LinkSettings.put]
  · simp only [gatherLink, List.cons_append, gatherLoop, linkKey_cap hc, e2, linkKey_delay hd]
    have := e1 (((⟨none, none⟩ : LinkSettings).put none []).put (some .delay) ([] ++ us)) (some .capacity) [] []
    rw [List.append_nil] at this
    rw [this]
    simp [gatherLoop, LinkSettings.put]

theorem doAdd_kind (c : Cli α) (k : NodeKind) (w : Name) (h : Abbr w (kindWord k)) (ws : List Name) :
    c.doAdd (w :: ws) = c.addNode k ws.head? := by
  cases k with
  | switch => simp [Cli.doAdd, abbr_pre (s := "switch") h]
  | router =>
    have h1 : pre w "switch" = false := abbr_not_pre (c := 'r') (l := "outer".toList) h (d := 's') (m := "witch".toList) rfl (by decide)
    simp [Cli.doAdd, abbr_pre (s := "router") h, h1]
  | host =>
    have h1 : pre w "switch" = false := abbr_not_pre (c := 'h') (l := "ost".toList) h (d := 's') (m := "witch".toList) rfl (by decide)
    have h2 : pre w "router" = false := abbr_not_pre (c := 'h') (l := "ost".toList) h (d := 'r') (m := "outer".toList) rfl (by decide)
    simp [Cli.doAdd, abbr_pre (s := "host") h, h1, h2]

theorem doAdd_link (c : Cli α) (w : Name) (h : Abbr w "link".toList) (ws : List Name) : c.doAdd (w :: ws) = c.addLinkCmd ws := by
  have h1 : pre w "switch" = false := abbr_not_pre (c := 'l') (l := "ink".toList) h (d := 's') (m := "witch".toList) rfl (by decide)
  have h2 : pre w "router" = false := abbr_not_pre (c := 'l') (l := "ink".toList) h (d := 'r') (m := "outer".toList) rfl (by decide)
  have h3 : pre w "host" = false := abbr_not_pre (c := 'l') (l := "ink".toList) h (d := 'h') (m := "ost".toList) rfl (by decide)
  simp [Cli.doAdd, abbr_pre h, h1, h2, h3]

theorem value_length {vs : List Name} (h : Value vs) : 1 ≤ vs.length := by
  cases vs with
  | nil => exact absurd rfl h.1
  | cons v vs => simp

theorem addLinkCmd_values (c : Cli α) (a b kc kd : Name) (vs us : List Name) (hc : CapWord kc) (hd : DelayWord kd)
    (hv : Value vs) (hu : Value us) (r : List Name) (hr : r = kc :: vs ++ kd :: us ∨ r = kd :: us ++ kc :: vs) :
    c.addLinkCmd (a :: b :: r) = c.changed (c.topo.step (.addLink a b (.text (unwords vs)) (.text (unwords us)))).1
      (c.topo.step (.addLink a b (.text (unwords vs)) (.text (unwords us)))).2.isSome := by
  have hlen : ¬ r.length < 4 := by
    have := value_length hv
    have := value_length hu
    rcases hr with rfl | rfl <;> simp <;> omega
  have hg : gatherLink r = .ok (unwords vs, unwords us) := by
    have := gatherLink_values kc kd vs us hc hd hv hu
    rcases hr with rfl | rfl
    · exact this.1
    · exact this.2
  simp [Cli.addLinkCmd, hlen, hg, Topo.step]

theorem doRemove_node (c : Cli α) (w n : Name) (h : Abbr w "node".toList ∨ ∃ k, Abbr w (kindWord k)) :
    c.doRemove [w, n] = c.changed (c.topo.step (.removeNode n)).1 (c.topo.step (.removeNode n)).2.isSome := by
  have : (pre w "node" || pre w "switch" || pre w "router" || pre w "host") = true := by
    rcases h with h | ⟨k, h⟩
    · simp [abbr_pre h]
    · cases k
      · simp [abbr_pre (s := "host") h]
      · simp [abbr_pre (s := "switch") h]
      · simp [abbr_pre (s := "router") h]
  simp [Cli.doRemove, this, Cli.removeNodeCmd, Topo.step]

theorem doRemove_link (c : Cli α) (w a b : Name) (h : Abbr w "link".toList ∨ Abbr w "edge".toList) :
    c.doRemove [w, a, b] = c.changed (c.topo.step (.removeLink a b)).1 (c.topo.step (.removeLink a b)).2.isSome := by
  have hn : ∀ (s : String) (d : Char) (m : List Char), s.toList = d :: m → d ≠ 'l' → d ≠ 'e' → pre w s = false := by
    intro s d m hs h1 h2
    rcases h with h | h
    · exact abbr_not_pre (c := 'l') (l := "ink".toList) h hs h1.symm
    · exact abbr_not_pre (c := 'e') (l := "dge".toList) h hs h2.symm
  have hy : (pre w "edge" || pre w "link") = true := by
    rcases h with h | h <;> simp [abbr_pre h]
  simp only [Cli.doRemove, hn "node" 'n' "ode".toList rfl (by decide) (by decide), hn "switch" 's' "witch".toList rfl (by decide) (by decide),
    hn "router" 'r' "outer".toList rfl (by decide) (by decide), hn "host" 'h' "ost".toList rfl (by decide) (by decide), hy]
  simp [Cli.removeLinkCmd, Topo.step]

/-- A command that means an operation has the effect of the operation, followed by a new start. -/
theorem means_command (c : Cli α) (env : CliEnv α) (cmd : CliCmd) (ws : List Name) (op : TopoOp) (h : Means cmd ws op) (arg : Name)
    (ha : splitWords [] arg = ws) (hop : ∀ k n, op = .add k n → (c.topo.step op).2 = none) :
    c.command env cmd arg = c.changed (c.topo.step op).1 (c.topo.step op).2.isSome := by
  cases h with
  | node k w name hw =>
    simp only [Cli.command, ha, doAdd_kind c k w hw]
    have hh : name.toList.head? = name := by cases name <;> rfl
    have hop := hop k name rfl
    rw [hh, Cli.addNode]
    simp only [Topo.step] at hop ⊢
    cases hadd : c.topo.add k name with
    | mk t r =>
      rw [hadd] at hop
      cases r with
      | error e => simp [resErr] at hop
      | ok n => simp [resErr]
  | link w a b kc kd vs us hw hc hd hv hu =>
    simp only [Cli.command, ha, List.cons_append, doAdd_link c w hw]
    exact addLinkCmd_values c a b kc kd vs us hc hd hv hu _ (.inl rfl)
  | link' w a b kc kd vs us hw hc hd hv hu =>
    simp only [Cli.command, ha, List.cons_append, doAdd_link c w hw]
    exact addLinkCmd_values c a b kc kd vs us hc hd hv hu _ (.inr rfl)
  | removeNode w n hw =>
    simp only [Cli.command, ha]
    exact doRemove_node c w n hw
  | removeLink w a b hw =>
    simp only [Cli.command, ha]
    exact doRemove_link c w a b hw

/-- C140: an `add` or `remove` command, with its words in the forms of the help texts, does to the network what the operation it
stands for does, notes that there are unsaved changes, and starts the simulator with the new network, provided the
operation is possible and every link of the new network has capacity and delay. -/
theorem cli_changes_partial (c : Cli α) (hc : Steady c) (env : CliEnv α) (line w : Name) (ws : List Name) (cmd : CliCmd) (op : TopoOp)
    (hl : splitWords [] line = w :: ws) (hw : w <+: cmd.word.toList) (hu : ∀ c' : CliCmd, w <+: c'.word.toList → c' = cmd)
    (hm : Means cmd ws op) (hop : (c.topo.step op).2 = none) (hs : Simulable (c.topo.step op).1) :
    ∃ g, c.onecmd env line = (⟨(c.topo.step op).1, true, g⟩, .done false) ∧ Simulates (c.topo.step op).1 g := by
  obtain ⟨arg, hcall, ha⟩ := cli_abbreviation_partial line w ws cmd hl (by cases hm <;> decide) hw hu
  obtain ⟨g, hg, hsim⟩ := changed_steady hc (topoOk_step hc.topo op) hs false
  refine ⟨g, ?_, hsim⟩
  simp only [Cli.onecmd, hcall]
  rw [means_command c env cmd ws op hm arg ha (fun _ _ _ => hop), hop]
  exact hg

/-- An operation that cannot be done because what it names is not there. -/
def Absent (t : Topo) : TopoOp → Prop
  | .removeNode n => t.hasNode n = false
  | .removeLink a b => t.hasLink a b = false
  | .addLink a b _ _ => t.hasNode a = false ∨ t.hasNode b = false
  | _ => False

/-- C141: if what such a command names is not there, it complains and the network stays as it was (but the simulator is started
anew). -/
theorem cli_refused_partial (c : Cli α) (hc : Steady c) (env : CliEnv α) (line w : Name) (ws : List Name) (cmd : CliCmd) (op : TopoOp)
    (hl : splitWords [] line = w :: ws) (hw : w <+: cmd.word.toList) (hu : ∀ c' : CliCmd, w <+: c'.word.toList → c' = cmd)
    (hm : Means cmd ws op) (hop : Absent c.topo op) (hs : Simulable c.topo) :
    ∃ g, c.onecmd env line = (⟨c.topo, true, g⟩, .done true) ∧ Simulates c.topo g := by
  obtain ⟨arg, hcall, ha⟩ := cli_abbreviation_partial line w ws cmd hl (by cases hm <;> decide) hw hu
  obtain ⟨g, hg, hsim⟩ := changed_steady hc hc.topo hs true
  have hst : c.topo.step op = (c.topo, some .generic) := by
    cases op <;> simp only [Absent] at hop
    · simp only [Topo.step, Topo.addLink]
      rcases hop with h | h <;> simp [h]
    · simp [Topo.step, Topo.removeNode, hop]
    · simp [Topo.step, Topo.removeLink, hop]
  refine ⟨g, ?_, hsim⟩
  simp only [Cli.onecmd, hcall]
  rw [means_command c env cmd ws op hm arg ha (by rintro k n rfl; exact hop.elim), hst]
  exact hg

instance (w s : Name) : Decidable (Abbr w s) := inferInstanceAs (Decidable (_ ∧ _))
instance (w : Name) : Decidable (CapWord w) := inferInstanceAs (Decidable (_ ∨ _))
instance (w : Name) : Decidable (DelayWord w) := inferInstanceAs (Decidable (Abbr _ _))
instance (vs : List Name) : Decidable (Value vs) := inferInstanceAs (Decidable (_ ∧ _))

/-- The simulator with two hosts and a switch, all running. -/
def simCli : Cli Nat :=
  ⟨simTopo, false, (Glue.new simTopo).1.ops
    [.thread (.begin_ "h0".toList), .thread (.begin_ "h1".toList), .thread (.begin_ "s0".toList)]⟩

/-- An outside world without files, where nothing is typed. -/
def noEnv : CliEnv Nat := ⟨fun _ => true, [], none, none, none, 0⟩

theorem simCli_steady : Steady simCli :=
  ⟨topoOk_run (topoOk_init _ _ _) _, by decide +kernel, by decide +kernel⟩

theorem simTopo_links : Simulable simTopo := by decide +kernel

example : ∃ g, simCli.onecmd noEnv " ad li  h0 h1 bw 10 Mb/s del 5 ms".toList =
    (⟨(simTopo.step (.addLink "h0".toList "h1".toList (.text "10 Mb/s".toList) (.text "5 ms".toList))).1, true, g⟩, .done false) :=
  have hm : Means .add ("li".toList :: "h0".toList :: "h1".toList :: "bw".toList :: ["10".toList, "Mb/s".toList] ++ "del".toList :: ["5".toList, "ms".toList])
      (.addLink "h0".toList "h1".toList (.text (unwords ["10".toList, "Mb/s".toList])) (.text (unwords ["5".toList, "ms".toList]))) :=
    .link "li".toList "h0".toList "h1".toList "bw".toList "del".toList ["10".toList, "Mb/s".toList] ["5".toList, "ms".toList]
      (by decide) (by decide) (by decide) (by decide) (by decide)
  have ⟨g, h, _⟩ := cli_changes_partial simCli simCli_steady noEnv " ad li  h0 h1 bw 10 Mb/s del 5 ms".toList "ad".toList _ .add _
    (by decide +kernel) (by decide) (by intro c' h; revert h; cases c' <;> decide) hm (by decide +kernel) (by decide +kernel)
  ⟨g, h⟩

example : ∃ g, simCli.onecmd noEnv "rem link h0 h1".toList = (⟨simTopo, true, g⟩, .done true) :=
  have ⟨g, h, _⟩ := cli_refused_partial simCli simCli_steady noEnv "rem link h0 h1".toList "rem".toList _ .remove
    (.removeLink "h0".toList "h1".toList) (by decide +kernel) (by decide) (by intro c' h; revert h; cases c' <;> decide)
    (.removeLink "link".toList _ _ (by decide)) (by unfold Absent; decide +kernel) simTopo_links
  ⟨g, h⟩

/-- C140 is false for values with a word such as `b`: `10 b` is a capacity, but as the value in a command it is lost. -/
theorem cli_settings_violated :
    ¬ ∀ (vs us : List Name), vs ≠ [] → us ≠ [] → (∀ v ∈ vs ++ us, IsWord v) →
      (∃ n, unhumanizeBandwidth (unwords vs) = .ok (some n)) → (∃ d, unhumanizeDelay (unwords us) = .ok (some d)) →
      gatherLink ("capacity".toList :: vs ++ "delay".toList :: us) = .ok (unwords vs, unwords us) := by
  intro h
  have := h ["10".toList, "b".toList] ["5".toList] (by decide) (by decide) (by unfold IsWord; decide)
    ⟨10, by decide +kernel⟩ ⟨(5, 1), by decide +kernel⟩
  exact absurd this (by decide +kernel)

/-- C140: `set node` never changes anything, whatever is given. -/
theorem cli_set_node_violated (c : Cli α) (w : Name) (ws : List Name) (hw : Abbr w "node".toList) :
    (c.doSet (w :: ws)).1 = c := by
  have := abbr_pre (s := "node") hw
  match ws with
  | [] | [_] | [_, _] | [_, _, _] => rfl
  | _ :: _ :: _ :: _ :: _ => simp [Cli.doSet, this]

/-- C140: `set link` with both values does what the operation does, to the topology, with whatever complaint. -/
theorem cli_set_link_partial (c : Cli α) (w a b kc kd : Name) (vs us : List Name) (hw : Abbr w "link".toList) (hc : CapWord kc)
    (hd : DelayWord kd) (hv : Value vs) (hu : Value us) (ws : List Name)
    (hws : ws = kc :: vs ++ kd :: us ∨ ws = kd :: us ++ kc :: vs) :
    c.doSet (w :: a :: b :: ws) =
      ({ c with topo := (c.topo.step (.setLink a b (.text (unwords vs)) (.text (unwords us)))).1 },
       .done (c.topo.step (.setLink a b (.text (unwords vs)) (.text (unwords us)))).2.isSome) := by
  have h1 : pre w "node" = false := abbr_not_pre (c := 'l') (l := "ink".toList) hw (d := 'n') (m := "ode".toList) rfl (by decide)
  have hg := gatherLink_values kc kd vs us hc hd hv hu
  have hvl := value_length hv
  have hul := value_length hu
  match ws, hws with
  | [], hws => rcases hws with h | h <;> simp at h
  | [_], hws =>
    rcases hws with h | h
    · have := congrArg List.length h; simp at this
    · have := congrArg List.length h; simp at this
  | k :: v :: r, hws =>
    have hg : gatherLink (k :: v :: r) = .ok (unwords vs, unwords us) := by
      rcases hws with h | h
      · rw [h]; exact hg.1
      · rw [h]; exact hg.2
    simp [Cli.doSet, h1, abbr_pre hw, hg, Topo.step]

example : (simCli.doSet (["link", "h0", "s0", "d", "7", "ms", "capacity", "1", "Gb/s"].map String.toList)).2 = .done false := by
  decide +kernel

/-- C140: with only one of the two, which the help text says are optional, nothing is changed. -/
theorem cli_set_link_one_violated (c : Cli α) (w a b k : Name) (vs : List Name) (hk : CapWord k ∨ DelayWord k) (hv : Value vs)
    (hw : Abbr w "link".toList) : c.doSet (w :: a :: b :: k :: vs) = (c, .done true) := by
  have h1 : pre w "node" = false := abbr_not_pre (c := 'l') (l := "ink".toList) hw (d := 'n') (m := "ode".toList) rfl (by decide)
  match vs, hv with
  | [], hv => exact absurd rfl hv.1
  | v :: r, hv =>
    have hg : gatherLink (k :: v :: r) = .error .generic := by
      have e := gatherLoop_value (v :: r) hv.2
      rcases hk with hk | hk
      · have := e ⟨none, none⟩ (some .capacity) [] []
        rw [List.append_nil] at this
        rw [gatherLink, gatherLoop, linkKey_cap hk]
        simp only [LinkSettings.put]
        rw [this]; simp [gatherLoop, LinkSettings.put]
      · have := e ⟨none, none⟩ (some .delay) [] []
        rw [List.append_nil] at this
        rw [gatherLink, gatherLoop, linkKey_delay hk]
        simp only [LinkSettings.put]
        rw [this]; simp [gatherLoop, LinkSettings.put]
    simp [Cli.doSet, h1, abbr_pre hw, hg]

/-- C140: a change of the capacity or delay of a link does not reach the running simulation. -/
theorem cli_set_link_running_violated :
    ¬ ∀ (c : Cli Nat) (ws : List Name), Steady c →
      (∀ u x, c.glue.xnode.get? u = some x → ∀ f p, x.pipes.get? f = some p → Wired c.topo u f p) →
      (c.doSet ws).2 = .done false →
      ∀ u x, (c.doSet ws).1.glue.xnode.get? u = some x → ∀ f p, x.pipes.get? f = some p → Wired (c.doSet ws).1.topo u f p := by
  intro h
  have hg : (Glue.new (α := Nat) simTopo).2 = none := (sim_wiring_partial [] true 1 simTopoOps simTopo_links).1
  have hw := (sim_wiring_partial (α := Nat) [] true 1 simTopoOps simTopo_links).2.2
  have key : ∀ u x, simCli.glue.xnode.get? u = some x → ∃ y, (Glue.new (α := Nat) simTopo).1.xnode.get? u = some y ∧ y.pipes = x.pipes := by
    intro u x hx
    have hmem := Dict.mem_of_get? hx
    have all : ∀ z ∈ simCli.glue.xnode, ((Glue.new (α := Nat) simTopo).1.xnode.get? z.1).map NodeExec.pipes = some z.2.pipes := by
      decide +kernel
    have := all _ hmem
    cases hy : (Glue.new (α := Nat) simTopo).1.xnode.get? u with
    | none => rw [hy] at this; cases this
    | some y => rw [hy] at this; exact ⟨y, rfl, by simpa using this⟩
  have := h simCli (["link", "h0", "s0", "capacity", "7", "delay", "5"].map String.toList) simCli_steady (by
      intro u x hx f p hp
      obtain ⟨y, hy, he⟩ := key u x hx
      exact ((hw u y hy).1 f p).mp (by rw [he]; exact hp)) (by decide +kernel)
  have hnode : (simCli.glue.xnode.get? "h0".toList).isSome := by decide +kernel
  obtain ⟨x, hx⟩ := Option.isSome_iff_exists.mp hnode
  have hp : (simCli.glue.xnode.get? "h0".toList).bind (fun x => x.pipes.get? "eth0".toList) =
      some ⟨"s0".toList, .delay (some (5, 1000)), .cap (some 10000000), "eth0".toList⟩ := by decide +kernel
  rw [hx] at hp
  obtain ⟨e, he, hrest⟩ := this "h0".toList x hx "eth0".toList _ hp
  revert e he hrest
  decide +kernel

/-! ## C141: what is refused -/

/-- C141: a command with too few words, or whose first word is not among those of the help text, changes nothing. -/
theorem cli_malformed (c : Cli α) (w : Name) (ws : List Name)
    (hw : ∀ s ∈ ["switch", "router", "host", "link", "node", "edge"], ¬ w <+: s.toList) :
    c.doAdd [] = (c, .done true) ∧ c.doAdd (w :: ws) = (c, .done true) ∧ c.doRemove [] = (c, .done true) ∧
    c.doRemove (w :: ws) = (c, .done true) ∧ c.doSet (w :: ws) = (c, .done true) ∧ c.doSet (ws.take 4) = (c, .done true) := by
  have hp : ∀ s ∈ ["switch", "router", "host", "link", "node", "edge"], pre w s = false := fun s hs => by
    rw [Bool.eq_false_iff, ne_eq, pre_iff]; exact hw s hs
  simp only [List.mem_cons, List.not_mem_nil, or_false, forall_eq_or_imp, forall_eq] at hp
  obtain ⟨h1, h2, h3, h4, h5, h6⟩ := hp
  refine ⟨rfl, ?_, rfl, ?_, ?_, ?_⟩
  · simp [Cli.doAdd, h1, h2, h3, h4]
  · cases ws with
    | nil => rfl
    | cons v ws => simp [Cli.doRemove, h1, h2, h3, h4, h5, h6]
  · match ws with
    | [] | [_] | [_, _] | [_, _, _] => rfl
    | _ :: _ :: _ :: _ :: _ => simp [Cli.doSet, h4, h5]
  · match ws with
    | [] | [_] | [_, _] | [_, _, _] => rfl
    | _ :: _ :: _ :: _ :: _ => simp [Cli.doSet]

/-- C141 is false: adding a node under a name that is taken ends the simulator with an exception. -/
theorem cli_add_node_violated (c : Cli α) (k : NodeKind) (w n : Name) (ws : List Name) (hw : Abbr w (kindWord k))
    (hn : c.topo.hasNode n = true) : c.doAdd (w :: n :: ws) = (c, .raised .generic) := by
  rw [doAdd_kind c k w hw]
  simp [Cli.addNode, Topo.add, Topo.addNode, hn]

/-- C141: a link that is refused because of its delay is in the network all the same, and the simulator ends with an
exception. -/
theorem cli_add_link_violated :
    ¬ ∀ (c : Cli Nat) (env : CliEnv Nat) (l : Name), Steady c → Simulable c.topo →
      ((c.onecmd env l).2 ≠ .done false → (c.onecmd env l).1.topo.edges.length = c.topo.edges.length) ∧
      ∃ b, (c.onecmd env l).2 = .done b ∨ (c.onecmd env l).2 = .quit := by
  intro h
  obtain ⟨-, b, hb⟩ := h simCli noEnv "add link h0 h1 capacity 10 delay 1.2.3".toList simCli_steady simTopo_links
  have : (simCli.onecmd noEnv "add link h0 h1 capacity 10 delay 1.2.3".toList).2 = .raised .keyError := by decide +kernel
  rw [this] at hb
  rcases hb with hb | hb <;> cases hb

/-- C141: … also if it only complains. -/
theorem cli_add_link_kept_violated :
    (simCli.onecmd noEnv "add link h0 h1 capacity 10 delay x".toList).2 = .done true ∧
    (simCli.onecmd noEnv "add link h0 h1 capacity 10 delay x".toList).1.topo.edges.length = simCli.topo.edges.length + 1 := by
  decide +kernel

/-- C141: `set link` with a delay that is refused has already changed the capacity. -/
theorem cli_set_link_violated :
    (simCli.onecmd noEnv "set link h0 s0 capacity 7 delay x".toList).2 = .done true ∧
    simCli.topo.attr? "h0".toList "s0".toList capacityKey = some (.cap (some 10000000)) ∧
    (simCli.onecmd noEnv "set link h0 s0 capacity 7 delay x".toList).1.topo.attr? "h0".toList "s0".toList capacityKey =
      some (.cap (some 7)) := by
  decide +kernel

/-! ## C142: loading, running code, leaving -/

theorem stopNodes_stopped (n : Name) (x : NodeExec α) (xs : Dict Name (NodeExec α)) (hx : x.phase ≠ .running) :
    (stopNodes ((n, x) :: xs)).2 = some .attributeError := by
  simp only [stopNodes, NodeExec.shutdown]

/-- `stop` followed by `rebuildGlue`, as in `exec` and `load`. -/
theorem restart_violated (c : Cli α) (hc : ∀ x ∈ c.glue.xnode, x.2.phase = .running ∧ x.2.blocked = false)
    (hn : c.glue.xnode ≠ []) (e : Option Name) : (c.restart e).2 = .raised .attributeError := by
  simp only [Cli.restart, Glue.stop, stop_running _ hc]
  cases hx : c.glue.xnode with
  | nil => exact absurd hx hn
  | cons x xs =>
    obtain ⟨n, x⟩ := x
    have := stopNodes_stopped n { x with phase := .stopped } (xs.map fun x => (x.1, { x.2 with phase := .stopped })) (by simp)
    simp only [Glue.rebuild, Glue.stop, List.map_cons, this]

/-- C142 is false for `exec`: as soon as the network has a node, it ends the simulator with an exception. -/
theorem cli_exec_violated (c : Cli α) (hc : Steady c) (hn : c.glue.xnode ≠ []) (m : Name) :
    (c.doExec [m]).2 = .raised .attributeError := restart_violated c hc.nodes hn _

/-- C142: nor does `exec` ever use the module it is given. -/
theorem cli_exec_module_violated (c : Cli α) (m m' : Name) : c.doExec [m] = c.doExec [m'] := by
  simp only [Cli.doExec, Cli.restart]
  split
  · rfl
  · simp only [Glue.rebuild]

/-- C142 is false for `load`: as soon as the network has a node, loading another one ends the simulator with an exception. -/
theorem cli_load_violated (c : Cli α) (hc : Steady c) (hn : c.glue.xnode ≠ []) (env : CliEnv α) (f : Name) (t : Topo)
    (hl : env.loaded = some (.ok t)) (hu : c.unsaved = true → getYn env.answers = some true) :
    (c.doLoad env [f]).2 = .raised .attributeError := by
  have : (c.loadFile env.loaded).2 = .raised .attributeError := by
    rw [hl, Cli.loadFile]
    exact restart_violated { c with topo := t, unsaved := false } hc.nodes hn none
  simp only [Cli.doLoad]
  split
  · rename_i h
    rw [hu h]; exact this
  · exact this

/-- C142: as long as there is no node, `load` replaces the network by the one in the file, notes that nothing is unsaved, and
starts the simulator with it. -/
theorem cli_load_partial (c : Cli α) (hc : RegMon.half ∉ c.glue.registered) (hn : c.glue.xnode = []) (env : CliEnv α) (f : Name) (t : Topo)
    (ht : TopoOk t) (hs : Simulable t) (hl : env.loaded = some (.ok t)) (hu : c.unsaved = true → getYn env.answers = some true) :
    ∃ g, c.doLoad env [f] = (⟨t, false, g⟩, .done false) ∧ Simulates t g := by
  obtain ⟨g, hg, hsim⟩ := build_simulates ht hs c.glue hc
  refine ⟨g, ?_, hsim⟩
  have hx : ({ c.glue with xnode := [] } : Glue α) = c.glue := by rw [← hn]
  have : c.loadFile env.loaded = (⟨t, false, g⟩, .done false) := by
    rw [hl]
    simp only [Cli.loadFile, Cli.restart, Glue.stop, Glue.rebuild, hn, stopNodes, hx, hg]
  simp only [Cli.doLoad]
  split
  · rename_i h
    rw [hu h]; exact this
  · exact this

example : (Cli.doLoad (⟨(Topo.init [] true 1).run [], false, (Glue.new ((Topo.init [] true 1).run [])).1⟩ : Cli Nat)
    { noEnv with loaded := some (.ok simTopo) } ["f".toList]).2 = .done false := by decide +kernel

/-- C142: `load` of a file that does not exist changes nothing. -/
theorem cli_load_missing (c : Cli α) (env : CliEnv α) (f : Name) (hl : env.loaded = none) :
    (c.doLoad env [f]).1 = c ∧ (getYn env.answers = some true ∨ c.unsaved = false → (c.doLoad env [f]).2 = .done true) := by
  simp only [Cli.doLoad, hl, Cli.loadFile]
  cases hu : c.unsaved <;> simp
  cases hy : getYn env.answers with
  | none => simp
  | some b => cases b <;> simp

/-- C142: leaving stops all nodes, if all of them run and none waits. -/
theorem cli_leave_partial (c : Cli α) (hc : Steady c) (env : CliEnv α) (hu : c.unsaved = true → getYn env.answers = some true) :
    (c.doExit env).2 = .quit ∧ ∀ x ∈ (c.doExit env).1.glue.xnode, x.2.phase = .stopped := by
  have hl : c.leave = ({ c with glue := { c.glue with xnode := c.glue.xnode.map fun x => (x.1, { x.2 with phase := .stopped }) } }, .quit) := by
    simp only [Cli.leave, Glue.stop, stop_running _ hc.nodes]
  have : (c.doExit env) = c.leave := by
    simp only [Cli.doExit]
    split
    · rename_i h; rw [hu h]
    · rfl
  rw [this, hl]
  refine ⟨rfl, ?_⟩
  intro x hx
  simp only [List.mem_map] at hx
  obtain ⟨y, -, rfl⟩ := hx
  rfl

/-- C142 is false for `exit` right after a start: a node whose thread has not begun cannot be stopped. -/
theorem cli_leave_violated :
    ¬ ∀ (t : Topo) (env : CliEnv Nat), (Cli.start (α := Nat) t).2 = none → ((Cli.start t).1.doExit env).2 = .quit := by
  intro h
  exact absurd (h simTopo noEnv (by decide +kernel)) (by decide +kernel)

/-! ## C144: unsaved changes -/

/-- Whether an answer is taken for yes, for no, or the question is repeated. -/
def Yes (a : Name) : Prop := Abbr (a.map Char.toLower) "yes".toList
def No (a : Name) : Prop := a.map Char.toLower <+: "no".toList

theorem getYn_spec (as : List Name) (b : Bool) :
    getYn as = some b ↔ ∃ l a r, as = l ++ a :: r ∧ (∀ x ∈ l, ¬ Yes x ∧ ¬ No x) ∧ (if b then Yes a else No a) := by
  induction as with
  | nil => simp [getYn]
  | cons a as ih =>
    have hno : pre (a.map Char.toLower) "no" = true ↔ No a := pre_iff _ _
    have hyes : ¬ No a → (pre (a.map Char.toLower) "yes" = true ↔ Yes a) := by
      intro hn
      rw [pre_iff]
      constructor
      · intro h
        refine ⟨?_, h⟩
        intro he
        exact hn (by rw [No, he]; exact List.nil_prefix)
      · exact fun h => h.2
    have hdis : Yes a → No a → False := by
      intro hy hn
      exact abbr_head (c := 'y') (l := "es".toList) hy (d := 'n') (m := ['o']) (by decide) hn
    simp only [getYn]
    by_cases h1 : No a
    · rw [if_pos (hno.mpr h1)]
      constructor
      · intro h
        cases h
        exact ⟨[], a, as, rfl, by simp, h1⟩
      · rintro ⟨l, x, r, he, hl, hx⟩
        cases l with
        | nil =>
          cases he
          cases b
          · rfl
          · exact (hdis (by simpa using hx) h1).elim
        | cons y l =>
          cases he
          exact absurd h1 (hl _ List.mem_cons_self).2
    · rw [if_neg (by rw [hno]; exact h1)]
      by_cases h2 : Yes a
      · rw [if_pos ((hyes h1).mpr h2)]
        constructor
        · intro h
          cases h
          exact ⟨[], a, as, rfl, by simp, by simpa using h2⟩
        · rintro ⟨l, x, r, he, hl, hx⟩
          cases l with
          | nil =>
            cases he
            cases b
            · exact absurd (by simpa using hx) h1
            · rfl
          | cons y l =>
            cases he
            exact absurd h2 (hl _ List.mem_cons_self).1
      · rw [if_neg (by rw [hyes h1]; exact h2), ih]
        constructor
        · rintro ⟨l, x, r, rfl, hl, hx⟩
          refine ⟨a :: l, x, r, rfl, ?_, hx⟩
          intro y hy
          rcases List.mem_cons.mp hy with rfl | hy
          · exact ⟨h2, h1⟩
          · exact hl y hy
        · rintro ⟨l, x, r, he, hl, hx⟩
          cases l with
          | nil =>
            cases he
            cases b
            · exact absurd (by simpa using hx) h1
            · exact absurd (by simpa using hx) h2
          | cons y l =>
            cases he
            exact ⟨l, x, r, rfl, fun z hz => hl z (List.mem_cons_of_mem _ hz), hx⟩

/-- C144: with unsaved changes, `exit` leaves and `load` replaces the network only if the first answer that is a beginning of
`yes` or `no` (in any case) is a nonempty beginning of `yes`. -/
theorem cli_asks (c : Cli α) (env : CliEnv α) (hu : c.unsaved = true) :
    ((c.doExit env).2 = .quit ∨ (∃ f, (c.doLoad env [f]).1.topo ≠ c.topo) →
      ∃ l a r, env.answers = l ++ a :: r ∧ (∀ x ∈ l, ¬ Yes x ∧ ¬ No x) ∧ Yes a) ∧
    ((∃ l a r, env.answers = l ++ a :: r ∧ (∀ x ∈ l, ¬ Yes x ∧ ¬ No x) ∧ No a) →
      c.doExit env = (c, .done false) ∧ ∀ f, c.doLoad env [f] = (c, .done false)) := by
  constructor
  · intro h
    have : getYn env.answers = some true := by
      cases hy : getYn env.answers with
      | none => simp [Cli.doExit, Cli.doLoad, hu, hy] at h
      | some b =>
        cases b
        · simp [Cli.doExit, Cli.doLoad, hu, hy] at h
        · rfl
    simpa using (getYn_spec env.answers true).mp this
  · rintro ⟨l, a, r, h1, h2, h3⟩
    have : getYn env.answers = some false := (getYn_spec env.answers false).mpr ⟨l, a, r, h1, h2, by simpa using h3⟩
    simp [Cli.doExit, Cli.doLoad, hu, this]

example : getYn (["what", "YE", "no"].map String.toList) = some true := by decide +kernel

/-- The network that `load` puts in place, if it does; for the question see `getYn_spec`. -/
def loads (c : Cli α) (env : CliEnv α) (ws : List Name) : Option Topo :=
  if ws.length = 1 ∧ (c.unsaved = false ∨ getYn env.answers = some true) then
    match env.loaded with
    | some (.ok t) => some t
    | _ => none
  else none

/-- The network in the file that was last written or read, where `s` was that before the event. -/
def fileAfter (s : Topo) (c : Cli α) : SimEv α → Topo
  | .thread _ => s
  | .line env l =>
    match cliCall l with
    | .run .save arg => if (splitWords [] arg).length = 1 ∧ env.saveErr = none then c.topo else s
    | .run .load arg => (loads c env (splitWords [] arg)).getD s
    | _ => s

/-- The same after several events. -/
def lastFile (s : Topo) (c : Cli α) : List (SimEv α) → Topo
  | [] => s
  | e :: es => lastFile (fileAfter s c e) (c.event e).1 es

theorem changed_unsaved (c : Cli α) (t : Topo) (b : Bool) : (c.changed t b).1.unsaved = true := by
  simp only [Cli.changed]
  split <;> rfl

/-- What the commands other than `set`, `save` and `load` do to the network and the note of unsaved changes. -/
theorem command_keeps (c : Cli α) (env : CliEnv α) (cmd : CliCmd) (arg : Name) (h1 : cmd ≠ .set) (h2 : cmd ≠ .save) (h3 : cmd ≠ .load)
    (b : Bool) (hd : (c.command env cmd arg).2 = .done b) :
    (c.command env cmd arg).1.unsaved = true ∨
    ((c.command env cmd arg).1.topo = c.topo ∧ (c.command env cmd arg).1.unsaved = c.unsaved) := by
  have hleave : c.leave.1.topo = c.topo ∧ c.leave.1.unsaved = c.unsaved := by
    simp only [Cli.leave]; split <;> exact ⟨rfl, rfl⟩
  have hexit : (c.doExit env).1.topo = c.topo ∧ (c.doExit env).1.unsaved = c.unsaved := by
    simp only [Cli.doExit]
    split
    · split
      · exact ⟨rfl, rfl⟩
      · exact ⟨rfl, rfl⟩
      · exact hleave
    · exact hleave
  cases cmd with
  | set => exact absurd rfl h1
  | save => exact absurd rfl h2
  | load => exact absurd rfl h3
  | «show» =>
    refine .inr ?_
    simp only [Cli.command, Cli.doShow]
    split <;> exact ⟨rfl, rfl⟩
  | help => exact .inr ⟨rfl, rfl⟩
  | exit => exact .inr hexit
  | eof => exact .inr hexit
  | sendeth =>
    refine .inr ?_
    simp only [Cli.command, Cli.doSendeth]
    split
    · split <;> exact ⟨rfl, rfl⟩
    · exact ⟨rfl, rfl⟩
  | monitor =>
    refine .inr ?_
    simp only [Cli.command, Cli.doMonitor]
    split
    · exact ⟨rfl, rfl⟩
    · split <;> exact ⟨rfl, rfl⟩
  | unmonitor =>
    refine .inr ?_
    simp only [Cli.command, Cli.doUnmonitor]
    split <;> exact ⟨rfl, rfl⟩
  | exec =>
    refine .inr ?_
    simp only [Cli.command, Cli.doExec]
    split
    · simp only [Cli.restart]
      split
      · exact ⟨rfl, rfl⟩
      · split <;> exact ⟨rfl, rfl⟩
    · exact ⟨rfl, rfl⟩
  | replay =>
    refine .inr ?_
    simp only [Cli.command, Cli.doReplay]
    split
    · split
      · exact ⟨rfl, rfl⟩
      · split
        · simp only [Cli.replayAll]
          split <;> exact ⟨rfl, rfl⟩
        · exact ⟨rfl, rfl⟩
    · exact ⟨rfl, rfl⟩
  | add =>
    simp only [Cli.command] at hd ⊢
    have hnode : ∀ k name, (c.addNode k name).2 = .done b → (c.addNode k name).1.unsaved = true := by
      intro k name
      simp only [Cli.addNode]
      split
      · intro h; cases h
      · intro _; exact changed_unsaved _ _ _
    have hlink : ∀ ws, (c.addLinkCmd ws).1.unsaved = true ∨ (c.addLinkCmd ws).1 = c := by
      intro ws
      simp only [Cli.addLinkCmd]
      split
      · split
        · exact .inr rfl
        · split <;> exact .inl (changed_unsaved _ _ _)
      · exact .inr rfl
    cases hws : splitWords [] arg with
    | nil => exact .inr ⟨rfl, rfl⟩
    | cons w ws =>
      rw [hws] at hd
      simp only [Cli.doAdd] at hd ⊢
      split at hd
      · rename_i h; rw [if_pos h]; exact .inl (hnode _ _ hd)
      · rename_i h; rw [if_neg h]
        split at hd
        · rename_i h; rw [if_pos h]; exact .inl (hnode _ _ hd)
        · rename_i h; rw [if_neg h]
          split at hd
          · rename_i h; rw [if_pos h]; exact .inl (hnode _ _ hd)
          · rename_i h; rw [if_neg h]
            split
            · rcases hlink ws with h | h
              · exact .inl h
              · exact .inr (by rw [h]; exact ⟨rfl, rfl⟩)
            · exact .inr ⟨rfl, rfl⟩
  | remove =>
    simp only [Cli.command, Cli.doRemove]
    split
    · split
      · simp only [Cli.removeNodeCmd]
        split
        · exact .inl (changed_unsaved _ _ _)
        · exact .inr ⟨rfl, rfl⟩
      · split
        · simp only [Cli.removeLinkCmd]
          split
          · exact .inl (changed_unsaved _ _ _)
          · exact .inr ⟨rfl, rfl⟩
        · exact .inr ⟨rfl, rfl⟩
    · exact .inr ⟨rfl, rfl⟩

theorem restart_keeps (c : Cli α) (e : Option Name) : (c.restart e).1.topo = c.topo ∧ (c.restart e).1.unsaved = c.unsaved := by
  simp only [Cli.restart]
  split
  · exact ⟨rfl, rfl⟩
  · split <;> exact ⟨rfl, rfl⟩

theorem event_unsaved (s : Topo) (c : Cli α) (h : c.unsaved = false → c.topo = s) (e : SimEv α)
    (hset : ∀ env l arg, e = .line env l → cliCall l ≠ .run .set arg) (b : Bool) (hd : (c.event e).2 = .done b)
    (hu : (c.event e).1.unsaved = false) : (c.event e).1.topo = fileAfter s c e := by
  cases e with
  | thread ev => exact h hu
  | line env l =>
    have hset := fun arg => hset env l arg rfl
    simp only [Cli.event, Cli.line] at hd hu ⊢
    split at hd
    · cases hd
    rename_i hw
    rw [if_neg hw] at hu ⊢
    have hone : c.line env l = c.onecmd env l ∧ (c.onecmd env l).2 = .done b := by
      split at hd
      · split at hd <;> cases hd
      · rename_i h2
        exact ⟨by simp [Cli.line, hw, h2], hd⟩
    have hnw : ¬ (c.onecmd env l).1.debugWaits = true := by
      intro hh
      rw [if_pos hh] at hd
      split at hd <;> cases hd
    rw [if_neg hnw] at hu ⊢
    have hd := hone.2
    simp only [fileAfter]
    simp only [Cli.onecmd] at hd hu ⊢
    cases hcall : cliCall l with
    | empty => rw [hcall] at hu; exact h hu
    | unknown => rw [hcall] at hu; exact h hu
    | raised e => rw [hcall] at hd; cases hd
    | run cmd arg =>
      rw [hcall] at hd hu
      simp only at hd hu ⊢
      have hns : cmd ≠ .set := by rintro rfl; exact hset arg hcall
      by_cases h1 : cmd = .save
      · subst h1
        simp only [Cli.command, Cli.doSave] at hd hu ⊢
        split
        · rename_i hws
          rw [hws] at hd hu
          simp only at hd hu
          split
          · rename_i he; rw [he] at hd; cases hd
          · rename_i he; rw [if_pos ⟨by rw [hws]; rfl, he⟩]
        · rename_i hws
          rw [if_neg]
          · exact h (by
              split at hu
              · rename_i x hx; exact absurd hx (hws x)
              · exact hu)
          · rintro ⟨hlen, -⟩
            obtain ⟨x, hx⟩ := List.length_eq_one_iff.mp hlen
            exact hws x hx
      · by_cases h2 : cmd = .load
        · subst h2
          simp only [Cli.command, Cli.doLoad] at hd hu ⊢
          split
          · rename_i hws
            rw [hws] at hd hu
            simp only [hws, loads, List.length_singleton, true_and] at hd hu ⊢
            have hfile : ∀ (hd : (c.loadFile env.loaded).2 = .done b), (c.loadFile env.loaded).1.topo =
                (match env.loaded with | some (.ok t) => some t | _ => none).getD c.topo := by
              intro hd
              cases hl : env.loaded with
              | none => simp [Cli.loadFile]
              | some r =>
                cases r with
                | error e => rw [hl] at hd; cases hd
                | ok t => simp [Cli.loadFile, (restart_keeps _ none).1]
            by_cases hun : c.unsaved = true
            · rw [if_pos hun] at hd hu ⊢
              cases hy : getYn env.answers with
              | none => rw [hy] at hd; cases hd
              | some y =>
                rw [hy] at hd hu
                cases y with
                | false => simp only at hu; rw [hun] at hu; cases hu
                | true =>
                  simp only at hd hu ⊢
                  rw [if_pos (.inr trivial)]
                  rw [hfile hd]
                  cases hl : env.loaded with
                  | none => rw [hl] at hu; simp only [Cli.loadFile] at hu; rw [hun] at hu; cases hu
                  | some r =>
                    cases r with
                    | error e => rw [hl] at hd; cases hd
                    | ok t => rfl
            · rw [if_neg hun] at hd hu ⊢
              have hun' : c.unsaved = false := by simpa using hun
              rw [if_pos (.inl hun'), hfile hd, h hun']
          · rename_i hws
            have : loads c env (splitWords [] arg) = none := by
              simp only [loads]
              rw [if_neg]
              rintro ⟨hlen, -⟩
              obtain ⟨x, hx⟩ := List.length_eq_one_iff.mp hlen
              exact hws x hx
            rw [this]
            exact h (by
              split at hu
              · rename_i x hx; exact absurd hx (hws x)
              · exact hu)
        · have hs : fileAfter s c (.line env l) = s := by
            simp only [fileAfter, hcall]
            cases cmd <;> simp_all
          have hs' : (match CliCall.run cmd arg with
              | .run .save arg => if (splitWords [] arg).length = 1 ∧ env.saveErr = none then c.topo else s
              | .run .load arg => (loads c env (splitWords [] arg)).getD s
              | _ => s) = s := by
            cases cmd <;> simp_all
          rw [hs']
          rcases command_keeps c env cmd arg hns h1 h2 b hd with hk | hk
          · rw [hk] at hu; cases hu
          · rw [hk.1]; exact h (hk.2 ▸ hu)

/-- C144: after any history of lines without `set` commands and of steps of the threads, while the simulator reads lines: if it
does not know of unsaved changes, its network is that of the file last written or read (the one it was started with if
none was). -/
theorem cli_unsaved_partial (t : Topo) (es : List (SimEv α))
    (hset : ∀ e ∈ es, ∀ env l arg, e = .line env l → cliCall l ≠ .run .set arg) (b : Bool)
    (hd : ((Cli.start t).1.runEvents es).2 = .done b) (hu : ((Cli.start t).1.runEvents es).1.unsaved = false) :
    ((Cli.start t).1.runEvents es).1.topo = lastFile t (Cli.start t).1 es := by
  have main : ∀ (es : List (SimEv α)) (c : Cli α) (s : Topo), (c.unsaved = false → c.topo = s) →
      (∀ e ∈ es, ∀ env l arg, e = .line env l → cliCall l ≠ .run .set arg) → (c.runEvents es).2 = .done b →
      (c.runEvents es).1.unsaved = false → (c.runEvents es).1.topo = lastFile s c es := by
    intro es
    induction es with
    | nil => intro c s h _ _ hu; exact h hu
    | cons e es ih =>
      intro c s h hset hd hu
      cases he : c.event e with
      | mk c' r =>
        cases r with
        | done b' =>
          have hr : c.runEvents (e :: es) = c'.runEvents es := by simp [Cli.runEvents, he]
          rw [hr] at hd hu ⊢
          have := event_unsaved s c h e (hset e List.mem_cons_self) b' (by rw [he])
          rw [he] at this
          have hl : lastFile s c (e :: es) = lastFile (fileAfter s c e) c' es := by simp [lastFile, he]
          rw [hl]
          exact ih c' _ this (fun x hx => hset x (List.mem_cons_of_mem _ hx)) hd hu
        | raised e' => simp [Cli.runEvents, he] at hd
        | quit => simp [Cli.runEvents, he] at hd
  exact main es _ t (fun _ => rfl) hset hd hu

/-- Without it: `set link` is forgotten, and `exit` leaves at once. -/
theorem cli_unsaved_violated :
    ¬ ∀ (t : Topo) (es : List (SimEv Nat)) (b : Bool), ((Cli.start t).1.runEvents es).2 = .done b →
      ((Cli.start t).1.runEvents es).1.unsaved = false →
      ((Cli.start t).1.runEvents es).1.topo.edges.map Edge.attrs = (lastFile t (Cli.start t).1 es).edges.map Edge.attrs := by
  intro h
  have := h simTopo [.line noEnv "set link h0 s0 capacity 7 delay 1".toList] false (by decide +kernel) (by decide +kernel)
  exact absurd this (by decide +kernel)

example : ((Cli.start simTopo).1.runEvents ([.thread (.begin_ "h0".toList), .thread (.begin_ "h1".toList),
      .thread (.begin_ "s0".toList), .line noEnv "add host x".toList, .line noEnv "save f".toList] : List (SimEv Nat))).2 = .done false := by
  decide +kernel

/-! ## C143: monitors -/

/-- The monitor that `addMonitor` attaches for packet capture: the node calls it for the interface, it is listed, and nothing
else changes. -/
theorem monitor_attached (g : Glue α) (co : Name → Bool) (n i base : Name) (x : NodeExec α) (hx : g.xnode.get? n = some x)
    (hp : x.phase ≠ .stopped) (hf : co (pcapName n i base) = true) :
    (g.addMonitor co n i (.pcap base)).2 = none ∧
    (g.addMonitor co n i (.pcap base)).1.mons.get? (n, i) = some .pcapMonitor ∧
    (∃ y, (g.addMonitor co n i (.pcap base)).1.xnode.get? n = some y ∧ y.mons.get? i = some (.pcap (pcapName n i base)) ∧
      (∀ j, j ≠ i → y.mons.get? j = x.mons.get? j) ∧ y.calls = x.calls ∧ y.queue = x.queue ∧ y.sent = x.sent ∧ y.pipes = x.pipes) ∧
    (∀ m, m ≠ n → (g.addMonitor co n i (.pcap base)).1.xnode.get? m = g.xnode.get? m) ∧
    (∀ q, q ≠ (n, i) → (g.addMonitor co n i (.pcap base)).1.mons.get? q = g.mons.get? q) := by
  have e : g.addMonitor co n i (.pcap base) =
      ({ xnode := g.xnode.set n { x with mons := x.mons.set i (.pcap (pcapName n i base)) }, mons := g.mons.set (n, i) .pcapMonitor,
         registered := g.registered ++ [.made (.pcap (pcapName n i base))] }, none) := by
    simp [Glue.addMonitor, MonHow.cls, hx, Glue.attachNew, MonHow.make, hf, Glue.registerMon, Glue.onNode, NodeExec.attach, hp]
  rw [e]
  refine ⟨rfl, ?_, ⟨{ x with mons := x.mons.set i (.pcap (pcapName n i base)) }, ?_, ?_, ?_, rfl, rfl, rfl, rfl⟩, ?_, ?_⟩
  · simp [Dict.get?_set]
  · simp [Dict.get?_set]
  · simp [Dict.get?_set]
  · intro j hj
    simp [Dict.get?_set, hj.symm]
  · intro m hm
    simp [Dict.get?_set, hm.symm]
  · intro q hq
    simp [Dict.get?_set, hq.symm]

/-- What a node does while its monitor for `i` stays: new calls for `i` are calls of that monitor. -/
structure Watch (i : Name) (x y : NodeExec α) : Prop where
  kept : y.mons.get? i = x.mons.get? i
  calls : ∃ new, y.calls = x.calls ++ new ∧ ∀ s ∈ new, s.2.1 = i → x.mons.get? i = some s.1

theorem watch_same {i : Name} {x y : NodeExec α} (h1 : y.mons.get? i = x.mons.get? i) (h2 : y.calls = x.calls) : Watch i x y :=
  ⟨h1, [], by simp [h2], by simp⟩

theorem watch_trans {i : Name} {x y z : NodeExec α} (h : Watch i x y) (h' : Watch i y z) : Watch i x z := by
  obtain ⟨h1, a, ha, ha'⟩ := h
  obtain ⟨h2, b, hb, hb'⟩ := h'
  refine ⟨h2.trans h1, a ++ b, by rw [hb, ha, List.append_assoc], ?_⟩
  intro s hs he
  rcases List.mem_append.mp hs with hs' | hs'
  · exact ha' s hs' he
  · rw [← h1]; exact hb' s hs' he

theorem watch_onNode {g : Glue α} {n i : Name} (m : Name) (f : NodeExec α → NodeExec α × Option PyErr)
    (hf : m = n → ∀ x, Watch i x (f x).1) {x : NodeExec α} (hx : g.xnode.get? n = some x) :
    ∃ y, (g.onNode m f).1.xnode.get? n = some y ∧ Watch i x y := by
  by_cases hm : m = n
  · subst hm
    refine ⟨(f x).1, ?_, hf rfl x⟩
    simp [Glue.onNode, hx, Dict.get?_set]
  · refine ⟨x, ?_, watch_same rfl rfl⟩
    simp only [Glue.onNode]
    split
    · exact hx
    · simp [Dict.get?_set, hm, hx]

theorem watch_attach {n i : Name} (m j : Name) (h : (m, j) ≠ (n, i)) (o : Mon) (hm : m = n) (x : NodeExec α) :
    Watch i x (x.attach j o).1 := by
  have hj : i ≠ j := by rintro rfl; exact h (by rw [hm])
  simp only [NodeExec.attach]
  split
  · exact watch_same rfl rfl
  · exact watch_same (by simp [Dict.get?_set, hj.symm]) rfl

theorem watch_idle (i : Name) (x : NodeExec α) : Watch i x x.idleRecv.1 := by
  simp only [NodeExec.idleRecv]
  split
  · split
    · exact watch_same rfl rfl
    · rename_i dev p q hq
      split
      · exact watch_same rfl rfl
      · rename_i m hm
        refine ⟨rfl, [(m, dev, p)], rfl, ?_⟩
        intro s hs he
        rw [List.mem_singleton] at hs
        subst hs
        simp only at he
        rw [← he]; exact hm
  · exact watch_same rfl rfl

/-- Operations that change the monitor of interface `i` of node `n`. -/
def Touches (n i : Name) : GlueOp α → Prop
  | .addMonitor _ m j _ => (m, j) = (n, i)
  | .removeMonitor m j => (m, j) = (n, i)
  | _ => False

theorem watch_op {g : Glue α} {n i : Name} (o : GlueOp α) (ho : ¬ Touches n i o) {x : NodeExec α} (hx : g.xnode.get? n = some x) :
    ∃ y, (g.op o).1.xnode.get? n = some y ∧ Watch i x y := by
  cases o with
  | emit m dev p =>
    refine watch_onNode m _ (fun _ x => ?_) hx
    rcases send_cases x dev p with ⟨_, h⟩ | ⟨_, _, h⟩
    · rw [h]; exact watch_same rfl rfl
    · rw [h]; exact watch_same rfl rfl
  | host m p => exact watch_onNode m _ (fun _ x => watch_same rfl rfl) hx
  | addMonitor co m j how =>
    have hmj : (m, j) ≠ (n, i) := ho
    simp only [Glue.op, Glue.addMonitor]
    split
    · exact ⟨x, hx, watch_same rfl rfl⟩
    · split
      · exact ⟨x, hx, watch_same rfl rfl⟩
      · simp only [Glue.attachNew]
        split
        · refine ⟨x, ?_, watch_same rfl rfl⟩
          simp only [Glue.registerMon]
          split <;> exact hx
        · rename_i r o _
          refine watch_onNode m _ (fun hm y => watch_attach m j hmj o hm y) ?_
          simp only [Glue.registerMon]
          split <;> exact hx
  | removeMonitor m j =>
    have hmj : (m, j) ≠ (n, i) := ho
    simp only [Glue.op, Glue.removeMonitor]
    split
    · exact ⟨x, hx, watch_same rfl rfl⟩
    · exact watch_onNode m _ (fun hm y => watch_attach m j hmj .null hm y) hx
  | thread e =>
    cases e with
    | begin_ m =>
      refine watch_onNode m _ (fun _ x => ?_) hx
      simp only [NodeExec.begin_]
      split <;> exact watch_same rfl rfl
    | recv m => exact watch_onNode m _ (fun _ x => watch_idle i x) hx
    | deliver m k =>
      simp only [Glue.op, Glue.thread, Glue.deliver]
      split
      · exact ⟨x, hx, watch_same rfl rfl⟩
      · rename_i z hz
        split
        · rename_i pipe p _ _
          have h1 : ∃ y, (g.xnode.set m { z with sent := z.sent.eraseIdx k }).get? n = some y ∧ Watch i x y := by
            by_cases hm : n = m
            · subst hm
              rw [hz] at hx; cases hx
              exact ⟨{ x with sent := x.sent.eraseIdx k }, by simp [Dict.get?_set], watch_same rfl rfl⟩
            · exact ⟨x, by simp [Dict.get?_set, Ne.symm hm, hx], watch_same rfl rfl⟩
          obtain ⟨y, hy, hw⟩ := h1
          obtain ⟨z', hz', hw'⟩ := watch_onNode (g := { g with xnode := g.xnode.set m { z with sent := z.sent.eraseIdx k } }) (n := n) (i := i)
            pipe.dest (fun y => ({ y with queue := y.queue ++ [(pipe.remote, p)] }, none)) (fun _ x => watch_same rfl rfl) hy
          exact ⟨z', hz', watch_trans hw hw'⟩
        · exact ⟨x, hx, watch_same rfl rfl⟩

/-- C143: whatever happens while the monitor `m` of an interface stays attached, in any order: it is called for every packet the
node takes from its queue for this interface, and no other monitor is. -/
theorem monitor_sees (g : Glue α) (n i : Name) (m : Mon) (x : NodeExec α) (hx : g.xnode.get? n = some x) (hm : x.mons.get? i = some m)
    (os : List (GlueOp α)) (ho : ∀ o ∈ os, ¬ Touches n i o) :
    ∃ y new, (g.ops os).xnode.get? n = some y ∧ y.mons.get? i = some m ∧ y.calls = x.calls ++ new ∧
      ∀ s ∈ new, s.2.1 = i → s.1 = m := by
  have main : ∀ (os : List (GlueOp α)) (g : Glue α) (x : NodeExec α), g.xnode.get? n = some x → (∀ o ∈ os, ¬ Touches n i o) →
      ∃ y, (g.ops os).xnode.get? n = some y ∧ Watch i x y := by
    intro os
    induction os with
    | nil => intro g x hx _; exact ⟨x, hx, watch_same rfl rfl⟩
    | cons o os ih =>
      intro g x hx ho
      obtain ⟨y, hy, hw⟩ := watch_op o (ho o List.mem_cons_self) hx
      obtain ⟨z, hz, hw'⟩ := ih (g.op o).1 y hy fun p hp => ho p (List.mem_cons_of_mem _ hp)
      exact ⟨z, hz, watch_trans hw hw'⟩
  obtain ⟨y, hy, hk, new, hn, hall⟩ := main os g x hx ho
  refine ⟨y, new, hy, hk.trans hm, hn, ?_⟩
  intro s hs he
  have := hall s hs he
  rw [hm] at this
  exact (Option.some.inj this).symm

/-- A capture at `eth0` of `h1` gets the packet that arrives there, and not the one handed to the node. -/
example : let os : List (GlueOp Nat) := [.addMonitor (fun _ => true) "h1".toList "eth0".toList (.pcap "f".toList),
      .emit "s0".toList "eth1".toList 7, .host "h1".toList 5, .thread (.deliver "s0".toList 0), .thread (.recv "h1".toList),
      .thread (.recv "h1".toList)]
    ((simCli.glue.ops os).xnode.get? "h1".toList).map NodeExec.calls =
      some [(.null, hostDev, 5), (.pcap "h1_eth0_f.pcap".toList, "eth0".toList, 7)] := by decide +kernel

theorem underscore_unique {a b c d : List Char} (hb : '_' ∉ b) (hd : '_' ∉ d) (h : a ++ '_' :: b = c ++ '_' :: d) : a = c ∧ b = d := by
  have key : ∀ (l x : List Char), '_' ∉ x → (l ++ '_' :: x).reverse.takeWhile (· ≠ '_') = x.reverse := by
    intro l x hx
    have : (l ++ '_' :: x).reverse = x.reverse ++ '_' :: l.reverse := by simp
    rw [this]
    have hall : ∀ y ∈ x.reverse, (decide (y ≠ '_')) = true := by
      intro y hy
      simp only [decide_eq_true_eq]
      rintro rfl
      exact hx (List.mem_reverse.mp hy)
    rw [List.takeWhile_append_of_pos hall]
    simp
  have h1 := key a b hb
  have h2 := key c d hd
  rw [h] at h1
  have hbd : b = d := by
    have := h1.symm.trans h2
    simpa using congrArg List.reverse this
  subst hbd
  exact ⟨List.append_cancel_right h, rfl⟩

/-- C143: with one name for the files that does not end in `.pcap`, different interfaces have different capture files. -/
theorem monitor_files_partial (n i n' i' base : Name) (hb : ¬ ".pcap".toList <:+ base) (hi : '_' ∉ i) (hi' : '_' ∉ i')
    (h : pcapName n i base = pcapName n' i' base) : n = n' ∧ i = i' := by
  have he : endsPcap base = false := by
    rw [Bool.eq_false_iff, endsPcap, ne_eq, List.isSuffixOf_iff_suffix]; exact hb
  simp only [pcapName, he, Bool.false_eq_true, if_false] at h
  split at h
  · exact underscore_unique hi hi' (List.append_cancel_right h)
  · have := List.append_cancel_right h
    simp only [List.append_assoc, List.cons_append] at this
    exact underscore_unique hi hi' (by
      have h2 : n ++ '_' :: i ++ ('_' :: base) = n' ++ '_' :: i' ++ ('_' :: base) := by simpa using this
      exact List.append_cancel_right h2)

/-- C143 is false for a name that ends in `.pcap`: all interfaces have the same file. -/
theorem monitor_files_violated (n i n' i' base : Name) (hb : ".pcap".toList <:+ base) : pcapName n i base = pcapName n' i' base := by
  have he : endsPcap base = true := List.isSuffixOf_iff_suffix.mpr hb
  simp [pcapName, he]

/-- C143: the help text says that the name of the file begins with the prefix given; it does not. -/
theorem monitor_prefix_violated : ¬ ∀ n i base : Name, base <+: pcapName n i base := by
  intro h
  exact absurd (h "h0".toList "eth0".toList "f".toList) (by decide)

/-- C143: a `code` monitor is never attached, whatever the module is, but it is listed, and the next change of the network ends
the simulator with an exception. -/
theorem monitor_code_violated (c : Cli α) (hc : Steady c) (co : Name → Bool) (n i m : Name) (x : NodeExec α) (hx : c.glue.xnode.get? n = some x)
    (t : Topo) (ht : TopoOk t) (hs : Simulable t) (b : Bool) :
    (c.glue.addMonitor co n i (.code m)).2 = some .typeError ∧
    (c.glue.addMonitor co n i (.code m)).1.xnode = c.glue.xnode ∧
    (c.glue.addMonitor co n i (.code m)).1.mons.get? (n, i) = some .codeMonitor ∧
    (Cli.changed { c with glue := (c.glue.addMonitor co n i (.code m)).1 } t b).2 = .raised .attributeError := by
  have e : c.glue.addMonitor co n i (.code m) =
      (⟨c.glue.xnode, c.glue.mons.set (n, i) .codeMonitor, c.glue.registered ++ [.half]⟩, some .typeError) := by
    simp [Glue.addMonitor, MonHow.cls, hx, Glue.attachNew, MonHow.make, Glue.registerMon]
  rw [e]
  refine ⟨rfl, rfl, by simp [Dict.get?_set], ?_⟩
  obtain ⟨d, hd, -⟩ := build_inv (α := α) ht hs
  simp [Cli.changed, Glue.rebuild, Glue.stop, stop_running _ hc.nodes, Glue.build, hd, resetMonitors]

/-- C143: with a `debug` monitor, as soon as a packet comes the next line, whatever it is, ends the simulator with an
exception. -/
theorem monitor_debug_violated (c : Cli α) (n i : Name) (x : NodeExec α) (p : α) (q : List (Name × α)) (hx : c.glue.xnode.get? n = some x)
    (hp : x.phase = .running) (hb : x.blocked = false) (hm : x.mons.get? i = some .debug) (hq : x.queue = (i, p) :: q)
    (env : CliEnv α) (l : Name) :
    (Cli.line (c.event (.thread (.recv n))).1 env l).2 = .raised .nameError := by
  have hw : (c.event (.thread (.recv n))).1.debugWaits = true := by
    simp only [Cli.event, Cli.debugWaits, Glue.thread, Glue.onNode, hx, List.any_eq_true]
    refine ⟨(n, (x.idleRecv).1), ?_, ?_⟩
    · exact Dict.mem_of_get? (by simp [Dict.get?_set])
    · simp [NodeExec.idleRecv, hp, hb, hq, hm]
  simp [Cli.line, hw]

example : let c := (simCli.doMonitor noEnv (["h0", "eth0", "debug"].map String.toList)).1
    (c.glue.xnode.get? "h0".toList).bind (fun x => x.mons.get? "eth0".toList) = some .debug := by decide +kernel

/-- C143: a change of the network, even one that is refused, removes all monitors. -/
theorem monitor_lost_violated :
    let c := (simCli.onecmd noEnv "monitor h0 eth0 dump f".toList).1
    (c.glue.xnode.get? "h0".toList).bind (fun x => x.mons.get? "eth0".toList) = some (.pcap "h0_eth0_f.pcap".toList) ∧
    ((c.onecmd noEnv "remove node x".toList).1.glue.xnode.get? "h0".toList).bind (fun x => x.mons.get? "eth0".toList) = some .null ∧
    (c.onecmd noEnv "remove node x".toList).1.glue.mons = [] := by decide +kernel

/-- C143: `unmonitor` ends the calls, but the capture file stays open. -/
theorem unmonitor_spec (g : Glue α) (n i : Name) (x : NodeExec α) (hx : g.xnode.get? n = some x) (hp : x.phase ≠ .stopped) :
    (g.removeMonitor n i).2 = none ∧
    (∃ y, (g.removeMonitor n i).1.xnode.get? n = some y ∧ y.mons.get? i = some .null ∧ ∀ j, j ≠ i → y.mons.get? j = x.mons.get? j) ∧
    (∀ f, RegMon.made (.pcap f) ∈ (g.removeMonitor n i).1.registered ↔ RegMon.made (.pcap f) ∈ g.registered) := by
  have e : g.removeMonitor n i = (⟨g.xnode.set n { x with mons := x.mons.set i .null }, g.mons.erase (n, i),
      g.registered ++ [.made .null]⟩, none) := by
    simp [Glue.removeMonitor, hx, Glue.registerMon, Glue.onNode, NodeExec.attach, hp]
  rw [e]
  refine ⟨rfl, ⟨{ x with mons := x.mons.set i .null }, by simp [Dict.get?_set], by simp [Dict.get?_set], ?_⟩, by simp⟩
  intro j hj
  simp [Dict.get?_set, hj.symm]

/-- C143: the places of a monitor: `any` and `all`; a node; an interface of a node. -/
theorem monitor_where_partial (t : Topo) (w : Name) (nd : TNode) (hn : t.nodes.get? w = some nd) (hw : ¬ w <+: "any".toList ∧ ¬ w <+: "all".toList)
    (f : Name) (ws : List Name) :
    ("eth".toList <+: f → f ∈ nd.ifs.keys → monitorWhere t (w :: f :: ws) = some ([(w, f)], ws)) ∧
    ("eth".toList <+: f → f ∉ nd.ifs.keys → monitorWhere t (w :: f :: ws) = none) ∧
    (¬ "eth".toList <+: f → monitorWhere t (w :: f :: ws) = some (nd.ifs.keys.map fun f => (w, f), f :: ws)) := by
  have h1 : pre w "any" = false := by rw [Bool.eq_false_iff, ne_eq, pre_iff]; exact hw.1
  have h2 : pre w "all" = false := by rw [Bool.eq_false_iff, ne_eq, pre_iff]; exact hw.2
  have h3 : t.hasNode w = true := by
    simp only [Topo.hasNode, decide_eq_true_eq, Dict.mem_keys]; exact ⟨nd, hn⟩
  have e : monitorWhere t (w :: f :: ws) = monitorNode t w (f :: ws) := by
    simp [monitorWhere, h1, h2, h3]
  rw [e]
  refine ⟨?_, ?_, ?_⟩
  · intro hf hm
    simp only [monitorNode, hn, if_pos (List.isPrefixOf_iff_prefix.mpr hf), if_pos hm]
  · intro hf hm
    simp only [monitorNode, hn, if_pos (List.isPrefixOf_iff_prefix.mpr hf), if_neg hm]
  · intro hf
    have : ¬ "eth".toList.isPrefixOf f = true := by rw [List.isPrefixOf_iff_prefix]; exact hf
    simp only [monitorNode, hn, if_neg this, nodeLocs]

/-- C143: `any` and `all` are all interfaces of all nodes. -/
theorem monitor_any (t : Topo) (w : Name) (hw : Abbr w "any".toList ∨ Abbr w "all".toList) (ws : List Name) :
    ∃ ps, monitorWhere t (w :: ws) = some (ps, ws) ∧ ∀ n f, (n, f) ∈ ps ↔ ∃ nd, (n, nd) ∈ t.nodes ∧ f ∈ nd.ifs.keys := by
  have : (pre w "any" || pre w "all") = true := by
    rcases hw with h | h <;> simp [abbr_pre h]
  refine ⟨t.nodes.flatMap fun x => nodeLocs x.1 x.2, by simp only [monitorWhere, this, if_true], ?_⟩
  intro n f
  simp only [List.mem_flatMap, nodeLocs, List.mem_map, Prod.mk.injEq]
  constructor
  · rintro ⟨x, hx, f', hf, rfl, rfl⟩
    exact ⟨x.2, hx, hf⟩
  · rintro ⟨nd, hx, hf⟩
    exact ⟨(n, nd), hx, f, hf, rfl, rfl⟩

/-- C143: a node called `a` cannot be monitored alone, and a node that does not exist gives no complaint. -/
theorem monitor_where_violated :
    (∃ t : Topo, TopoOk t ∧ t.hasNode "a".toList = true ∧
      monitorWhere t ["a".toList, "dump".toList] = some ([("a".toList, "eth0".toList), ("h0".toList, "eth0".toList)], ["dump".toList])) ∧
    simCli.onecmd noEnv "monitor node x dump".toList = (simCli, .done false) := by
  refine ⟨⟨(Topo.init [] true 1).run [.add .host (some "a".toList), .add .host none,
    .addLink "a".toList "h0".toList (.int 1000) (.float 1 2)], topoOk_run (topoOk_init _ _ _) _, by decide +kernel, by decide +kernel⟩, ?_⟩
  have h1 : cliCall "monitor node x dump".toList = .run .monitor "node x dump".toList := by decide +kernel
  have h2 : splitWords [] "node x dump".toList = ["node".toList, "x".toList, "dump".toList] := by decide +kernel
  have h3 : monitorWhere simCli.topo ["node".toList, "x".toList, "dump".toList] = some ([], ["dump".toList]) := by decide +kernel
  simp only [Cli.onecmd, h1, Cli.command, h2, Cli.doMonitor, h3]
  rfl

/-! ## C145: sending from the command line -/

theorem replayLoop_all (ps : List α) : ∀ (g : Glue α) (n i : Name) (x : NodeExec α) (pipe : EgressPipe), g.xnode.get? n = some x →
    x.phase = .running → x.pipes.get? i = some pipe → pipe.capacity.divisor = none → pipe.delay.addend = none →
    ∃ g', replayLoop g n i (ps.map .ok) = (g', none) ∧
      g'.xnode.get? n = some { x with sent := x.sent ++ ps.map fun p => (pipe, p) } ∧
      ∀ m, m ≠ n → g'.xnode.get? m = g.xnode.get? m := by
  induction ps with
  | nil => intro g n i x pipe hx _ _ _ _; exact ⟨g, rfl, by simpa using hx, fun _ _ => rfl⟩
  | cons p ps ih =>
    intro g n i x pipe hx hr hp hc hd
    have hs : x.send i p = ({ x with sent := x.sent ++ [(pipe, p)] }, none) := by
      simp [NodeExec.send, hr, hp, hc, hd]
    have he : g.emit n i p = ({ g with xnode := g.xnode.set n { x with sent := x.sent ++ [(pipe, p)] } }, none) := by
      simp [Glue.emit, Glue.onNode, hx, hs]
    obtain ⟨g', h1, h2, h3⟩ := ih { g with xnode := g.xnode.set n { x with sent := x.sent ++ [(pipe, p)] } } n i
      { x with sent := x.sent ++ [(pipe, p)] } pipe (by simp [Dict.get?_set]) hr hp hc hd
    refine ⟨g', ?_, ?_, ?_⟩
    · simp only [List.map_cons, replayLoop, he]; exact h1
    · rw [h2]; simp
    · intro m hm
      rw [h3 m hm]
      simp [Dict.get?_set, hm.symm]

/-- C145: `replay` sends all packets of the file, in order, on the interface, if it leads somewhere. -/
theorem cli_replay_partial (c : Cli α) (env : CliEnv α) (file n i : Name) (ps : List α) (hf : env.capture = some (ps.map .ok))
    (hi : (c.topo.iface? n i).isSome = true) (x : NodeExec α) (pipe : EgressPipe) (hx : c.glue.xnode.get? n = some x)
    (hr : x.phase = .running) (hp : x.pipes.get? i = some pipe) (hc : pipe.capacity.divisor = none) (hd : pipe.delay.addend = none) :
    ∃ g, c.doReplay env [file, n, i] = ({ c with glue := g }, .done false) ∧
      g.xnode.get? n = some { x with sent := x.sent ++ ps.map fun p => (pipe, p) } ∧
      ∀ m, m ≠ n → g.xnode.get? m = c.glue.xnode.get? m := by
  obtain ⟨g, h1, h2, h3⟩ := replayLoop_all ps c.glue n i x pipe hx hr hp hc hd
  refine ⟨g, ?_, h2, h3⟩
  simp [Cli.doReplay, hf, hi, Cli.replayAll, h1]

example : let c := (simCli.doReplay { noEnv with capture := some [.ok 7, .ok 8] } (["f", "h0", "eth0"].map String.toList))
    (c.2, (c.1.glue.xnode.get? "h0".toList).map fun x => x.sent.map Prod.snd) = (.done false, some [7, 8]) := by decide +kernel

/-- C145: without the file, or with an interface the node does not have, nothing is sent. -/
theorem cli_replay_refused (c : Cli α) (env : CliEnv α) (file n i : Name) (h : env.capture = none ∨ c.topo.iface? n i = none) :
    c.doReplay env [file, n, i] = (c, .done true) := by
  rcases h with h | h
  · simp [Cli.doReplay, h]
  · simp only [Cli.doReplay, h]
    cases env.capture <;> simp

/-- C145 is false for an interface that leads nowhere: the simulator ends with an exception. -/
theorem cli_replay_violated :
    ¬ ∀ (c : Cli Nat) (env : CliEnv Nat) (file n i : Name) (ps : List Nat), Steady c → Simulable c.topo → env.capture = some (ps.map .ok) →
      (c.topo.iface? n i).isSome = true → (c.doReplay env [file, n, i]).2 = .done false := by
  intro h
  let t : Topo := (Topo.init [] true 1).run [.add .host none, .add .host none, .addLink "h0".toList "h1".toList (.int 1000) (.float 1 2),
      .removeLink "h0".toList "h1".toList]
  let c : Cli Nat := ⟨t, false, (Glue.new t).1.ops [.thread (.begin_ "h0".toList), .thread (.begin_ "h1".toList)]⟩
  have := h c { noEnv with capture := some [.ok 7] } "f".toList "h0".toList "eth0".toList [7]
    ⟨topoOk_run (topoOk_init _ _ _) _, by decide +kernel, by decide +kernel⟩ (by decide +kernel) rfl (by decide +kernel)
  exact absurd this (by decide +kernel)

/-- C145: `sendeth` hands one packet to the node that is named, and complains if there is none. -/
theorem cli_sendeth (c : Cli α) (env : CliEnv α) (arg : Name) (hk : c.glue.xnode.keys = c.topo.nodes.keys) :
    (strip arg ∉ c.topo.nodes.keys → c.doSendeth env arg = (c, .done true)) ∧
    (strip arg ∈ c.topo.nodes.keys → ∃ x g, c.glue.xnode.get? (strip arg) = some x ∧
      c.doSendeth env arg = ({ c with glue := g }, .done false) ∧
      g.xnode.get? (strip arg) = some { x with queue := x.queue ++ [(hostDev, env.frame)] } ∧
      ∀ m, m ≠ strip arg → g.xnode.get? m = c.glue.xnode.get? m) := by
  constructor
  · intro h
    have : c.topo.hasNode (strip arg) = false := by simpa [Topo.hasNode] using h
    simp [Cli.doSendeth, this]
  · intro h
    have hh : c.topo.hasNode (strip arg) = true := by simpa [Topo.hasNode] using h
    rw [← hk, Dict.mem_keys] at h
    obtain ⟨x, hx⟩ := h
    refine ⟨x, { c.glue with xnode := c.glue.xnode.set (strip arg) (x.sendHost env.frame) }, hx, ?_, ?_, ?_⟩
    · simp [Cli.doSendeth, hh, Glue.sendHost, Glue.onNode, hx]
    · simp [Dict.get?_set, NodeExec.sendHost]
    · intro m hm
      simp [Dict.get?_set, hm.symm]

end SY.Props
