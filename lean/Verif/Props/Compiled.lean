import Verif.Compiled
import Verif.Props.Scenario

/-! # Properties of compiled scenario files

C106 (the text of compiled files) and C207 (a compilation that is interrupted). -/

namespace SY.Props

open SY

theorem b64Val_char (n : Nat) (h : n < 64) : b64Val (b64Char n) = some n ∧ b64Char n ≠ '=' ∧ (b64Char n).toNat < 128 ∧
    isSpace (b64Char n) = false := by
  have key : ∀ n : Fin 64, b64Val (b64Char n) = some n.val ∧ b64Char n ≠ '=' ∧ (b64Char n).toNat < 128 ∧
      isSpace (b64Char n) = false := by decide +kernel
  exact key ⟨n, h⟩

/-- One character of the alphabet is read. -/
theorem b64Loop_char (n : Nat) (h : n < 64) (quad left pads : Nat) (out : Bytes) (cs : List Char) :
    b64Loop quad left pads out (b64Char n :: cs) =
      b64Loop ((quad + 1) % 4) (b64Left quad n) 0 (out ++ b64Out quad left n) cs := by
  obtain ⟨h1, h2, _⟩ := b64Val_char n h
  simp only [b64Loop, if_neg h2, h1]

theorem b64Loop_nil (quad left pads : Nat) (out : Bytes) :
    b64Loop quad left pads out [] = if quad = 0 then .ok out else .error .valueError := rfl

theorem b64Loop_pad (quad left pads : Nat) (out : Bytes) (cs : List Char) (h : 2 ≤ quad) :
    b64Loop quad left pads out ('=' :: cs) = if 4 ≤ quad + (pads + 1) then .ok out else b64Loop quad left (pads + 1) out cs := by
  simp only [b64Loop, if_true, if_pos h]

/-- Three bytes are read. -/
theorem b64Loop_quad (a b c : UInt8) (left pads : Nat) (out : Bytes) (cs : List Char) :
    b64Loop 0 left pads out (b64Char (a.toNat / 4) :: b64Char (a.toNat % 4 * 16 + b.toNat / 16) ::
      b64Char (b.toNat % 16 * 4 + c.toNat / 64) :: b64Char (c.toNat % 64) :: cs) = b64Loop 0 0 0 (out ++ [a, b, c]) cs := by
  have ha := a.toNat_lt
  have hb := b.toNat_lt
  have hc := c.toNat_lt
  rw [b64Loop_char _ (by omega), b64Loop_char _ (by omega), b64Loop_char _ (by omega), b64Loop_char _ (by omega)]
  simp only [b64Left, b64Out, Nat.zero_add, Nat.reduceMod, Nat.reduceAdd, List.append_nil, List.append_assoc, List.cons_append,
    List.nil_append]
  rw [show a.toNat / 4 * 4 + (a.toNat % 4 * 16 + b.toNat / 16) / 16 = a.toNat by omega,
    show (a.toNat % 4 * 16 + b.toNat / 16) % 16 * 16 + (b.toNat % 16 * 4 + c.toNat / 64) / 4 = b.toNat by omega,
    show (b.toNat % 16 * 4 + c.toNat / 64) % 4 * 64 + c.toNat % 64 = c.toNat by omega]
  simp

/-- A text that is cut after any number of characters: whole groups of four give their bytes, others are refused. -/
theorem b64_cut (b : Bytes) : ∀ (k left pads : Nat) (out : Bytes), k ≤ (b64Encode b).length →
    b64Loop 0 left pads out ((b64Encode b).take k) =
      if k % 4 = 0 then .ok (out ++ b.take (k / 4 * 3)) else .error .valueError := by
  induction b using b64Encode.induct with
  | case1 =>
    intro k left pads out hk
    obtain rfl : k = 0 := by simpa [b64Encode] using hk
    simp [b64Encode, b64Loop]
  | case2 a =>
    intro k left pads out hk
    have ha := a.toNat_lt
    simp only [b64Encode, List.length_cons, List.length_nil] at hk ⊢
    have hk' : k = 0 ∨ k = 1 ∨ k = 2 ∨ k = 3 ∨ k = 4 := by omega
    rcases hk' with rfl | rfl | rfl | rfl | rfl <;>
    simp [b64Loop_char _ (show a.toNat / 4 < 64 by omega), b64Loop_char _ (show a.toNat % 4 * 16 < 64 by omega), b64Loop_nil,
      b64Loop_pad, b64Left, b64Out]
    exact UInt8.toNat_inj.1 (by simp; omega)
  | case3 a b =>
    intro k left pads out hk
    have ha := a.toNat_lt
    have hb := b.toNat_lt
    simp only [b64Encode, List.length_cons, List.length_nil] at hk ⊢
    have e : a.toNat / 4 * 4 + (a.toNat % 4 * 16 + b.toNat / 16) / 16 = a.toNat := by omega
    have hk' : k = 0 ∨ k = 1 ∨ k = 2 ∨ k = 3 ∨ k = 4 := by omega
    rcases hk' with rfl | rfl | rfl | rfl | rfl <;>
    simp [b64Loop_char _ (show a.toNat / 4 < 64 by omega), b64Loop_char _ (show a.toNat % 4 * 16 + b.toNat / 16 < 64 by omega),
      b64Loop_char _ (show b.toNat % 16 * 4 < 64 by omega), b64Loop_nil, b64Loop_pad, b64Left, b64Out, e]
    exact UInt8.toNat_inj.1 (by simp; omega)
  | case4 a b c r ih =>
    intro k left pads out hk
    have ha := a.toNat_lt
    have hb := b.toNat_lt
    have hc := c.toNat_lt
    simp only [b64Encode, List.length_cons] at hk ⊢
    have hk' : k = 0 ∨ k = 1 ∨ k = 2 ∨ k = 3 ∨ ∃ j, k = j + 4 := by
      rcases Nat.lt_or_ge k 4 with h | h
      · omega
      · exact .inr (.inr (.inr (.inr ⟨k - 4, by omega⟩)))
    rcases hk' with rfl | rfl | rfl | rfl | ⟨j, rfl⟩
    · simp [b64Loop_nil]
    · simp [b64Loop_char _ (show a.toNat / 4 < 64 by omega), b64Loop_nil]
    · simp [b64Loop_char _ (show a.toNat / 4 < 64 by omega),
        b64Loop_char _ (show a.toNat % 4 * 16 + b.toNat / 16 < 64 by omega), b64Loop_nil]
    · simp [b64Loop_char _ (show a.toNat / 4 < 64 by omega),
        b64Loop_char _ (show a.toNat % 4 * 16 + b.toNat / 16 < 64 by omega),
        b64Loop_char _ (show b.toNat % 16 * 4 + c.toNat / 64 < 64 by omega), b64Loop_nil]
    · simp only [List.take_succ_cons]
      rw [b64Loop_quad, ih j 0 0 (out ++ [a, b, c]) (by omega), Nat.add_mod_right]
      have : (j + 4) / 4 * 3 = j / 4 * 3 + 3 := by omega
      rw [this]
      simp only [List.append_assoc, List.cons_append, List.nil_append, List.take_succ_cons]

/-- Every character of the text is ASCII and no blank. -/
theorem b64_chars (b : Bytes) : ∀ c ∈ b64Encode b, c.toNat < 128 ∧ isSpace c = false := by
  have key (n : Nat) (h : n < 64) := (b64Val_char n h).2.2
  induction b using b64Encode.induct with
  | case1 => intro c h; cases h
  | case2 a =>
    have ha := a.toNat_lt
    simp only [b64Encode, List.forall_mem_cons]
    exact ⟨key _ (by omega), key _ (by omega), by decide, by decide, by simp⟩
  | case3 a b =>
    have ha := a.toNat_lt
    have hb := b.toNat_lt
    simp only [b64Encode, List.forall_mem_cons]
    exact ⟨key _ (by omega), key _ (by omega), key _ (by omega), by decide, by simp⟩
  | case4 a b c r ih =>
    have ha := a.toNat_lt
    have hb := b.toNat_lt
    have hc := c.toNat_lt
    simp only [b64Encode, List.forall_mem_cons]
    exact ⟨key _ (by omega), key _ (by omega), key _ (by omega), key _ (by omega), ih⟩

/-- The length of the text. -/
theorem b64_length (b : Bytes) : (b64Encode b).length = (b.length + 2) / 3 * 4 := by
  induction b using b64Encode.induct with
  | case1 => rfl
  | case2 => simp [b64Encode]
  | case3 => simp [b64Encode]
  | case4 a b c r ih => simp only [b64Encode, List.length_cons, ih]; omega

theorem strip_nospace {s : List Char} (h : ∀ c ∈ s, isSpace c = false) : strip s = s := by
  have hd : ∀ l : List Char, (∀ c ∈ l, isSpace c = false) → l.dropWhile isSpace = l := by
    intro l hl
    cases l with
    | nil => rfl
    | cons a r => simp [List.dropWhile, hl a (by simp)]
  unfold strip
  rw [hd s h, hd s.reverse (fun c hc => h c (List.mem_reverse.1 hc)), List.reverse_reverse]

/-- **C106**, base64: what a text of which the first characters were written gives when read. -/
theorem b64_cut_text (b : Bytes) (k : Nat) (hk : k ≤ (b64Encode b).length) :
    b64Decode (strip ((b64Encode b).take k)) =
      if k % 4 = 0 then .ok (b.take (k / 4 * 3)) else .error .valueError := by
  have hc : ∀ c ∈ (b64Encode b).take k, c.toNat < 128 ∧ isSpace c = false := fun c h => b64_chars b c (List.mem_of_mem_take h)
  rw [strip_nospace fun c h => (hc c h).2]
  unfold b64Decode
  rw [if_pos (by simpa using fun c h => (hc c h).1), b64_cut b k 0 0 [] hk]
  rfl

/-- **C106**, base64: what is written can be read. -/
theorem b64_roundtrip (b : Bytes) : b64Decode (strip (b64Encode b)) = .ok b := by
  have := b64_cut_text b (b64Encode b).length (Nat.le_refl _)
  rw [List.take_length, b64_length, if_pos (by omega), List.take_of_length_le (by omega)] at this
  exact this

/-- Characters that mean something to base64. -/
def b64Means (c : Char) : Bool := c = '=' || (b64Val c).isSome

theorem b64Loop_filter (cs : List Char) : ∀ (quad left pads : Nat) (out : Bytes),
    b64Loop quad left pads out cs = b64Loop quad left pads out (cs.filter b64Means) := by
  induction cs with
  | nil => intros; rfl
  | cons c cs ih =>
    intro quad left pads out
    by_cases h : b64Means c = true
    · rw [List.filter_cons_of_pos h]
      simp only [b64Loop, ih]
    · rw [List.filter_cons_of_neg h]
      simp only [b64Means, Bool.or_eq_true, decide_eq_true_eq, Option.isSome_iff_ne_none, ne_eq, not_or, Decidable.not_not] at h
      simp only [b64Loop, if_neg h.1, h.2, ih]

theorem space_means_nothing (c : Char) (h : isSpace c = true) : b64Means c = false := by
  have key : ∀ d ∈ '=' :: b64Alphabet, isSpace d = false := by decide +kernel
  cases hm : b64Means c with
  | false => rfl
  | true =>
    have hd : c ∈ '=' :: b64Alphabet := by
      simp only [b64Means, Bool.or_eq_true, decide_eq_true_eq] at hm
      rcases hm with rfl | hm
      · simp
      · refine List.mem_cons_of_mem _ ?_
        unfold b64Val at hm
        exact List.isSome_idxOf?.1 hm
    rw [key c hd] at h; cases h

theorem filter_dropWhile_space (s : List Char) : (s.dropWhile isSpace).filter b64Means = s.filter b64Means := by
  induction s with
  | nil => rfl
  | cons c s ih =>
    by_cases h : isSpace c = true
    · rw [List.dropWhile_cons_of_pos h, ih, List.filter_cons_of_neg (by simp [space_means_nothing c h])]
    · rw [List.dropWhile_cons_of_neg h]

theorem filter_strip (s : List Char) : (strip s).filter b64Means = s.filter b64Means := by
  unfold strip
  rw [List.filter_reverse, filter_dropWhile_space, List.filter_reverse, List.reverse_reverse, filter_dropWhile_space]

/-- **C106**: line breaks, blanks and other ASCII characters without meaning, wherever they were put into the text of a file, change
nothing. -/
theorem uncompile_noise (t : Tools α) (x y : List Char) (hx : ∀ c ∈ x, c.toNat < 128) (hy : ∀ c ∈ y, c.toNat < 128)
    (h : x.filter b64Means = y.filter b64Means) : uncompileText t x = uncompileText t y := by
  have hs : ∀ s : List Char, (∀ c ∈ s, c.toNat < 128) → ∀ c ∈ strip s, c.toNat < 128 := by
    intro s hs c hc
    unfold strip at hc
    have h1 := List.mem_reverse.1 hc
    have h2 := List.mem_reverse.1 ((List.dropWhile_sublist _).subset h1)
    exact hs c ((List.dropWhile_sublist _).subset h2)
  have hd : b64Decode (strip x) = b64Decode (strip y) := by
    unfold b64Decode
    rw [if_pos (by simpa using hs x hx), if_pos (by simpa using hs y hy), b64Loop_filter, filter_strip, h, ← filter_strip,
      ← b64Loop_filter]
  simp only [uncompileText, hd]

/-- The blanks of Python that are not ASCII. -/
def otherBlanks : List Nat :=
  [0x85, 0xa0, 0x1680, 0x2000, 0x2001, 0x2002, 0x2003, 0x2004, 0x2005, 0x2006, 0x2007, 0x2008, 0x2009, 0x200a, 0x2028, 0x2029,
   0x202f, 0x205f, 0x3000]

/-- **C106**: a text with a character that is not ASCII and not a blank is refused with `ValueError`, whatever the rest is.  (`_hb` is
for the real `strip`; that of the model keeps those blanks.) -/
theorem uncompile_not_ascii (t : Tools α) (text : List Char) (c : Char) (hc : c ∈ text) (h : 128 ≤ c.toNat)
    (_hb : c.toNat ∉ otherBlanks) :
    uncompileText t text = .error .valueError := by
  have hb : isSpace c = false := by
    rw [Bool.eq_false_iff]
    intro hb
    have : c.toNat < 128 := by
      simp only [isSpace, Bool.or_eq_true, Bool.and_eq_true, decide_eq_true_eq] at hb
      rcases hb with (rfl | hb) | hb
      · decide
      · omega
      · omega
    omega
  have hs : c ∈ strip text := by
    have drop_keeps : ∀ l : List Char, c ∈ l → c ∈ l.dropWhile isSpace := by
      intro l
      induction l with
      | nil => intro h; cases h
      | cons x l ih =>
        intro hm
        rw [List.dropWhile_cons]
        split
        · rename_i hx
          rcases List.mem_cons.1 hm with rfl | hm
          · rw [hb] at hx; cases hx
          · exact ih hm
        · exact hm
    unfold strip
    exact List.mem_reverse.2 (drop_keeps _ (List.mem_reverse.2 (drop_keeps _ hc)))
  unfold uncompileText b64Decode
  rw [if_neg]
  · rfl
  · intro ha
    have := List.all_eq_true.1 ha c hs
    simp only [decide_eq_true_eq] at this
    omega

/-- A compiled text with an umlaut in it. -/
example : 'ä' ∈ "AAAäAAAA".toList ∧ 128 ≤ 'ä'.toNat ∧ 'ä'.toNat ∉ otherBlanks := by decide

/-- What is assumed of `bz2`, `sha512` and `pickle`: what was compressed and pickled comes back, digests have 64 bytes, and a
compressed text that ends early is refused (`bz2` knows its end; nothing at all gives nothing). -/
structure ToolsOk (t : Tools α) (loaded : α → α) : Prop where
  compress : ∀ b, t.decompress (t.compress b) = .ok b
  digest : ∀ b, (t.sha512 b).length = 64
  pickle : ∀ s, t.loads (t.dumps s) = .ok (loaded s)
  empty : t.decompress [] = .ok []
  early : ∀ b k, 0 < k → k < (t.compress b).length → ∃ e, t.decompress ((t.compress b).take k) = .error e

/-- **C106**: a compiled scenario opens to what pickling gives. -/
theorem compiled_opens (t : Tools α) (loaded : α → α) (h : ToolsOk t loaded) (s : α) :
    uncompileText t (compiledText t s) = .ok (loaded s) := by
  unfold uncompileText compiledText
  rw [b64_roundtrip, bind_ok, h.compress, bind_ok, (sealed_file t.sha512 h.digest _ _).2 rfl, bind_ok, h.pickle]

/-- **C106**: a text opens exactly if it holds, compressed, the digest of a pickled object and this object. -/
theorem uncompile_iff (t : Tools α) (h64 : ∀ b, (t.sha512 b).length = 64) (text : List Char) (s : α) :
    uncompileText t text = .ok s ↔
      ∃ z b, b64Decode (strip text) = .ok z ∧ t.decompress z = .ok (t.sha512 b ++ b) ∧ t.loads b = .ok s := by
  unfold uncompileText
  constructor
  · intro h
    obtain ⟨z, h1, h⟩ := bind_eq_ok.1 h
    obtain ⟨raw, h2, h⟩ := bind_eq_ok.1 h
    obtain ⟨b, h3, h⟩ := bind_eq_ok.1 h
    have := (sealed_file t.sha512 h64 raw b).1 h3
    exact ⟨z, b, h1, by rw [h2, this]; rfl, h⟩
  · rintro ⟨z, b, h1, h2, h3⟩
    rw [h1, bind_ok, h2, bind_ok, (sealed_file t.sha512 h64 (t.sha512 b ++ b) b).2 rfl, bind_ok, h3]

/-- A compiled file that ends early is refused, wherever it ends. -/
theorem compiled_cut (t : Tools α) (loaded : α → α) (h : ToolsOk t loaded) (s : α) (k : Nat)
    (hk : k < (compiledText t s).length) : ∃ e, uncompileText t ((compiledText t s).take k) = .error e := by
  unfold compiledText at hk ⊢
  unfold uncompileText
  generalize hz : t.compress (sealFile t.sha512 (t.dumps s)) = z at hk
  rw [b64_cut_text z k (Nat.le_of_lt hk)]
  rw [b64_length] at hk
  split
  · rw [bind_ok]
    rcases Nat.eq_zero_or_pos k with rfl | hp
    · have h64 := h.digest []
      simp only [Nat.zero_div, Nat.zero_mul, List.take_zero, h.empty, bind_ok, openFile, List.drop_nil, List.take_nil]
      rw [if_pos (by intro e; rw [e] at h64; cases h64)]
      exact ⟨_, rfl⟩
    · obtain ⟨e, he⟩ := h.early (sealFile t.sha512 (t.dumps s)) (k / 4 * 3) (by omega) (by rw [hz]; omega)
      rw [hz] at he
      rw [he]
      exact ⟨e, rfl⟩
  · exact ⟨_, rfl⟩

/-- **C207**: wherever compiling is interrupted, the file opens to what it held before, or is refused, or opens to the scenario that
was compiled; and it is this scenario exactly if all has been written. -/
theorem compile_interrupted (t : Tools α) (loaded : α → α) (h : ToolsOk t loaded) (s : α) (old : Option (List Char))
    (c : CompilePoint) :
    fileAt old (compiledText t s) c = old ∨
    ∃ text, fileAt old (compiledText t s) c = some text ∧
      ((∃ e, uncompileText t text = .error e) ∨ text = compiledText t s ∧ uncompileText t text = .ok (loaded s)) := by
  cases c with
  | before => exact .inl rfl
  | written n =>
    refine .inr ⟨_, rfl, ?_⟩
    rcases Nat.lt_or_ge n (compiledText t s).length with hn | hn
    · exact .inl (compiled_cut t loaded h s n hn)
    · rw [List.take_of_length_le hn]
      exact .inr ⟨rfl, compiled_opens t loaded h s⟩

/-- **C106**, with C52: a scenario of which nothing has been completed, compiled, opened and run passes and fails the same programs as
the scenario itself. -/
theorem compiled_reports_partial (t : Tools SavedScenario) (ht : ToolsOk t id) (s : Scenario) (hc : s.completed = [])
    (h : ∀ x ∈ s.pending, Savable x.event) (hu : ∀ x ∈ s.pending, Usable s.ifaces x.event) :
    ∃ sv s', s.save.2 = .ok sv ∧ (uncompileText t (compiledText t sv) >>= fun v => v.restore) = .ok s' ∧
      ∀ as, NoShutdown (s.pending.map (·.event)) as →
        (report { scen := s' } as = .allPassed ↔ report { scen := s } as = .allPassed) := by
  obtain ⟨sv, s', h1, h2, h3⟩ := scenario_restore_reports_partial s hc h hu
  exact ⟨sv, s', h1, by rw [compiled_opens t id ht, bind_ok]; exact h2, h3⟩

/-! A compression for which `ToolsOk` can be shown: every byte behind a 1, and a 0 at the end. -/

def escape : Bytes → Bytes
  | [] => [0]
  | x :: xs => 1 :: x :: escape xs

def unescape : Bytes → Res Bytes
  | 0 :: _ => .ok []
  | 1 :: x :: r => unescape r >>= fun b => .ok (x :: b)
  | _ => .error .valueError

theorem unescape_escape (b : Bytes) : unescape (escape b) = .ok b := by
  induction b with
  | nil => rfl
  | cons x xs ih => simp only [escape, unescape, ih, bind_ok]

theorem unescape_cut (b : Bytes) : ∀ k, k < (escape b).length → ∃ e, unescape ((escape b).take k) = .error e := by
  induction b with
  | nil => intro k hk; obtain rfl : k = 0 := by simp [escape] at hk; omega
           exact ⟨_, rfl⟩
  | cons x xs ih =>
    intro k hk
    match k with
    | 0 => exact ⟨_, rfl⟩
    | 1 => exact ⟨_, rfl⟩
    | k + 2 =>
      obtain ⟨e, he⟩ := ih k (by simp [escape] at hk; omega)
      exact ⟨e, by simp only [escape, List.take_succ_cons, unescape, he]; rfl⟩

def exTools : Tools Bytes :=
  ⟨escape, fun b => if b = [] then .ok [] else unescape b, fun b => List.replicate 64 (b.headD 7), id, .ok⟩

/-- The assumptions of C106 and C207 can be met. -/
example : ToolsOk exTools id where
  compress b := by
    show (if escape b = [] then _ else _) = _
    rw [if_neg (by cases b <;> simp [escape])]
    exact unescape_escape b
  digest b := by simp [exTools]
  pickle _ := rfl
  empty := rfl
  early b k h0 hk := by
    show ∃ e, (if (escape b).take k = [] then _ else _) = _
    rw [if_neg (by cases b <;> cases k <;> simp [escape] at *)]
    exact unescape_cut b k hk

/-- A file written in lines opens all the same, and base64 is that of RFC 4648. -/
example : b64Encode [77, 97, 110, 77, 97, 77] = "TWFuTWFN".toList ∧ b64Encode [77, 97] = "TWE=".toList ∧
    b64Encode [77] = "TQ==".toList ∧ uncompileText exTools
      ((compiledText exTools [1, 2]).take 40 ++ "\r\n".toList ++ (compiledText exTools [1, 2]).drop 40 ++ "\n".toList) =
        .ok [1, 2] := by
  decide +kernel

end SY.Props
