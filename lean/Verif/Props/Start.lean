import Verif.Start
import Verif.Props.EthAddr
import Verif.Props.Extras

/-! # C146-C149: starting and ending programs -/

namespace SY.Props

/-! ### C146: the code that runs is the code in the named file -/

/-- A component of a path that stands for itself. -/
def Plain (c : List Char) : Prop := c ≠ [] ∧ c ≠ ['.'] ∧ c ≠ ['.', '.'] ∧ '/' ∉ c

instance (c : List Char) : Decidable (Plain c) := inferInstanceAs (Decidable (_ ∧ _))

/-- The text of a relative path: components with slashes between them. -/
def relPath : List (List Char) → List Char
  | [] => []
  | [c] => c
  | c :: d :: cs => c ++ '/' :: relPath (d :: cs)

theorem splitChar_relPath (c : List Char) (cs : List (List Char)) (h : ∀ x ∈ c :: cs, '/' ∉ x) :
    splitChar '/' (relPath (c :: cs)) = c :: cs := by
  induction cs generalizing c with
  | nil => simpa [relPath] using splitChar_nosep '/' c (h c (by simp))
  | cons d cs ih =>
    rw [relPath, splitChar_append '/' c _ (h c (by simp))]
    rw [ih d (fun x hx => h x (List.mem_cons_of_mem _ hx))]

theorem normParts_plain (acc : Dir) (cs : List (List Char)) (h : ∀ c ∈ cs, Plain c) :
    normParts acc cs = acc ++ cs := by
  induction cs generalizing acc with
  | nil => simp [normParts]
  | cons c cs ih =>
    obtain ⟨h1, h2, h3, -⟩ := h c (by simp)
    simp [normParts, h1, h2, h3, ih (acc ++ [c]) (fun x hx => h x (by simp [hx]))]

theorem normParts_append (acc : Dir) (cs ds : List (List Char)) :
    normParts acc (cs ++ ds) = normParts (normParts acc cs) ds := by
  induction cs generalizing acc with
  | nil => rfl
  | cons c cs ih =>
    simp only [List.cons_append, normParts]
    split
    · exact ih _
    · split <;> exact ih _

theorem relPath_head {c : List Char} {cs : List (List Char)} (h : Plain c) :
    ∃ a t, relPath (c :: cs) = a :: t ∧ a ≠ '/' := by
  obtain ⟨h1, -, -, h4⟩ := h
  match c, h1, h4 with
  | a :: t, _, h4 =>
    cases cs with
    | nil => exact ⟨a, t, rfl, fun e => h4 (by simp [e])⟩
    | cons d cs => exact ⟨a, t ++ '/' :: relPath (d :: cs), rfl, fun e => h4 (by simp [e])⟩

/-- A relative path names a file below the current directory. -/
theorem absPath_rel (cwd : Dir) (c : List Char) (cs : List (List Char)) (h : ∀ x ∈ c :: cs, Plain x) :
    absPath cwd (relPath (c :: cs)) = cwd ++ c :: cs := by
  obtain ⟨a, t, e, ha⟩ := relPath_head (cs := cs) (h c (by simp))
  have hs : absPath cwd (relPath (c :: cs)) = normParts cwd (pathParts (relPath (c :: cs))) := by
    rw [e]; unfold absPath; split
    · rename_i heq; cases heq; exact absurd rfl ha
    · rfl
  rw [hs, pathParts, splitChar_relPath c cs (fun x hx => (h x hx).2.2.2), normParts_plain cwd _ h]

/-- An absolute path does not depend on the current directory. -/
theorem absPath_abs (cwd : Dir) (c : List Char) (cs : List (List Char)) (h : ∀ x ∈ c :: cs, Plain x) :
    absPath cwd ('/' :: relPath (c :: cs)) = c :: cs := by
  have := splitChar_append '/' [] (relPath (c :: cs)) (by simp)
  simp only [List.nil_append] at this
  rw [absPath, pathParts, this, splitChar_relPath c cs (fun x hx => (h x hx).2.2.2)]
  show normParts [] ([] :: (c :: cs)) = _
  simp only [normParts, true_or, if_true]
  simpa [normParts] using normParts_plain [] _ h

/-- `..` leads to the directory above. -/
theorem absPath_up (cwd : Dir) (top : List Char) (c : List Char) (cs : List (List Char))
    (h : ∀ x ∈ c :: cs, Plain x) :
    absPath (cwd ++ [top]) ("../".toList ++ relPath (c :: cs)) = cwd ++ c :: cs := by
  have := splitChar_append '/' ['.', '.'] (relPath (c :: cs)) (by decide)
  show normParts (cwd ++ [top]) (pathParts (['.', '.'] ++ '/' :: relPath (c :: cs))) = _
  rw [pathParts, this, splitChar_relPath c cs (fun x hx => (h x hx).2.2.2)]
  show normParts (cwd ++ [top]) ([['.', '.']] ++ (c :: cs)) = _
  rw [normParts_append, show normParts (cwd ++ [top]) [['.', '.']] = cwd by simp [normParts],
    normParts_plain _ _ h]

theorem dropPy_py {n : List Char} (h : n.any (· != '.')) : dropPy (n ++ ".py".toList) = n := by
  have : (n ++ ".py".toList).length - 3 = n.length := by simp
  rw [dropPy, this]; simp [h]

theorem dropPy_bare {n : List Char} (h : ¬ ".py".toList <:+ n) : dropPy n = n := by
  rw [dropPy, if_neg]
  intro hh
  exact h (hh.1 ▸ List.drop_suffix _ _)

/-- The components of a path without those that mean nothing. -/
def bareParts (ps : List (List Char)) : List (List Char) := ps.filter fun c => c ≠ [] && c ≠ ['.']

theorem normParts_bare (acc : Dir) (ps : List (List Char)) : normParts acc ps = normParts acc (bareParts ps) := by
  induction ps generalizing acc with
  | nil => rfl
  | cons c ps ih =>
    by_cases h : c = [] ∨ c = ['.']
    · have : bareParts (c :: ps) = bareParts ps := by rcases h with rfl | rfl <;> rfl
      rw [this, normParts, if_pos h, ih]
    · have : bareParts (c :: ps) = c :: bareParts ps := by
        unfold bareParts
        rw [List.filter_cons_of_pos (by simpa using h)]
      rw [this, normParts, normParts, if_neg h, if_neg h]
      split <;> exact ih _

/-- `arg` names the file `n` in directory `d`, with or without its ending; it may contain `.` and superfluous slashes. -/
def NamesPath (cwd : Dir) (arg : List Char) (d : Dir) (n : List Char) : Prop :=
  ∃ ps cs b, bareParts ps = cs ++ [b] ∧ ps.head? ≠ some [] ∧ (∀ c ∈ cs, Plain c) ∧ Plain b ∧ n.any (· != '.') ∧
    (b = n ++ ".py".toList ∨ (b = n ∧ ¬ ".py".toList <:+ n)) ∧
    ((arg = relPath ps ∧ d = cwd ++ cs) ∨ (arg = '/' :: relPath ps ∧ d = cs))

/-- The same, if the name of the file can be that of a module: it has no further dots. -/
def NamesFile (cwd : Dir) (arg : List Char) (d : Dir) (n : List Char) : Prop := NamesPath cwd arg d n ∧ '.' ∉ n

theorem namesFile_abs {cwd : Dir} {arg : List Char} {d : Dir} {n : List Char} (h : NamesPath cwd arg d n) :
    ∃ b, absPath cwd arg = d ++ [b] ∧ dropPy b = n := by
  obtain ⟨ps, cs, b, hps, h0, hcs, hb, hn, hbn, hd⟩ := h
  refine ⟨b, ?_, ?_⟩
  · have hall : ∀ x ∈ cs ++ [b], Plain x := by
      intro x hx; rcases List.mem_append.mp hx with hx | hx
      · exact hcs x hx
      · rw [List.mem_singleton.mp hx]; exact hb
    have hno : ∀ x ∈ ps, '/' ∉ x := by
      intro x hx
      by_cases h : x = [] ∨ x = ['.']
      · rcases h with rfl | rfl <;> decide
      · have : x ∈ bareParts ps := List.mem_filter.mpr ⟨hx, by simpa using h⟩
        rw [hps] at this
        exact (hall x this).2.2.2
    cases ps with
    | nil => simp [bareParts] at hps
    | cons c t =>
      have hc : c ≠ [] := fun e => h0 (by rw [e]; rfl)
      have hs := splitChar_relPath c t hno
      rcases hd with ⟨rfl, rfl⟩ | ⟨rfl, rfl⟩
      · have e : absPath cwd (relPath (c :: t)) = normParts cwd (pathParts (relPath (c :: t))) := by
          obtain ⟨a, u, rfl⟩ : ∃ a u, c = a :: u := by
            cases c with
            | nil => exact absurd rfl hc
            | cons a u => exact ⟨a, u, rfl⟩
          have ha : a ≠ '/' := fun e => hno _ List.mem_cons_self (by simp [e])
          have : ∃ v, relPath ((a :: u) :: t) = a :: v := by
            cases t with
            | nil => exact ⟨u, rfl⟩
            | cons _ _ => exact ⟨_, rfl⟩
          obtain ⟨v, hv⟩ := this
          rw [hv]; unfold absPath; split
          · rename_i heq; cases heq; exact absurd rfl ha
          · rfl
        rw [e, pathParts, hs, normParts_bare, hps, normParts_plain cwd _ hall, List.append_assoc]
      · have e := splitChar_append '/' [] (relPath (c :: t)) (by simp)
        simp only [List.nil_append] at e
        rw [absPath, pathParts, e, hs, normParts_bare]
        show normParts [] (bareParts (c :: t)) = _
        rw [hps, normParts_plain [] _ hall, List.nil_append]
  · rcases hbn with rfl | ⟨rfl, hs⟩
    · exact dropPy_py hn
    · exact dropPy_bare hs

/-- The outcome of looking for the entry points in a module. -/
theorem entryPoint_first (m : LoadedMod) (l r : List (List Char)) (e : List Char)
    (hl : ∀ x ∈ l, x ∉ m.names) (he : e ∈ m.names) :
    entryPoint m (l ++ e :: r) = .ok (some (m.dir, e)) := by
  have : (l ++ e :: r).find? (m.names.contains ·) = some e := by
    rw [List.find?_append, List.find?_eq_none.mpr (by simpa using hl)]
    simp [he]
  simp only [entryPoint, List.append_eq_nil_iff, reduceCtorEq, and_false, if_false, this]

theorem findModule_skip (fs : Files) (n : List Char) (ds es : List Dir) (h : ∀ d ∈ ds, fs d n = none) :
    findModule fs n (ds ++ es) = findModule fs n es := by
  induction ds with
  | nil => rfl
  | cons d ds ih =>
    simp only [List.cons_append, findModule, h d (by simp), ih (fun x hx => h x (by simp [hx]))]

theorem findModule_only (fs : Files) (n : List Char) (d : Dir) (s : Source) (ds : List Dir) (hd : d ∈ ds)
    (hs : fs d n = some s) (h : ∀ x ∈ ds, x ≠ d → fs x n = none) : findModule fs n ds = some (d, s) := by
  induction ds with
  | nil => simp at hd
  | cons x ds ih =>
    by_cases hx : x = d
    · subst hx; simp [findModule, hs]
    · simp only [findModule, h x (by simp) hx]
      exact ih (by simpa [Ne.symm hx] using hd) (fun y hy => h y (by simp [hy]))

theorem addPath_mem (w : Importing) (d : Dir) : d ∈ (w.addPath d).path := by
  unfold Importing.addPath; split <;> simp_all

theorem addPath_sub (w : Importing) (d x : Dir) (h : x ∈ (w.addPath d).path) : x ∈ w.path ∨ x = d := by
  unfold Importing.addPath at h; split at h <;> simp_all

theorem addPath_prefix (w : Importing) (d : Dir) : w.path <+: (w.addPath d).path := by
  unfold Importing.addPath; split
  · exact List.prefix_refl _
  · exact List.prefix_append _ _

theorem addPath_mods (w : Importing) (d : Dir) : (w.addPath d).mods = w.mods := by
  unfold Importing.addPath; split <;> rfl

/-- **C146 (part).** If no module of that name has been loaded, and no other directory on the path holds one,
the code in the named file is run, and the first of the entry points that it defines is used; if it defines
none, or fails, an exception is raised.  *Missing:* the other cases, in which it is false. -/
theorem import_partial (w : Importing) (fs : Files) (cwd : Dir) (arg : List Char) (d : Dir) (n : List Char)
    (src : Source) (hn : NamesFile cwd arg d n) (hs : fs d n = some src) (hm : w.mods.get? n = none)
    (hp : ∀ x ∈ w.path, x ≠ d → fs x n = none) :
    (src.fails = none →
      (∀ l e r, (∀ x ∈ l, x ∉ src.names) → e ∈ src.names →
        (w.importOrDie fs cwd arg (l ++ e :: r)).2 = .ok (some (d, e))) ∧
      (∀ entries, entries ≠ [] → (∀ x ∈ entries, x ∉ src.names) →
        (w.importOrDie fs cwd arg entries).2 = .error .generic)) ∧
    (∀ e entries, src.fails = some e → (w.importOrDie fs cwd arg entries).2 = .error e) := by
  obtain ⟨b, hb, hbn⟩ := namesFile_abs hn.1
  have hf : findModule fs n (w.addPath d).path = some (d, src) :=
    findModule_only fs n d src _ (addPath_mem w d) hs (fun x hx hne =>
      hp x ((addPath_sub w d x hx).resolve_right hne) hne)
  have key : ∀ entries, w.importOrDie fs cwd arg entries =
      match (w.addPath d).importPlain fs n with
      | (w', .error e) => (w', .error e)
      | (w', .ok m) => (w', entryPoint m entries) := by
    intro entries
    have hi : (w.addPath d).importNew fs n = (w.addPath d).importPlain fs n := if_pos hn.2
    rw [← hi]
    simp only [Importing.importOrDie, hb, List.getLast?_append, List.getLast?_singleton,
      Option.some_or, List.dropLast_concat, hbn, Importing.load, addPath_mods, hm]
    rfl
  refine ⟨fun hfail => ⟨fun l e r hl he => ?_, fun entries hne hx => ?_⟩, fun e entries hfail => ?_⟩
  · rw [key]; simp only [Importing.importPlain, hf, hfail]
    exact entryPoint_first _ l r e hl he
  · rw [key]; simp only [Importing.importPlain, hf, hfail]
    have : entries.find? (src.names.contains ·) = none := List.find?_eq_none.mpr (by simpa using hx)
    simp only [entryPoint, hne, if_false, this]
  · rw [key]; simp only [Importing.importPlain, hf, hfail]

/-- User code is entered at `main`; at `switchy_main` only if there is no `main`. -/
theorem import_user_entry (w : Importing) (fs : Files) (cwd : Dir) (arg : List Char) (d : Dir) (n : List Char)
    (src : Source) (hn : NamesFile cwd arg d n) (hs : fs d n = some src) (hm : w.mods.get? n = none)
    (hp : ∀ x ∈ w.path, x ≠ d → fs x n = none) (hf : src.fails = none) :
    (w.importOrDie fs cwd arg userEntries).2 =
      (if "main".toList ∈ src.names then .ok (some (d, "main".toList))
       else if "switchy_main".toList ∈ src.names then .ok (some (d, "switchy_main".toList))
       else .error .generic) := by
  obtain ⟨h1, -⟩ := import_partial w fs cwd arg d n src hn hs hm hp
  obtain ⟨h1, h2⟩ := h1 hf
  split
  · next h => exact h1 [] _ ["switchy_main".toList] (by simp) h
  · next h =>
    split
    · next h' => exact h1 ["main".toList] _ [] (by simpa using h) h'
    · next h' => exact h2 userEntries (by decide) (by simpa [userEntries] using ⟨h, h'⟩)

theorem importOrDie_dir {w w' : Importing} {fs : Files} {cwd : Dir} {arg : List Char} {d d' : Dir}
    {n e : List Char} {entries : List (List Char)} (hn : NamesFile cwd arg d n)
    (h : w.importOrDie fs cwd arg entries = (w', .ok (some (d', e)))) :
    ∃ s, findModule fs n (w.addPath d).path = some (d', s) ∧ w'.path = (w.addPath d).path := by
  obtain ⟨b, hb, hbn⟩ := namesFile_abs hn.1
  simp only [Importing.importOrDie, hb, List.getLast?_append, List.getLast?_singleton,
    Option.some_or, List.dropLast_concat, hbn] at h
  have hent : ∀ m : LoadedMod, entryPoint m entries = .ok (some (d', e)) → m.dir = d' := by
    intro m hm
    unfold entryPoint at hm
    split at hm
    · cases hm
    · split at hm <;> simp_all
  unfold Importing.load at h
  split at h
  · next h' =>
    split at h'
    · unfold Importing.reload at h'
      split at h'
      · cases h'; cases h
      · split at h' <;> cases h' <;> cases h
    · unfold Importing.importNew at h'
      rw [if_pos hn.2] at h'
      unfold Importing.importPlain at h'
      split at h'
      · cases h'; cases h
      · split at h' <;> cases h' <;> cases h
  · next w1 m h' =>
    have hm := hent m (by simpa using (Prod.mk.inj h).2)
    have hw := (Prod.mk.inj h).1
    split at h'
    · unfold Importing.reload at h'
      split at h'
      · cases h'
      · next x s hf =>
        split at h'
        · cases h'
        · cases h'
          exact ⟨s, by rw [hf, ← hm], by rw [← hw]⟩
    · unfold Importing.importNew at h'
      rw [if_pos hn.2] at h'
      unfold Importing.importPlain at h'
      split at h'
      · cases h'
      · next x s hf =>
        split at h'
        · cases h'
        · cases h'
          exact ⟨s, by rw [hf, ← hm], by rw [← hw]⟩

theorem findModule_prefix {fs : Files} {n : List Char} {ds es : List Dir} {r : Dir × Source}
    (h : findModule fs n ds = some r) (hp : ds <+: es) : findModule fs n es = some r := by
  obtain ⟨t, rfl⟩ := hp
  induction ds with
  | nil => simp [findModule] at h
  | cons d ds ih =>
    simp only [findModule, List.cons_append] at h ⊢
    split at h
    · exact h
    · exact ih h

/-- **C146 is false (1).** Two files of the same name in different directories are never both used: whatever
the path and the modules loaded so far, the second import runs the file that the first one ran. -/
theorem import_same_name_violated (w w1 w2 : Importing) (fs : Files) (cwd : Dir) (arg1 arg2 : List Char)
    (d1 d2 r1 r2 : Dir) (n e1 e2 : List Char) (en1 en2 : List (List Char))
    (h1 : NamesFile cwd arg1 d1 n) (h2 : NamesFile cwd arg2 d2 n) (hd : d1 ≠ d2)
    (i1 : w.importOrDie fs cwd arg1 en1 = (w1, .ok (some (r1, e1))))
    (i2 : w1.importOrDie fs cwd arg2 en2 = (w2, .ok (some (r2, e2)))) :
    r2 = r1 ∧ (r1 ≠ d1 ∨ r2 ≠ d2) := by
  obtain ⟨s1, f1, p1⟩ := importOrDie_dir h1 i1
  obtain ⟨s2, f2, -⟩ := importOrDie_dir h2 i2
  have := findModule_prefix f1 (p1 ▸ addPath_prefix w1 d2)
  rw [this] at f2
  obtain ⟨rfl, rfl⟩ := Prod.mk.inj (Option.some.inj f2)
  refine ⟨rfl, ?_⟩
  by_cases h : r1 = d1
  · exact .inr (fun e => hd (h.symm.trans e))
  · exact .inl h

/-- **C146 is false (2).** A file whose name is that of a module in a directory that is already on the path is
never run. -/
theorem import_shadowed_violated (w w' : Importing) (fs : Files) (cwd : Dir) (arg : List Char)
    (d x r : Dir) (n e : List Char) (entries : List (List Char)) (hn : NamesFile cwd arg d n)
    (hd : d ∉ w.path) (hx : x ∈ w.path) (hs : (fs x n).isSome)
    (i : w.importOrDie fs cwd arg entries = (w', .ok (some (r, e)))) : r ≠ d := by
  obtain ⟨s, f, -⟩ := importOrDie_dir hn i
  have hfind : ∃ q, findModule fs n w.path = some q ∧ q.1 ∈ w.path := by
    clear f i hd
    revert hx
    generalize w.path = l
    intro hx
    induction l with
    | nil => simp at hx
    | cons y ys ih =>
      simp only [findModule]
      cases hy : fs y n with
      | some s => exact ⟨(y, s), rfl, by simp⟩
      | none =>
        rcases List.mem_cons.mp hx with rfl | hx
        · rw [hy] at hs; cases hs
        · obtain ⟨q, hq, hm⟩ := ih hx; exact ⟨q, hq, by simp [hm]⟩
  obtain ⟨q, hq, hqm⟩ := hfind
  have := findModule_prefix hq (addPath_prefix w d)
  rw [this] at f
  have hqr : q.1 = r := by rw [Option.some.inj f]
  rintro rfl
  exact hd (hqr ▸ hqm)

/-- **C146 is false (4).** A file whose name has a dot before its ending, such as `lab.router.py`, is never run: an exception is raised,
whatever it holds. -/
theorem import_dotted_violated (w : Importing) (fs : Files) (cwd : Dir) (arg : List Char) (d : Dir) (n : List Char)
    (entries : List (List Char)) (hn : NamesPath cwd arg d n) (hdot : '.' ∈ n) (hm : w.mods.get? n = none) :
    ∃ e, (w.importOrDie fs cwd arg entries).2 = .error e := by
  obtain ⟨b, hb, hbn⟩ := namesFile_abs hn
  have key : ∃ w' e, (w.addPath d).importNew fs n = (w', .error e) := by
    unfold Importing.importNew
    rw [if_neg (by simpa using hdot)]
    split
    · unfold Importing.importHidden
      split
      · exact ⟨_, _, rfl⟩
      · split
        · exact ⟨_, _, rfl⟩
        · split <;> exact ⟨_, _, rfl⟩
    · unfold Importing.importInside
      split
      · exact ⟨_, _, rfl⟩
      · split <;> exact ⟨_, _, rfl⟩
  obtain ⟨w', e, h⟩ := key
  refine ⟨e, ?_⟩
  simp only [Importing.importOrDie, hb, List.getLast?_append, List.getLast?_singleton, Option.some_or, List.dropLast_concat, hbn,
    Importing.load, addPath_mods, hm, h]

/-- The file system of the examples: user code and two scenarios called `t`, and the library's `random`. -/
def demoFiles : Files := fun d n =>
  if d = ["h".toList] ∧ n = "hub".toList then some ⟨["main".toList, "switchy_main".toList], none, []⟩
  else if d = ["h".toList, "a".toList] ∧ n = "t".toList then some ⟨["scenario".toList], none, []⟩
  else if d = ["h".toList, "b".toList] ∧ n = "t".toList then some ⟨["scenario".toList], none, []⟩
  else if d = ["lib".toList] ∧ n = "random".toList then some ⟨["choice".toList], none, []⟩
  else if d = ["h".toList] ∧ n = "random".toList then some ⟨["main".toList], none, []⟩
  else none

theorem demo_a : NamesFile ["h".toList] "a/t.py".toList ["h".toList, "a".toList] "t".toList :=
  ⟨⟨["a".toList, "t.py".toList], ["a".toList], "t.py".toList, by decide +kernel, by decide, by decide +kernel, by decide +kernel, by decide,
    .inl rfl, .inl ⟨rfl, rfl⟩⟩, by decide⟩

theorem demo_b : NamesFile ["h".toList] "/h/b/t.py".toList ["h".toList, "b".toList] "t".toList :=
  ⟨⟨["h".toList, "b".toList, "t.py".toList], ["h".toList, "b".toList], "t.py".toList, by decide +kernel, by decide, by decide +kernel,
    by decide +kernel, by decide, .inl rfl, .inr ⟨rfl, rfl⟩⟩, by decide⟩

theorem demo_dot : NamesFile ["h".toList] "./a//t.py".toList ["h".toList, "a".toList] "t".toList :=
  ⟨⟨[".".toList, "a".toList, [], "t.py".toList], ["a".toList], "t.py".toList, by decide +kernel, by decide,
    by decide +kernel, by decide +kernel, by decide, .inl rfl, .inl ⟨rfl, rfl⟩⟩, by decide⟩

theorem demo_hub : NamesFile ["h".toList] "hub".toList ["h".toList] "hub".toList :=
  ⟨⟨["hub".toList], [], "hub".toList, by decide +kernel, by decide, by simp, by decide +kernel, by decide, .inr ⟨rfl, by decide⟩,
    .inl ⟨rfl, rfl⟩⟩, by decide⟩

-- `swyard -t a/t.py -t b/t.py hub`: the scenario of the first file is run twice
example : (loadScenarios ⟨[["lib".toList], ["h".toList]], []⟩ demoFiles ["h".toList]
    ["a/t.py".toList, "/h/b/t.py".toList]).2 =
    ([some (["h".toList, "a".toList], "scenario".toList), some (["h".toList, "a".toList], "scenario".toList)],
      none) := by decide +kernel
-- user code that is found
example : ((⟨[["lib".toList]], []⟩ : Importing).importOrDie demoFiles ["h".toList] "hub".toList userEntries).2 =
    .ok (some (["h".toList], "main".toList)) :=
  import_user_entry _ demoFiles _ _ ["h".toList] "hub".toList _ demo_hub rfl rfl (by decide) rfl
-- `lab.router.py` is not, whether there is a file `lab.py` or not
example : NamesPath ["h".toList] "lab.router.py".toList ["h".toList] "lab.router".toList :=
  ⟨["lab.router.py".toList], [], "lab.router.py".toList, by decide +kernel, by decide, by simp, by decide +kernel, by decide, .inl rfl,
    .inl ⟨rfl, rfl⟩⟩
-- user code in a file random.py is not
example : ((⟨[["lib".toList]], []⟩ : Importing).importOrDie demoFiles ["h".toList] "random.py".toList
    userEntries).2 = .error .generic := by decide +kernel

/-- **C146 is false (3).** Names that a module defined when it was first loaded stay: an entry point that has
been removed from the file is still used. -/
theorem import_stale_violated : ∃ (w : Importing) (fs : Files) (cwd : Dir) (arg n : List Char) (src : Source),
    NamesFile cwd arg cwd n ∧ fs cwd n = some src ∧ "main".toList ∉ src.names ∧ src.fails = none ∧
    (∀ x ∈ w.path, x = cwd) ∧
    (w.importOrDie fs cwd arg userEntries).2 = .ok (some (cwd, "main".toList)) :=
  ⟨⟨[["h".toList]], [("hub".toList, ⟨["h".toList], ["main".toList]⟩)]⟩,
    fun _ _ => some ⟨["switchy_main".toList], none, []⟩, ["h".toList], "hub".toList, "hub".toList, _,
    demo_hub, rfl, by decide, rfl, by simp, by decide +kernel⟩

/-- The same for all files and worlds: a file is imported, then an entry point is removed from it; importing it
again in the same process still uses the entry point that is gone. -/
theorem import_removed_violated (w : Importing) (fs fs' : Files) (cwd : Dir) (arg : List Char) (d : Dir) (n : List Char)
    (src src' : Source) (l r : List (List Char)) (e : List Char) (hn : NamesFile cwd arg d n)
    (hs : fs d n = some src) (hs' : fs' d n = some src') (hm : w.mods.get? n = none)
    (hp : ∀ x ∈ w.path, x ≠ d → fs x n = none ∧ fs' x n = none) (hf : src.fails = none) (hf' : src'.fails = none)
    (hl : ∀ x ∈ l, x ∉ src.names ∧ x ∉ src'.names) (he : e ∈ src.names) (w1 : Importing) (r1 : Res (Option (Dir × List Char)))
    (i : w.importOrDie fs cwd arg (l ++ e :: r) = (w1, r1)) :
    (w1.importOrDie fs' cwd arg (l ++ e :: r)).2 = .ok (some (d, e)) := by
  obtain ⟨b, hb, hbn⟩ := namesFile_abs hn.1
  have hfm : ∀ g : Files, (∀ x ∈ w.path, x ≠ d → g x n = none) → ∀ s, g d n = some s →
      findModule g n (w.addPath d).path = some (d, s) := fun g hg s hs =>
    findModule_only g n d s _ (addPath_mem w d) hs (fun x hx hne => hg x ((addPath_sub w d x hx).resolve_right hne) hne)
  have f1 := hfm fs (fun x hx hne => (hp x hx hne).1) _ hs
  have f2 := hfm fs' (fun x hx hne => (hp x hx hne).2) _ hs'
  simp only [Importing.importOrDie, hb, List.getLast?_append, List.getLast?_singleton, Option.some_or,
    List.dropLast_concat, hbn, Importing.load, addPath_mods, hm, Importing.importNew, hn.2, not_false_eq_true, if_true, Importing.importPlain, f1, hf] at i
  cases i
  generalize hw : w.addPath d = v at *
  have hin : d ∈ v.path := hw ▸ addPath_mem w d
  have ha : ∀ m, (⟨v.path, m⟩ : Importing).addPath d = ⟨v.path, m⟩ := fun m => if_pos hin
  simp only [Importing.importOrDie, hb, List.getLast?_append, List.getLast?_singleton, Option.some_or,
    List.dropLast_concat, hbn, Importing.load, ha, Dict.get?_set, if_true, Importing.reload, f2, hf']
  exact entryPoint_first _ l r e (fun x hx => by simpa using hl x hx) (by simp [he])

/-! ### C147: what the command line asks for -/

/-- Something of the user's is run: scenarios, or their code. -/
def _root_.SY.StartAct.runs : StartAct → Bool
  | .tested _ _ => true
  | .ran _ => true
  | _ => false

/-- The host's devices or its firewall are touched. -/
def _root_.SY.StartAct.touches : StartAct → Bool
  | .blocked (_ :: _) _ => true
  | .opened _ => true
  | _ => false

theorem compileAll_acts (env : StartEnv) (l : List (List Char)) :
    ∃ k, (compileAll env l).1 = (l.take k).map .compiled ∧
      (match (compileAll env l).2 with
       | none => k = l.length
       | some e => ∃ s, l[k]? = some s ∧ env.compiles s = some e) := by
  induction l with
  | nil => exact ⟨0, rfl, rfl⟩
  | cons s l ih =>
    obtain ⟨k, h1, h2⟩ := ih
    cases hs : env.compiles s with
    | some e => exact ⟨0, by simp [compileAll, hs], by simp [compileAll, hs]⟩
    | none =>
      refine ⟨k + 1, by simp [compileAll, hs, h1], ?_⟩
      simp only [compileAll, hs]
      cases hc : (compileAll env l).2 with
      | none => rw [hc] at h2; simpa using h2
      | some e => rw [hc] at h2; simpa using h2

/-- `--listif` lists the devices that would be used, and nothing else happens. -/
theorem swyard_lists (env : StartEnv) (a : SwyardArgs) (h : a.listif = true) :
    swyardMain env a = ⟨[.listed (makeDeviceList env.pcap env.real a.intf a.exclude)], none, .absent, false⟩ := by
  simp [swyardMain, startFramework, h]

/-- `-c` compiles the scenarios in the order given, up to one that fails; nothing of the user's is run and
nothing of the host is touched. -/
theorem swyard_compiles (env : StartEnv) (a : SwyardArgs) (c : CodeArgs) (hc : a.compile ≠ [])
    (hl : a.listif = false) (hi : a.cli = false) (hp : parseCodeargs (some a.codearg) = .ok c) :
    ∃ k, (swyardMain env a).acts = (a.compile.take k).map .compiled ∧
      (match (swyardMain env a).raised with
       | none => k = a.compile.length
       | some e => ∃ s, a.compile[k]? = some s ∧ env.compiles s = some e) := by
  obtain ⟨k, h1, h2⟩ := compileAll_acts env a.compile
  refine ⟨k, ?_, ?_⟩ <;> simp [swyardMain, startFramework, startTest, hc, hl, hi, hp, h1]
  exact h2

/-- The run of a live program. -/
theorem swyard_live (env : StartEnv) (a : SwyardArgs) (c : CodeArgs) (code : List Char)
    (hu : a.usercode = some code) (hl : a.listif = false) (hi : a.cli = false) (hc : a.compile = [])
    (ht : a.tests = []) (hp : parseCodeargs (some a.codearg) = .ok c) :
    swyardMain env a = startReal env a c := by
  simp [swyardMain, startFramework, hu, hl, hi, hc, ht, hp]

/-- **C147 (part): live programs.** If there are devices, the firewall and the network can be set up and the
user's code can be imported, then the host's traffic on exactly the devices chosen by `-i` and `-x` is blocked
by the rules given with `-f`, or all of it if there are none, the code is run with the arguments given with
`-g`, unless it is a dry run, and the firewall is restored.  *Missing:* with `-a` the rules are ignored. -/
theorem swyard_live_partial (env : StartEnv) (a : SwyardArgs) (c : CodeArgs) (code : List Char)
    (hu : a.usercode = some code) (hl : a.listif = false) (hi : a.cli = false) (hc : a.compile = [])
    (ht : a.tests = []) (hp : parseCodeargs (some a.codearg) = .ok c) (happ : a.app = none)
    (hd : makeDeviceList env.pcap env.real a.intf a.exclude ≠ [])
    (hf : ∀ ds rs, env.firewall ds rs = none) (hn : env.net = none) (him : env.imports = none) :
    let devs := makeDeviceList env.pcap env.real a.intf a.exclude
    let rules := if a.firewall = [] then ["all".toList] else a.firewall
    (swyardMain env a).acts =
      [.blocked devs rules, .opened devs, .imported code] ++
      (if a.dryrun then [.closed] else if env.code.isSome then [.ran c] else [.ran c, .closed]) ++ [.restored] := by
  rw [swyard_live env a c code hu hl hi hc ht hp]
  simp only [startReal, startOn, hd, if_false, hf, startNet, hn, mainReal, him, hu, Option.getD_some,
    SwyardArgs.rules, happ, Option.isSome_none, Bool.false_eq_true]
  cases a.dryrun <;> cases env.code <;> simp

/-- With `-a`, the rules given with `-f` are ignored and nothing is blocked. -/
theorem swyard_app_rules_violated (env : StartEnv) (a : SwyardArgs) (ds rs : List (List Char))
    (happ : a.app.isSome) (h : .blocked ds rs ∈ (swyardMain env a).acts) : rs = [] := by
  have hr : a.rules = [] := by simp [SwyardArgs.rules, happ]
  have hnot : ∀ l, ∀ x ∈ (compileAll env l).1, x ≠ .blocked ds rs := by
    intro l x hx
    obtain ⟨k, h1, -⟩ := compileAll_acts env l
    rw [h1] at hx
    obtain ⟨s, -, rfl⟩ := List.mem_map.mp hx
    simp
  have htest : ∀ c code, StartAct.blocked ds rs ∉ (mainTest env a c code).1 := by
    intro c code; unfold mainTest; split
    · simp
    · split <;> simp
  have hreal : ∀ c ds' code, StartAct.blocked ds rs ∉ (startNet env a c ds' code).1 := by
    intro c ds' code; unfold startNet mainReal
    split
    · simp
    · split
      · simp
      · split
        · simp
        · split <;> simp
  unfold swyardMain startFramework startSim startTest startReal startOn at h
  repeat' split at h
  all_goals first
    | (simp at h; done)
    | (exact absurd rfl (hnot _ _ h))
    | (simp only [hr, List.cons_append, List.mem_cons, List.mem_append, List.not_mem_nil, or_false,
        reduceCtorEq] at h
       rcases h with h | h
       · injection h
       · first | exact absurd h (htest _ _) | exact absurd h (hreal _ _ _))

/-- Scenarios (`-t`): the user's code is imported once and run against all of them, in the order given; the
host's devices are not opened and no traffic is blocked, and the stand-in for the firewall is taken away. -/
theorem swyard_tests (env : StartEnv) (a : SwyardArgs) (c : CodeArgs) (code : List Char)
    (hu : a.usercode = some code) (hl : a.listif = false) (hi : a.cli = false) (hc : a.compile = [])
    (ht : a.tests ≠ []) (hp : parseCodeargs (some a.codearg) = .ok c)
    (hf : ∀ ds rs, env.firewall ds rs = none) (him : env.imports = none) :
    (swyardMain env a).acts =
      [.blocked [] a.rules, .imported code] ++ (if a.dryrun then [] else [.tested a.tests c]) ++ [.restored] ∧
    (∀ x ∈ (swyardMain env a).acts, x.touches = false) := by
  have : (swyardMain env a).acts =
      [.blocked [] a.rules, .imported code] ++ (if a.dryrun then [] else [.tested a.tests c]) ++ [.restored] := by
    simp only [swyardMain, startFramework, startTest, mainTest, hu, hl, hi, hc, ht, hp, hf, him, ne_eq,
      not_true, not_false_eq_true, or_true, if_true, if_false, Bool.false_eq_true, Option.isNone_some, false_and]
    cases a.dryrun <;> rfl
  refine ⟨this, ?_⟩
  rw [this]
  cases a.dryrun <;> simp [StartAct.touches]

/-- Whatever the command line: nothing of the user's is run in a dry run, or with `-c` or `--listif`; and
without `-t`, no scenario is run. -/
theorem swyard_runs (env : StartEnv) (a : SwyardArgs) (x : StartAct) (hx : x ∈ (swyardMain env a).acts)
    (hr : x.runs = true) : a.dryrun = false ∧ a.compile = [] ∧ a.listif = false ∧ a.usercode.isSome ∧
      (a.tests ≠ [] → ∃ c, x = .tested a.tests c) ∧ (a.tests = [] → ∃ c, x = .ran c) := by
  have hcomp : ∀ l, x ∉ (compileAll env l).1 := by
    intro l hx
    obtain ⟨k, h1, -⟩ := compileAll_acts env l
    rw [h1] at hx
    obtain ⟨s, -, rfl⟩ := List.mem_map.mp hx
    simp [StartAct.runs] at hr
  unfold swyardMain at hx
  split at hx
  · simp at hx; subst hx; simp [StartAct.runs] at hr
  next hmain =>
  unfold startFramework at hx
  split at hx
  · simp at hx; subst hx; simp [StartAct.runs] at hr
  next hl =>
  split at hx
  · simp at hx
  next c hc =>
  split at hx
  · unfold startSim at hx; split at hx
    · simp at hx
    · simp at hx; subst hx; simp [StartAct.runs] at hr
  split at hx
  · next hct =>
    unfold startTest at hx
    split at hx
    · exact absurd hx (hcomp _)
    next hcm =>
    have hcm' : a.compile = [] := by simpa using hcm
    have htt : a.tests ≠ [] := by simpa [hcm'] using hct
    split at hx
    · simp at hx
    next code hu =>
    split at hx
    · simp at hx
    unfold mainTest at hx
    split at hx
    · simp at hx; rcases hx with rfl | rfl <;> simp [StartAct.runs] at hr
    split at hx
    · simp at hx; rcases hx with rfl | rfl | rfl <;> simp [StartAct.runs] at hr
    next hdry =>
    simp at hx
    rcases hx with rfl | rfl | rfl | rfl
    · simp [StartAct.runs] at hr
    · simp [StartAct.runs] at hr
    · exact ⟨by simpa using hdry, hcm', by simpa using hl, by simp [hu], fun _ => ⟨c, rfl⟩, fun e => absurd e htt⟩
    · simp [StartAct.runs] at hr
  · next hct =>
    have hct' : a.compile = [] ∧ a.tests = [] := by simpa using hct
    have hu : a.usercode.isSome := by
      cases hu : a.usercode with
      | some _ => rfl
      | none => exact absurd ⟨by simp [hu], hct'.1, by simpa using hl⟩ hmain
    unfold startReal startOn at hx
    split at hx
    · simp at hx; subst hx; simp [StartAct.runs] at hr
    split at hx
    · simp at hx
    unfold startNet at hx
    split at hx
    · simp at hx; rcases hx with rfl | rfl <;> simp [StartAct.runs] at hr
    unfold mainReal at hx
    split at hx
    · simp at hx; rcases hx with rfl | rfl | rfl <;> simp [StartAct.runs] at hr
    split at hx
    · simp at hx; rcases hx with rfl | rfl | rfl | rfl | rfl <;> simp [StartAct.runs] at hr
    next hdry =>
    have fin : x = .ran c → a.dryrun = false ∧ a.compile = [] ∧ a.listif = false ∧ a.usercode.isSome ∧
        (a.tests ≠ [] → ∃ c, x = .tested a.tests c) ∧ (a.tests = [] → ∃ c, x = .ran c) := fun e =>
      ⟨by simpa using hdry, hct'.1, by simpa using hl, hu, fun h => absurd hct'.2 h, fun _ => ⟨c, e⟩⟩
    split at hx
    · simp at hx
      rcases hx with rfl | rfl | rfl | h | rfl
      · simp [StartAct.runs] at hr
      · simp [StartAct.runs] at hr
      · simp [StartAct.runs] at hr
      · exact fin h
      · simp [StartAct.runs] at hr
    · simp at hx
      rcases hx with rfl | rfl | rfl | h | rfl | rfl
      · simp [StartAct.runs] at hr
      · simp [StartAct.runs] at hr
      · simp [StartAct.runs] at hr
      · exact fin h
      · simp [StartAct.runs] at hr
      · simp [StartAct.runs] at hr

/-- A firewall that was set up is restored, whatever happens then: also if user code cannot be imported, or
raises. -/
theorem swyard_restores (env : StartEnv) (a : SwyardArgs) (ds rs : List (List Char))
    (h : .blocked ds rs ∈ (swyardMain env a).acts) : (swyardMain env a).acts.getLast? = some .restored := by
  have hnot : ∀ l, ∀ x ∈ (compileAll env l).1, x ≠ .blocked ds rs := by
    intro l x hx
    obtain ⟨k, h1, -⟩ := compileAll_acts env l
    rw [h1] at hx
    obtain ⟨s, -, rfl⟩ := List.mem_map.mp hx
    simp
  revert h
  unfold swyardMain startFramework startSim startTest startReal startOn
  repeat' split
  all_goals first
    | (intro h; simp at h; done)
    | (intro h; exact absurd rfl (hnot _ _ h))
    | (intro _; simp only [List.cons_append]; rw [← List.cons_append, List.getLast?_append]; rfl)

/-- **C147 is false (1).** `--cli` without the name of user code prints the usage and does not simulate. -/
theorem swyard_cli_violated (env : StartEnv) (a : SwyardArgs) (hu : a.usercode = none) (hc : a.compile = [])
    (hl : a.listif = false) : swyardMain env a = ⟨[.usage], none, .absent, false⟩ := by
  simp [swyardMain, hu, hc, hl]

/-- **C147 is false (2).** With `--topology` the simulation is never started. -/
theorem swyard_topology_violated (env : StartEnv) (a : SwyardArgs) (ht : a.topology.isSome) :
    .simulated ∉ (swyardMain env a).acts := by
  have hnot : ∀ l, StartAct.simulated ∉ (compileAll env l).1 := by
    intro l hx
    obtain ⟨k, h1, -⟩ := compileAll_acts env l
    rw [h1] at hx
    obtain ⟨s, -, h⟩ := List.mem_map.mp hx
    cases h
  have htest : ∀ c code, StartAct.simulated ∉ (mainTest env a c code).1 := by
    intro c code; unfold mainTest; split
    · simp
    · split <;> simp
  have hreal : ∀ c ds' code, StartAct.simulated ∉ (startNet env a c ds' code).1 := by
    intro c ds' code; unfold startNet mainReal
    split
    · simp
    · split
      · simp
      · split
        · simp
        · split <;> simp
  unfold swyardMain startFramework startSim startTest startReal startOn
  repeat' split
  all_goals first
    | (simp; done)
    | exact hnot _
    | (simp only [List.cons_append, List.mem_cons, List.mem_append, List.not_mem_nil, or_false,
        reduceCtorEq, false_or]; first | exact htest _ _ | exact hreal _ _ _)
    | (exfalso; simp_all; done)

/-- `--cli` with the name of some user code, and without `--topology`, starts the simulation and nothing
else. -/
theorem swyard_cli_partial (env : StartEnv) (a : SwyardArgs) (c : CodeArgs) (hi : a.cli = true)
    (hu : a.usercode.isSome) (hl : a.listif = false) (ht : a.topology = none)
    (hp : parseCodeargs (some a.codearg) = .ok c) :
    swyardMain env a = ⟨[.simulated], env.sim, .absent, false⟩ := by
  cases hu' : a.usercode with
  | none => simp [hu'] at hu
  | some u => simp [swyardMain, startFramework, startSim, hi, hu', hl, ht, hp]

/-- **C147 is false (2), continued.** It ends with `NameError` instead. -/
theorem swyard_topology_raises_violated (env : StartEnv) (a : SwyardArgs) (c : CodeArgs) (hi : a.cli = true)
    (hu : a.usercode.isSome) (hl : a.listif = false) (ht : a.topology.isSome)
    (hp : parseCodeargs (some a.codearg) = .ok c) :
    swyardMain env a = ⟨[], some .nameError, .absent, false⟩ := by
  cases hu' : a.usercode with
  | none => simp [hu'] at hu
  | some u => simp [swyardMain, startFramework, startSim, hi, hu', hl, ht, hp]

/-- An environment for the examples: two Ethernet devices and the loopback device; all goes well. -/
def fineEnv : StartEnv where
  pcap := [⟨"eth0".toList, false⟩, ⟨"eth1".toList, false⟩, ⟨"lo".toList, true⟩]
  real := fun _ => true
  firewall := fun _ _ => none
  compiles := fun _ => none
  sim := none
  imports := none
  tests := none
  net := none
  code := none

-- swyard -x eth1 -f tcp -g "3 k=v" hub.py
example : (swyardMain fineEnv
    { exclude := ["eth1".toList], firewall := ["tcp".toList], usercode := some "hub.py".toList, codearg := "3 k=v".toList }).acts =
    [.blocked ["eth0".toList] ["tcp".toList], .opened ["eth0".toList], .imported "hub.py".toList,
     .ran ⟨["3".toList], [("k".toList, "v".toList)]⟩, .closed, .restored] :=
  swyard_live_partial fineEnv _ ⟨["3".toList], [("k".toList, "v".toList)]⟩ _ rfl rfl rfl rfl rfl
    (by decide +kernel) rfl (by decide) (fun _ _ => rfl) rfl rfl
-- swyard -f tcp -a app.py stack.py
example : (swyardMain fineEnv
    { firewall := ["tcp".toList], usercode := some "stack.py".toList, app := some "app.py".toList }).acts.head? = some (.blocked ["eth0".toList, "eth1".toList] []) := by
  decide +kernel
-- swyard -c t1.py -c t2.py
example : (swyardMain fineEnv { compile := ["t1.py".toList, "t2.py".toList] }).acts =
    [.compiled "t1.py".toList, .compiled "t2.py".toList] := by decide +kernel

/-! ### C148: an application is started when the network is set up -/

/-- **C148 (part).** With `-a`, the application is started exactly if the firewall has been set up, and its
thread ends without starting it exactly if there are no devices.  *Missing:* in all other cases its thread
hangs. -/
theorem app_started_partial (env : StartEnv) (a : SwyardArgs) (happ : a.app.isSome) (hl : a.listif = false)
    (hi : a.cli = false) (c : CodeArgs) (hp : parseCodeargs (some a.codearg) = .ok c)
    (hu : a.usercode.isSome ∨ a.compile ≠ []) :
    ((swyardMain env a).app = .started ↔ ∃ ds rs, .blocked ds rs ∈ (swyardMain env a).acts) ∧
    ((swyardMain env a).app = .skipped ↔ (swyardMain env a).acts = [.noDevices]) ∧
    (swyardMain env a).app ≠ .absent := by
  have hcomp : ∀ l ds rs, StartAct.blocked ds rs ∉ (compileAll env l).1 := by
    intro l ds rs hx
    obtain ⟨k, h1, -⟩ := compileAll_acts env l
    rw [h1] at hx
    obtain ⟨s, -, h⟩ := List.mem_map.mp hx
    cases h
  have hcomp2 : ∀ l, (compileAll env l).1 ≠ [.noDevices] := by
    intro l hx
    obtain ⟨k, h1, -⟩ := compileAll_acts env l
    rw [h1] at hx
    cases hk : List.take k l with
    | nil => simp [hk] at hx
    | cons s t => simp [hk] at hx
  have hnone : a.app.isNone = false := by cases h : a.app <;> simp_all
  have h1 : swyardMain env a = startFramework env a := by
    rw [swyardMain, if_neg]
    rintro ⟨h1, h2, -⟩
    rcases hu with hu | hu
    · cases h : a.usercode <;> simp_all
    · exact hu h2
  rw [h1]
  simp only [startFramework, hl, hi, hp, Bool.false_eq_true, if_false]
  split
  · unfold startTest
    split
    · simp [SwyardArgs.fate, hnone, hcomp, hcomp2]
    · split
      · simp [SwyardArgs.fate, hnone]
      · split
        · simp [SwyardArgs.fate, hnone]
        · simp [SwyardArgs.fate, hnone]
          exact ⟨_, _, .inl ⟨rfl, rfl⟩⟩
  · unfold startReal startOn
    split
    · simp [SwyardArgs.fate, hnone]
    · split
      · simp [SwyardArgs.fate, hnone]
      · simp [SwyardArgs.fate, hnone]
        exact ⟨_, _, .inl ⟨rfl, rfl⟩⟩

/-- **C148 is false.** With `-a` and `-c` the thread of the application waits for ever, so that the program
never ends; likewise if the firewall cannot be set up. -/
theorem app_hangs_violated (env : StartEnv) (a : SwyardArgs) (happ : a.app.isSome) (hl : a.listif = false)
    (hi : a.cli = false) (c : CodeArgs) (hp : parseCodeargs (some a.codearg) = .ok c) :
    (a.compile ≠ [] → (swyardMain env a).app = .stuck) ∧
    (a.usercode.isSome → a.compile = [] → a.tests = [] →
      makeDeviceList env.pcap env.real a.intf a.exclude ≠ [] → (∀ ds rs, (env.firewall ds rs).isSome) →
      (swyardMain env a).app = .stuck ∧ (swyardMain env a).raised.isSome) := by
  have hnone : a.app.isNone = false := by cases h : a.app <;> simp_all
  refine ⟨fun hc => ?_, fun hu hc ht hd hf => ?_⟩
  · simp [swyardMain, startFramework, startTest, hl, hi, hp, hc, SwyardArgs.fate, hnone]
  · cases hu' : a.usercode with
    | none => simp [hu'] at hu
    | some u =>
      have := hf (makeDeviceList env.pcap env.real a.intf a.exclude) a.rules
      cases hfw : env.firewall (makeDeviceList env.pcap env.real a.intf a.exclude) a.rules with
      | none => simp [hfw] at this
      | some e =>
        simp [swyardMain, startFramework, startReal, startOn, hl, hi, hp, hc, ht, hd, hfw, SwyardArgs.fate, hnone, hu']

/-- The invariant of the two threads. -/
def DuoInv (s : Duo) : Prop :=
  (s.ok = true → s.main ≠ .start ∧ s.main ≠ .fw) ∧
  (s.main = .ready ∨ s.main = .past ∨ s.main = .running ∨ s.main = .ended → s.ok = true) ∧
  (s.main = .fw ∨ s.main = .ready ∨ s.main = .past ∨ s.main = .running → s.blocked = true) ∧
  (s.app = .past ∨ s.app = .running ∨ s.app = .after ∨ s.app = .done →
    s.main = .past ∨ s.main = .running ∨ s.main = .ended) ∧
  (s.net = true ↔ s.main = .running ∨ s.main = .ended)

theorem duo_inv_step (s s' : Duo) (e : DuoEv) (h : DuoInv s) (hs : s.step e = some s') : DuoInv s' := by
  obtain ⟨h1, h2, h3, h4, h5⟩ := h
  cases e <;> simp only [Duo.step] at hs <;> split at hs <;> cases hs <;>
    (refine ⟨?_, ?_, ?_, ?_, ?_⟩ <;> simp_all)

theorem duo_inv (s s' : Duo) (es : List DuoEv) (h : DuoInv s) (hr : s.run es = some s') : DuoInv s' := by
  induction es generalizing s with
  | nil => cases hr; exact h
  | cons e es ih =>
    simp only [Duo.run] at hr
    cases hs : s.step e with
    | none => simp [hs] at hr
    | some t => rw [hs] at hr; exact ih t (duo_inv_step s t e h hs) hr

theorem duo_inv_init : DuoInv Duo.init := by simp [DuoInv, Duo.init]

/-- **C148 (part).** In every interleaving of the two threads of a live program, when the application starts,
the firewall has been set up; it is still in force unless the user's code has ended. -/
theorem app_after_setup (es : List DuoEv) (s : Duo) (h : Duo.init.run es = some s) (ha : s.app = .running) :
    DuoEv.enterFirewall ∈ es ∧ DuoEv.setOk ∈ es ∧ (s.blocked = true ∨ s.main = .ended) := by
  have hi := duo_inv _ s es duo_inv_init h
  obtain ⟨h1, h2, h3, h4, h5⟩ := hi
  have hm := h4 (.inr (.inl ha))
  have trace : ∀ (es : List DuoEv) (t s : Duo), t.run es = some s →
      (t.main = .start → s.main ≠ .start → DuoEv.enterFirewall ∈ es) ∧
      (t.ok = false → s.ok = true → DuoEv.setOk ∈ es) := by
    intro es
    induction es with
    | nil => intro t s h; cases h; exact ⟨fun a b => absurd a b, fun a b => by simp [a] at b⟩
    | cons e es ih =>
      intro t s h
      simp only [Duo.run] at h
      cases hs : t.step e with
      | none => simp [hs] at h
      | some u =>
        rw [hs] at h
        obtain ⟨i1, i2⟩ := ih u s h
        refine ⟨fun a b => ?_, fun a b => ?_⟩
        · by_cases he : e = .enterFirewall
          · simp [he]
          · have : u.main = .start := by
              cases e <;> simp only [Duo.step] at hs <;> split at hs <;> cases hs <;> simp_all
            exact List.mem_cons_of_mem _ (i1 this b)
        · by_cases he : e = .setOk
          · simp [he]
          · have : u.ok = false := by
              cases e <;> simp only [Duo.step] at hs <;> split at hs <;> cases hs <;> simp_all
            exact List.mem_cons_of_mem _ (i2 this b)
  obtain ⟨t1, t2⟩ := trace es _ s h
  refine ⟨t1 rfl (by rcases hm with h | h | h <;> simp [h]), t2 rfl (h2 (.inr hm)), ?_⟩
  rcases hm with h | h | h
  · exact .inl (h3 (.inr (.inr (.inl h))))
  · exact .inl (h3 (.inr (.inr (.inr h))))
  · exact .inr h

example : ∃ s, Duo.init.run [.enterFirewall, .appWaits, .setOk, .mainWaits, .appLooks] = some s ∧
    s.app = .running := ⟨_, rfl, rfl⟩

/-! ### C149: the end of a live program -/

/-- **C149 (part).** If the user's code returns, or in a dry run, the threads that receive packets are
stopped.  *Missing:* if the code cannot be imported or raises, they are not. -/
theorem live_ends_partial (env : StartEnv) (a : SwyardArgs)
    (h : env.imports = none ∧ (a.dryrun = true ∨ env.code = none)) : (swyardMain env a).receiving = false := by
  obtain ⟨h1, h2⟩ := h
  unfold swyardMain startFramework startSim startTest startReal startOn startNet mainReal
  repeat' split
  all_goals first
    | rfl
    | (simp_all; done)

/-- **C149 is false (1).** If the user's code raises an exception in a live program, or cannot be imported,
the threads that receive packets go on, so that the program does not end, whatever the other options. -/
theorem live_ends_violated (env : StartEnv) (a : SwyardArgs) (c : CodeArgs) (code : List Char)
    (hu : a.usercode = some code) (hl : a.listif = false) (hi : a.cli = false) (hc : a.compile = [])
    (ht : a.tests = []) (hp : parseCodeargs (some a.codearg) = .ok c)
    (hd : makeDeviceList env.pcap env.real a.intf a.exclude ≠ [])
    (hf : ∀ ds rs, env.firewall ds rs = none) (hn : env.net = none)
    (h : env.imports.isSome ∨ (a.dryrun = false ∧ env.code.isSome)) : (swyardMain env a).receiving = true := by
  rw [swyard_live env a c code hu hl hi hc ht hp]
  simp only [startReal, startOn, hd, if_false, hf, startNet, hn, mainReal, hu, Option.getD_some]
  rcases h with h | ⟨h1, h2⟩
  · cases hi' : env.imports with
    | none => simp [hi'] at h
    | some e => rfl
  · cases hi' : env.imports with
    | some e => rfl
    | none =>
      cases hc' : env.code with
      | none => simp [hc'] at h2
      | some e => simp [h1]

/-- **C149 (part).** If the network object exists when the application ends, the network is shut down when the
application's thread is done.  *Missing:* the network object may not exist yet. -/
theorem app_ends_partial (es fs : List DuoEv) (s t : Duo) (h : Duo.init.run es = some s) (hn : s.net = true)
    (ha : s.app = .running ∨ s.app = .after) (h' : s.run fs = some t) (hd : t.app = .done) : t.shut = true := by
  clear h
  have step : ∀ (fs : List DuoEv) (s : Duo), s.run fs = some t → s.net = true →
      (s.app = .done → s.shut = true) → t.shut = true := by
    intro fs
    induction fs with
    | nil => intro s h _ hsd; cases h; exact hsd hd
    | cons e fs ih =>
      intro s h hnet hsd
      simp only [Duo.run] at h
      cases hs : s.step e with
      | none => simp [hs] at h
      | some u =>
        rw [hs] at h
        refine ih u h ?_ ?_
        · cases e <;> simp only [Duo.step] at hs <;> split at hs <;> cases hs <;> simp_all
        · cases e <;> simp only [Duo.step] at hs <;> split at hs <;> cases hs <;> simp_all
          split <;> simp
  exact step fs s h' hn (by rcases ha with h | h <;> simp [h])

/-- **C149 is false (2).** An application that ends quickly does not shut the network down: its thread is done
before the main thread has made the network object, and the user's code then runs on. -/
theorem app_ends_violated : ∃ es s, Duo.init.run es = some s ∧ DuoEv.appEnds ∈ es ∧ s.app = .done ∧
    s.main = .running ∧ s.shut = false ∧ ∀ fs t, s.run fs = some t → t.shut = false := by
  refine ⟨[.appWaits, .enterFirewall, .setOk, .mainWaits, .appLooks, .appEnds, .appShuts, .makeNet], _, rfl,
    by simp, rfl, rfl, rfl, ?_⟩
  have step : ∀ (fs : List DuoEv) (s t : Duo), s.run fs = some t → s.app = .done → s.shut = false →
      t.shut = false := by
    intro fs
    induction fs with
    | nil => intro s t h _ hs; cases h; exact hs
    | cons e fs ih =>
      intro s t h ha hsh
      simp only [Duo.run] at h
      cases hs : s.step e with
      | none => simp [hs] at h
      | some u =>
        rw [hs] at h
        refine ih u t h ?_ ?_ <;>
          cases e <;> simp only [Duo.step] at hs <;> split at hs <;> cases hs <;> simp_all
  intro fs t h
  exact step fs _ t h rfl rfl

example : (swyardMain { fineEnv with code := some .valueError } { usercode := some "hub.py".toList }).receiving =
    true :=
  live_ends_violated _ _ ⟨[], []⟩ "hub.py".toList rfl rfl rfl rfl rfl (by decide +kernel) (by decide)
    (fun _ _ => rfl) rfl (.inr ⟨rfl, rfl⟩)
example : (swyardMain fineEnv { usercode := some "hub.py".toList }).receiving = false :=
  live_ends_partial _ _ ⟨rfl, .inr rfl⟩

end SY.Props
