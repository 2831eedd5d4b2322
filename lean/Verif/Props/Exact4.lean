import Verif.Props.Units
import Verif.Props.Pcap

/-! # Further exact results, found missing by editing the model -/

namespace SY.Props

open SY

/-! ## Texts of decimal numbers -/

/-- `s` is a decimal numeral for `v / q`: digits, or digits around one point with at least one digit. -/
inductive Numeral : List Char → Nat → Nat → Prop
  | whole (s : List Char) : s ≠ [] → (∀ c ∈ s, c.isDigit = true) → Numeral s (digitsVal s) 1
  | point (w f : List Char) : w ++ f ≠ [] → (∀ c ∈ w, c.isDigit = true) → (∀ c ∈ f, c.isDigit = true) →
      Numeral (w ++ '.' :: f) (digitsVal w * 10 ^ f.length + digitsVal f) (10 ^ f.length)

/-- Numerals are read with their value, and every other text is a `ValueError`. -/
theorem decimal_text (s : List Char) (x : Nat × Nat) : parseDecimal s = .ok x ↔ Numeral s x.1 x.2 := by
  constructor
  · intro h
    unfold parseDecimal at h
    have hs : s.takeWhile Char.isDigit ++ s.dropWhile Char.isDigit = s := List.takeWhile_append_dropWhile
    have hd : ∀ c ∈ s.takeWhile Char.isDigit, c.isDigit = true := fun c hc => List.all_eq_true.mp List.all_takeWhile c hc
    split at h
    · rename_i h0
      split at h
      · cases h
      · rename_i hne
        cases h
        rw [h0, List.append_nil] at hs
        exact .whole s hne (hs ▸ hd)
    · rename_i b h0
      split at h
      · rename_i hc
        cases h
        simp only [Bool.and_eq_true, List.all_eq_true, Bool.or_eq_true, decide_eq_true_eq] at hc
        rw [h0] at hs
        simp only
        rw [digitsVal_append]
        generalize s.takeWhile Char.isDigit = w at hs hd hc ⊢
        subst hs
        refine .point w b ?_ hd hc.1
        intro he
        have := List.append_eq_nil_iff.mp he
        rcases hc.2 with h | h
        · exact h this.1
        · exact h this.2
      · cases h
    · cases h
  · intro h
    obtain ⟨v, q⟩ := x
    simp only at h
    cases h with
    | whole _ hne hd =>
      unfold parseDecimal
      rw [(takeWhile_all _ _ hd).2]
      simp only [if_neg hne]
    | point w f hne hw hf =>
      obtain ⟨h1, h2⟩ := takeWhile_append_stop Char.isDigit w '.' f hw rfl
      unfold parseDecimal
      rw [h2]
      simp only [h1]
      rw [if_pos, digitsVal_append]
      simp only [Bool.and_eq_true, List.all_eq_true, Bool.or_eq_true, decide_eq_true_eq]
      refine ⟨hf, ?_⟩
      by_cases hw0 : w = []
      · exact .inr fun hf0 => hne (by rw [hw0, hf0]; rfl)
      · exact .inl hw0

theorem decimal_text_error (s : List Char) (e : PyErr) (h : parseDecimal s = .error e) : e = .valueError := by
  unfold parseDecimal at h
  split at h
  · split at h <;> cases h; rfl
  · split at h <;> cases h; rfl
  · cases h; rfl

theorem numChar_not_space {c : Char} (h : isNumChar c = true) : isSpace c = false := by
  simp only [isNumChar, Bool.or_eq_true, decide_eq_true_eq] at h
  rcases h with h | rfl
  · exact isDigit_not_space h
  · rfl

theorem takeWhile_append_of {α : Type} (p : α → Bool) (a b : List α) (ha : ∀ x ∈ a, p x = true)
    (hb : ∀ c, b.head? = some c → p c = false) : (a ++ b).takeWhile p = a ∧ (a ++ b).dropWhile p = b := by
  cases b with
  | nil => rw [List.append_nil]; exact takeWhile_all p a ha
  | cons c b => exact takeWhile_append_stop p a c b ha (hb c rfl)

/-- Blanks before and after the number are passed over, and the number ends where its digits and points end. -/
theorem numberAndRest_text (pre v sp rest : List Char) (hpre : ∀ c ∈ pre, isSpace c = true) (hne : v ≠ [])
    (hv : ∀ c ∈ v, isNumChar c = true) (hsp : ∀ c ∈ sp, isSpace c = true)
    (hr : ∀ c, rest.head? = some c → isNumChar c = false ∧ isSpace c = false) :
    numberAndRest (pre ++ (v ++ (sp ++ rest))) = some (v, rest) := by
  have h1 : (pre ++ (v ++ (sp ++ rest))).dropWhile isSpace = v ++ (sp ++ rest) := by
    refine (takeWhile_append_of isSpace pre _ hpre ?_).2
    intro c hc
    obtain ⟨d, v', rfl⟩ := List.exists_cons_of_ne_nil hne
    cases hc
    exact numChar_not_space (hv _ List.mem_cons_self)
  obtain ⟨h2, h3⟩ := takeWhile_append_of isNumChar v (sp ++ rest) hv (by
    intro c hc
    cases sp with
    | nil => exact (hr c hc).1
    | cons d sp =>
      cases hc
      cases hn : isNumChar c with
      | false => rfl
      | true => exact absurd (hsp c List.mem_cons_self) (by
          rw [numChar_not_space hn]; decide))
  have h4 := (takeWhile_append_of isSpace sp rest hsp fun c hc => (hr c hc).2).2
  unfold numberAndRest
  rw [h1, h2, h3, h4, if_neg hne]

/-- **C93**: a text of blanks, a number, blanks, a unit and anything after it is read as that many of the unit, `None` if
the unit is unknown, and a `ValueError` if the digits and points are no number. -/
theorem delay_text (pre v sp unit rest : List Char) (hpre : ∀ c ∈ pre, isSpace c = true) (hne : v ≠ [])
    (hv : ∀ c ∈ v, isNumChar c = true) (hsp : ∀ c ∈ sp, isSpace c = true) (hu : ∀ c ∈ unit, isWord c = true)
    (hr : ∀ c, (unit ++ rest).head? = some c → isNumChar c = false ∧ isSpace c = false)
    (hend : ∀ c, rest.head? = some c → isWord c = false) :
    (∀ a q, Numeral v a q → unhumanizeDelay (pre ++ (v ++ (sp ++ (unit ++ rest)))) =
      .ok ((delayDivisor unit).map fun d => (a, q * d))) ∧
    ((∀ a q, ¬ Numeral v a q) → unhumanizeDelay (pre ++ (v ++ (sp ++ (unit ++ rest)))) = .error .valueError) := by
  have h1 := numberAndRest_text pre v sp (unit ++ rest) hpre hne hv hsp hr
  have h2 := (takeWhile_append_of isWord unit rest hu hend).1
  unfold unhumanizeDelay
  simp only [h1, h2]
  constructor
  · intro a q hn
    rw [(decimal_text v (a, q)).mpr hn, bind_ok]
    cases delayDivisor unit <;> rfl
  · intro hn
    cases hp : parseDecimal v with
    | ok x => exact absurd ((decimal_text v x).mp hp) (hn _ _)
    | error e => rw [decimal_text_error v e hp]; rfl

/-- A text without a number at its start is read as `None`. -/
theorem delay_no_number (pre rest : List Char) (hpre : ∀ c ∈ pre, isSpace c = true)
    (hr : ∀ c, rest.head? = some c → isNumChar c = false ∧ isSpace c = false) :
    unhumanizeDelay (pre ++ rest) = .ok none ∧ unhumanizeBandwidth (pre ++ rest) = .ok none := by
  have h1 := (takeWhile_append_of isSpace pre rest hpre fun c hc => (hr c hc).2).2
  have h2 := (takeWhile_append_of isNumChar [] rest (by simp) fun c hc => (hr c hc).1).1
  rw [List.nil_append] at h2
  have : numberAndRest (pre ++ rest) = none := by unfold numberAndRest; rw [h1, if_pos h2]
  unfold unhumanizeDelay unhumanizeBandwidth
  rw [this]
  exact ⟨rfl, rfl⟩

/-- Likewise for capacities: the numeral is scaled by what the unit says; bad numerals are a `ValueError`. -/
theorem bandwidth_text (pre v sp units : List Char) (hpre : ∀ c ∈ pre, isSpace c = true) (hne : v ≠ [])
    (hv : ∀ c ∈ v, isNumChar c = true) (hsp : ∀ c ∈ sp, isSpace c = true)
    (hr : ∀ c, units.head? = some c → isNumChar c = false ∧ isSpace c = false) :
    (∀ a q, Numeral v a q → unhumanizeBandwidth (pre ++ (v ++ (sp ++ units))) =
      .ok (some (bwCompute (a, q) (bwScale units)))) ∧
    ((∀ a q, ¬ Numeral v a q) → unhumanizeBandwidth (pre ++ (v ++ (sp ++ units))) = .error .valueError) := by
  have h1 := numberAndRest_text pre v sp units hpre hne hv hsp hr
  unfold unhumanizeBandwidth
  simp only [h1]
  constructor
  · intro a q hn
    rw [(decimal_text v (a, q)).mpr hn]
    rfl
  · intro hn
    cases hp : parseDecimal v with
    | ok x => exact absurd ((decimal_text v x).mp hp) (hn _ _)
    | error e => rw [decimal_text_error v e hp]; rfl

/-- Half a millisecond, written without the leading zero; and a text whose number is only a point. -/
example : unhumanizeDelay "  .5 msec, roughly".toList = .ok (some (5, 10000)) ∧
    unhumanizeDelay ". msec".toList = .error .valueError :=
  ⟨(delay_text [' ', ' '] ".5".toList [' '] "msec".toList ", roughly".toList (by decide) (by decide) (by decide) (by decide)
      (by decide) (by intro c h; cases h; decide) (by intro c h; cases h; decide)).1 5 10
      (.point [] ['5'] (by decide) (by decide) (by decide)),
   (delay_text [] ['.'] [' '] "msec".toList [] (by decide) (by decide) (by decide) (by decide) (by decide)
      (by intro c h; cases h; decide) (by intro c h; cases h)).2 (by
        intro a q h
        have := (decimal_text ['.'] (a, q)).mpr h
        cases this)⟩

end SY.Props
