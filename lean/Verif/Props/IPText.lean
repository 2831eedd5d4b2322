import Verif.IPText
import Verif.Props.EthAddr
import Verif.Props.Units

/-! # Texts of IP addresses: unambiguous, and IPv4 texts parse back -/

namespace SY.Props
open SY

theorem natText_inj {a b : Nat} (h : natText a = natText b) : a = b := by
  have := congrArg digitsVal h
  simpa [digitsVal, natText] using this

theorem digitsVal_natText (n : Nat) : digitsVal (natText n) = n := by simp [digitsVal, natText]

theorem isDigit_ne {c : Char} (h : c.isDigit = true) (d : Char) (hd : d.isDigit = false) : c ≠ d := by
  rintro rfl; rw [h] at hd; cases hd

theorem natText_not_mem (n : Nat) (c : Char) (hc : c.isDigit = false) : c ∉ natText n :=
  fun h => isDigit_ne (natText_digits n c h) c hc rfl

/-- The first digit of a number with more than one digit is not zero. -/
theorem toDigits_head (n : Nat) : (natText n).length = 1 ∨ (natText n).head? ≠ some '0' := by
  unfold natText
  induction n using Nat.strongRecOn with
  | ind n ih =>
    by_cases h : n < 10
    · left; rw [Nat.toDigits_of_lt_base h]; rfl
    · right
      rw [Nat.toDigits_of_base_le (by omega) (by omega)]
      have := ih (n / 10) (by omega)
      rw [List.head?_append]
      obtain ⟨c, v, hv⟩ := List.exists_cons_of_ne_nil (Nat.toDigits_ne_nil (n := n / 10) (b := 10))
      rw [hv] at this ⊢
      simp only [List.head?_cons, Option.some_or, List.length_cons] at this ⊢
      rcases this with h1 | h1
      · have hl : (Nat.toDigits 10 (n / 10)).length = 1 := by rw [hv]; exact h1
        have h9 : n / 10 < 10 := by
          rcases Nat.lt_or_ge (n / 10) 10 with h | h
          · exact h
          · rw [Nat.toDigits_of_base_le (by omega) h] at hl
            have := List.length_pos_iff.mpr (Nat.toDigits_ne_nil (n := n / 10 / 10) (b := 10))
            simp at hl
        rw [Nat.toDigits_of_lt_base h9] at hv
        have hc : (n / 10).digitChar = c := by simpa using congrArg List.head? hv
        rw [← hc]
        have : n / 10 ≠ 0 := by omega
        generalize n / 10 = k at *
        have hk : ∀ k : Fin 10, k.val ≠ 0 → some k.val.digitChar ≠ some '0' := by decide
        exact hk ⟨k, h9⟩ this
      · exact h1

theorem octetVal_text (b : UInt8) : octetVal (natText b.toNat) = some b := by
  have hb := b.toNat_lt
  unfold octetVal
  rw [if_pos]
  · rw [digitsVal_natText]; simp
  · refine ⟨natText_ne_nil _, ?_, ?_, toDigits_head _, ?_⟩
    · rw [List.all_eq_true]; exact natText_digits _
    · unfold natText; rw [Nat.length_toDigits_le_iff (by omega) (by omega)]; omega
    · rw [digitsVal_natText]; omega

theorem octetVals_text (bs : Bytes) : octetVals (bs.map fun x => natText x.toNat) = some bs := by
  induction bs with
  | nil => rfl
  | cons b bs ih => simp [octetVals, octetVal_text, ih]

theorem splitChar_map (c : Char) (hc : c.isDigit = false) (bs : Bytes) (h : bs ≠ []) :
    splitChar c (joinChar c (bs.map fun x => natText x.toNat)) = bs.map fun x => natText x.toNat := by
  obtain ⟨b, bs', rfl⟩ := List.exists_cons_of_ne_nil h
  rw [List.map_cons]
  apply splitChar_join
  intro q hq
  rw [← List.map_cons (f := fun x : UInt8 => natText x.toNat), List.mem_map] at hq
  obtain ⟨x, _, rfl⟩ := hq
  exact natText_not_mem _ _ hc

/-- IPv4 texts parse back. -/
theorem ipv4Parse_text (a : BitVec 32) : ipv4Parse (ipv4Text a) = some a := by
  have hl : (beEnc 4 a.toNat).length = 4 := length_beEnc 4 _
  unfold ipv4Parse ipv4Text
  rw [splitChar_map '.' (by decide) _ (by intro h; rw [h] at hl; cases hl), if_pos (by rw [List.length_map, hl]), octetVals_text]
  simp [beDec_beEnc (bv32_lt a)]

theorem not_mem_join (c d : Char) (hcd : c ≠ d) (ps : List (List Char)) (h : ∀ q ∈ ps, c ∉ q) : c ∉ joinChar d ps := by
  fun_induction joinChar d ps with
  | case1 => simp
  | case2 p => exact h p (by simp)
  | case3 p q ps ih =>
    have h1 := ih (fun r hr => h r (List.mem_cons_of_mem _ hr))
    have h2 := h p (by simp)
    simp [h1, h2, hcd]

theorem ipv4Text_not_mem (a : BitVec 32) (c : Char) (hc : c.isDigit = false) (hd : c ≠ '.') : c ∉ ipv4Text a := by
  apply not_mem_join c '.' hd
  intro q hq
  obtain ⟨x, _, rfl⟩ := List.mem_map.mp hq
  exact natText_not_mem _ _ hc

/-- `str` and `ip_interface` are inverse to each other on IPv4 interfaces. -/
theorem ipv4IfaceParse_text (a : BitVec 32) (n : Nat) (hn : n ≤ 32) :
    ipv4IfaceParse (IPIface.text ⟨.v4 a, n⟩) = some ⟨.v4 a, n⟩ := by
  have h : splitChar '/' (IPIface.text ⟨.v4 a, n⟩) = [ipv4Text a, natText n] := by
    simp only [IPIface.text, IPAddr.text]
    rw [splitChar_append '/' _ _ (ipv4Text_not_mem a '/' (by decide) (by decide)),
      splitChar_nosep '/' _ (natText_not_mem _ _ (by decide))]
  have hp : plenParse (natText n) = some n := by
    unfold plenParse
    rw [if_pos ⟨natText_ne_nil _, by rw [List.all_eq_true]; exact natText_digits _, by rw [digitsVal_natText]; exact hn⟩,
      digitsVal_natText]
  unfold ipv4IfaceParse
  rw [h]
  simp [ipv4Parse_text, hp]

/-! ## IPv6 -/

/-- What the runs recorded so far say about the groups seen so far. -/
def RunsOk (pre : List (List Char)) (r : ZeroRuns) : Prop :=
  r.bestStart + r.bestLen ≤ pre.length ∧ r.len ≤ pre.length ∧ (0 < r.len → r.start + r.len = pre.length) ∧
  (∀ j, r.bestStart ≤ j → j < r.bestStart + r.bestLen → pre[j]? = some ['0']) ∧
  (0 < r.len → ∀ j, r.start ≤ j → j < r.start + r.len → pre[j]? = some ['0'])

theorem runsOk_step (pre : List (List Char)) (r : ZeroRuns) (h : List Char) (hr : RunsOk pre r) :
    RunsOk (pre ++ [h]) (r.step pre.length h) := by
  obtain ⟨h1, h2, h3, h4, h5⟩ := hr
  have ext : ∀ j : Nat, pre[j]? = some ['0'] → (pre ++ [h])[j]? = some ['0'] := by
    intro j hj
    have hlt : j < pre.length := by
      rcases Nat.lt_or_ge j pre.length with h | h
      · exact h
      · rw [List.getElem?_eq_none h] at hj; cases hj
    rw [List.getElem?_append_left hlt]; exact hj
  have last : h = ['0'] → (pre ++ [h])[pre.length]? = some ['0'] := by rintro rfl; simp
  unfold ZeroRuns.step
  by_cases hh : h = ['0']
  · rw [if_pos hh]
    have cur : ∀ j, (if r.len = 0 then pre.length else r.start) ≤ j →
        j < (if r.len = 0 then pre.length else r.start) + (r.len + 1) → (pre ++ [h])[j]? = some ['0'] := by
      intro j hj hj'
      by_cases h0 : r.len = 0
      · rw [if_pos h0] at hj hj'
        have : j = pre.length := by omega
        rw [this]; exact last hh
      · rw [if_neg h0] at hj hj'
        have := h3 (by omega)
        by_cases he : j = pre.length
        · rw [he]; exact last hh
        · exact ext j (h5 (by omega) j hj (by omega))
    have len : (if r.len = 0 then pre.length else r.start) + (r.len + 1) = pre.length + 1 := by
      by_cases h0 : r.len = 0
      · rw [if_pos h0]; omega
      · rw [if_neg h0]; have := h3 (by omega); omega
    by_cases hb : r.bestLen < r.len + 1
    · rw [if_pos hb]
      refine ⟨?_, ?_, ?_, cur, fun _ => cur⟩
      · simp only [List.length_append, List.length_singleton]; omega
      · simp only [List.length_append, List.length_singleton]; omega
      · intro _; simp only [List.length_append, List.length_singleton]; exact len
    · rw [if_neg hb]
      refine ⟨?_, ?_, ?_, fun j a b => ext j (h4 j a b), fun _ => cur⟩
      · simp only [List.length_append, List.length_singleton]; omega
      · simp only [List.length_append, List.length_singleton]; omega
      · intro _; simp only [List.length_append, List.length_singleton]; exact len
  · rw [if_neg hh]
    refine ⟨?_, ?_, ?_, fun j a b => ext j (h4 j a b), ?_⟩
    · simp only [List.length_append, List.length_singleton]; omega
    · simp
    · intro h; cases h
    · intro h; cases h

theorem runsOk_all (pre : List (List Char)) (r : ZeroRuns) (hs : List (List Char)) (hr : RunsOk pre r) :
    RunsOk (pre ++ hs) (zeroRuns r pre.length hs) := by
  induction hs generalizing pre r with
  | nil => simpa [zeroRuns] using hr
  | cons h hs ih =>
    have := ih (pre ++ [h]) (r.step pre.length h) (runsOk_step pre r h hr)
    simpa [zeroRuns] using this

theorem runsOk_final (hs : List (List Char)) : RunsOk hs (zeroRuns ⟨0, 0, 0, 0⟩ 0 hs) := by
  have := runsOk_all [] ⟨0, 0, 0, 0⟩ hs ⟨by simp, by simp, by simp, by intro j h h'; simp at h', by simp⟩
  simpa using this

/-- Undo the compression: everything between the first and the last empty part was zero. -/
def expandHextets (ps : List (List Char)) : List (List Char) :=
  if [] ∈ ps then
    ps.takeWhile (· ≠ []) ++
      List.replicate (8 - (ps.takeWhile (· ≠ [])).length - (ps.reverse.takeWhile (· ≠ [])).length) ['0'] ++
      (ps.reverse.takeWhile (· ≠ [])).reverse
  else ps

theorem takeWhile_ne (a b : List (List Char)) (ha : ∀ x ∈ a, x ≠ []) : (a ++ [] :: b).takeWhile (· ≠ []) = a :=
  (takeWhile_append_stop _ a [] b (by simpa using ha) (by simp)).1

theorem expand_compress (hs : List (List Char)) (hl : hs.length = 8) (hne : ∀ h ∈ hs, h ≠ []) :
    expandHextets (compressHextets hs) = hs := by
  unfold compressHextets
  obtain ⟨h1, _, _, h4, _⟩ := runsOk_final hs
  generalize zeroRuns ⟨0, 0, 0, 0⟩ 0 hs = r at *
  split
  · rename_i hb
    generalize r.bestStart = s at *
    generalize r.bestLen = n at *
    unfold compressAt
    have front : ((if s = 0 then [[]] else []) ++ hs.take s ++ [[]] ++ hs.drop (s + n) ++
        (if s + n = hs.length then [[]] else []) : List (List Char)).takeWhile (· ≠ []) = hs.take s := by
      by_cases h0 : s = 0
      · subst h0; simp
      · rw [if_neg h0]
        simp only [List.nil_append, List.append_assoc, List.singleton_append]
        exact takeWhile_ne _ _ fun x hx => hne x (List.mem_of_mem_take hx)
    have back : ((if s = 0 then [[]] else []) ++ hs.take s ++ [[]] ++ hs.drop (s + n) ++
        (if s + n = hs.length then [[]] else []) : List (List Char)).reverse.takeWhile (· ≠ []) = (hs.drop (s + n)).reverse := by
      by_cases h0 : s + n = hs.length
      · rw [if_pos h0, h0]; simp
      · rw [if_neg h0]
        simp only [List.append_nil, List.reverse_append, List.reverse_cons, List.reverse_nil, List.nil_append, List.append_assoc,
          List.singleton_append]
        exact takeWhile_ne _ _ fun x hx => hne x (List.mem_of_mem_drop (List.mem_reverse.mp hx))
    unfold expandHextets
    rw [if_pos (by simp), front, back]
    apply List.ext_getElem?
    intro j
    have hcount : 8 - (hs.take s).length - (hs.drop (s + n)).reverse.length = n := by
      simp only [List.length_take, List.length_reverse, List.length_drop]; omega
    rw [hcount, List.reverse_reverse, List.append_assoc]
    by_cases hj : j < s
    · rw [List.getElem?_append_left (by rw [List.length_take]; omega), List.getElem?_take_of_lt hj]
    · rw [List.getElem?_append_right (by rw [List.length_take]; omega)]
      have ht : (hs.take s).length = s := by rw [List.length_take]; omega
      rw [ht]
      by_cases hj2 : j < s + n
      · rw [List.getElem?_append_left (by rw [List.length_replicate]; omega), List.getElem?_replicate, if_pos (by omega)]
        exact (h4 j (by omega) hj2).symm
      · rw [List.getElem?_append_right (by rw [List.length_replicate]; omega), List.length_replicate, List.getElem?_drop]
        congr 1; omega
  · unfold expandHextets
    rw [if_neg]
    intro h; exact hne _ h rfl

theorem length_compress (hs : List (List Char)) (hl : hs.length = 8) : 3 ≤ (compressHextets hs).length := by
  unfold compressHextets
  obtain ⟨h1, _⟩ := runsOk_final hs
  split
  · unfold compressAt
    generalize (zeroRuns ⟨0, 0, 0, 0⟩ 0 hs).bestStart = s at *
    generalize (zeroRuns ⟨0, 0, 0, 0⟩ 0 hs).bestLen = n at *
    simp only [List.length_append, List.length_take, List.length_drop, List.length_singleton]
    split <;> split <;> simp <;> omega
  · omega

theorem mem_compress (hs : List (List Char)) (q : List Char) (h : q ∈ compressHextets hs) : q = [] ∨ q ∈ hs := by
  unfold compressHextets at h
  split at h
  · unfold compressAt at h
    simp only [List.mem_append, List.mem_singleton] at h
    rcases h with (((h | h) | h) | h) | h
    · left; split at h <;> simp at h; exact h
    · exact .inr (List.mem_of_mem_take h)
    · exact .inl h
    · exact .inr (List.mem_of_mem_drop h)
    · left; split at h <;> simp at h; exact h
  · exact .inr h

theorem hex_not_mem (n : Nat) (c : Char) (hc : ∀ k : Fin 16, k.val.digitChar ≠ c) : c ∉ Nat.toDigits 16 n := by
  induction n using Nat.strongRecOn with
  | ind n ih =>
    by_cases h : n < 16
    · rw [Nat.toDigits_of_lt_base h]
      simp only [List.mem_singleton]
      exact fun e => hc ⟨n, h⟩ e.symm
    · rw [Nat.toDigits_of_base_le (by omega) (by omega)]
      simp only [List.mem_append, List.mem_singleton, not_or]
      exact ⟨ih _ (by omega), fun e => hc ⟨n % 16, by omega⟩ e.symm⟩

theorem hextets_mem (a : BitVec 128) (q : List Char) (h : q ∈ hextets a) : q ≠ [] ∧ ':' ∉ q ∧ ' ' ∉ q := by
  obtain ⟨i, _, rfl⟩ := List.mem_map.mp h
  exact ⟨Nat.toDigits_ne_nil, hex_not_mem _ _ (by decide), hex_not_mem _ _ (by decide)⟩

theorem length_hextets (a : BitVec 128) : (hextets a).length = 8 := by simp [hextets]

theorem compress_nosep (a : BitVec 128) (q : List Char) (h : q ∈ compressHextets (hextets a)) : ':' ∉ q := by
  rcases mem_compress _ _ h with rfl | h
  · simp
  · exact (hextets_mem a q h).2.1

theorem compress_cons (a : BitVec 128) : ∃ p q r ps, compressHextets (hextets a) = p :: q :: r :: ps := by
  have := length_compress _ (length_hextets a)
  match h : compressHextets (hextets a), this with
  | p :: q :: r :: ps, _ => exact ⟨p, q, r, ps, rfl⟩

theorem splitChar_ipv6 (a : BitVec 128) : splitChar ':' (ipv6Text a) = compressHextets (hextets a) := by
  unfold ipv6Text
  obtain ⟨p, q, r, ps, h⟩ := compress_cons a
  have := compress_nosep a
  rw [h] at this ⊢
  exact splitChar_join _ _ _ this

theorem hex_inj (m n : Nat) (e : Nat.toDigits 16 m = Nat.toDigits 16 n) : m = n := by
  have hd : ∀ j k : Fin 16, j.val.digitChar = k.val.digitChar → j = k := by decide
  have hd' : ∀ j k : Nat, j < 16 → k < 16 → j.digitChar = k.digitChar → j = k := fun j k hj hk e =>
    congrArg Fin.val (hd ⟨j, hj⟩ ⟨k, hk⟩ e)
  have hpos : ∀ k, 0 < (Nat.toDigits 16 k).length := fun k => List.length_pos_iff.mpr Nat.toDigits_ne_nil
  induction m using Nat.strongRecOn generalizing n with
  | ind m ih =>
    by_cases hm : m < 16 <;> by_cases hn : n < 16
    · rw [Nat.toDigits_of_lt_base hm, Nat.toDigits_of_lt_base hn] at e
      exact hd' m n hm hn (by simpa using e)
    · rw [Nat.toDigits_of_lt_base hm, Nat.toDigits_of_base_le (by omega) (by omega : 16 ≤ n)] at e
      have := congrArg List.length e
      have := hpos (n / 16)
      simp only [List.length_append, List.length_singleton] at *
      omega
    · rw [Nat.toDigits_of_lt_base hn, Nat.toDigits_of_base_le (by omega) (by omega : 16 ≤ m)] at e
      have := congrArg List.length e
      have := hpos (m / 16)
      simp only [List.length_append, List.length_singleton] at *
      omega
    · rw [Nat.toDigits_of_base_le (by omega) (by omega : 16 ≤ m),
        Nat.toDigits_of_base_le (by omega) (by omega : 16 ≤ n)] at e
      obtain ⟨e1, e2⟩ := List.append_inj' e rfl
      have h1 := ih (m / 16) (by omega) (n / 16) e1
      have h2 := hd' (m % 16) (n % 16) (by omega) (by omega) (by simpa using e2)
      omega

theorem hextets_inj {a b : BitVec 128} (h : hextets a = hextets b) : a = b := by
  unfold hextets at h
  have hi : ∀ i, i < 8 → a.toNat / 65536 ^ (7 - i) % 65536 = b.toNat / 65536 ^ (7 - i) % 65536 := by
    intro i hi
    have := congrArg (fun l => l[i]?) h
    simp only [List.getElem?_map, List.getElem?_range hi, Option.map_some, Option.some.injEq] at this
    exact hex_inj _ _ this
  have h0 := hi 0 (by omega)
  have h1 := hi 1 (by omega)
  have h2 := hi 2 (by omega)
  have h3 := hi 3 (by omega)
  have h4 := hi 4 (by omega)
  have h5 := hi 5 (by omega)
  have h6 := hi 6 (by omega)
  have h7 := hi 7 (by omega)
  apply BitVec.eq_of_toNat_eq
  have := a.isLt
  have := b.isLt
  simp only [Nat.reducePow, Nat.reduceSub] at *
  omega

/-- The text of an address determines it. -/
theorem ipText_inj {a b : IPAddr} (h : a.text = b.text) : a = b := by
  have hcolon : ∀ (x : BitVec 32) (y : BitVec 128), ipv4Text x ≠ ipv6Text y := by
    intro x y e
    have h1 := splitChar_nosep ':' _ (ipv4Text_not_mem x ':' (by decide) (by decide))
    rw [e, splitChar_ipv6] at h1
    have := length_compress _ (length_hextets y)
    rw [h1] at this
    simp at this
  cases a with
  | v4 x =>
    cases b with
    | v4 y =>
      have := congrArg ipv4Parse h
      simp only [IPAddr.text, ipv4Parse_text] at this
      cases this; rfl
    | v6 y => exact absurd h (hcolon x y)
  | v6 x =>
    cases b with
    | v4 y => exact absurd h.symm (hcolon y x)
    | v6 y =>
      have e := congrArg (splitChar ':') h
      simp only [IPAddr.text, splitChar_ipv6] at e
      have e := congrArg expandHextets e
      rw [expand_compress _ (length_hextets x) (fun q hq => (hextets_mem x q hq).1),
        expand_compress _ (length_hextets y) (fun q hq => (hextets_mem y q hq).1)] at e
      rw [hextets_inj e]

example : ipv6Text 0x20010db8000000000000000000000001#128 = "2001:db8::1".toList ∧
    ipv6Text 0 = "::".toList ∧ ipv6Text 1 = "::1".toList ∧
    ipv6Text 0x00010000000200000000000000030000#128 = "1:0:2::3:0".toList ∧
    ipv4IfaceParse "10.0.0.1/255.255.0.0".toList = some ⟨.v4 0x0a000001#32, 16⟩ := by decide +kernel

end SY.Props
