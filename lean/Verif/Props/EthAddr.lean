import Verif.EthAddr

/-! # Properties C04–C07: MAC addresses -/

namespace SY.Props

/-! ## C04 text round-trip -/

theorem hexVal_hexChar (n : Nat) (h : n < 16) : hexVal (hexChar n) = some n := by
  have : ∀ n : Fin 16, hexVal (hexChar n) = some n.val := by decide
  exact this ⟨n, h⟩

theorem hexChar_facts (n : Nat) (h : n < 16) :
    hexChar n ≠ '_' ∧ isPySpace (hexChar n) = false ∧ hexChar n ≠ '+' ∧ hexChar n ≠ '-' ∧
      hexChar n ≠ ':' ∧ hexChar n ≠ 'x' ∧ hexChar n ≠ 'X' := by
  have : ∀ n : Fin 16, hexChar n ≠ '_' ∧ isPySpace (hexChar n) = false ∧ hexChar n ≠ '+' ∧
      hexChar n ≠ '-' ∧ hexChar n ≠ ':' ∧ hexChar n ≠ 'x' ∧ hexChar n ≠ 'X' := by decide
  exact this ⟨n, h⟩

theorem pyInt16_fmt (x : UInt8) : pyInt16 (fmt02x x) = some (x.toNat : Int) := by
  have hx := x.toNat_lt
  have h1 : x.toNat / 16 < 16 := by omega
  have h2 : x.toNat % 16 < 16 := by omega
  obtain ⟨a1, a2, a3, a4, a5, a6, a7⟩ := hexChar_facts _ h1
  obtain ⟨b1, b2, b3, b4, b5, b6, b7⟩ := hexChar_facts _ h2
  have v1 := hexVal_hexChar _ h1
  have v2 := hexVal_hexChar _ h2
  have hs : pyStrip (fmt02x x) = fmt02x x := by
    simp [pyStrip, fmt02x, a2, b2]
  unfold pyInt16
  simp only [hs]
  unfold fmt02x
  generalize hexChar (x.toNat / 16) = c at *
  generalize hexChar (x.toNat % 16) = d at *
  have hb : scanHex .start 0 [c, d] = some x.toNat := by
    simp [scanHex, a1, b1, v1, v2]; omega
  split
  · rename_i h; cases h; simp at a3
  · rename_i h; cases h; simp at a4
  · unfold intBody
    split
    · rename_i h; cases h; simp at b6
    · rename_i h; cases h; simp at b7
    · simp [hb]

theorem splitChar_append (c : Char) (p r : List Char) (h : c ∉ p) :
    splitChar c (p ++ c :: r) = p :: splitChar c r := by
  induction p with
  | nil => simp [splitChar]
  | cons a p ih =>
    have h1 : a ≠ c := by intro e; apply h; simp [e]
    have h2 : c ∉ p := by intro e; apply h; simp [e]
    simp [splitChar, h1, ih h2]

theorem splitChar_nosep (c : Char) (p : List Char) (h : c ∉ p) : splitChar c p = [p] := by
  induction p with
  | nil => simp [splitChar]
  | cons a p ih =>
    have h1 : a ≠ c := by intro e; apply h; simp [e]
    have h2 : c ∉ p := by intro e; apply h; simp [e]
    simp [splitChar, h1, ih h2]

theorem splitChar_join (c : Char) (p : List Char) (ps : List (List Char))
    (h : ∀ q ∈ p :: ps, c ∉ q) : splitChar c (joinChar c (p :: ps)) = p :: ps := by
  induction ps generalizing p with
  | nil => exact splitChar_nosep c p (h p (by simp))
  | cons q ps ih =>
    simp only [joinChar]
    rw [splitChar_append c p _ (h p (by simp)), ih q (fun r hr => h r (List.mem_cons_of_mem _ hr))]

theorem countChar_join (c : Char) (p : List Char) (ps : List (List Char))
    (h : ∀ q ∈ p :: ps, c ∉ q) : countChar c (joinChar c (p :: ps)) = ps.length := by
  have hz : ∀ q : List Char, c ∉ q → countChar c q = 0 := by
    intro q hq
    simp only [countChar, List.length_eq_zero_iff, List.filter_eq_nil_iff]
    intro a ha e
    simp at e; subst e; exact hq ha
  induction ps generalizing p with
  | nil => simpa [joinChar] using hz p (h p (by simp))
  | cons q ps ih =>
    have h1 := ih q (fun r hr => h r (List.mem_cons_of_mem _ hr))
    have h2 := hz p (h p (by simp))
    simp only [countChar, joinChar, List.filter_append, List.filter_cons, List.length_append] at *
    simp [h2, h1]

theorem countChar_join_other (c d : Char) (hcd : c ≠ d) (ps : List (List Char))
    (h : ∀ q ∈ ps, c ∉ q) : countChar c (joinChar d ps) = 0 := by
  have : c ∉ joinChar d ps := by
    fun_induction joinChar d ps with
    | case1 => simp
    | case2 p => exact h p (by simp)
    | case3 p q ps ih =>
      have h1 := ih (fun r hr => h r (List.mem_cons_of_mem _ hr))
      have h2 := h p (by simp)
      simp [h1, h2, hcd]
  simp only [countChar, List.length_eq_zero_iff, List.filter_eq_nil_iff]
  intro a ha e
  simp at e; subst e; exact this ha

theorem fmt02x_nosep (x : UInt8) : ':' ∉ fmt02x x ∧ '-' ∉ fmt02x x := by
  have hx := x.toNat_lt
  obtain ⟨a1, a2, a3, a4, a5, a6, a7⟩ := hexChar_facts (x.toNat / 16) (by omega)
  obtain ⟨b1, b2, b3, b4, b5, b6, b7⟩ := hexChar_facts (x.toNat % 16) (by omega)
  unfold fmt02x
  simp only [List.mem_cons, List.not_mem_nil, or_false, not_or]
  exact ⟨⟨a5.symm, b5.symm⟩, ⟨a4.symm, b4.symm⟩⟩

theorem pyInts16_map (b : Bytes) :
    pyInts16 (b.map fmt02x) = .ok (b.map (fun x => (x.toNat : Int))) := by
  induction b with
  | nil => rfl
  | cons x xs ih => simp [pyInts16, pyInt16_fmt, ih]

theorem pyBytes_map (b : Bytes) : pyBytes (b.map (fun x => (x.toNat : Int))) = .ok b := by
  induction b with
  | nil => rfl
  | cons x xs ih =>
    have := x.toNat_lt
    simp only [List.map_cons, pyBytes, ih]
    rw [if_pos (by omega)]
    simp

theorem parseSep_join (sep : Char) (b : Bytes) (hb : b ≠ [])
    (hs : ∀ x, sep ∉ fmt02x x) :
    EthAddr.parseSep sep (joinChar sep (b.map fmt02x)) = .ok b := by
  cases b with
  | nil => exact absurd rfl hb
  | cons x xs =>
    have hq : ∀ q ∈ fmt02x x :: xs.map fmt02x, sep ∉ q := by
      intro q hq
      rw [← List.map_cons, List.mem_map] at hq
      obtain ⟨y, _, rfl⟩ := hq
      exact hs y
    unfold EthAddr.parseSep
    rw [List.map_cons, splitChar_join sep _ _ hq, ← List.map_cons, pyInts16_map, bind_ok, pyBytes_map]

/-- **C04**: a six-byte address printed with `:` (that is, `str(a)`) or with `-` is read back
by the constructor as the same address. -/
theorem ethaddr_text_roundtrip (a : EthAddr) (h : a.raw.length = 6) :
    EthAddr.mk' (.text (a.toStr ':')) = .ok a ∧ EthAddr.mk' (.text (a.toStr '-')) = .ok a := by
  obtain ⟨r⟩ := a
  have hne : r ≠ [] := by intro e; simp [e] at h
  simp only [EthAddr.toStr]
  have p1 := parseSep_join ':' r hne (fun x => (fmt02x_nosep x).1)
  have p2 := parseSep_join '-' r hne (fun x => (fmt02x_nosep x).2)
  have c3 : countChar ':' (joinChar '-' (r.map fmt02x)) = 0 := by
    refine countChar_join_other ':' '-' (by decide) _ ?_
    intro q hq
    obtain ⟨y, _, rfl⟩ := List.mem_map.mp hq
    exact (fmt02x_nosep y).1
  have cnt : ∀ sep, (∀ x, sep ∉ fmt02x x) → countChar sep (joinChar sep (r.map fmt02x)) = 5 := by
    intro sep hs
    obtain ⟨x, xs, rfl⟩ := List.exists_cons_of_ne_nil hne
    have hq : ∀ q ∈ fmt02x x :: xs.map fmt02x, sep ∉ q := by
      intro q hq
      rw [← List.map_cons, List.mem_map] at hq
      obtain ⟨y, _, rfl⟩ := hq
      exact hs y
    rw [List.map_cons, countChar_join sep _ _ hq]
    simpa using h
  have c1 := cnt ':' (fun x => (fmt02x_nosep x).1)
  have c2 := cnt '-' (fun x => (fmt02x_nosep x).2)
  obtain ⟨x, xs, rfl⟩ := List.exists_cons_of_ne_nil hne
  constructor
  · simp only [EthAddr.mk', EthAddr.parseArg]
    rw [if_pos c1, p1]; rfl
  · simp only [EthAddr.mk', EthAddr.parseArg]
    rw [if_neg (by rw [c3]; decide), if_pos c2, p2]; rfl

/-- Distinct six-byte addresses print differently. -/
theorem ethaddr_text_injective (a b : EthAddr) (ha : a.raw.length = 6) (hb : b.raw.length = 6)
    (h : a.toStr = b.toStr) : a = b := by
  have h1 := (ethaddr_text_roundtrip a ha).1
  have h2 := (ethaddr_text_roundtrip b hb).1
  rw [h, h2] at h1
  cases h1; rfl

example : EthAddr.mk' (.text "00:1b:21:fe:80:0a".toList) = .ok ⟨[0, 0x1b, 0x21, 0xfe, 0x80, 0x0a]⟩ := by
  decide
example : EthAddr.toStr ⟨[0, 0x1b, 0x21, 0xfe, 0x80, 0x0a]⟩ = "00:1b:21:fe:80:0a".toList := by decide

/-! ## C05 the stored value has six bytes -/

theorem length_splitChar (c : Char) (s : List Char) : (splitChar c s).length = countChar c s + 1 := by
  fun_induction splitChar c s with
  | case1 => rfl
  | case2 =>
    rename_i ih
    simp [countChar] at ih ⊢
    simp [ih]
  | case3 a r h h2 ih => simp [h2] at ih
  | case4 a r h p ps h2 ih =>
    simp [h2, countChar] at ih ⊢
    simp [h, ih]

theorem length_pyInts16 {ps : List (List Char)} {vs : List Int} (h : pyInts16 ps = .ok vs) :
    vs.length = ps.length := by
  induction ps generalizing vs with
  | nil => cases h; rfl
  | cons p ps ih =>
    simp only [pyInts16] at h
    split at h
    · obtain ⟨r, hr, rfl⟩ := map_eq_ok.mp h
      simp [ih hr]
    · cases h

theorem length_pyBytes {vs : List Int} {b : Bytes} (h : pyBytes vs = .ok b) :
    b.length = vs.length := by
  induction vs generalizing b with
  | nil => cases h; rfl
  | cons v vs ih =>
    simp only [pyBytes] at h
    split at h
    · obtain ⟨r, hr, rfl⟩ := map_eq_ok.mp h
      simp [ih hr]
    · cases h

theorem length_parseSep {c : Char} {s : List Char} {b : Bytes} (hc : countChar c s = 5)
    (h : EthAddr.parseSep c s = .ok b) : b.length = 6 := by
  unfold EthAddr.parseSep at h
  obtain ⟨vs, h1, h2⟩ := bind_eq_ok.mp h
  rw [length_pyBytes h2, length_pyInts16 h1, length_splitChar, hc]

/-- **C05, partial**: what the constructor accepts is six bytes, except for `bytes` arguments
shorter than six (and copies of such an address).  Missing: those arguments, for which the
claim is false (next theorem). -/
theorem ethaddr_six_bytes_partial (arg : EthArg) (a : EthAddr) (h : EthAddr.mk' arg = .ok a)
    (hraw : ∀ b, arg = .raw b → 6 ≤ b.length) (haddr : ∀ c, arg = .addr c → c.raw.length = 6) :
    a.raw.length = 6 := by
  unfold EthAddr.mk' at h
  obtain ⟨v, h1, h2⟩ := bind_eq_ok.mp h
  have ha : v = some a.raw := by
    split at h2
    · cases h2; rfl
    · cases h2
  rw [ha] at h1
  cases arg with
  | none =>
    simp only [EthAddr.parseArg, Except.ok.injEq, Option.some.injEq] at h1
    rw [← h1]; rfl
  | raw b =>
    have := hraw b rfl
    simp only [EthAddr.parseArg, Except.ok.injEq, Option.some.injEq] at h1
    rw [← h1]; simp; omega
  | addr c =>
    have := haddr c rfl
    simp only [EthAddr.parseArg, Except.ok.injEq, Option.some.injEq] at h1
    rw [← h1]; exact this
  | text s =>
    simp only [EthAddr.parseArg] at h1
    split at h1
    · obtain ⟨r, hr, e⟩ := map_eq_ok.mp h1
      simp only [Option.some.injEq] at e
      rw [← e]; exact length_parseSep ‹_› hr
    · split at h1
      · obtain ⟨r, hr, e⟩ := map_eq_ok.mp h1
        simp only [Option.some.injEq] at e
        rw [← e]; exact length_parseSep ‹_› hr
      · simp at h1
  | other => simp [EthAddr.parseArg] at h1

/-- **C05 is false**: a one-byte string is accepted and stored as one byte, and asking
that address a question raises `IndexError`. -/
theorem ethaddr_six_bytes_violated :
    ∃ arg a, EthAddr.mk' arg = .ok a ∧ a.raw.length ≠ 6 ∧
      a.isBridgeFiltered = .error .indexError :=
  ⟨.raw [1], ⟨[1]⟩, by decide, by decide, by decide⟩

/-! ## C06 equality and order -/

/-- **C06**: `a == b` (with `b` an address) is equality of the raw bytes, hence of objects. -/
theorem ethaddr_eq_iff (a b : EthAddr) (ha : a.raw.length = 6) (hb : b.raw.length = 6) :
    EthAddr.eqArg a (.addr b) = .ok (decide (a = b)) := by
  have hne : b.raw ≠ [] := by intro e; simp [e] at hb
  unfold EthAddr.eqArg
  rw [EthAddr.mk'_addr hne]
  obtain ⟨r⟩ := a
  obtain ⟨s⟩ := b
  simp

/-- An address compares equal to its own text in either notation. -/
theorem ethaddr_eq_text (a : EthAddr) (ha : a.raw.length = 6) :
    EthAddr.eqArg a (.text a.toStr) = .ok true ∧ EthAddr.eqArg a (.text (a.toStr '-')) = .ok true := by
  have := ethaddr_text_roundtrip a ha
  simp [EthAddr.eqArg, this.1, this.2]

theorem bytesLt_iff (a b : Bytes) (h : a.length = b.length) :
    bytesLt a b = true ↔ beDec a < beDec b := by
  induction a generalizing b with
  | nil => cases b with
    | nil => simp [bytesLt, beDec]
    | cons => simp at h
  | cons x xs ih => cases b with
    | nil => simp at h
    | cons y ys =>
      have hl : xs.length = ys.length := by simpa using h
      have h1 := beDec_lt xs
      have h2 := beDec_lt ys
      have hi := ih ys hl
      simp only [bytesLt, beDec]
      rw [hl] at h1 ⊢
      by_cases hxy : x < y
      · have hxy' : x.toNat < y.toNat := UInt8.lt_iff_toNat_lt.mp hxy
        have : (x.toNat + 1) * 256 ^ ys.length ≤ y.toNat * 256 ^ ys.length :=
          Nat.mul_le_mul_right _ hxy'
        rw [Nat.add_mul] at this
        simp only [hxy, if_true]
        constructor
        · intro _; omega
        · intro _; trivial
      · by_cases hyx : y < x
        · have hxy' : y.toNat < x.toNat := UInt8.lt_iff_toNat_lt.mp hyx
          have : (y.toNat + 1) * 256 ^ ys.length ≤ x.toNat * 256 ^ ys.length :=
            Nat.mul_le_mul_right _ hxy'
          rw [Nat.add_mul] at this
          simp only [hxy, hyx, if_true, if_false]
          constructor
          · intro h; cases h
          · intro h; omega
        · have e : x = y := by
            apply UInt8.toNat_inj.mp
            rw [UInt8.lt_iff_toNat_lt] at hxy hyx
            omega
          subst e
          simp only [hxy, if_false]
          rw [hi]; omega

/-- **C06**: `a < b` is the order of the 48-bit numbers. -/
theorem ethaddr_lt_iff (a b : EthAddr) (ha : a.raw.length = 6) (hb : b.raw.length = 6) :
    EthAddr.ltArg a (.addr b) = .ok (decide (beDec a.raw < beDec b.raw)) := by
  have hne : b.raw ≠ [] := by intro e; simp [e] at hb
  unfold EthAddr.ltArg
  rw [EthAddr.mk'_addr hne]
  have := bytesLt_iff a.raw b.raw (by omega)
  simp only [bind_ok, pure_ok, Except.ok.injEq]
  exact Bool.eq_iff_iff.mpr (by simpa using this)

theorem beDec_inj {a b : Bytes} (h : a.length = b.length) (e : beDec a = beDec b) : a = b := by
  have h1 := beEnc_beDec a
  have h2 := beEnc_beDec b
  rw [h, e, h2] at h1
  exact h1.symm

/-- **C06**: the order is total on addresses: exactly one of `a < b`, `a == b`, `b < a` holds,
and it is transitive. -/
theorem ethaddr_order_total (a b c : EthAddr) (ha : a.raw.length = 6) (hb : b.raw.length = 6)
    (hc : c.raw.length = 6) :
    (EthAddr.ltArg a (.addr b) = .ok true ∨ EthAddr.eqArg a (.addr b) = .ok true ∨
        EthAddr.ltArg b (.addr a) = .ok true) ∧
      ¬(EthAddr.ltArg a (.addr b) = .ok true ∧ EthAddr.ltArg b (.addr a) = .ok true) ∧
      ¬(EthAddr.ltArg a (.addr b) = .ok true ∧ EthAddr.eqArg a (.addr b) = .ok true) ∧
      (EthAddr.ltArg a (.addr b) = .ok true → EthAddr.ltArg b (.addr c) = .ok true →
        EthAddr.ltArg a (.addr c) = .ok true) := by
  rw [ethaddr_lt_iff a b ha hb, ethaddr_lt_iff b a hb ha, ethaddr_lt_iff b c hb hc,
    ethaddr_lt_iff a c ha hc, ethaddr_eq_iff a b ha hb]
  simp only [Except.ok.injEq, decide_eq_true_eq]
  refine ⟨?_, by omega, ?_, by omega⟩
  · by_cases h : beDec a.raw = beDec b.raw
    · right; left
      obtain ⟨r⟩ := a; obtain ⟨s⟩ := b
      simp only [EthAddr.mk.injEq]
      exact beDec_inj (by rw [ha, hb]) h
    · omega
  · rintro ⟨h1, rfl⟩; omega

example : EthAddr.ltArg ⟨[0, 0, 0, 0, 1, 255]⟩ (.addr ⟨[0, 0, 0, 0, 2, 0]⟩) = .ok true := by decide

/-! ## C07 classification -/

/-- **C07**: the I/G bit of an address is bit 40 of its 48-bit value. -/
theorem ethaddr_multicast_iff (a : EthAddr) (ha : a.raw.length = 6) :
    a.isMulticast = .ok (decide ((beDec a.raw / 2 ^ 40) % 2 = 1)) ∧
      a.isLocal = .ok (decide ((beDec a.raw / 2 ^ 41) % 2 = 1)) ∧
      a.isGlobal = .ok (!decide ((beDec a.raw / 2 ^ 41) % 2 = 1)) := by
  obtain ⟨r⟩ := a
  match r, ha with
  | [b0, b1, b2, b3, b4, b5], _ =>
    have h0 := b0.toNat_lt; have h1 := b1.toNat_lt; have h2 := b2.toNat_lt
    have h3 := b3.toNat_lt; have h4 := b4.toNat_lt; have h5 := b5.toNat_lt
    have e1 : ∀ b : UInt8, (decide (b &&& 1 ≠ 0)) = decide (b.toNat % 2 = 1) := by
      apply forall_uint8; decide +kernel
    have e2 : ∀ b : UInt8, (decide (b &&& 2 ≠ 0)) = decide (b.toNat / 2 % 2 = 1) := by
      apply forall_uint8; decide +kernel
    have hl : EthAddr.isLocal ⟨[b0, b1, b2, b3, b4, b5]⟩ =
        .ok (decide ((beDec [b0, b1, b2, b3, b4, b5] / 2 ^ 41) % 2 = 1)) := by
      simp only [EthAddr.isLocal, byteAt, List.getElem?_cons_zero, bind_ok, pure_ok, e2,
        Except.ok.injEq]
      congr 1
      simp only [beDec, List.length_cons, List.length_nil, Nat.reducePow, Nat.reduceAdd]
      rw [eq_iff_iff]; omega
    refine ⟨?_, hl, ?_⟩
    · simp only [EthAddr.isMulticast, byteAt, List.getElem?_cons_zero, bind_ok, pure_ok, e1,
        Except.ok.injEq]
      congr 1
      simp only [beDec, List.length_cons, List.length_nil, Nat.reducePow, Nat.reduceAdd]
      rw [eq_iff_iff]; omega
    · simp only [EthAddr.isGlobal, hl, bind_ok, pure_ok]

/-- **C07**: bridge-filtered addresses are exactly `01:80:c2:00:00:00` to `01:80:c2:00:00:0f`. -/
theorem ethaddr_bridge_filtered_iff (a : EthAddr) (ha : a.raw.length = 6) :
    ∃ r, a.isBridgeFiltered = .ok r ∧
      (r = true ↔ 0x0180c2000000 ≤ beDec a.raw ∧ beDec a.raw ≤ 0x0180c200000f) := by
  obtain ⟨r⟩ := a
  match r, ha with
  | [b0, b1, b2, b3, b4, b5], _ =>
    have h0 := b0.toNat_lt; have h1 := b1.toNat_lt; have h2 := b2.toNat_lt
    have h3 := b3.toNat_lt; have h4 := b4.toNat_lt; have h5 := b5.toNat_lt
    have ne : ∀ (x y : UInt8), x ≠ y ↔ x.toNat ≠ y.toNat := by
      intro x y; rw [Ne, Ne, UInt8.toNat_inj]
    simp only [EthAddr.isBridgeFiltered, byteAt, beDec, List.length_cons, List.length_nil,
      List.getElem?_cons_zero, List.getElem?_cons_succ, bind_ok, pure_ok, Nat.reducePow,
      Nat.reduceAdd, ne, UInt8.le_iff_toNat_le, UInt8.reduceToNat]
    split
    · exact ⟨_, rfl, by simp only [Bool.false_eq_true, false_iff]; omega⟩
    split
    · exact ⟨_, rfl, by simp only [Bool.false_eq_true, false_iff]; omega⟩
    split
    · exact ⟨_, rfl, by simp only [Bool.false_eq_true, false_iff]; omega⟩
    split
    · exact ⟨_, rfl, by simp only [Bool.false_eq_true, false_iff]; omega⟩
    split
    · exact ⟨_, rfl, by simp only [Bool.false_eq_true, false_iff]; omega⟩
    · exact ⟨_, rfl, by rw [decide_eq_true_eq]; omega⟩

example : EthAddr.isBridgeFiltered ⟨[1, 0x80, 0xc2, 0, 0, 0x0e]⟩ = .ok true ∧
    EthAddr.isMulticast ⟨[1, 0x80, 0xc2, 0, 0, 0x0e]⟩ = .ok true := by decide

theorem toUpper_ne_lower (c : Char) (h : ¬ ('a' ≤ c ∧ c ≤ 'z')) : c.toUpper = c := by
  unfold Char.toUpper
  rw [dif_neg]
  simpa [Char.le_def] using h

theorem lower_cases (c : Char) (h : 'a' ≤ c ∧ c ≤ 'z') :
    c ∈ "abcdefghijklmnopqrstuvwxyz".toList := by
  have h1 : 97 ≤ c.toNat := by
    have := h.1; rw [Char.le_def] at this; simpa using UInt32.le_iff_toNat_le.mp this
  have h2 : c.toNat ≤ 122 := by
    have := h.2; rw [Char.le_def] at this; simpa using UInt32.le_iff_toNat_le.mp this
  have h3 : ∀ n : Fin 26, Char.ofNat (97 + n.val) ∈ "abcdefghijklmnopqrstuvwxyz".toList := by decide
  have h4 := h3 ⟨c.toNat - 97, by omega⟩
  rw [show 97 + (c.toNat - 97) = c.toNat by omega, Char.ofNat_toNat] at h4
  exact h4

theorem upper_facts (c : Char) :
    hexVal c.toUpper = hexVal c ∧ isPySpace c.toUpper = isPySpace c ∧
    (∀ d ∈ ":-_+0".toList, c.toUpper = d ↔ c = d) ∧ (c.toUpper = 'X' ↔ (c = 'x' ∨ c = 'X')) := by
  by_cases h : 'a' ≤ c ∧ c ≤ 'z'
  · have h' := lower_cases c h
    clear h
    revert c
    decide
  · rw [toUpper_ne_lower c h]
    refine ⟨rfl, rfl, fun _ _ => Iff.rfl, ?_⟩
    constructor
    · exact Or.inr
    · rintro (rfl | rfl)
      · exact absurd (by decide) h
      · rfl

theorem scanHex_upper (s : List Char) : ∀ st acc, scanHex st acc (s.map Char.toUpper) = scanHex st acc s := by
  induction s with
  | nil => intro st acc; rfl
  | cons c r ih =>
    intro st acc
    have h := upper_facts c
    have h1 : c.toUpper = '_' ↔ c = '_' := h.2.2.1 '_' (by decide)
    simp only [List.map_cons, scanHex, h.1, h1, ih]

theorem dropWhile_space_upper (s : List Char) :
    (s.map Char.toUpper).dropWhile isPySpace = (s.dropWhile isPySpace).map Char.toUpper := by
  induction s with
  | nil => rfl
  | cons c r ih =>
    simp only [List.map_cons, List.dropWhile_cons, (upper_facts c).2.1]
    split
    · exact ih
    · rfl

theorem pyStrip_upper (s : List Char) : pyStrip (s.map Char.toUpper) = (pyStrip s).map Char.toUpper := by
  unfold pyStrip
  rw [dropWhile_space_upper, ← List.map_reverse, dropWhile_space_upper, List.map_reverse]

theorem toUpper_ne_x (d : Char) (h : d ≠ 'x') : d.toUpper ≠ 'x' := by
  by_cases hl : 'a' ≤ d ∧ d ≤ 'z'
  · have hl' : ∀ d ∈ "abcdefghijklmnopqrstuvwxyz".toList, d.toUpper ≠ 'x' := by decide
    exact hl' d (lower_cases d hl)
  · rw [toUpper_ne_lower d hl]; exact h

theorem intBody_other (c : Char) (r : List Char) (h : ∀ d r', r = d :: r' → c = '0' → d ≠ 'x' ∧ d ≠ 'X') :
    intBody (c :: r) = scanHex .start 0 (c :: r) := by
  unfold intBody
  split
  · rename_i heq; simp only [List.cons.injEq] at heq; exact absurd rfl (h _ _ heq.2 heq.1).1
  · rename_i heq; simp only [List.cons.injEq] at heq; exact absurd rfl (h _ _ heq.2 heq.1).2
  · rfl

theorem intBody_upper (t : List Char) : intBody (t.map Char.toUpper) = intBody t := by
  match t with
  | [] => rfl
  | [c] =>
    rw [intBody_other c [] (by simp), List.map_cons, List.map_nil, intBody_other c.toUpper [] (by simp)]
    exact scanHex_upper [c] .start 0
  | c :: d :: r =>
    have hc := (upper_facts c).2.2.1 '0' (by decide)
    by_cases h : c = '0' ∧ (d = 'x' ∨ d = 'X')
    · obtain ⟨rfl, rfl | rfl⟩ := h
      · exact scanHex_upper r .afterPfx 0
      · exact scanHex_upper r .afterPfx 0
    · have h1 : ∀ e r', d :: r = e :: r' → c = '0' → e ≠ 'x' ∧ e ≠ 'X' := by
        intro e r' he h0
        cases he
        exact ⟨fun hx => h ⟨h0, Or.inl hx⟩, fun hx => h ⟨h0, Or.inr hx⟩⟩
      have h2 : ∀ e r', d.toUpper :: r.map Char.toUpper = e :: r' → c.toUpper = '0' → e ≠ 'x' ∧ e ≠ 'X' := by
        intro e r' he h0
        cases he
        have := h1 d r rfl (hc.mp h0)
        exact ⟨toUpper_ne_x d this.1, fun hx => ((upper_facts d).2.2.2.mp hx).elim this.1 this.2⟩
      rw [intBody_other c _ h1, List.map_cons, List.map_cons, intBody_other c.toUpper _ h2]
      exact scanHex_upper (c :: d :: r) .start 0

theorem pyInt16_upper (s : List Char) : pyInt16 (s.map Char.toUpper) = pyInt16 s := by
  unfold pyInt16
  rw [pyStrip_upper]
  match pyStrip s with
  | [] => rfl
  | c :: r =>
    have hp := (upper_facts c).2.2.1 '+' (by decide)
    have hm := (upper_facts c).2.2.1 '-' (by decide)
    by_cases h1 : c = '+'
    · subst h1; exact congrArg (Option.map Int.ofNat) (intBody_upper r)
    · by_cases h2 : c = '-'
      · subst h2; exact congrArg (Option.map fun n => -Int.ofNat n) (intBody_upper r)
      · have hb := congrArg (Option.map Int.ofNat) (intBody_upper (c :: r))
        rw [List.map_cons] at hb ⊢
        split
        · rename_i heq; simp only [List.cons.injEq] at heq; exact absurd (hp.mp heq.1) h1
        · rename_i heq; simp only [List.cons.injEq] at heq; exact absurd (hm.mp heq.1) h2
        · split
          · rename_i heq; simp only [List.cons.injEq] at heq; exact absurd heq.1 h1
          · rename_i heq; simp only [List.cons.injEq] at heq; exact absurd heq.1 h2
          · exact hb

theorem pyInts16_upper (ps : List (List Char)) : pyInts16 (ps.map (List.map Char.toUpper)) = pyInts16 ps := by
  induction ps with
  | nil => rfl
  | cons p ps ih => simp only [List.map_cons, pyInts16, pyInt16_upper, ih]

theorem splitChar_upper (sep : Char) (hs : ∀ c : Char, c.toUpper = sep ↔ c = sep) (s : List Char) :
    splitChar sep (s.map Char.toUpper) = (splitChar sep s).map (List.map Char.toUpper) := by
  induction s with
  | nil => rfl
  | cons c r ih =>
    simp only [List.map_cons, splitChar, ih, hs c]
    split
    · rfl
    · cases splitChar sep r <;> rfl

theorem countChar_upper (sep : Char) (hs : ∀ c : Char, c.toUpper = sep ↔ c = sep) (s : List Char) :
    countChar sep (s.map Char.toUpper) = countChar sep s := by
  induction s with
  | nil => rfl
  | cons c r ih =>
    simp only [countChar, List.map_cons, List.filter_cons, hs c, decide_eq_true_eq] at *
    split <;> simp_all

/-- **C04**: reading a text does not depend on the case of its letters. -/
theorem ethaddr_text_case (s : List Char) :
    EthAddr.mk' (.text (s.map Char.toUpper)) = EthAddr.mk' (.text s) := by
  have h1 : ∀ c : Char, c.toUpper = ':' ↔ c = ':' := fun c => (upper_facts c).2.2.1 ':' (by decide)
  have h2 : ∀ c : Char, c.toUpper = '-' ↔ c = '-' := fun c => (upper_facts c).2.2.1 '-' (by decide)
  simp only [EthAddr.mk', EthAddr.parseArg, EthAddr.parseSep, countChar_upper _ h1, countChar_upper _ h2,
    splitChar_upper _ h1, splitChar_upper _ h2, pyInts16_upper]

example : EthAddr.mk' (.text "0A:bC:DE:0F:10:Ff".toList) = .ok ⟨[0x0a, 0xbc, 0xde, 0x0f, 0x10, 0xff]⟩ := by
  decide +kernel

end SY.Props
