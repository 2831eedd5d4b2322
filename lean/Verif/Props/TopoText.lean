import Verif.Props.TopoList
import Verif.Props.NetBase

/-! # Lemmas on the text of interfaces and its reading -/

namespace SY.Props
open SY

theorem space_low {c : Char} (h : isSpace c = true) : c.toNat ≤ 32 := by
  simp only [isSpace, Bool.or_eq_true, Bool.and_eq_true, decide_eq_true_eq] at h
  rcases h with (rfl | h) | h
  · decide
  · omega
  · omega

theorem not_space {c : Char} (h : 32 < c.toNat) : isSpace c = false := by
  rw [Bool.eq_false_iff]; intro hs; have := space_low hs; omega

theorem digit_high {c : Char} (h : c.isDigit = true) : 32 < c.toNat := by
  simp only [Char.isDigit, ge_iff_le, Bool.and_eq_true, decide_eq_true_eq] at h
  have := h.1
  rw [UInt32.le_iff_toNat_le] at this
  exact Nat.lt_of_lt_of_le (by decide : 32 < 48) this

theorem hexDigit_high (n : Nat) : ∀ c ∈ Nat.toDigits 16 n, 32 < c.toNat := by
  have hd : ∀ k : Fin 16, 32 < k.val.digitChar.toNat := by decide
  induction n using Nat.strongRecOn with
  | ind n ih =>
    intro c h
    by_cases hs : n < 16
    · rw [Nat.toDigits_of_lt_base hs, List.mem_singleton] at h
      rw [h]; exact hd ⟨n, hs⟩
    · rw [Nat.toDigits_of_base_le (by omega) (by omega), List.mem_append, List.mem_singleton] at h
      rcases h with h | h
      · exact ih (n / 16) (by omega) c h
      · rw [h]; exact hd ⟨n % 16, by omega⟩

theorem mem_join {sep c : Char} : ∀ {ps : List (List Char)}, c ∈ joinChar sep ps → c = sep ∨ ∃ p ∈ ps, c ∈ p
  | [], h => by cases h
  | [p], h => .inr ⟨p, by simp, h⟩
  | p :: q :: ps, h => by
    rw [joinChar, List.mem_append, List.mem_cons] at h
    rcases h with h | h | h
    · exact .inr ⟨p, by simp, h⟩
    · exact .inl h
    · rcases mem_join h with h | ⟨r, hr, h⟩
      · exact .inl h
      · exact .inr ⟨r, List.mem_cons_of_mem _ hr, h⟩

theorem natText_high (n : Nat) : ∀ c ∈ natText n, 32 < c.toNat := fun c h => digit_high (natText_digits n c h)

theorem ipText_high (x : IPIface) : ∀ c ∈ x.text, 32 < c.toNat := by
  intro c h
  rw [IPIface.text, List.mem_append, List.mem_cons] at h
  rcases h with h | h | h
  · cases hx : x.addr with
    | v4 a =>
      rw [hx] at h
      rcases mem_join h with rfl | ⟨p, hp, h⟩
      · decide
      · obtain ⟨y, -, rfl⟩ := List.mem_map.mp hp
        exact natText_high _ c h
    | v6 a =>
      rw [hx] at h
      rcases mem_join h with rfl | ⟨p, hp, h⟩
      · decide
      · rcases mem_compress _ _ hp with rfl | hp
        · cases h
        · obtain ⟨y, -, rfl⟩ := List.mem_map.mp hp
          exact hexDigit_high _ c h
  · rw [h]; decide
  · exact natText_high _ c h

theorem fmt02x_high (x : UInt8) : ∀ c ∈ fmt02x x, 32 < c.toNat := by
  have hd : ∀ k : Fin 16, 32 < (hexChar k.val).toNat := by decide
  intro c h
  have hx := x.toNat_lt
  simp only [fmt02x, List.mem_cons, List.not_mem_nil, or_false] at h
  rcases h with rfl | rfl
  · exact hd ⟨x.toNat / 16, by omega⟩
  · exact hd ⟨x.toNat % 16, by omega⟩

theorem ethText_high (a : EthAddr) : ∀ c ∈ a.toStr, 32 < c.toNat := by
  intro c h
  rcases mem_join h with rfl | ⟨p, hp, h⟩
  · decide
  · obtain ⟨y, -, rfl⟩ := List.mem_map.mp hp
    exact fmt02x_high _ c h

theorem ethName_word (j : Nat) : IsWord (ethName j) := by
  refine ⟨by simp [ethName], fun c h => ?_⟩
  rw [ethName, List.mem_append] at h
  rcases h with h | h
  · revert c; decide
  · exact not_space (natText_high _ c h)

/-- The parts of the text of an interface. -/
theorem ifaceText_words (i : Iface) (hn : IsWord i.name) :
    splitWords [] i.text = i.name :: ("mac:".toList ++ i.ethaddr.toStr) ::
      (i.ips.filter fun x => x.addr.toNat ≠ 0).map fun x => "ip:".toList ++ x.text := by
  have hs : i.text = spaced [] (([], i.name) :: (" ".toList, "mac:".toList ++ i.ethaddr.toStr) ::
      (i.ips.filter fun x => x.addr.toNat ≠ 0).map fun x => (" ".toList, "ip:".toList ++ x.text)) := by
    have h1 : ∀ l : List IPIface, (l.flatMap fun x => " ip:".toList ++ x.text) =
        spaced [] (l.map fun x => (" ".toList, "ip:".toList ++ x.text)) := by
      intro l
      induction l with
      | nil => rfl
      | cons x l ih => rw [List.flatMap_cons, List.map_cons, spaced, ih]; rfl
    rw [Iface.text, h1, spaced, spaced]
    simp
  rw [hs, splitWords_spaced]
  · simp [Function.comp_def]
  · intro c hc; cases hc
  · intro x hx c hc
    simp only [List.mem_cons, List.mem_map] at hx
    rcases hx with rfl | rfl | ⟨y, -, rfl⟩
    · cases hc
    · simp at hc; subst hc; decide
    · simp at hc; subst hc; decide
  · intro x hx
    simp only [List.mem_cons, List.mem_map] at hx
    rcases hx with rfl | rfl | ⟨y, -, rfl⟩
    · exact hn
    · refine ⟨by simp, fun c hc => ?_⟩
      rcases List.mem_append.mp hc with hc | hc
      · exact (by decide : ∀ c ∈ "mac:".toList, isSpace c = false) c hc
      · exact not_space (ethText_high _ c hc)
    · refine ⟨by simp, fun c hc => ?_⟩
      rcases List.mem_append.mp hc with hc | hc
      · exact (by decide : ∀ c ∈ "ip:".toList, isSpace c = false) c hc
      · exact not_space (ipText_high _ c hc)
  · intro x hx
    simp only [List.tail_cons, List.mem_cons, List.mem_map] at hx
    rcases hx with rfl | ⟨y, -, rfl⟩ <;> simp

/-- Reading back one IPv4 address. -/
theorem readIfAddr_v4 (i : Iface) (a : BitVec 32) (p : Nat) (hp : p ≤ 32) :
    readIfAddr i ("ip:".toList ++ IPIface.text ⟨.v4 a, p⟩) = .ok (i.addIp ⟨.v4 a, p⟩) := by
  have h : splitChar ':' ("ip:".toList ++ IPIface.text ⟨.v4 a, p⟩) = ["ip".toList, IPIface.text ⟨.v4 a, p⟩] := by
    have h1 : "ip:".toList ++ IPIface.text ⟨.v4 a, p⟩ = "ip".toList ++ ':' :: IPIface.text ⟨.v4 a, p⟩ := rfl
    rw [h1, splitChar_append ':' _ _ (by decide), splitChar_nosep]
    rw [IPIface.text, List.mem_append, List.mem_cons]
    rintro (h | h | h)
    · exact ipv4Text_not_mem a ':' (by decide) (by decide) h
    · revert h; decide
    · exact natText_not_mem _ _ (by decide) h
  unfold readIfAddr
  rw [h]
  simp only [assignIp_text i a p hp]

/-- Reading back IPv4 addresses. -/
theorem readIfAddrs_v4 (xs : List IPIface) : ∀ (i : Iface), (i.ips ++ xs).Nodup →
    (∀ x ∈ xs, ∃ a p, x = ⟨.v4 a, p⟩ ∧ p ≤ 32) →
    readIfAddrs i (xs.map fun x => "ip:".toList ++ x.text) = .ok { i with ips := i.ips ++ xs } := by
  induction xs with
  | nil => intro i _ _; cases i; simp [readIfAddrs]
  | cons x xs ih =>
    intro i hnd h
    obtain ⟨a, p, rfl, hp⟩ := h x (by simp)
    have hn : (⟨.v4 a, p⟩ : IPIface) ∉ i.ips := by
      intro hm
      exact (List.nodup_append.mp hnd).2.2 _ hm _ (by simp) rfl
    have hadd : i.addIp ⟨.v4 a, p⟩ = { i with ips := i.ips ++ [⟨.v4 a, p⟩] } := by
      unfold Iface.addIp; rw [if_neg hn]
    rw [List.map_cons, readIfAddrs, readIfAddr_v4 i a p hp, bind_ok, hadd,
      ih _ (by simpa using hnd) fun y hy => h y (List.mem_cons_of_mem _ hy)]
    simp

/-- A saved interface is read back, with a number from the counter. -/
theorem readIface_text (next : Int) (i : Iface) (hn : IsWord i.name) (he : i.ethaddr.raw.length = 6)
    (hnd : i.ips.Nodup) (h : ∀ x ∈ i.ips, ∃ a p, x = ⟨.v4 a, p⟩ ∧ p ≤ 32 ∧ a ≠ 0) :
    readIface next i.name i.text = .ok (next + 1, { i with ifnum := next, iftype := .unknown }) := by
  have hf : (i.ips.filter fun x => x.addr.toNat ≠ 0) = i.ips := by
    refine List.filter_eq_self.mpr fun x hx => ?_
    obtain ⟨a, p, rfl, -, h0⟩ := h x hx
    have : a.toNat ≠ 0 := fun e => h0 (BitVec.eq_of_toNat_eq (by simpa using e))
    exact decide_eq_true this
  unfold readIface
  rw [ifaceText_words i hn, hf]
  dsimp only
  have hd : ("mac:".toList ++ i.ethaddr.toStr).drop 4 = i.ethaddr.toStr := rfl
  rw [hd]
  have hnew : Iface.new next i.name (.text i.ethaddr.toStr) none .unknown =
      .ok (next + 1, ⟨i.name, i.ethaddr, [], next, .unknown⟩) := by
    unfold Iface.new
    rw [ifaceEth, (ethaddr_text_roundtrip i.ethaddr he).1]
    rfl
  rw [hnew, bind_ok]
  dsimp only
  rw [readIfAddrs_v4 i.ips ⟨i.name, i.ethaddr, [], next, .unknown⟩ (by simpa using hnd)
    fun x hx => let ⟨a, p, e, hp, _⟩ := h x hx; ⟨a, p, e, hp⟩]
  simp

/-- An IPv6 address has a colon in its text. -/
theorem colon_mem_v6 (a : BitVec 128) (p : Nat) : ':' ∈ IPIface.text ⟨.v6 a, p⟩ := by
  have hl : 2 ≤ (compressHextets (hextets a)).length := by
    unfold compressHextets
    split
    · rename_i h
      generalize (zeroRuns ⟨0, 0, 0, 0⟩ 0 (hextets a)).bestStart = s
      generalize (zeroRuns ⟨0, 0, 0, 0⟩ 0 (hextets a)).bestLen = n
      unfold compressAt
      by_cases hs : s = 0
      · simp [hs]
      · simp [hs, length_hextets]; omega
    · rw [length_hextets]; omega
  rw [IPIface.text, List.mem_append]
  left
  simp only [IPAddr.text, ipv6Text]
  match hc : compressHextets (hextets a), hl with
  | x :: y :: ps, _ => simp [joinChar]

/-- An IPv6 address cannot be read back. -/
theorem readIfAddr_v6 (i : Iface) (a : BitVec 128) (p : Nat) :
    readIfAddr i ("ip:".toList ++ IPIface.text ⟨.v6 a, p⟩) = .error .valueError := by
  have h1 : "ip:".toList ++ IPIface.text ⟨.v6 a, p⟩ = "ip".toList ++ ':' :: IPIface.text ⟨.v6 a, p⟩ := rfl
  obtain ⟨l1, l2, hl, hn⟩ := List.eq_append_cons_of_mem (colon_mem_v6 a p)
  have hne : ∀ s : List Char, ∃ x xs, splitChar ':' s = x :: xs := by
    intro s
    induction s with
    | nil => exact ⟨_, _, rfl⟩
    | cons c s ih =>
      obtain ⟨x, xs, hx⟩ := ih
      rw [splitChar]
      split
      · exact ⟨_, _, rfl⟩
      · rw [hx]; exact ⟨_, _, rfl⟩
  obtain ⟨x, xs, hx⟩ := hne l2
  unfold readIfAddr
  rw [h1, splitChar_append ':' _ _ (by decide), hl, splitChar_append ':' _ _ hn, hx]

theorem readIfAddrs_error {xs : List (List Char)} {w : List Char} (hw : w ∈ xs)
    (h : ∀ i, ∃ e, readIfAddr i w = .error e) : ∀ i, ∃ e, readIfAddrs i xs = .error e := by
  induction xs with
  | nil => cases hw
  | cons x xs ih =>
    intro i
    rw [readIfAddrs]
    cases hr : readIfAddr i x with
    | error e => exact ⟨e, rfl⟩
    | ok i' =>
      rw [bind_ok]
      rcases List.mem_cons.mp hw with rfl | hw
      · obtain ⟨e, he⟩ := h i; rw [hr] at he; cases he
      · exact ih hw i'

theorem readIface_v6 (next : Int) (i : Iface) (hn : IsWord i.name) (a : BitVec 128) (p : Nat) (h : ⟨.v6 a, p⟩ ∈ i.ips) (h0 : a ≠ 0) :
    ∃ e, readIface next i.name i.text = .error e := by
  unfold readIface
  rw [ifaceText_words i hn]
  dsimp only
  cases hi : Iface.new next i.name (.text (("mac:".toList ++ i.ethaddr.toStr).drop 4)) none .unknown with
  | error e => exact ⟨e, rfl⟩
  | ok x =>
    rw [bind_ok]
    obtain ⟨e, he⟩ := readIfAddrs_error (xs := (i.ips.filter fun x => x.addr.toNat ≠ 0).map fun x => "ip:".toList ++ x.text)
      (w := "ip:".toList ++ IPIface.text ⟨.v6 a, p⟩)
      (List.mem_map.mpr ⟨⟨.v6 a, p⟩, List.mem_filter.mpr ⟨h, by
        have : a.toNat ≠ 0 := fun e => h0 (BitVec.eq_of_toNat_eq (by simpa using e))
        exact decide_eq_true this⟩, rfl⟩)
      (fun i => ⟨_, readIfAddr_v6 i a p⟩) x.2
    exact ⟨e, by rw [he]; rfl⟩

end SY.Props
