import Verif.Topo
import Verif.Props.IPText
import Verif.Props.Units

/-! # Topologies: the invariant and its preservation -/

namespace SY.Props
open SY

/-! ## Numbering of names -/

theorem ethName_inj {m n : Nat} (h : ethName m = ethName n) : m = n :=
  natText_inj (List.append_cancel_left h)

/-- `digits` of a fixed width. -/
def hexDigs : Nat → Nat → List Char
  | 0, _ => []
  | k + 1, n => hexDigs k (n / 16) ++ [(n % 16).digitChar]

theorem length_hexDigs (k n : Nat) : (hexDigs k n).length = k := by
  induction k generalizing n with
  | zero => rfl
  | succ k ih => simp [hexDigs, ih]

theorem hexDigs_zero (k : Nat) : hexDigs k 0 = List.replicate k '0' := by
  induction k with
  | zero => rfl
  | succ k ih =>
    rw [hexDigs, Nat.zero_div, ih, List.replicate_succ']; rfl

theorem padded_toDigits (k : Nat) : ∀ n, n < 16 ^ k → 0 < k →
    List.replicate (k - (Nat.toDigits 16 n).length) '0' ++ Nat.toDigits 16 n = hexDigs k n := by
  induction k with
  | zero => intro n _ h; exact absurd h (by omega)
  | succ k ih =>
    intro n hn _
    by_cases hs : n < 16
    · rw [Nat.toDigits_of_lt_base hs, hexDigs, Nat.div_eq_of_lt hs, Nat.mod_eq_of_lt hs, hexDigs_zero]; rfl
    · have hk : 0 < k := by
        rcases Nat.eq_zero_or_pos k with h | h
        · subst h; simp at hn; omega
        · exact h
      rw [Nat.toDigits_of_base_le (by omega) (by omega), hexDigs, ← ih (n / 16) (by
        rw [Nat.pow_succ] at hn
        exact Nat.div_lt_of_lt_mul (by omega)) hk, List.length_append, List.length_singleton]
      rw [show k + 1 - ((Nat.toDigits 16 (n / 16)).length + 1) = k - (Nat.toDigits 16 (n / 16)).length by omega,
        List.append_assoc]

theorem hexChar_digitChar (n : Nat) (h : n < 16) : n.digitChar = hexChar n := by
  have : ∀ k : Fin 16, k.val.digitChar = hexChar k.val := by decide
  exact this ⟨n, h⟩

theorem hexDigs_cons (k : Nat) : ∀ n, hexDigs (k + 1) n = (n / 16 ^ k % 16).digitChar :: hexDigs k n := by
  induction k with
  | zero => intro n; simp [hexDigs]
  | succ k ih =>
    intro n
    rw [hexDigs, ih, Nat.div_div_eq_div_mul, ← Nat.pow_succ', List.cons_append]
    rfl

theorem pairUp_hexDigs (k : Nat) : ∀ n, pairUp (hexDigs (2 * k) n) = (beEnc k n).map fmt02x := by
  induction k with
  | zero => intro n; rfl
  | succ k ih =>
    intro n
    have e : (16 : Nat) ^ (2 * k) = 256 ^ k := by rw [Nat.pow_mul]
    rw [show 2 * (k + 1) = 2 * k + 1 + 1 by omega, hexDigs_cons, hexDigs_cons, pairUp, ih, beEnc, List.map_cons]
    congr 1
    rw [hexChar_digitChar _ (Nat.mod_lt _ (by omega)), hexChar_digitChar _ (Nat.mod_lt _ (by omega)),
      Nat.pow_succ, ← Nat.div_div_eq_div_mul, e, fmt02x, UInt8.toNat_ofNat']
    generalize n / 256 ^ k = m
    rw [show m % 2 ^ 8 / 16 = m / 16 % 16 by omega, show m % 2 ^ 8 % 16 = m % 16 by omega]

theorem macText_eq (n : Nat) (h : n < 2 ^ 48) : macText n = EthAddr.toStr ⟨beEnc 6 n⟩ := by
  unfold macText hex12 EthAddr.toStr
  rw [padded_toDigits 12 n (by omega) (by omega), pairUp_hexDigs 6 n]

theorem mac_of_text (n : Nat) (h : n < 2 ^ 48) : EthAddr.mk' (.text (macText n)) = .ok ⟨beEnc 6 n⟩ := by
  rw [macText_eq n h]
  exact (ethaddr_text_roundtrip ⟨beEnc 6 n⟩ (length_beEnc 6 n)).1

theorem length_pairUp : ∀ s : List Char, (pairUp s).length = (s.length + 1) / 2
  | [] => rfl
  | [a] => by simp [pairUp]
  | a :: b :: r => by
    rw [pairUp, List.length_cons, length_pairUp r]
    simp only [List.length_cons]
    omega

theorem mem_pairUp : ∀ (s p : List Char) (c : Char), p ∈ pairUp s → c ∈ p → c ∈ s
  | [], p, c, h, _ => by cases h
  | [a], p, c, h, hc => by simp only [pairUp, List.mem_singleton] at h; subst h; exact hc
  | a :: b :: r, p, c, h, hc => by
    rw [pairUp, List.mem_cons] at h
    rcases h with h | h
    · subst h
      simp only [List.mem_cons, List.not_mem_nil, or_false] at hc ⊢
      rcases hc with h | h
      · exact .inl h
      · exact .inr (.inl h)
    · exact List.mem_cons_of_mem _ (List.mem_cons_of_mem _ (mem_pairUp r p c h hc))

theorem hexDigit_ne (c : Char) (n : Nat) (h : c ∈ Nat.toDigits 16 n) : c ≠ ':' ∧ c ≠ '-' := by
  have hd : ∀ k : Fin 16, k.val.digitChar ≠ ':' ∧ k.val.digitChar ≠ '-' := by decide
  induction n using Nat.strongRecOn with
  | ind n ih =>
    by_cases hs : n < 16
    · rw [Nat.toDigits_of_lt_base hs, List.mem_singleton] at h
      subst h; exact hd ⟨n, hs⟩
    · rw [Nat.toDigits_of_base_le (by omega) (by omega), List.mem_append, List.mem_singleton] at h
      rcases h with h | h
      · exact ih (n / 16) (Nat.div_lt_self (by omega) (by omega)) h
      · subst h; exact hd ⟨n % 16, Nat.mod_lt _ (by omega)⟩

/-- Past the last 48-bit number the text has seven groups and no address is made of it. -/
theorem mac_of_text_big (n : Nat) (h : 2 ^ 48 ≤ n) : EthAddr.mk' (.text (macText n)) = .error .runtimeError := by
  have hl : 13 ≤ (Nat.toDigits 16 n).length := by
    rcases Nat.lt_or_ge (Nat.toDigits 16 n).length 13 with hl | hl
    · have := (Nat.length_toDigits_le_iff (b := 16) (n := n) (k := 12) (by omega) (by omega)).mp (by omega)
      omega
    · exact hl
  have hh : hex12 n = Nat.toDigits 16 n := by
    unfold hex12
    rw [show 12 - (Nat.toDigits 16 n).length = 0 by omega]; rfl
  have hp : 7 ≤ (pairUp (hex12 n)).length := by rw [length_pairUp, hh]; omega
  have hno : ∀ q ∈ pairUp (hex12 n), ':' ∉ q ∧ '-' ∉ q := by
    intro q hq
    constructor
    · intro hc; rw [hh] at hq; exact (hexDigit_ne _ n (mem_pairUp _ q _ hq hc)).1 rfl
    · intro hc; rw [hh] at hq; exact (hexDigit_ne _ n (mem_pairUp _ q _ hq hc)).2 rfl
  have h1 : countChar ':' (macText n) ≠ 5 := by
    unfold macText
    match hm : pairUp (hex12 n) with
    | [] => rw [hm] at hp; simp at hp
    | p :: ps =>
      rw [hm] at hp hno
      rw [countChar_join ':' p ps (fun q hq => (hno q hq).1)]
      simp only [List.length_cons] at hp
      omega
  have h2 : countChar '-' (macText n) = 0 := countChar_join_other '-' ':' (by decide) _ (fun q hq => (hno q hq).2)
  simp only [EthAddr.mk', EthAddr.parseArg, if_neg h1, h2]
  rfl

/-! ## Interfaces of a node -/

/-- The interfaces of a node have distinct names made of the numbers used so far. -/
structure NodeOk (nd : TNode) : Prop where
  uniq : nd.ifs.Uniq
  named : ∀ f i, nd.ifs.get? f = some i → i.name = f ∧ ∃ j, j < nd.ifnum ∧ f = ethName j

/-- Every outcome of adding an interface. -/
theorem addInterface_spec (next : Int) (nd : TNode) (eth : EthArg) (ip : NodeIpArg) :
    (∃ e, ifaceEth eth = .error e ∧
      nd.addInterface next eth ip = (next, { nd with ifnum := nd.ifnum + 1 }, .error e)) ∨
    (∃ m i, ifaceEth eth = .ok i.ethaddr ∧ i.name = ethName nd.ifnum ∧ i.ips = [] ∧
      nd.addInterface next eth ip =
        (m, { nd with ifnum := nd.ifnum + 1, ifs := nd.ifs.set (ethName nd.ifnum) i }, .ok (ethName nd.ifnum))) := by
  unfold TNode.addInterface Iface.new
  cases h : ifaceEth eth with
  | error e => exact .inl ⟨e, rfl, rfl⟩
  | ok a => exact .inr ⟨_, _, rfl, rfl, rfl, rfl⟩

theorem nodeOk_fresh {nd : TNode} (h : NodeOk nd) : nd.ifs.get? (ethName nd.ifnum) = none := by
  cases hg : nd.ifs.get? (ethName nd.ifnum) with
  | none => rfl
  | some i =>
    obtain ⟨-, j, hj, e⟩ := h.named _ _ hg
    have := ethName_inj e
    omega

theorem nodeOk_more {nd : TNode} (h : NodeOk nd) : NodeOk { nd with ifnum := nd.ifnum + 1 } :=
  ⟨h.uniq, fun f i hf => let ⟨a, j, hj, e⟩ := h.named f i hf; ⟨a, j, Nat.lt_succ_of_lt hj, e⟩⟩

theorem nodeOk_add {nd : TNode} (h : NodeOk nd) (i : Iface) (hi : i.name = ethName nd.ifnum) :
    NodeOk { nd with ifnum := nd.ifnum + 1, ifs := nd.ifs.set (ethName nd.ifnum) i } := by
  refine ⟨Dict.uniq_set h.uniq _ _, ?_⟩
  intro f x hf
  simp only [Dict.get?_set] at hf
  split at hf
  · rename_i e; cases hf; exact ⟨hi.trans e, nd.ifnum, Nat.lt_succ_self _, e.symm⟩
  · exact (nodeOk_more h).named f x hf

theorem nodeOk_setIf {nd : TNode} (h : NodeOk nd) {f : Name} {i j : Iface} (hf : nd.ifs.get? f = some i)
    (hn : j.name = i.name) : NodeOk { nd with ifs := nd.ifs.set f j } := by
  refine ⟨Dict.uniq_set h.uniq _ _, ?_⟩
  intro g x hg
  simp only [Dict.get?_set] at hg
  split at hg
  · rename_i e; cases hg; subst e
    exact ⟨hn.trans (h.named _ _ hf).1, (h.named _ _ hf).2⟩
  · exact h.named g x hg

theorem nodeOk_addInterface {nd : TNode} (h : NodeOk nd) (next : Int) (eth : EthArg) (ip : NodeIpArg) :
    NodeOk (nd.addInterface next eth ip).2.1 := by
  rcases addInterface_spec next nd eth ip with ⟨e, -, h'⟩ | ⟨m, i, -, hi, -, h'⟩
  · rw [h']; exact nodeOk_more h
  · rw [h']; exact nodeOk_add h i hi

/-! ## The invariant -/

/-- The keys under which a link keeps other things than interface names. -/
def reserved : List Name := [capacityKey, delayKey, labelKey]

/-- A link is fine: its ends are nodes, an interface name is kept only for an end and is the name of an
interface of this node, and it is kept for every end whose name is not one of the reserved keys. -/
structure EdgeOk (t : Topo) (e : Edge) : Prop where
  endA : e.a ∈ t.nodes.keys
  endB : e.b ∈ t.nodes.keys
  isEnd : ∀ n f, e.attrs.get? n = some (.ifname f) → n = e.a ∨ n = e.b
  exist : ∀ n f, e.attrs.get? n = some (.ifname f) → ∃ i, t.iface? n f = some i
  kept : ∀ n, n = e.a ∨ n = e.b → n ∉ reserved → ∃ f, e.attrs.get? n = some (.ifname f)

/-- Two links share no interface. -/
def disjointEnds (e e' : Edge) : Prop :=
  ∀ n f, ¬ (e.attrs.get? n = some (.ifname f) ∧ e'.attrs.get? n = some (.ifname f))

/-- The invariant of topologies. -/
structure TopoOk (t : Topo) : Prop where
  uniq : t.nodes.Uniq
  nodes : ∀ n nd, t.nodes.get? n = some nd → NodeOk nd ∧ nd.label = n
  edges : ∀ e ∈ t.edges, EdgeOk t e
  once : t.edges.Pairwise fun e e' => e.joins e'.a e'.b = false
  apart : t.edges.Pairwise disjointEnds

theorem topoOk_init (name : List Char) (b : Bool) (k : Int) : TopoOk (Topo.init name b k) := by
  refine ⟨by simp [Topo.init, Dict.Uniq, Dict.keys], ?_, ?_, List.Pairwise.nil, List.Pairwise.nil⟩
  · intro n nd h; cases h
  · intro e h; cases h

theorem iface?_set (t : Topo) (n : Name) (nd : TNode) (n' f : Name) (t' : Topo) (h : t'.nodes = t.nodes.set n nd) :
    t'.iface? n' f = if n = n' then nd.ifs.get? f else t.iface? n' f := by
  unfold Topo.iface?
  rw [h, Dict.get?_set]
  split <;> rfl

/-- Changing nodes without dropping interfaces keeps links fine. -/
theorem edgeOk_mono {t t' : Topo} {e : Edge} (h : EdgeOk t e) (hk : ∀ n ∈ t.nodes.keys, n ∈ t'.nodes.keys)
    (hi : ∀ n f i, t.iface? n f = some i → ∃ j, t'.iface? n f = some j) : EdgeOk t' e :=
  ⟨hk _ h.endA, hk _ h.endB, h.isEnd, fun n f hf => let ⟨i, e⟩ := h.exist n f hf; hi n f i e, h.kept⟩

theorem keys_set_of_get {κ ν : Type} [DecidableEq κ] {d : Dict κ ν} {k : κ} {v w : ν} (h : d.get? k = some v) :
    (d.set k w).keys = d.keys := by
  rw [Dict.keys_set, if_pos ((Dict.mem_keys d k).mpr ⟨v, h⟩)]

/-- Replacing a node by one with more interfaces. -/
theorem topoOk_setNode {t : Topo} (h : TopoOk t) {n : Name} {nd nd' : TNode} (hg : t.nodes.get? n = some nd)
    (hl : nd'.label = nd.label) (ho : NodeOk nd')
    (hi : ∀ f i, nd.ifs.get? f = some i → ∃ j, nd'.ifs.get? f = some j)
    (t' : Topo) (hn : t'.nodes = t.nodes.set n nd') (he : t'.edges = t.edges) : TopoOk t' := by
  refine ⟨by rw [hn]; exact Dict.uniq_set h.uniq _ _, ?_, ?_, by rw [he]; exact h.once, by rw [he]; exact h.apart⟩
  · intro m md hm
    rw [hn, Dict.get?_set] at hm
    split at hm
    · rename_i e; cases hm; subst e
      exact ⟨ho, hl.trans (h.nodes _ _ hg).2⟩
    · exact h.nodes m md hm
  · intro e hme
    rw [he] at hme
    refine edgeOk_mono (h.edges e hme) ?_ ?_
    · intro m hm; rw [hn, keys_set_of_get hg]; exact hm
    · intro m f i hm
      rw [iface?_set t n nd' m f t' hn]
      split
      · rename_i e; subst e
        have : nd.ifs.get? f = some i := by simpa [Topo.iface?, hg] using hm
        exact hi f i this
      · exact ⟨i, hm⟩

theorem get?_eq_of_mem_keys {κ ν : Type} [DecidableEq κ] {d : Dict κ ν} {k : κ} (h : k ∈ d.keys) : ∃ v, d.get? k = some v :=
  (Dict.mem_keys d k).mp h

/-- Every outcome of `addIf` on an existing node. -/
theorem addIf_spec (t : Topo) (n : Name) (nd : TNode) (eth : EthArg) (hg : t.nodes.get? n = some nd) :
    (∃ e t', ifaceEth eth = .error e ∧ t.addIf n eth = (t', .error e) ∧ t'.edges = t.edges ∧
      t'.autoMacs = t.autoMacs ∧ t'.ifnum = t.ifnum ∧
      t'.nodes = t.nodes.set n { nd with ifnum := nd.ifnum + 1 }) ∨
    (∃ i t', ifaceEth eth = .ok i.ethaddr ∧ i.name = ethName nd.ifnum ∧ i.ips = [] ∧
      t.addIf n eth = (t', .ok (ethName nd.ifnum)) ∧ t'.edges = t.edges ∧
      t'.autoMacs = t.autoMacs ∧ t'.ifnum = t.ifnum ∧
      t'.nodes = t.nodes.set n { nd with ifnum := nd.ifnum + 1, ifs := nd.ifs.set (ethName nd.ifnum) i }) := by
  unfold Topo.addIf
  rw [hg]
  rcases addInterface_spec t.nextIf nd eth .none with ⟨e, h1, h2⟩ | ⟨m, i, h1, h2, h3, h4⟩
  · refine .inl ⟨e, { t with nextIf := t.nextIf, nodes := t.nodes.set n { nd with ifnum := nd.ifnum + 1 } }, h1, ?_, rfl, rfl, rfl, rfl⟩
    simp only [h2]
  · refine .inr ⟨i, { t with nextIf := m, nodes := t.nodes.set n { nd with ifnum := nd.ifnum + 1, ifs := nd.ifs.set (ethName nd.ifnum) i } },
      h1, h2, h3, ?_, rfl, rfl, rfl, rfl⟩
    simp only [h4]

/-- What adding an interface does to a fine topology. -/
structure Added (t t' : Topo) (n : Name) (eth : EthArg) (r : Res Name) : Prop where
  ok : TopoOk t'
  edges : t'.edges = t.edges
  auto : t'.autoMacs = t.autoMacs
  ifnum : t'.ifnum = t.ifnum
  keys : t'.nodes.keys = t.nodes.keys
  kinds : ∀ m, (t'.nodes.get? m).map TNode.kind = (t.nodes.get? m).map TNode.kind
  old : ∀ m f i, t.iface? m f = some i → t'.iface? m f = some i
  new : ∀ m f i, t'.iface? m f = some i → t.iface? m f = some i ∨ (m = n ∧ r = .ok f ∧ ifaceEth eth = .ok i.ethaddr ∧ i.ips = [])
  named : ∀ f, r = .ok f → t.iface? n f = none ∧ ∃ i, t'.iface? n f = some i
  failed : ∀ e, r = .error e → ifaceEth eth = .error e

theorem added_addIf {t : Topo} (h : TopoOk t) (n : Name) (hn : n ∈ t.nodes.keys) (eth : EthArg) :
    Added t (t.addIf n eth).1 n eth (t.addIf n eth).2 := by
  obtain ⟨nd, hg⟩ := get?_eq_of_mem_keys hn
  have hok := (h.nodes _ _ hg).1
  have hold : ∀ m f i, t.iface? m f = some i → m = n → nd.ifs.get? f = some i := by
    intro m f i hm e; subst e; simpa [Topo.iface?, hg] using hm
  rcases addIf_spec t n nd eth hg with ⟨e, t', h1, h2, h3, h4, h5, h6⟩ | ⟨i, t', h1, h2, hips, h3, h4, h5, h6, h7⟩
  · rw [h2]
    refine ⟨topoOk_setNode (nd' := { nd with ifnum := nd.ifnum + 1 }) h hg rfl (nodeOk_more hok) (fun f i hf => ⟨i, hf⟩) t' h6 h3, h3, h4, h5,
      by rw [h6, keys_set_of_get hg], ?_, ?_, ?_, ?_, ?_⟩
    · intro m
      rw [h6, Dict.get?_set]
      split
      · rename_i e; subst e; rw [hg]; rfl
      · rfl
    · intro m f i hm
      rw [iface?_set t n _ m f t' h6]
      split
      · rename_i e; exact hold m f i hm e.symm
      · exact hm
    · intro m f i hm
      rw [iface?_set t n _ m f t' h6] at hm
      split at hm
      · rename_i e; subst e; exact .inl (by simpa [Topo.iface?, hg] using hm)
      · exact .inl hm
    · intro f hf; cases hf
    · intro e' he; cases he; exact h1
  · rw [h3]
    refine ⟨topoOk_setNode (nd' := { nd with ifnum := nd.ifnum + 1, ifs := nd.ifs.set (ethName nd.ifnum) i }) h hg rfl (nodeOk_add hok i h2) ?_ t' h7 h4, h4, h5, h6,
      by rw [h7, keys_set_of_get hg], ?_, ?_, ?_, ?_, ?_⟩
    · intro f j hf
      simp only [Dict.get?_set]
      split
      · exact ⟨_, rfl⟩
      · exact ⟨j, hf⟩
    · intro m
      rw [h7, Dict.get?_set]
      split
      · rename_i e; subst e; rw [hg]; rfl
      · rfl
    · intro m f j hm
      rw [iface?_set t n _ m f t' h7]
      split
      · rename_i e
        have hf := hold m f j hm e.symm
        rw [Dict.get?_set, if_neg]
        · exact hf
        · intro e'; subst e'; rw [nodeOk_fresh hok] at hf; cases hf
      · exact hm
    · intro m f j hm
      rw [iface?_set t n _ m f t' h7] at hm
      split at hm
      · rename_i e; subst e
        rw [Dict.get?_set] at hm
        split at hm
        · rename_i e; cases hm; subst e; exact .inr ⟨rfl, rfl, h1, hips⟩
        · exact .inl (by simpa [Topo.iface?, hg] using hm)
      · exact .inl hm
    · intro f hf; cases hf
      refine ⟨by simpa [Topo.iface?, hg] using nodeOk_fresh hok, i, ?_⟩
      rw [iface?_set t n _ n _ t' h7, if_pos rfl, Dict.get?_set, if_pos rfl]
    · intro e' he; cases he

/-- Changing the attributes of links other than interface names. -/
theorem topoOk_mapEdges {t : Topo} (h : TopoOk t) (g : Edge → Edge)
    (ha : ∀ e, (g e).a = e.a) (hb : ∀ e, (g e).b = e.b)
    (hn : ∀ e n f, (g e).attrs.get? n = some (.ifname f) → e.attrs.get? n = some (.ifname f))
    (hk : ∀ e n, n ∉ reserved → (g e).attrs.get? n = e.attrs.get? n)
    (t' : Topo) (h1 : t'.nodes = t.nodes) (h2 : t'.edges = t.edges.map g) : TopoOk t' := by
  refine ⟨by rw [h1]; exact h.uniq, by rw [h1]; exact h.nodes, ?_, ?_, ?_⟩
  · intro e he
    rw [h2, List.mem_map] at he
    obtain ⟨e0, hm, rfl⟩ := he
    have ho := h.edges e0 hm
    refine ⟨by rw [ha, h1]; exact ho.endA, by rw [hb, h1]; exact ho.endB, ?_, ?_, ?_⟩
    · intro n f hf; rw [ha, hb]; exact ho.isEnd n f (hn _ _ _ hf)
    · intro n f hf
      obtain ⟨i, hi⟩ := ho.exist n f (hn _ _ _ hf)
      exact ⟨i, by simpa [Topo.iface?, h1] using hi⟩
    · intro n hne hr
      rw [ha, hb] at hne
      rw [hk _ _ hr]; exact ho.kept n hne hr
  · rw [h2, List.pairwise_map]
    refine h.once.imp ?_
    intro e e' he
    simpa [Edge.joins, ha, hb] using he
  · rw [h2, List.pairwise_map]
    refine h.apart.imp ?_
    intro e e' he n f hf
    exact he n f ⟨hn _ _ _ hf.1, hn _ _ _ hf.2⟩

theorem topoOk_setReserved {t : Topo} (h : TopoOk t) (a b k : Name) (v : Attr) (hk : k ∈ reserved)
    (hv : ∀ f, v ≠ .ifname f) : TopoOk (t.setAttr a b k v) := by
  refine topoOk_mapEdges h (fun e => if e.joins a b then { e with attrs := e.attrs.set k v } else e) ?_ ?_ ?_ ?_ _ rfl rfl
  · intro e; split <;> rfl
  · intro e; split <;> rfl
  · intro e n f hf
    split at hf
    · rw [Dict.get?_set] at hf
      split at hf
      · cases hf; exact absurd rfl (hv f)
      · exact hf
    · exact hf
  · intro e n hn
    split
    · rw [Dict.get?_set, if_neg]
      intro e'; subst e'; exact hn hk
    · rfl

theorem topoOk_setLabel {t : Topo} (h : TopoOk t) (a b : Name) : TopoOk (t.setLabel a b).1 := by
  unfold Topo.setLabel
  split
  · exact h
  · split
    · exact h
    · exact topoOk_setReserved h a b _ _ (by simp [reserved]) (by intro f; exact Attr.noConfusion)

theorem topoOk_setIfGiven {α : Type} {t : Topo} (h : TopoOk t) (a b k : Name) (mk : α → Attr) (v : Option α)
    (hk : k ∈ reserved) (hm : ∀ v f, mk v ≠ .ifname f) : TopoOk (t.setIfGiven a b k mk v) := by
  cases v with
  | none => exact h
  | some v => exact topoOk_setReserved h a b k _ hk (hm v)

theorem topoOk_setLink {t : Topo} (h : TopoOk t) (a b : Name) (c : CapArg) (d : DelayArg) :
    TopoOk (t.setLink a b c d).1 := by
  have h1 : ∀ cv, TopoOk (t.setIfGiven a b capacityKey .cap cv) := fun cv =>
    topoOk_setIfGiven h a b _ _ cv (by simp [reserved]) (by intro v f; exact Attr.noConfusion)
  unfold Topo.setLink
  split
  · split
    · exact h
    · split
      · exact h1 _
      · exact topoOk_setLabel (topoOk_setIfGiven (h1 _) a b _ _ _ (by simp [reserved]) (by intro v f; exact Attr.noConfusion)) a b
  · exact h

theorem joins_trans {e e' : Edge} {a b : Name} (h : e.joins a b = true) (h' : e'.joins a b = true) :
    e.joins e'.a e'.b = true := by
  simp only [Edge.joins, Bool.or_eq_true, Bool.and_eq_true, decide_eq_true_eq] at *
  grind

theorem joins_self (a b : Name) (d : Dict Name Attr) : (Edge.mk a b d).joins a b = true := by
  simp [Edge.joins]

/-- Lines 249-251. -/
theorem topoOk_attach {t t2 : Topo} (h : TopoOk t) (h2 : TopoOk t2) (he : t2.edges = t.edges) (a b fa fb : Name)
    (ha : a ∈ t2.nodes.keys) (hb : b ∈ t2.nodes.keys)
    (hfa : t.iface? a fa = none) (hfb : t.iface? b fb = none)
    (hfa2 : ∃ i, t2.iface? a fa = some i) (hfb2 : ∃ i, t2.iface? b fb = some i) :
    TopoOk (((t2.addEdge a b).setAttr a b a (.ifname fa)).setAttr a b b (.ifname fb)) := by
  -- the links before the names are stored
  have hB : ∃ B : List Edge, (t2.addEdge a b).edges = B ∧ (t2.addEdge a b).nodes = t2.nodes ∧
      (∀ e ∈ B, e.joins a b = false → e ∈ t.edges) ∧
      (∀ e ∈ B, (EdgeOk t2 e) ∨ e = ⟨a, b, []⟩) ∧
      B.Pairwise (fun e e' => e.joins e'.a e'.b = false) ∧ B.Pairwise disjointEnds := by
    unfold Topo.addEdge
    split
    · exact ⟨t2.edges, rfl, rfl, fun e hm _ => he ▸ hm, fun e hm => .inl (h2.edges e hm), h2.once, h2.apart⟩
    · rename_i hl
      refine ⟨_, rfl, rfl, ?_, ?_, ?_, ?_⟩
      · intro e hm hj
        rcases List.mem_append.mp hm with hm | hm
        · exact he ▸ hm
        · rw [List.mem_singleton] at hm; subst hm; rw [joins_self] at hj; cases hj
      · intro e hm
        rcases List.mem_append.mp hm with hm | hm
        · exact .inl (h2.edges e hm)
        · rw [List.mem_singleton] at hm; exact .inr hm
      · refine List.pairwise_append.mpr ⟨h2.once, by simp, ?_⟩
        intro e hm e' hm'
        rw [List.mem_singleton] at hm'; subst hm'
        simp only [Topo.hasLink, List.any_eq_true, not_exists, not_and, Bool.not_eq_true] at hl
        exact hl e hm
      · refine List.pairwise_append.mpr ⟨h2.apart, by simp, ?_⟩
        intro e hm e' hm' n f hf
        rw [List.mem_singleton] at hm'; subst hm'
        exact absurd hf.2 (by simp)
  obtain ⟨B, hB1, hBn, hB2, hB3, hB4, hB5⟩ := hB
  let g : Edge → Edge := fun e =>
    if e.joins a b then { e with attrs := (e.attrs.set a (.ifname fa)).set b (.ifname fb) } else e
  have hedges : (((t2.addEdge a b).setAttr a b a (.ifname fa)).setAttr a b b (.ifname fb)).edges = B.map g := by
    simp only [Topo.setAttr, hB1, List.map_map]
    refine List.map_congr_left ?_
    intro e _
    simp only [Function.comp, g]
    by_cases hj : e.joins a b = true
    · have : ({ e with attrs := e.attrs.set a (.ifname fa) } : Edge).joins a b = true := hj
      simp only [hj, if_true, this]
    · simp only [hj, if_false, Bool.false_eq_true]
  have hnodes : (((t2.addEdge a b).setAttr a b a (.ifname fa)).setAttr a b b (.ifname fb)).nodes = t2.nodes := hBn
  generalize ((t2.addEdge a b).setAttr a b a (.ifname fa)).setAttr a b b (.ifname fb) = t3 at hedges hnodes
  have gpos : ∀ e : Edge, e.joins a b = true → g e = { e with attrs := (e.attrs.set a (.ifname fa)).set b (.ifname fb) } :=
    fun e hj => if_pos hj
  have gneg : ∀ e : Edge, e.joins a b = false → g e = e := fun e hj => if_neg (by simp [hj])
  have gget : ∀ e : Edge, e.joins a b = true → ∀ n f, (g e).attrs.get? n = some (.ifname f) →
      (n = b ∧ f = fb) ∨ (n = a ∧ f = fa) ∨ e.attrs.get? n = some (.ifname f) := by
    intro e hj n f hf
    rw [gpos e hj] at hf
    simp only [Dict.get?_set] at hf
    split at hf
    · rename_i e1; cases hf; exact .inl ⟨e1.symm, rfl⟩
    · split at hf
      · rename_i e1; cases hf; exact .inr (.inl ⟨e1.symm, rfl⟩)
      · exact .inr (.inr hf)
  have hendsEq : ∀ e : Edge, e.joins a b = true → ∀ n, (n = e.a ∨ n = e.b) ↔ (n = a ∨ n = b) := by
    intro e hj n
    simp only [Edge.joins, Bool.or_eq_true, Bool.and_eq_true, decide_eq_true_eq] at hj
    rcases hj with ⟨h1, h2⟩ | ⟨h1, h2⟩
    · rw [h1, h2]
    · rw [h1, h2]; exact Or.comm
  have giface : ∀ n f, t3.iface? n f = t2.iface? n f := by intro n f; simp [Topo.iface?, hnodes]
  have fresh : ∀ e ∈ B, e.joins a b = false → ∀ n f, e.attrs.get? n = some (.ifname f) →
      ¬ (n = b ∧ f = fb) ∧ ¬ (n = a ∧ f = fa) := by
    intro e hm hj n f hf
    obtain ⟨i, hi⟩ := (h.edges e (hB2 e hm hj)).exist n f hf
    constructor
    · rintro ⟨rfl, rfl⟩; rw [hfb] at hi; cases hi
    · rintro ⟨rfl, rfl⟩; rw [hfa] at hi; cases hi
  refine ⟨by rw [hnodes]; exact h2.uniq, by rw [hnodes]; exact h2.nodes, ?_, ?_, ?_⟩
  · intro e hm
    rw [hedges, List.mem_map] at hm
    obtain ⟨e0, hm, rfl⟩ := hm
    by_cases hj : e0.joins a b = true
    · have hab : (e0.a = a ∧ e0.b = b) ∨ (e0.a = b ∧ e0.b = a) := by
        simpa [Edge.joins] using hj
      have hga : (g e0).a = e0.a := by rw [gpos e0 hj]
      have hgb : (g e0).b = e0.b := by rw [gpos e0 hj]
      refine ⟨?_, ?_, ?_, ?_, ?_⟩
      · rw [hga, hnodes]; rcases hab with h | h <;> rw [h.1] <;> assumption
      · rw [hgb, hnodes]; rcases hab with h | h <;> rw [h.2] <;> assumption
      · intro n f hf
        rw [hga, hgb, hendsEq e0 hj]
        rcases gget e0 hj n f hf with h | h | h
        · exact .inr h.1
        · exact .inl h.1
        · rcases hB3 e0 hm with ho | rfl
          · exact (hendsEq e0 hj n).mp (ho.isEnd n f h)
          · cases h
      · intro n f hf
        rw [giface]
        rcases gget e0 hj n f hf with h | h | h
        · rw [h.1, h.2]; exact hfb2
        · rw [h.1, h.2]; exact hfa2
        · rcases hB3 e0 hm with ho | rfl
          · exact ho.exist n f h
          · cases h
      · intro n hn _
        rw [hga, hgb, hendsEq e0 hj] at hn
        rw [gpos e0 hj]
        simp only [Dict.get?_set]
        by_cases hnb : b = n
        · exact ⟨fb, if_pos hnb⟩
        · rcases hn with hn | hn
          · exact ⟨fa, by rw [if_neg hnb, if_pos hn.symm]⟩
          · exact absurd hn.symm hnb
    · have hj : e0.joins a b = false := by simpa using hj
      rw [gneg e0 hj]
      rcases hB3 e0 hm with ho | rfl
      · exact edgeOk_mono ho (fun n hn => by rw [hnodes]; exact hn) (fun n f i hi => ⟨i, by rw [giface]; exact hi⟩)
      · rw [joins_self] at hj; cases hj
  · rw [hedges, List.pairwise_map]
    refine hB4.imp ?_
    intro e e' hee
    have hga : ∀ e : Edge, (g e).a = e.a ∧ (g e).b = e.b := by
      intro e; simp only [g]; split <;> exact ⟨rfl, rfl⟩
    simpa [Edge.joins, (hga e).1, (hga e).2, (hga e').1, (hga e').2] using hee
  · rw [hedges, List.pairwise_map]
    have hboth := hB4.and hB5
    refine List.Pairwise.imp_of_mem ?_ hboth
    intro e e' hm hm' ⟨h1, h2⟩ n f ⟨hf, hf'⟩
    by_cases hj : e.joins a b = true
    · by_cases hj' : e'.joins a b = true
      · rw [joins_trans hj hj'] at h1; cases h1
      · have hj' : e'.joins a b = false := by simpa using hj'
        rw [gneg e' hj'] at hf'
        rcases gget e hj n f hf with h | h | h
        · exact (fresh e' hm' hj' n f hf').1 h
        · exact (fresh e' hm' hj' n f hf').2 h
        · exact h2 n f ⟨h, hf'⟩
    · have hj : e.joins a b = false := by simpa using hj
      rw [gneg e hj] at hf
      by_cases hj' : e'.joins a b = true
      · rcases gget e' hj' n f hf' with h | h | h
        · exact (fresh e hm hj n f hf).1 h
        · exact (fresh e hm hj n f hf).2 h
        · exact h2 n f ⟨hf, h⟩
      · have hj' : e'.joins a b = false := by simpa using hj'
        rw [gneg e' hj'] at hf'
        exact h2 n f ⟨hf, hf'⟩

/-! ## Every operation keeps the invariant -/

theorem topoOk_useMacs {t : Topo} (h : TopoOk t) : TopoOk t.useMacs := by
  unfold Topo.useMacs
  split
  · exact ⟨h.uniq, h.nodes, fun e he => let o := h.edges e he; ⟨o.endA, o.endB, o.isEnd, o.exist, o.kept⟩, h.once, h.apart⟩
  · exact h

theorem useMacs_nodes (t : Topo) : t.useMacs.nodes = t.nodes := by unfold Topo.useMacs; split <;> rfl
theorem useMacs_edges (t : Topo) : t.useMacs.edges = t.edges := by unfold Topo.useMacs; split <;> rfl
theorem useMacs_auto (t : Topo) : t.useMacs.autoMacs = t.autoMacs := by unfold Topo.useMacs; split <;> rfl
theorem useMacs_iface? (t : Topo) (n f : Name) : t.useMacs.iface? n f = t.iface? n f := by
  simp [Topo.iface?, useMacs_nodes]

/-- The course of `addLink` on existing nodes. -/
theorem addLink_course {t : Topo} (h : TopoOk t) (a b : Name) (c : CapArg) (d : DelayArg)
    (ha : a ∈ t.nodes.keys) (hb : b ∈ t.nodes.keys) :
    ∃ t1 r1, Added t.useMacs t1 a (t.newMac 0) r1 ∧
      ((∃ e, r1 = .error e ∧ t.addLink a b c d = (t1, some e)) ∨
       ∃ fa t2 r2, r1 = .ok fa ∧ Added t1 t2 b (t.newMac 1) r2 ∧
        ((∃ e, r2 = .error e ∧ t.addLink a b c d = (t2, some e)) ∨
         ∃ fb, r2 = .ok fb ∧ t.addLink a b c d = t2.connect a b fa fb c d)) := by
  have h0 := topoOk_useMacs h
  have ha' : a ∈ t.useMacs.nodes.keys := by rw [useMacs_nodes]; exact ha
  have h1 := added_addIf h0 a ha' (t.newMac 0)
  refine ⟨_, _, h1, ?_⟩
  have hb' : b ∈ (t.useMacs.addIf a (t.newMac 0)).1.nodes.keys := by rw [h1.keys, useMacs_nodes]; exact hb
  have h2 := added_addIf h1.ok b hb' (t.newMac 1)
  unfold Topo.addLink
  have hn : (t.hasNode a && t.hasNode b) = true := by simp [Topo.hasNode, ha, hb]
  rw [if_pos hn]
  rcases hr : t.useMacs.addIf a (t.newMac 0) with ⟨t1, e | fa⟩
  · exact .inl ⟨e, rfl, rfl⟩
  · rw [hr] at h2
    refine .inr ⟨fa, _, _, rfl, h2, ?_⟩
    dsimp only
    rcases hr2 : t1.addIf b (t.newMac 1) with ⟨t2, e | fb⟩
    · exact .inl ⟨e, rfl, rfl⟩
    · exact .inr ⟨fb, rfl, rfl⟩

theorem addLink_missing (t : Topo) (a b : Name) (c : CapArg) (d : DelayArg)
    (h : ¬ (a ∈ t.nodes.keys ∧ b ∈ t.nodes.keys)) : t.addLink a b c d = (t, some .generic) := by
  unfold Topo.addLink
  rw [if_neg]
  simpa [Topo.hasNode] using h

theorem topoOk_addLink {t : Topo} (h : TopoOk t) (a b : Name) (c : CapArg) (d : DelayArg) :
    TopoOk (t.addLink a b c d).1 := by
  by_cases hn : a ∈ t.nodes.keys ∧ b ∈ t.nodes.keys
  · obtain ⟨t1, r1, h1, h'⟩ := addLink_course h a b c d hn.1 hn.2
    rcases h' with ⟨e, -, h'⟩ | ⟨fa, t2, r2, hr1, h2, h'⟩
    · rw [h']; exact h1.ok
    · rcases h' with ⟨e, -, h'⟩ | ⟨fb, hr2, h'⟩
      · rw [h']; exact h2.ok
      · rw [h']
        unfold Topo.connect
        refine topoOk_setLink (topoOk_attach (topoOk_useMacs h) h2.ok (h2.edges.trans h1.edges) a b fa fb ?_ ?_ ?_ ?_ ?_ ?_) a b c d
        · rw [h2.keys, h1.keys, useMacs_nodes]; exact hn.1
        · rw [h2.keys, h1.keys, useMacs_nodes]; exact hn.2
        · exact (h1.named fa hr1).1
        · cases hi : t.useMacs.iface? b fb with
          | none => rfl
          | some i =>
            have := h1.old b fb i hi
            rw [(h2.named fb hr2).1] at this; cases this
        · obtain ⟨i, hi⟩ := (h1.named fa hr1).2
          exact ⟨i, h2.old a fa i hi⟩
        · exact (h2.named fb hr2).2
  · rw [addLink_missing t a b c d hn]; exact h

theorem iface?_erase {t t' : Topo} (hu : t.nodes.Uniq) {n : Name} (h : t'.nodes = t.nodes.erase n) (m f : Name) :
    t'.iface? m f = if n = m then none else t.iface? m f := by
  unfold Topo.iface?
  rw [h, Dict.get?_erase hu]
  split <;> rfl

theorem mem_keys_erase {κ ν : Type} [DecidableEq κ] {d : Dict κ ν} (hu : d.Uniq) {k k' : κ} :
    k' ∈ (d.erase k).keys ↔ k' ≠ k ∧ k' ∈ d.keys := by
  rw [Dict.mem_keys, Dict.get?_erase hu, Dict.mem_keys]
  split
  · rename_i e; subst e; simp
  · rename_i e; simp [Ne.symm e]

theorem topoOk_removeNode {t : Topo} (h : TopoOk t) (n : Name) : TopoOk (t.removeNode n).1 := by
  unfold Topo.removeNode
  split
  · refine ⟨Dict.uniq_erase h.uniq n, ?_, ?_, h.once.filter _, h.apart.filter _⟩
    · intro m md hm
      simp only [Dict.get?_erase h.uniq] at hm
      split at hm
      · cases hm
      · exact h.nodes m md hm
    · intro e he
      simp only [List.mem_filter, Bool.not_eq_true', Bool.or_eq_false_iff, decide_eq_false_iff_not] at he
      obtain ⟨he, ha, hb⟩ := he
      have o := h.edges e he
      refine ⟨(mem_keys_erase h.uniq).mpr ⟨ha, o.endA⟩, (mem_keys_erase h.uniq).mpr ⟨hb, o.endB⟩, o.isEnd, ?_, o.kept⟩
      intro m f hf
      rw [iface?_erase h.uniq rfl, if_neg]
      · exact o.exist m f hf
      · intro e'; subst e'
        rcases o.isEnd _ f hf with e | e
        · exact ha e.symm
        · exact hb e.symm
  · exact h

theorem topoOk_removeLink {t : Topo} (h : TopoOk t) (a b : Name) : TopoOk (t.removeLink a b).1 := by
  unfold Topo.removeLink
  split
  · exact ⟨h.uniq, h.nodes, fun e he => let o := h.edges e (List.mem_filter.mp he).1;
      ⟨o.endA, o.endB, o.isEnd, o.exist, o.kept⟩, h.once.filter _, h.apart.filter _⟩
  · exact h

theorem addNode_new (t : Topo) (n : Name) (k : NodeKind) (h : n ∉ t.nodes.keys) :
    t.addNode n k = ({ t with nodes := t.nodes ++ [(n, ⟨n, k, 0, []⟩)] }, .ok n) := by
  unfold Topo.addNode
  rw [if_neg (by simpa [Topo.hasNode] using h)]
  have : ∀ d : Dict Name TNode, n ∉ d.keys → ∀ v, d.set n v = d ++ [(n, v)] := by
    intro d
    induction d with
    | nil => intro _ v; rfl
    | cons x d ih =>
      intro hn v
      obtain ⟨a, b⟩ := x
      simp only [Dict.keys, List.map_cons, List.mem_cons, not_or] at hn
      rw [Dict.set, if_neg (fun e => hn.1 e.symm), ih hn.2]; rfl
  rw [this _ h]

theorem addNode_dup (t : Topo) (n : Name) (k : NodeKind) (h : n ∈ t.nodes.keys) :
    t.addNode n k = (t, .error .generic) := by
  unfold Topo.addNode
  rw [if_pos (by simpa [Topo.hasNode] using h)]

theorem topoOk_addNode {t : Topo} (h : TopoOk t) (n : Name) (k : NodeKind) : TopoOk (t.addNode n k).1 := by
  by_cases hn : n ∈ t.nodes.keys
  · rw [addNode_dup t n k hn]; exact h
  · have hg : t.nodes.get? n = none := (Dict.get?_eq_none _ _).mpr hn
    unfold Topo.addNode
    rw [if_neg (by simpa [Topo.hasNode] using hn)]
    refine ⟨Dict.uniq_set h.uniq _ _, ?_, ?_, h.once, h.apart⟩
    · intro m md hm
      simp only [Dict.get?_set] at hm
      split at hm
      · rename_i e; cases hm
        exact ⟨⟨List.nodup_nil, fun f i hf => by cases hf⟩, e⟩
      · exact h.nodes m md hm
    · intro e he
      refine edgeOk_mono (h.edges e he) ?_ ?_
      · intro m hm
        simp only [Dict.keys_set]
        split
        · exact hm
        · exact List.mem_append_left _ hm
      · intro m f i hi
        rw [iface?_set t n _ m f _ rfl, if_neg]
        · exact ⟨i, hi⟩
        · intro e; subst e; simp [Topo.iface?, hg] at hi

theorem topoOk_setCounter {t : Topo} (h : TopoOk t) (k : NodeKind) (n : Nat) : TopoOk (t.setCounter k n) := by
  have : (t.setCounter k n).nodes = t.nodes ∧ (t.setCounter k n).edges = t.edges := by
    cases k <;> exact ⟨rfl, rfl⟩
  refine ⟨by rw [this.1]; exact h.uniq, by rw [this.1]; exact h.nodes, ?_, by rw [this.2]; exact h.once, by rw [this.2]; exact h.apart⟩
  intro e he
  rw [this.2] at he
  exact edgeOk_mono (h.edges e he) (fun n hn => by rw [this.1]; exact hn)
    (fun n f i hi => ⟨i, by simpa [Topo.iface?, this.1] using hi⟩)

theorem topoOk_add {t : Topo} (h : TopoOk t) (k : NodeKind) (n : Option Name) : TopoOk (t.add k n).1 := by
  unfold Topo.add
  split
  · exact topoOk_addNode h _ k
  · split
    · exact h
    · exact topoOk_addNode (topoOk_setCounter h _ _) _ k

/-- The second interface is the first one, possibly with more addresses. -/
def moreAddrs (i j : Iface) : Prop := j.name = i.name ∧ j.ethaddr = i.ethaddr ∧ ∀ x ∈ i.ips, x ∈ j.ips

theorem moreAddrs_refl (i : Iface) : moreAddrs i i := ⟨rfl, rfl, fun _ h => h⟩

theorem moreAddrs_trans {i j k : Iface} (h : moreAddrs i j) (h' : moreAddrs j k) : moreAddrs i k :=
  ⟨h'.1.trans h.1, h'.2.1.trans h.2.1, fun x hx => h'.2.2 x (h.2.2 x hx)⟩

theorem moreAddrs_addIp (i : Iface) (x : IPIface) : moreAddrs i (i.addIp x) := by
  unfold Iface.addIp
  split
  · exact moreAddrs_refl i
  · exact ⟨rfl, rfl, fun y hy => List.mem_append_left _ hy⟩

theorem moreAddrs_assignIp (i : Iface) (v : IPIfArg) : moreAddrs i (i.assignIp v).1 := by
  unfold Iface.assignIp
  split
  · exact moreAddrs_addIp i _
  · exact moreAddrs_refl i

/-- Two topologies that differ only in additional addresses of interfaces. -/
structure Readdressed (t t' : Topo) : Prop where
  ok : TopoOk t → TopoOk t'
  edges : t'.edges = t.edges
  auto : t'.autoMacs = t.autoMacs
  ifnum : t'.ifnum = t.ifnum
  keys : t'.nodes.keys = t.nodes.keys
  kinds : ∀ m, (t'.nodes.get? m).map TNode.kind = (t.nodes.get? m).map TNode.kind
  old : ∀ n f i, t.iface? n f = some i → ∃ j, t'.iface? n f = some j ∧ moreAddrs i j
  new : ∀ n f j, t'.iface? n f = some j → ∃ i, t.iface? n f = some i ∧ moreAddrs i j

theorem readdressed_refl (t : Topo) : Readdressed t t :=
  ⟨id, rfl, rfl, rfl, rfl, fun _ => rfl, fun _ _ i h => ⟨i, h, moreAddrs_refl i⟩, fun _ _ i h => ⟨i, h, moreAddrs_refl i⟩⟩

theorem readdressed_trans {t t' t'' : Topo} (h : Readdressed t t') (h' : Readdressed t' t'') : Readdressed t t'' := by
  refine ⟨fun o => h'.ok (h.ok o), h'.edges.trans h.edges, h'.auto.trans h.auto, h'.ifnum.trans h.ifnum,
    h'.keys.trans h.keys, fun m => (h'.kinds m).trans (h.kinds m), ?_, ?_⟩
  · intro n f i hi
    obtain ⟨j, hj, hm⟩ := h.old n f i hi
    obtain ⟨k, hk, hm'⟩ := h'.old n f j hj
    exact ⟨k, hk, moreAddrs_trans hm hm'⟩
  · intro n f k hk
    obtain ⟨j, hj, hm'⟩ := h'.new n f k hk
    obtain ⟨i, hi, hm⟩ := h.new n f j hj
    exact ⟨i, hi, moreAddrs_trans hm hm'⟩

theorem iface?_node {t : Topo} {n f : Name} {i : Iface} (h : t.iface? n f = some i) :
    ∃ nd, t.nodes.get? n = some nd ∧ nd.ifs.get? f = some i := by
  unfold Topo.iface? at h
  cases hg : t.nodes.get? n with
  | none => rw [hg] at h; cases h
  | some nd => rw [hg] at h; exact ⟨nd, rfl, h⟩

theorem iface?_setIface {t : Topo} {n f : Name} {i : Iface} (h : t.iface? n f = some i) (j : Iface) (n' f' : Name) :
    (t.setIface n f j).iface? n' f' = if n = n' ∧ f = f' then some j else t.iface? n' f' := by
  obtain ⟨nd, hg, hf⟩ := iface?_node h
  unfold Topo.setIface
  rw [hg]
  rw [iface?_set t n { nd with ifs := nd.ifs.set f j } n' f' _ rfl]
  by_cases e : n = n'
  · subst e
    rw [if_pos rfl, Dict.get?_set]
    by_cases e' : f = f'
    · rw [if_pos e', if_pos ⟨rfl, e'⟩]
    · rw [if_neg e', if_neg (fun x => e' x.2)]
      simp [Topo.iface?, hg]
  · rw [if_neg e, if_neg (fun x => e x.1)]

/-- Changing one interface. -/
theorem setIface_facts {t : Topo} {n f : Name} {i : Iface} (h : t.iface? n f = some i) (j : Iface) (hn : j.name = i.name) :
    (TopoOk t → TopoOk (t.setIface n f j)) ∧ (t.setIface n f j).edges = t.edges ∧
    (t.setIface n f j).autoMacs = t.autoMacs ∧ (t.setIface n f j).ifnum = t.ifnum ∧
    (t.setIface n f j).nodes.keys = t.nodes.keys ∧
    ∀ m, ((t.setIface n f j).nodes.get? m).map TNode.kind = (t.nodes.get? m).map TNode.kind := by
  obtain ⟨nd, hg, hf⟩ := iface?_node h
  have hs : t.setIface n f j = { t with nodes := t.nodes.set n { nd with ifs := nd.ifs.set f j } } := by
    unfold Topo.setIface; rw [hg]
  rw [hs]
  refine ⟨?_, rfl, rfl, rfl, keys_set_of_get hg, ?_⟩
  · intro o
    refine topoOk_setNode (nd' := { nd with ifs := nd.ifs.set f j }) o hg rfl (nodeOk_setIf (o.nodes _ _ hg).1 hf hn) ?_ _ rfl rfl
    intro g x hx
    simp only [Dict.get?_set]
    split
    · exact ⟨_, rfl⟩
    · exact ⟨x, hx⟩
  · intro m
    simp only [Dict.get?_set]
    split
    · rename_i e; subst e; rw [hg]; rfl
    · rfl

theorem readdressed_setIface {t : Topo} {n f : Name} {i : Iface} (h : t.iface? n f = some i) {j : Iface} (hm : moreAddrs i j) :
    Readdressed t (t.setIface n f j) := by
  obtain ⟨h1, h2, h3, h4, h5, h6⟩ := setIface_facts h j hm.1
  refine ⟨h1, h2, h3, h4, h5, h6, ?_, ?_⟩
  · intro n' f' x hx
    rw [iface?_setIface h]
    split
    · rename_i e; obtain ⟨rfl, rfl⟩ := e
      rw [h] at hx; cases hx
      exact ⟨j, rfl, hm⟩
    · exact ⟨x, hx, moreAddrs_refl x⟩
  · intro n' f' x hx
    rw [iface?_setIface h] at hx
    split at hx
    · rename_i e; obtain ⟨rfl, rfl⟩ := e; cases hx
      exact ⟨i, h, hm⟩
    · exact ⟨x, hx, moreAddrs_refl x⟩

theorem readdressed_numberEnd (t : Topo) (g : HostGen) (plen : Nat) (u v n : Name) :
    Readdressed t (t.numberEnd g plen u v n).1.1 := by
  unfold Topo.numberEnd
  split
  · split
    · exact readdressed_refl t
    · rename_i i hi
      split
      · exact readdressed_refl t
      · exact readdressed_setIface hi (moreAddrs_assignIp i _)
  · exact readdressed_refl t

theorem readdressed_numberEnds (num : Name → Bool) (plen : Nat) (es : List (Name × Name × Name)) :
    ∀ (t : Topo) (g : HostGen), Readdressed t (numberEnds num plen t g es).1 := by
  induction es with
  | nil => intro t g; exact readdressed_refl t
  | cons x es ih =>
    intro t g
    obtain ⟨u, v, n⟩ := x
    rw [numberEnds]
    split
    · have := readdressed_numberEnd t g plen u v n
      split
      · rename_i heq; rw [heq] at this; exact this
      · rename_i heq; rw [heq] at this; exact readdressed_trans this (ih _ _)
    · exact ih t g

theorem readdressed_assignIPs (t : Topo) (p : Option (List Char)) : Readdressed t (t.assignIPs p).1 := by
  unfold Topo.assignIPs
  split
  · exact readdressed_refl t
  · exact readdressed_numberEnds _ _ _ _ _

theorem setAddresses_name (i : Iface) (m : EthArg) (p : IPIfArg) : (i.setAddresses m p).1.name = i.name := by
  have h1 : ∀ j : Iface, (j.assignIfGiven p).1.name = j.name := by
    intro j; unfold Iface.assignIfGiven; split
    · exact (moreAddrs_assignIp j p).1
    · rfl
  have h2 : (i.setEth m).1.name = i.name := by unfold Iface.setEth; split <;> rfl
  unfold Iface.setAddresses
  split
  · split
    · rename_i heq; rw [heq] at h2; exact h2
    · rename_i heq; rw [heq] at h2; rw [h1]; exact h2
  · exact h1 i

theorem topoOk_setAddrs {t : Topo} (h : TopoOk t) (n f : Name) (m : EthArg) (p : IPIfArg) : TopoOk (t.setAddrs n f m p).1 := by
  unfold Topo.setAddrs
  split
  · exact h
  · rename_i nd hg
    split
    · exact h
    · rename_i i hi
      exact (setIface_facts (t := t) (n := n) (f := f) (i := i) (by simp [Topo.iface?, hg, hi]) _ (setAddresses_name i m p)).1 h

theorem topoOk_nodeAddInterface {t : Topo} (h : TopoOk t) (n : Name) (eth : EthArg) (ip : NodeIpArg) :
    TopoOk (t.nodeAddInterface n eth ip).1 := by
  unfold Topo.nodeAddInterface
  split
  · exact h
  · rename_i nd hg
    have hok := (h.nodes _ _ hg).1
    refine topoOk_setNode (nd' := (nd.addInterface t.nextIf eth ip).2.1) h hg ?_ (nodeOk_addInterface hok _ _ _) ?_ _ rfl rfl
    · rcases addInterface_spec t.nextIf nd eth ip with ⟨e, -, h'⟩ | ⟨m, i, -, -, -, h'⟩ <;> rw [h']
    · intro f i hf
      rcases addInterface_spec t.nextIf nd eth ip with ⟨e, -, h'⟩ | ⟨m, j, -, -, -, h'⟩
      · rw [h']; exact ⟨i, hf⟩
      · rw [h']
        simp only [Dict.get?_set]
        split
        · exact ⟨_, rfl⟩
        · exact ⟨i, hf⟩

theorem topoOk_step {t : Topo} (h : TopoOk t) (op : TopoOp) : TopoOk (t.step op).1 := by
  cases op with
  | add k n => exact topoOk_add h k n
  | addLink a b c d => exact topoOk_addLink h a b c d
  | removeNode n => exact topoOk_removeNode h n
  | removeLink a b => exact topoOk_removeLink h a b
  | setLink a b c d => exact topoOk_setLink h a b c d
  | assignIPs p => exact (readdressed_assignIPs t p).ok h
  | setAddrs n f m p => exact topoOk_setAddrs h n f m p
  | addInterface n m p => exact topoOk_nodeAddInterface h n m p

theorem topoOk_run {t : Topo} (h : TopoOk t) (ops : List TopoOp) : TopoOk (t.run ops) := by
  unfold Topo.run
  induction ops generalizing t with
  | nil => exact h
  | cons op ops ih => exact ih (topoOk_step h op)

/-! ## What the operations leave alone -/

/-- The two topologies have the same nodes, MAC address mode and MAC address counter. -/
def sameNodes (t t' : Topo) : Prop := t'.nodes = t.nodes ∧ t'.autoMacs = t.autoMacs ∧ t'.ifnum = t.ifnum

theorem sameNodes_setLabel (t : Topo) (a b : Name) : sameNodes t (t.setLabel a b).1 := by
  unfold Topo.setLabel
  split
  · exact ⟨rfl, rfl, rfl⟩
  · split <;> exact ⟨rfl, rfl, rfl⟩

theorem sameNodes_setIfGiven {α : Type} (t : Topo) (a b k : Name) (mk : α → Attr) (v : Option α) :
    sameNodes t (t.setIfGiven a b k mk v) := by cases v <;> exact ⟨rfl, rfl, rfl⟩

theorem sameNodes_trans {t t' t'' : Topo} (h : sameNodes t t') (h' : sameNodes t' t'') : sameNodes t t'' :=
  ⟨h'.1.trans h.1, h'.2.1.trans h.2.1, h'.2.2.trans h.2.2⟩

theorem sameNodes_setLink (t : Topo) (a b : Name) (c : CapArg) (d : DelayArg) : sameNodes t (t.setLink a b c d).1 := by
  unfold Topo.setLink
  split
  · split
    · exact ⟨rfl, rfl, rfl⟩
    · split
      · exact sameNodes_setIfGiven t a b _ _ _
      · exact sameNodes_trans (sameNodes_trans (sameNodes_setIfGiven t a b _ _ _) (sameNodes_setIfGiven _ a b _ _ _))
          (sameNodes_setLabel _ a b)
  · exact ⟨rfl, rfl, rfl⟩

theorem sameNodes_connect (t : Topo) (a b fa fb : Name) (c : CapArg) (d : DelayArg) :
    sameNodes t (t.connect a b fa fb c d).1 := by
  refine sameNodes_trans (t' := ((t.addEdge a b).setAttr a b a (.ifname fa)).setAttr a b b (.ifname fb)) ?_
    (sameNodes_setLink _ a b c d)
  unfold Topo.addEdge
  split <;> exact ⟨rfl, rfl, rfl⟩

theorem sameNodes_removeLink (t : Topo) (a b : Name) : sameNodes t (t.removeLink a b).1 := by
  unfold Topo.removeLink
  split <;> exact ⟨rfl, rfl, rfl⟩

theorem sameNodes_iface? {t t' : Topo} (h : sameNodes t t') (n f : Name) : t'.iface? n f = t.iface? n f := by
  simp [Topo.iface?, h.1]

theorem iface?_addNode (t : Topo) (n : Name) (k : NodeKind) (m f : Name) :
    (t.addNode n k).1.iface? m f = t.iface? m f := by
  by_cases hn : n ∈ t.nodes.keys
  · rw [addNode_dup t n k hn]
  · have hg : t.nodes.get? n = none := (Dict.get?_eq_none _ _).mpr hn
    unfold Topo.addNode
    rw [if_neg (by simpa [Topo.hasNode] using hn), iface?_set t n ⟨n, k, 0, []⟩ m f _ rfl]
    split
    · rename_i e; subst e; simp [Topo.iface?, hg]
    · rfl

theorem setCounter_facts (t : Topo) (k : NodeKind) (n : Nat) :
    (t.setCounter k n).nodes = t.nodes ∧ (t.setCounter k n).edges = t.edges ∧
    (t.setCounter k n).autoMacs = t.autoMacs ∧ (t.setCounter k n).ifnum = t.ifnum := by
  cases k <;> exact ⟨rfl, rfl, rfl, rfl⟩

theorem addNode_counters (t : Topo) (n : Name) (k : NodeKind) :
    (t.addNode n k).1.autoMacs = t.autoMacs ∧ (t.addNode n k).1.ifnum = t.ifnum ∧ (t.addNode n k).1.edges = t.edges := by
  unfold Topo.addNode
  split <;> exact ⟨rfl, rfl, rfl⟩

theorem add_facts (t : Topo) (k : NodeKind) (n : Option Name) :
    (∀ m f, (t.add k n).1.iface? m f = t.iface? m f) ∧
    (t.add k n).1.autoMacs = t.autoMacs ∧ (t.add k n).1.ifnum = t.ifnum ∧ (t.add k n).1.edges = t.edges := by
  unfold Topo.add
  split
  · exact ⟨iface?_addNode t _ k, addNode_counters t _ k⟩
  · split
    · exact ⟨fun _ _ => rfl, rfl, rfl, rfl⟩
    · rename_i j _
      obtain ⟨h1, h2, h3, h4⟩ := setCounter_facts t k (j + 1)
      obtain ⟨g1, g2, g3⟩ := addNode_counters (t.setCounter k (j + 1)) (k.letter :: natText j) k
      refine ⟨fun m f => ?_, g1.trans h3, g2.trans h4, g3.trans h2⟩
      rw [iface?_addNode]; simp [Topo.iface?, h1]

theorem nodeAddInterface_old {t : Topo} (h : TopoOk t) (m : Name) (eth : EthArg) (ip : NodeIpArg) (n f : Name) (i : Iface)
    (hi : t.iface? n f = some i) : (t.nodeAddInterface m eth ip).1.iface? n f = some i := by
  unfold Topo.nodeAddInterface
  split
  · exact hi
  · rename_i nd hg
    have hok := (h.nodes _ _ hg).1
    simp only
    rw [iface?_set t m (nd.addInterface t.nextIf eth ip).2.1 n f _ rfl]
    split
    · rename_i e; subst e
      have hf : nd.ifs.get? f = some i := by simpa [Topo.iface?, hg] using hi
      rcases addInterface_spec t.nextIf nd eth ip with ⟨e, -, h'⟩ | ⟨x, j, -, -, -, h'⟩
      · rw [h']; exact hf
      · rw [h']
        simp only [Dict.get?_set]
        rw [if_neg]
        · exact hf
        · intro e; subst e; rw [nodeOk_fresh hok] at hf; cases hf
    · exact hi

theorem addLink_old {t : Topo} (h : TopoOk t) (a b : Name) (c : CapArg) (d : DelayArg) (n f : Name) (i : Iface)
    (hi : t.iface? n f = some i) : (t.addLink a b c d).1.iface? n f = some i := by
  by_cases hn : a ∈ t.nodes.keys ∧ b ∈ t.nodes.keys
  · obtain ⟨t1, r1, h1, h'⟩ := addLink_course h a b c d hn.1 hn.2
    have hi1 := h1.old n f i ((useMacs_iface? t n f).trans hi)
    rcases h' with ⟨e, -, h'⟩ | ⟨fa, t2, r2, hr1, h2, h'⟩
    · rw [h']; exact hi1
    · have hi2 := h2.old n f i hi1
      rcases h' with ⟨e, -, h'⟩ | ⟨fb, hr2, h'⟩
      · rw [h']; exact hi2
      · rw [h', sameNodes_iface? (sameNodes_connect t2 a b fa fb c d)]; exact hi2
  · rw [addLink_missing t a b c d hn]; exact hi

theorem setAddresses_more (i : Iface) (m : EthArg) (p : IPIfArg) :
    (∀ x ∈ i.ips, x ∈ (i.setAddresses m p).1.ips) ∧
    (ethArgTrue m = false → (i.setAddresses m p).1.ethaddr = i.ethaddr) := by
  have h1 : ∀ j : Iface, moreAddrs j (j.assignIfGiven p).1 := by
    intro j; unfold Iface.assignIfGiven; split
    · exact moreAddrs_assignIp j p
    · exact moreAddrs_refl j
  have h2 : (i.setEth m).1.ips = i.ips := by unfold Iface.setEth; split <;> rfl
  unfold Iface.setAddresses
  split
  · rename_i hm
    refine ⟨?_, fun hf => by rw [hf] at hm; cases hm⟩
    split
    · rename_i heq; rw [heq] at h2
      intro x hx; rw [show _ = i.ips from h2]; exact hx
    · rename_i i' heq; rw [heq] at h2
      intro x hx
      exact (h1 i').2.2 x (by rw [show i'.ips = i.ips from h2]; exact hx)
  · exact ⟨(h1 i).2.2, fun _ => (h1 i).2.1⟩

/-- The interfaces after `setInterfaceAddresses`. -/
theorem setAddrs_iface? (t : Topo) (m g : Name) (mac : EthArg) (p : IPIfArg) (n f : Name) :
    (t.setAddrs m g mac p).1.iface? n f =
      if m = n ∧ g = f then (t.iface? n f).map fun i => (i.setAddresses mac p).1 else t.iface? n f := by
  unfold Topo.setAddrs
  split
  · rename_i hg
    split
    · rename_i e; obtain ⟨rfl, rfl⟩ := e; simp [Topo.iface?, hg]
    · rfl
  · rename_i nd hg
    split
    · rename_i hf
      split
      · rename_i e; obtain ⟨rfl, rfl⟩ := e; simp [Topo.iface?, hg, hf]
      · rfl
    · rename_i i hf
      have hi : t.iface? m g = some i := by simp [Topo.iface?, hg, hf]
      simp only
      rw [iface?_setIface hi]
      split
      · rename_i e; obtain ⟨rfl, rfl⟩ := e; rw [hi]; rfl
      · rfl

theorem setAddrs_counters (t : Topo) (m g : Name) (mac : EthArg) (p : IPIfArg) :
    (t.setAddrs m g mac p).1.autoMacs = t.autoMacs ∧ (t.setAddrs m g mac p).1.ifnum = t.ifnum := by
  unfold Topo.setAddrs
  split
  · exact ⟨rfl, rfl⟩
  · split
    · exact ⟨rfl, rfl⟩
    · simp only [Topo.setIface]; split <;> exact ⟨rfl, rfl⟩

theorem removeNode_iface? {t : Topo} (h : TopoOk t) (m n f : Name) :
    (t.removeNode m).1.iface? n f = if m = n then none else t.iface? n f := by
  unfold Topo.removeNode
  split
  · exact iface?_erase h.uniq rfl n f
  · rename_i hm
    split
    · rename_i e; subst e
      have : t.nodes.get? m = none := (Dict.get?_eq_none _ _).mpr (by simpa [Topo.hasNode] using hm)
      simp [Topo.iface?, this]
    · rfl

theorem removeNode_counters (t : Topo) (m : Name) :
    (t.removeNode m).1.autoMacs = t.autoMacs ∧ (t.removeNode m).1.ifnum = t.ifnum := by
  unfold Topo.removeNode
  split <;> exact ⟨rfl, rfl⟩

/-! ## MAC addresses -/

/-- Every interface has an address made of a number used before, and no two have the same. -/
structure MacOk (t : Topo) : Prop where
  auto : t.autoMacs = true
  used : ∀ n f i, t.iface? n f = some i → ∃ m, 0 < m ∧ m < t.ifnum ∧ m < 2 ^ 48 ∧ i.ethaddr = ⟨beEnc 6 m⟩
  inj : ∀ n f i n' f' i', t.iface? n f = some i → t.iface? n' f' = some i' → i.ethaddr = i'.ethaddr → n = n' ∧ f = f'
  pos : 0 < t.ifnum

theorem mac_inj {m m' : Nat} (h : m < 2 ^ 48) (h' : m' < 2 ^ 48) (e : EthAddr.mk (beEnc 6 m) = ⟨beEnc 6 m'⟩) : m = m' := by
  have := congrArg (fun x => beDec (EthAddr.raw x)) e
  simpa [beDec_beEnc (w := 6) (n := m) (by omega), beDec_beEnc (w := 6) (n := m') (by omega)] using this

/-- No interfaces appear and the surviving ones keep their addresses. -/
theorem macOk_shrink {t t' : Topo} (h : MacOk t) (ha : t'.autoMacs = t.autoMacs) (hn : t'.ifnum = t.ifnum)
    (hi : ∀ n f j, t'.iface? n f = some j → ∃ i, t.iface? n f = some i ∧ i.ethaddr = j.ethaddr) : MacOk t' := by
  refine ⟨ha.trans h.auto, ?_, ?_, by rw [hn]; exact h.pos⟩
  · intro n f j hj
    obtain ⟨i, hi, e⟩ := hi n f j hj
    rw [hn, ← e]; exact h.used n f i hi
  · intro n f j n' f' j' hj hj' e
    obtain ⟨i, hi1, e1⟩ := hi n f j hj
    obtain ⟨i', hi2, e2⟩ := hi n' f' j' hj'
    exact h.inj n f i n' f' i' hi1 hi2 (e1.trans (e.trans e2.symm))

/-- Adding an interface with a number not used before. -/
theorem macOk_added {t t' : Topo} {n : Name} {r : Res Name} {k bound : Nat}
    (used : ∀ n f i, t.iface? n f = some i → ∃ m, 0 < m ∧ m < k ∧ m < 2 ^ 48 ∧ i.ethaddr = ⟨beEnc 6 m⟩)
    (inj : ∀ n f i n' f' i', t.iface? n f = some i → t.iface? n' f' = some i' → i.ethaddr = i'.ethaddr → n = n' ∧ f = f')
    (hk : 0 < k) (hb : k < bound) (h : Added t t' n (.text (macText k)) r) :
    (∀ n f i, t'.iface? n f = some i → ∃ m, 0 < m ∧ m < bound ∧ m < 2 ^ 48 ∧ i.ethaddr = ⟨beEnc 6 m⟩) ∧
    (∀ n f i n' f' i', t'.iface? n f = some i → t'.iface? n' f' = some i' → i.ethaddr = i'.ethaddr → n = n' ∧ f = f') := by
  have hnew : ∀ i : Iface, ifaceEth (.text (macText k)) = .ok i.ethaddr → k < 2 ^ 48 ∧ i.ethaddr = ⟨beEnc 6 k⟩ := by
    intro i hi
    simp only [ifaceEth] at hi
    by_cases hl : k < 2 ^ 48
    · rw [mac_of_text k hl] at hi; injection hi with hi; exact ⟨hl, hi.symm⟩
    · rw [mac_of_text_big k (by omega)] at hi; cases hi
  constructor
  · intro m f i hi
    rcases h.new m f i hi with ho | ⟨-, -, he, -⟩
    · obtain ⟨x, h1, h2, h3, h4⟩ := used m f i ho
      exact ⟨x, h1, by omega, h3, h4⟩
    · obtain ⟨h1, h2⟩ := hnew i he
      exact ⟨k, hk, hb, h1, h2⟩
  · intro m f i m' f' i' hi hi' e
    rcases h.new m f i hi with ho | ⟨e1, hf, he, -⟩
    · rcases h.new m' f' i' hi' with ho' | ⟨-, -, he', -⟩
      · exact inj m f i m' f' i' ho ho' e
      · obtain ⟨h1, h2⟩ := hnew i' he'
        obtain ⟨x, -, g2, g3, g4⟩ := used m f i ho
        rw [g4, h2] at e
        have := mac_inj g3 h1 e
        omega
    · obtain ⟨h1, h2⟩ := hnew i he
      rcases h.new m' f' i' hi' with ho' | ⟨e1', hf', -, -⟩
      · obtain ⟨x, -, g2, g3, g4⟩ := used m' f' i' ho'
        rw [h2, g4] at e
        have := mac_inj h1 g3 e
        omega
      · rw [hf] at hf'
        cases hf'
        exact ⟨e1.trans e1'.symm, rfl⟩

theorem macOk_addLink {t : Topo} (ho : TopoOk t) (h : MacOk t) (a b : Name) (c : CapArg) (d : DelayArg) :
    MacOk (t.addLink a b c d).1 := by
  by_cases hn : a ∈ t.nodes.keys ∧ b ∈ t.nodes.keys
  · obtain ⟨t1, r1, h1, h'⟩ := addLink_course ho a b c d hn.1 hn.2
    have hm0 : t.newMac 0 = .text (macText t.ifnum) := by simp [Topo.newMac, h.auto]
    have hm1 : t.newMac 1 = .text (macText (t.ifnum + 1)) := by simp [Topo.newMac, h.auto]
    have hu : t.useMacs.ifnum = t.ifnum + 2 := by simp [Topo.useMacs, h.auto]
    have hua := useMacs_auto t
    rw [hm0] at h1
    obtain ⟨u1, i1⟩ := macOk_added (k := t.ifnum) (bound := t.ifnum + 1)
      (fun n f i hi => h.used n f i ((useMacs_iface? t n f) ▸ hi))
      (fun n f i n' f' i' hi hi' => h.inj n f i n' f' i' ((useMacs_iface? t n f) ▸ hi) ((useMacs_iface? t n' f') ▸ hi'))
      h.pos (Nat.lt_succ_self _) h1
    have fin : ∀ t' : Topo, t'.autoMacs = t.autoMacs → t'.ifnum = t.ifnum + 2 →
        (∀ n f i, t'.iface? n f = some i → ∃ m, 0 < m ∧ m < t.ifnum + 2 ∧ m < 2 ^ 48 ∧ i.ethaddr = ⟨beEnc 6 m⟩) →
        (∀ n f i n' f' i', t'.iface? n f = some i → t'.iface? n' f' = some i' → i.ethaddr = i'.ethaddr → n = n' ∧ f = f') →
        MacOk t' := fun t' e1 e2 u i => ⟨e1.trans h.auto, by rw [e2]; exact u, i, by omega⟩
    rcases h' with ⟨e, -, h'⟩ | ⟨fa, t2, r2, hr1, h2, h'⟩
    · rw [h']
      refine fin t1 (h1.auto.trans hua) (h1.ifnum.trans hu) ?_ i1
      intro n f i hi
      obtain ⟨m, a1, a2, a3, a4⟩ := u1 n f i hi
      exact ⟨m, a1, by omega, a3, a4⟩
    · rw [hm1] at h2
      obtain ⟨u2, i2⟩ := macOk_added (bound := t.ifnum + 2) u1 i1 (by omega) (by omega) h2
      rcases h' with ⟨e, -, h'⟩ | ⟨fb, hr2, h'⟩
      · rw [h']
        exact fin t2 (h2.auto.trans (h1.auto.trans hua)) (h2.ifnum.trans (h1.ifnum.trans hu)) u2 i2
      · rw [h']
        have hs := sameNodes_connect t2 a b fa fb c d
        refine fin _ (hs.2.1.trans (h2.auto.trans (h1.auto.trans hua))) (hs.2.2.trans (h2.ifnum.trans (h1.ifnum.trans hu))) ?_ ?_
        · intro n f i hi; rw [sameNodes_iface? hs] at hi; exact u2 n f i hi
        · intro n f i n' f' i' hi hi'
          rw [sameNodes_iface? hs] at hi hi'; exact i2 n f i n' f' i' hi hi'
  · rw [addLink_missing t a b c d hn]; exact h

end SY.Props
