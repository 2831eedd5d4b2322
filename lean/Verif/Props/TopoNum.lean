import Verif.Props.TopoInv

/-! # Lemmas on the listing of links and the numbering of interfaces -/

namespace SY.Props
open SY

/-! ## Listing the links -/

theorem chunk_perm {β : Type} (g : Name → Name → List β) (hg : ∀ x y, (g x y).Perm (g y x)) (n : Name) (seen : List Name)
    (hn : n ∉ seen) (es : List Edge) :
    ((es.filterMap fun e : Edge =>
        if e.a = n ∧ e.b ∉ seen then some (n, e.b)
        else if e.b = n ∧ e.a ∉ seen then some (n, e.a) else none).flatMap fun p => g p.1 p.2).Perm
      ((es.filter fun e : Edge => (e.a = n || e.b = n) && (e.a ∉ seen && e.b ∉ seen)).flatMap fun e => g e.a e.b) := by
  induction es with
  | nil => exact List.Perm.refl _
  | cons e es ih =>
    by_cases h1 : e.a = n ∧ e.b ∉ seen
    · rw [List.filterMap_cons_some (b := (n, e.b)) (by simp [h1]),
        List.filter_cons_of_pos (by simp [h1.1, h1.2, hn]), List.flatMap_cons, List.flatMap_cons]
      rw [h1.1]; exact ih.append_left _
    · by_cases h2 : e.b = n ∧ e.a ∉ seen
      · rw [List.filterMap_cons_some (b := (n, e.a)) (by rw [if_neg h1, if_pos h2]),
          List.filter_cons_of_pos (by simp [h2.1, h2.2, hn]), List.flatMap_cons, List.flatMap_cons]
        rw [h2.1]; exact (hg _ _).append ih
      · rw [List.filterMap_cons_none (by rw [if_neg h1, if_neg h2]), List.filter_cons_of_neg]
        · exact ih
        · intro h
          simp only [Bool.and_eq_true, Bool.or_eq_true, decide_eq_true_eq] at h
          rcases h.1 with e1 | e1
          · exact h1 ⟨e1, h.2.2⟩
          · exact h2 ⟨e1, h.2.1⟩

theorem linksFrom_perm {β : Type} (g : Name → Name → List β) (hg : ∀ x y, (g x y).Perm (g y x)) (es : List Edge) :
    ∀ (ns seen : List Name), ns.Nodup → (∀ n ∈ ns, n ∉ seen) →
    ((linksFrom es seen ns).flatMap fun p => g p.1 p.2).Perm
      ((es.filter fun e : Edge => (decide (e.a ∈ ns) || decide (e.b ∈ ns)) && (e.a ∉ seen && e.b ∉ seen)).flatMap
        fun e => g e.a e.b) := by
  intro ns
  induction ns with
  | nil => intro seen _ _; simp [linksFrom]
  | cons n ns ih =>
    intro seen hnd hd
    obtain ⟨hn, hnd⟩ := List.nodup_cons.mp hnd
    have hns : n ∉ seen := hd n (by simp)
    simp only [linksFrom, List.flatMap_append]
    refine ((chunk_perm g hg n seen hns es).append (ih (n :: seen) hnd ?_)).trans ?_
    · intro m hm h
      rcases List.mem_cons.mp h with rfl | h
      · exact hn hm
      · exact hd m (List.mem_cons_of_mem _ hm) h
    · rw [← List.flatMap_append]
      refine List.Perm.flatMap_right _ ?_
      have := List.filter_append_perm (fun e : Edge => decide (e.a = n) || decide (e.b = n))
        (es.filter fun e : Edge => (decide (e.a ∈ n :: ns) || decide (e.b ∈ n :: ns)) && (e.a ∉ seen && e.b ∉ seen))
      refine List.Perm.trans (List.Perm.of_eq ?_) this
      rw [List.filter_filter, List.filter_filter]
      congr 1
      · refine List.filter_congr fun e _ => ?_
        by_cases h1 : e.a = n <;> by_cases h2 : e.b = n <;> simp [h1, h2]
      · refine List.filter_congr fun e _ => ?_
        by_cases h1 : e.a = n <;> by_cases h2 : e.b = n <;> simp [h1, h2]

/-- The links as listed are the links, with their ends in some order. -/
theorem links_perm {t : Topo} (h : TopoOk t) {β : Type} (g : Name → Name → List β) (hg : ∀ x y, (g x y).Perm (g y x)) :
    (t.links.flatMap fun p => g p.1 p.2).Perm (t.edges.flatMap fun e => g e.a e.b) := by
  refine (linksFrom_perm g hg t.edges t.nodes.keys [] h.uniq (fun _ _ => by simp)).trans (List.Perm.of_eq ?_)
  congr 1
  refine List.filter_eq_self.mpr fun e he => ?_
  simp [(h.edges e he).endA]

theorem joins_symm (e : Edge) (a b : Name) : e.joins a b = e.joins b a := by
  unfold Edge.joins; rw [Bool.or_comm]

theorem attr?_symm (t : Topo) (a b k : Name) : t.attr? a b k = t.attr? b a k := by
  unfold Topo.attr?
  have : (fun e : Edge => e.joins a b) = fun e => e.joins b a := funext fun e => joins_symm e a b
  rw [this]

theorem attr?_edge {t : Topo} (h : TopoOk t) {e : Edge} (he : e ∈ t.edges) (k : Name) :
    t.attr? e.a e.b k = e.attrs.get? k := by
  have : t.edges.find? (fun x => x.joins e.a e.b) = some e := by
    obtain ⟨l1, l2, hl⟩ := List.append_of_mem he
    refine List.find?_eq_some_iff_append.mpr ⟨by simp [Edge.joins], l1, l2, hl, ?_⟩
    intro a ha
    have hp := h.once
    rw [hl] at hp
    have := (List.pairwise_append.mp hp).2.2 a ha e (by simp)
    simp [this]
  simp [Topo.attr?, this]

/-! ## Numbering -/

/-- What `numberEnds` hands out from the address `x` on. -/
def handedOut (t : Topo) (num : Name → Bool) : Nat → List (Name × Name × Name) → List (Name × Name × Nat)
  | _, [] => []
  | x, (u, v, n) :: es =>
    if num n then
      match t.attr? u v n with
      | some (.ifname f) => (n, f, x) :: handedOut t num (x + 1) es
      | _ => handedOut t num x es
    else handedOut t num x es

theorem handedOut_edges {t t' : Topo} (h : t'.edges = t.edges) (num : Name → Bool) (x : Nat) (es : List (Name × Name × Name)) :
    handedOut t' num x es = handedOut t num x es := by
  induction es generalizing x with
  | nil => rfl
  | cons e es ih =>
    obtain ⟨u, v, n⟩ := e
    simp only [handedOut, ih, Topo.attr?, h]

theorem assignIp_text (i : Iface) (a : BitVec 32) (p : Nat) (hp : p ≤ 32) :
    i.assignIp (.text (IPIface.text ⟨.v4 a, p⟩)) = (i.addIp ⟨.v4 a, p⟩, none) := by
  simp [Iface.assignIp, assignedIp, ipInterface, ifaceParse, ipv4IfaceParse_text a p hp]

theorem addIp_mem (i : Iface) (x y : IPIface) : y ∈ (i.addIp x).ips ↔ y ∈ i.ips ∨ y = x := by
  unfold Iface.addIp
  split
  · rename_i h
    constructor
    · exact Or.inl
    · rintro (h' | rfl) <;> assumption
  · simp

/-- All the ends to number have an interface. -/
def endsOk (t : Topo) (num : Name → Bool) (es : List (Name × Name × Name)) : Prop :=
  ∀ x ∈ es, num x.2.2 = true → ∃ f i, t.attr? x.1 x.2.1 x.2.2 = some (.ifname f) ∧ t.iface? x.2.2 f = some i

theorem endsOk_readdressed {t t' : Topo} (h : Readdressed t t') {num : Name → Bool} {es : List (Name × Name × Name)}
    (ho : endsOk t num es) : endsOk t' num es := by
  intro x hx hn
  obtain ⟨f, i, h1, h2⟩ := ho x hx hn
  obtain ⟨j, hj, -⟩ := h.old _ _ _ h2
  exact ⟨f, j, by simpa [Topo.attr?, h.edges] using h1, hj⟩

theorem numberEnds_ok (num : Name → Bool) (plen : Nat) (hp : plen ≤ 32) (l : Nat) (es : List (Name × Name × Name)) :
    ∀ (t : Topo) (x : Nat), endsOk t num es → x + es.countP (fun e => num e.2.2) ≤ l + 1 →
    (numberEnds num plen t (.gen x l) es).2 = none ∧
    ∀ n f i j, t.iface? n f = some i → (numberEnds num plen t (.gen x l) es).1.iface? n f = some j →
      ∀ y, y ∈ j.ips ↔ y ∈ i.ips ∨ ∃ a, (n, f, a) ∈ handedOut t num x es ∧ y = ⟨.v4 (BitVec.ofNat 32 a), plen⟩ := by
  induction es with
  | nil =>
    intro t x _ _
    refine ⟨rfl, fun n f i j hi hj y => ?_⟩
    rw [show (numberEnds num plen t (.gen x l) []).1 = t from rfl, hi] at hj
    cases hj
    simp [handedOut]
  | cons e es ih =>
    obtain ⟨u, v, m⟩ := e
    intro t x ho hc
    have ho' : endsOk t num es := fun y hy => ho y (List.mem_cons_of_mem _ hy)
    by_cases hm : num m = true
    · obtain ⟨fm, im, ha, hi⟩ := ho (u, v, m) (by simp) hm
      simp only at ha hi
      have hcount : x + 1 + es.countP (fun e => num e.2.2) ≤ l + 1 := by
        rw [List.countP_cons_of_pos (by simpa using hm)] at hc; omega
      have hend : t.numberEnd (.gen x l) plen u v m =
          ((t.setIface m fm (im.addIp ⟨.v4 (BitVec.ofNat 32 x), plen⟩), .gen (x + 1) l), none) := by
        simp only [Topo.numberEnd, ha, hi, HostGen.next]
        rw [if_pos (by omega)]
        simp only [assignIp_text im _ plen hp]
      have hr : Readdressed t (t.setIface m fm (im.addIp ⟨.v4 (BitVec.ofNat 32 x), plen⟩)) :=
        readdressed_setIface hi (moreAddrs_addIp im _)
      obtain ⟨h1, h2⟩ := ih _ (x + 1) (endsOk_readdressed hr ho') hcount
      have hrun : numberEnds num plen t (.gen x l) ((u, v, m) :: es) =
          numberEnds num plen (t.setIface m fm (im.addIp ⟨.v4 (BitVec.ofNat 32 x), plen⟩)) (.gen (x + 1) l) es := by
        simp only [numberEnds, hm, if_true, hend]
      rw [hrun]
      refine ⟨h1, fun n f i j hin hj y => ?_⟩
      have hout : handedOut t num x ((u, v, m) :: es) = (m, fm, x) :: handedOut t num (x + 1) es := by
        simp only [handedOut, hm, if_true, ha]
      rw [hout]
      by_cases hnf : m = n ∧ fm = f
      · obtain ⟨rfl, rfl⟩ := hnf
        rw [hi] at hin; cases hin
        have := h2 m fm _ j (by rw [iface?_setIface hi, if_pos ⟨rfl, rfl⟩]) hj y
        rw [this, addIp_mem, handedOut_edges hr.edges]
        constructor
        · rintro ((h | h) | ⟨a, h, e⟩)
          · exact Or.inl h
          · exact Or.inr ⟨x, by simp, h⟩
          · exact Or.inr ⟨a, List.mem_cons_of_mem _ h, e⟩
        · rintro (h | ⟨a, h, e⟩)
          · exact Or.inl (Or.inl h)
          · rcases List.mem_cons.mp h with h | h
            · cases h; exact Or.inl (Or.inr e)
            · exact Or.inr ⟨a, h, e⟩
      · have := h2 n f i j (by rw [iface?_setIface hi, if_neg hnf]; exact hin) hj y
        rw [this, handedOut_edges hr.edges]
        refine or_congr Iff.rfl ⟨fun ⟨a, h, e⟩ => ⟨a, List.mem_cons_of_mem _ h, e⟩, fun ⟨a, h, e⟩ => ⟨a, ?_, e⟩⟩
        rcases List.mem_cons.mp h with h | h
        · cases h; exact absurd ⟨rfl, rfl⟩ hnf
        · exact h
    · have hm' : num m = false := by simpa using hm
      have hrun : numberEnds num plen t (.gen x l) ((u, v, m) :: es) = numberEnds num plen t (.gen x l) es := by
        simp only [numberEnds, hm', if_neg Bool.false_ne_true]
      have hout : handedOut t num x ((u, v, m) :: es) = handedOut t num x es := by
        simp only [handedOut, hm', if_neg Bool.false_ne_true]
      rw [hrun, hout]
      exact ih t x ho' (by rw [List.countP_cons_of_neg (by simpa using hm)] at hc; exact hc)

theorem numberEnds_short (num : Name → Bool) (plen : Nat) (hp : plen ≤ 32) (l : Nat) (es : List (Name × Name × Name)) :
    ∀ (t : Topo) (x : Nat), endsOk t num es → x ≤ l + 1 → l + 1 < x + es.countP (fun e => num e.2.2) →
    (numberEnds num plen t (.gen x l) es).2 = some .stopIteration := by
  induction es with
  | nil => intro t x _ _ h; simp at h; omega
  | cons e es ih =>
    obtain ⟨u, v, m⟩ := e
    intro t x ho hx hc
    have ho' : endsOk t num es := fun y hy => ho y (List.mem_cons_of_mem _ hy)
    by_cases hm : num m = true
    · obtain ⟨fm, im, ha, hi⟩ := ho (u, v, m) (by simp) hm
      simp only at ha hi
      rw [List.countP_cons_of_pos (by simpa using hm)] at hc
      by_cases hl : x ≤ l
      · have hend : t.numberEnd (.gen x l) plen u v m =
            ((t.setIface m fm (im.addIp ⟨.v4 (BitVec.ofNat 32 x), plen⟩), .gen (x + 1) l), none) := by
          simp only [Topo.numberEnd, ha, hi, HostGen.next]
          rw [if_pos (by omega)]
          simp only [assignIp_text im _ plen hp]
        have hr : Readdressed t (t.setIface m fm (im.addIp ⟨.v4 (BitVec.ofNat 32 x), plen⟩)) :=
          readdressed_setIface hi (moreAddrs_addIp im _)
        have hrun : numberEnds num plen t (.gen x l) ((u, v, m) :: es) =
            numberEnds num plen (t.setIface m fm (im.addIp ⟨.v4 (BitVec.ofNat 32 x), plen⟩)) (.gen (x + 1) l) es := by
          simp only [numberEnds, hm, if_true, hend]
        rw [hrun]
        exact ih _ (x + 1) (endsOk_readdressed hr ho') (by omega) (by omega)
      · have hend : t.numberEnd (.gen x l) plen u v m = ((t, .gen x l), some .stopIteration) := by
          simp only [Topo.numberEnd, ha, hi, HostGen.next, if_neg hl]
        simp only [numberEnds, hm, if_true, hend]
    · have hm' : num m = false := by simpa using hm
      have hrun : numberEnds num plen t (.gen x l) ((u, v, m) :: es) = numberEnds num plen t (.gen x l) es := by
        simp only [numberEnds, hm', if_neg Bool.false_ne_true]
      rw [hrun]
      exact ih t x ho' hx (by rw [List.countP_cons_of_neg (by simpa using hm)] at hc; exact hc)

theorem handedOut_addrs (t : Topo) (num : Name → Bool) (es : List (Name × Name × Name)) (x : Nat) (h : endsOk t num es) :
    (handedOut t num x es).map (fun g => g.2.2) = List.range' x (es.countP fun e => num e.2.2) := by
  induction es generalizing x with
  | nil => rfl
  | cons e es ih =>
    obtain ⟨u, v, n⟩ := e
    have h' : endsOk t num es := fun y hy => h y (List.mem_cons_of_mem _ hy)
    by_cases hn : num n = true
    · obtain ⟨f, i, ha, -⟩ := h (u, v, n) (by simp) hn
      simp only at ha
      rw [List.countP_cons_of_pos (by simpa using hn)]
      simp only [handedOut, hn, if_true, ha, List.map_cons, ih (x + 1) h', List.range'_succ]
    · rw [List.countP_cons_of_neg (by simpa using hn)]
      have hn' : num n = false := by simpa using hn
      simp only [handedOut, hn', if_neg Bool.false_ne_true, ih x h']

/-- The node and interface of each end to number. -/
theorem handedOut_ends (t : Topo) (num : Name → Bool) (es : List (Name × Name × Name)) (x : Nat) (h : endsOk t num es) :
    (handedOut t num x es).map (fun g => (g.1, some (Attr.ifname g.2.1))) =
      (es.filter fun e => num e.2.2).map fun e => (e.2.2, t.attr? e.1 e.2.1 e.2.2) := by
  induction es generalizing x with
  | nil => rfl
  | cons e es ih =>
    obtain ⟨u, v, n⟩ := e
    have h' : endsOk t num es := fun y hy => h y (List.mem_cons_of_mem _ hy)
    by_cases hn : num n = true
    · obtain ⟨f, i, ha, -⟩ := h (u, v, n) (by simp) hn
      simp only at ha
      rw [List.filter_cons_of_pos (by simpa using hn)]
      simp only [handedOut, hn, if_true, ha, List.map_cons, ih (x + 1) h']
    · rw [List.filter_cons_of_neg (by simpa using hn)]
      have hn' : num n = false := by simpa using hn
      simp only [handedOut, hn', if_neg Bool.false_ne_true, ih x h']

theorem insertPair_perm (x : Name × Name) (l : List (Name × Name)) : (insertPair x l).Perm (x :: l) := by
  induction l with
  | nil => exact List.Perm.refl _
  | cons y ys ih =>
    unfold insertPair
    split
    · exact List.Perm.refl _
    · exact (ih.cons y).trans (List.Perm.swap x y ys)

theorem sortPairs_perm (l : List (Name × Name)) : (sortPairs l).Perm l := by
  induction l with
  | nil => exact List.Perm.refl _
  | cons x xs ih => exact (insertPair_perm x _).trans (ih.cons x)

/-- The ends in the order of the code are the ends of the links. -/
theorem ends_perm {t : Topo} (h : TopoOk t) :
    (t.ends.map fun e => (e.2.2, t.attr? e.1 e.2.1 e.2.2)).Perm
      (t.edges.flatMap fun e => [(e.a, e.attrs.get? e.a), (e.b, e.attrs.get? e.b)]) := by
  have h1 : (t.ends.map fun e => (e.2.2, t.attr? e.1 e.2.1 e.2.2)) =
      (sortPairs t.links).flatMap fun p => [(p.1, t.attr? p.1 p.2 p.1), (p.2, t.attr? p.1 p.2 p.2)] := by
    simp [Topo.ends, List.map_flatMap]
  have h2 : (t.edges.flatMap fun e => [(e.a, e.attrs.get? e.a), (e.b, e.attrs.get? e.b)]) =
      t.edges.flatMap fun e => [(e.a, t.attr? e.a e.b e.a), (e.b, t.attr? e.a e.b e.b)] := by
    rw [List.flatMap_def, List.flatMap_def]
    congr 1
    refine List.map_congr_left fun e he => ?_
    rw [attr?_edge h he, attr?_edge h he]
  rw [h1, h2]
  refine ((sortPairs_perm _).flatMap_right _).trans
    (links_perm h (fun x y => [(x, t.attr? x y x), (y, t.attr? x y y)]) ?_)
  intro x y
  rw [attr?_symm t y x]
  exact List.Perm.swap _ _ _ |>.trans (by rw [attr?_symm t y x])

theorem numbered_iff {t : Topo} (h : t.nodes.Uniq) {n : Name} {nd : TNode} (hg : t.nodes.get? n = some nd) :
    t.numbered n = true ↔ nd.kind ≠ .switch := by
  have hk : ∀ k, n ∈ t.ofKind k ↔ nd.kind = k := by
    intro k
    unfold Topo.ofKind
    simp only [List.mem_map, List.mem_filter, decide_eq_true_eq, Prod.exists, exists_and_right, exists_eq_right]
    constructor
    · rintro ⟨nd', hm, hk⟩
      rw [Dict.get?_of_mem h hm] at hg
      cases hg; exact hk
    · intro e; exact ⟨nd, Dict.mem_of_get? hg, e⟩
  simp only [Topo.numbered, List.mem_append, hk, decide_eq_true_eq]
  cases nd.kind <;> simp

end SY.Props
