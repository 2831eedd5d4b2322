import Verif.Py

/-! # Python dictionaries

An insertion-ordered association list.  Keys are unique in every dictionary built with these
operations (`Dict.Uniq`). -/

namespace SY

/-- A `dict`: items in insertion order. -/
abbrev Dict (κ : Type) (ν : Type) := List (κ × ν)

namespace Dict

variable {κ ν : Type} [DecidableEq κ]

/-- `d.get(k)`. -/
def get? (d : Dict κ ν) (k : κ) : Option ν :=
  match d with
  | [] => none
  | (k', v) :: d => if k' = k then some v else get? d k

/-- `d[k] = v`: an existing item keeps its position. -/
def set (d : Dict κ ν) (k : κ) (v : ν) : Dict κ ν :=
  match d with
  | [] => [(k, v)]
  | (k', v') :: d => if k' = k then (k', v) :: d else (k', v') :: set d k v

/-- `d.pop(k)` (what remains). -/
def erase (d : Dict κ ν) (k : κ) : Dict κ ν :=
  match d with
  | [] => []
  | (k', v') :: d => if k' = k then d else (k', v') :: erase d k

/-- `d.keys()`. -/
def keys (d : Dict κ ν) : List κ := d.map Prod.fst

/-- No key occurs twice. -/
def Uniq (d : Dict κ ν) : Prop := (keys d).Nodup

instance Uniq.dec (d : Dict κ ν) : Decidable (Uniq d) := by unfold Uniq; infer_instance

@[simp] theorem get?_nil (k : κ) : get? ([] : Dict κ ν) k = none := rfl

theorem get?_cons (k' : κ) (v : ν) (d : Dict κ ν) (k : κ) :
    get? ((k', v) :: d) k = if k' = k then some v else get? d k := rfl

theorem get?_set (d : Dict κ ν) (k : κ) (v : ν) (k' : κ) :
    get? (set d k v) k' = if k = k' then some v else get? d k' := by
  induction d with
  | nil => simp [set, get?]
  | cons x d ih =>
    obtain ⟨a, b⟩ := x
    simp only [set]
    split
    · rename_i h; subst h; simp only [get?]; split <;> rfl
    · rename_i h
      simp only [get?, ih]
      grind

theorem mem_keys (d : Dict κ ν) (k : κ) : k ∈ keys d ↔ ∃ v, get? d k = some v := by
  induction d with
  | nil => simp [keys]
  | cons x d ih =>
    obtain ⟨a, b⟩ := x
    simp only [keys, List.map_cons, List.mem_cons, get?] at ih ⊢
    by_cases h : a = k
    · simp [h]
    · simp only [h, if_false, ← ih]
      constructor
      · rintro (e | e)
        · exact absurd e.symm h
        · exact e
      · exact .inr

theorem get?_eq_none (d : Dict κ ν) (k : κ) : get? d k = none ↔ k ∉ keys d := by
  rw [mem_keys]
  cases get? d k <;> simp

theorem mem_of_get? {d : Dict κ ν} {k : κ} {v : ν} (h : get? d k = some v) : (k, v) ∈ d := by
  induction d with
  | nil => cases h
  | cons x d ih =>
    obtain ⟨a, b⟩ := x
    simp only [get?] at h
    split at h
    · rename_i e; cases h; subst e; simp
    · exact List.mem_cons_of_mem _ (ih h)

theorem keys_set (d : Dict κ ν) (k : κ) (v : ν) : keys (set d k v) = if k ∈ keys d then keys d else keys d ++ [k] := by
  induction d with
  | nil => simp [set, keys]
  | cons x d ih =>
    obtain ⟨a, b⟩ := x
    simp only [set]
    split
    · rename_i h; subst h; simp [keys]
    · rename_i h
      have hne : ¬ k = a := fun e => h e.symm
      simp only [keys, List.map_cons, List.mem_cons, hne, false_or] at ih ⊢
      rw [ih]
      split <;> simp_all

theorem uniq_set {d : Dict κ ν} (h : Uniq d) (k : κ) (v : ν) : Uniq (set d k v) := by
  unfold Uniq at *
  rw [keys_set]
  split
  · exact h
  · rename_i hk
    rw [List.nodup_append]
    refine ⟨h, by simp, ?_⟩
    intro a ha b hb e
    simp at hb
    subst hb; subst e
    exact hk ha

theorem keys_erase_subset (d : Dict κ ν) (k : κ) : (keys (erase d k)).Sublist (keys d) := by
  induction d with
  | nil => exact List.Sublist.slnil
  | cons x d ih =>
    obtain ⟨a, b⟩ := x
    simp only [erase]
    split
    · simp [keys]
    · simpa [keys] using ih

theorem uniq_erase {d : Dict κ ν} (h : Uniq d) (k : κ) : Uniq (erase d k) :=
  List.Nodup.sublist (keys_erase_subset d k) h

theorem get?_erase {d : Dict κ ν} (h : Uniq d) (k k' : κ) :
    get? (erase d k) k' = if k = k' then none else get? d k' := by
  induction d with
  | nil => simp [erase]
  | cons x d ih =>
    obtain ⟨a, b⟩ := x
    have hd : Uniq d := by unfold Uniq keys at *; simp only [List.map_cons, List.nodup_cons] at h; exact h.2
    have ha : a ∉ keys d := by unfold Uniq keys at *; simp only [List.map_cons, List.nodup_cons] at h; exact h.1
    simp only [erase]
    split
    · rename_i e
      subst e
      simp only [get?]
      split
      · rename_i e; subst e; exact (get?_eq_none d a).mpr ha
      · rfl
    · rename_i e
      simp only [get?, ih hd]
      grind

theorem get?_of_mem {d : Dict κ ν} (h : Uniq d) {k : κ} {v : ν} (hm : (k, v) ∈ d) : get? d k = some v := by
  induction d with
  | nil => cases hm
  | cons x d ih =>
    obtain ⟨a, b⟩ := x
    have hd : Uniq d ∧ a ∉ keys d := by
      unfold Uniq keys at *; simp only [List.map_cons, List.nodup_cons] at h; exact ⟨h.2, h.1⟩
    rcases List.mem_cons.mp hm with e | e
    · cases e; simp [get?]
    · have : k ∈ keys d := List.mem_map.mpr ⟨(k, v), e, rfl⟩
      simp only [get?]
      rw [if_neg (fun e' : a = k => hd.2 (by rw [e']; exact this))]
      exact ih hd.1 e

theorem get?_map {μ : Type} (d : Dict κ ν) (f : ν → μ) (k : κ) :
    get? (d.map fun x => (x.1, f x.2)) k = (get? d k).map f := by
  induction d with
  | nil => rfl
  | cons x d ih =>
    obtain ⟨a, b⟩ := x
    simp only [List.map_cons, get?]
    split
    · rfl
    · exact ih

theorem mem_set {d : Dict κ ν} {k : κ} {v : ν} {x : κ × ν} (h : x ∈ set d k v) : x ∈ d ∨ x = (k, v) := by
  induction d with
  | nil => exact .inr (by simpa [set] using h)
  | cons y d ih =>
    obtain ⟨a, b⟩ := y
    simp only [set] at h
    split at h
    · rename_i e
      subst e
      rcases List.mem_cons.mp h with e | e
      · exact .inr e
      · exact .inl (List.mem_cons_of_mem _ e)
    · rcases List.mem_cons.mp h with e | e
      · exact .inl (by rw [e]; exact List.mem_cons_self)
      · rcases ih e with e | e
        · exact .inl (List.mem_cons_of_mem _ e)
        · exact .inr e

end Dict
end SY
