import Verif.TopoFile
import Verif.Props.Json
import Verif.Props.TopoSave

/-! # Property C208: the text and the file of a saved topology -/

namespace SY.Props
open SY

theorem wf_listOf (l : List Json) (h : ∀ v ∈ l, v.WF) : (JList.of l).WF := by
  induction l with
  | nil => trivial
  | cons v l ih => exact ⟨h v (by simp), ih fun w hw => h w (by simp [hw])⟩

theorem wf_fieldsOf (l : List (List Char × Json)) (h : ∀ x ∈ l, x.2.WF) : (JFields.of l).WF := by
  induction l with
  | nil => trivial
  | cons v l ih => exact ⟨h v (by simp), ih fun w hw => h w (by simp [hw])⟩

theorem keys_fieldsOf (l : List (List Char × Json)) : (JFields.of l).keys = l.map Prod.fst := by
  induction l with
  | nil => rfl
  | cons v l ih => simp only [JFields.of, JFields.keys, ih, List.map_cons]

theorem wf_objOf (l : List (List Char × Json)) (h : ∀ x ∈ l, x.2.WF) (hk : (l.map Prod.fst).Nodup) : (Json.obj (JFields.of l)).WF := by
  simp only [Json.WF]
  exact ⟨wf_fieldsOf l h, by rw [keys_fieldsOf]; exact hk⟩

theorem wf_attr (flt : Int × Nat → Json) (other : Int × Nat → List Char) (hf : ∀ d, (flt d).WF) (a : Attr) : (a.json flt other).WF := by
  match a with
  | .ifname s => trivial
  | .cap none => trivial
  | .cap (some n) => trivial
  | .delay none => trivial
  | .delay (some d) => exact hf d
  | .label c d => trivial

/-- The dictionaries of the saved form have every key once. -/
theorem wf_saved (flt : Int × Nat → Json) (other : Int × Nat → List Char) (hf : ∀ d, (flt d).WF) (s : Saved)
    (hn : ∀ x ∈ s.nodes, (x.ifs.map Prod.fst).Nodup) (hl : ∀ d ∈ s.links, (d.map Prod.fst).Nodup) : (s.json flt other).WF := by
  refine wf_objOf _ ?_ (by simp only [List.map_cons, List.map_nil]; decide)
  intro x hx
  simp only [List.mem_cons, List.not_mem_nil, or_false] at hx
  rcases hx with rfl | rfl | rfl | rfl | rfl
  · trivial
  · trivial
  · exact wf_objOf _ (by intro x hx; simp only [List.mem_cons, List.not_mem_nil, or_false] at hx; subst hx; trivial) (by simp)
  · apply wf_listOf
    intro v hv
    obtain ⟨n, hn1, rfl⟩ := List.mem_map.1 hv
    refine wf_objOf _ ?_ (by simp only [List.map_cons, List.map_nil]; decide)
    intro x hx
    simp only [List.mem_cons, List.not_mem_nil, or_false] at hx
    rcases hx with rfl | rfl | rfl | rfl
    · trivial
    · refine wf_objOf _ ?_ (by simp)
      intro x hx
      simp only [List.mem_cons, List.not_mem_nil, or_false] at hx
      subst hx
      refine wf_objOf _ ?_ ?_
      · intro x hx
        obtain ⟨y, _, rfl⟩ := List.mem_map.1 hx
        trivial
      · rw [List.map_map]; exact hn n hn1
    · trivial
    · trivial
  · apply wf_listOf
    intro v hv
    obtain ⟨d, hd, rfl⟩ := List.mem_map.1 hv
    refine wf_objOf _ ?_ ?_
    · intro x hx
      obtain ⟨y, _, rfl⟩ := List.mem_map.1 hx
      exact wf_attr flt other hf y.2
    · rw [List.map_map]; exact hl d hd

theorem wf_topo (flt : Int × Nat → Json) (other : Int × Nat → List Char) (hf : ∀ d, (flt d).WF) (name : List Char) (auto : Bool) (k : Int)
    (ops : List TopoOp) : ((((Topo.init name auto k).run ops).save).json flt other).WF := by
  obtain ⟨ho, hk⟩ := topo_reach name auto k ops
  generalize (Topo.init name auto k).run ops = t at *
  apply wf_saved flt other hf
  · intro x hx
    obtain ⟨⟨n, nd⟩, hy, rfl⟩ := List.mem_map.1 hx
    have hg := Dict.get?_of_mem ho.uniq hy
    have := (ho.nodes n nd hg).1.uniq
    simp only [savedNode, List.map_map]
    exact this
  · intro d hd
    obtain ⟨e, he, rfl⟩ := List.mem_map.1 hd
    exact Dict.uniq_set (Dict.uniq_set (keysOk_listed hk e he).1 _ _) _ _

/-- **C126**: `json.loads(t.serialize())` is the dictionary that was written, for every topology built by any history. -/
theorem topology_text_roundtrip (flt : Int × Nat → Json) (other : Int × Nat → List Char) (hf : ∀ d, (flt d).WF) (name : List Char)
    (auto : Bool) (k : Int) (ops : List TopoOp) :
    jsonLoads (((Topo.init name auto k).run ops).serialize flt other) = .ok (((Topo.init name auto k).run ops).save.json flt other) :=
  json_roundtrip _ (wf_topo flt other hf name auto k ops)

/-- **C208**: wherever saving a topology is interrupted, the file is as it was before, or it is refused by `json.loads`, or it is
complete. -/
theorem topology_save_interrupted (flt : Int × Nat → Json) (other : Int × Nat → List Char) (hf : ∀ d, (flt d).WF) (name : List Char)
    (auto : Bool) (k : Int) (ops : List TopoOp) (old : Option (List Char)) (p : CompilePoint) :
    ((Topo.init name auto k).run ops).savedFile flt other old p = old ∨
    ∃ s, ((Topo.init name auto k).run ops).savedFile flt other old p = some s ∧
      (jsonLoads s = .error .valueError ∨
        s = ((Topo.init name auto k).run ops).serialize flt other ∧
        jsonLoads s = .ok (((Topo.init name auto k).run ops).save.json flt other)) := by
  have hw := wf_topo flt other hf name auto k ops
  generalize (Topo.init name auto k).run ops = t at *
  cases p with
  | before => exact .inl rfl
  | written n =>
    refine .inr ⟨_, rfl, ?_⟩
    rcases Nat.lt_or_ge n (t.serialize flt other).length with h | h
    · exact .inl (json_cut _ hw rfl n h)
    · right
      rw [List.take_of_length_le h]
      exact ⟨rfl, json_roundtrip _ hw⟩

/-! ## The characters -/

/-- The visible characters of ASCII and the space. -/
def plainChar (c : Char) : Bool := 32 ≤ c.toNat && c.toNat ≤ 126

def VisibleText (s : List Char) : Prop := ∀ c ∈ s, plainChar c = true

theorem plain_append {a b : List Char} (ha : VisibleText a) (hb : VisibleText b) : VisibleText (a ++ b) := by
  intro c hc
  rcases List.mem_append.1 hc with h | h
  · exact ha c h
  · exact hb c h

theorem plain_cons {c : Char} {b : List Char} (hc : plainChar c = true) (hb : VisibleText b) : VisibleText (c :: b) := by
  intro d hd
  rcases List.mem_cons.1 hd with rfl | h
  · exact hc
  · exact hb d h

theorem plain_nil : VisibleText [] := by intro c hc; cases hc

theorem plain_hexDigit (n : Nat) (h : n < 16) : plainChar (jsonHexDigit n) = true := by
  have : ∀ i : Fin 16, plainChar (jsonHexDigit i.val) = true := by decide
  exact this ⟨n, h⟩

theorem plain_hex4 (n : Nat) : VisibleText (jsonHex4 n) :=
  plain_cons (plain_hexDigit _ (Nat.mod_lt _ (by decide))) (plain_cons (plain_hexDigit _ (Nat.mod_lt _ (by decide)))
    (plain_cons (plain_hexDigit _ (Nat.mod_lt _ (by decide))) (plain_cons (plain_hexDigit _ (Nat.mod_lt _ (by decide))) plain_nil)))

theorem plain_jsonChar (c : Char) : VisibleText (jsonChar c) := by
  unfold jsonChar
  by_cases h1 : c = '"'
  · rw [if_pos h1]; exact (by decide : ∀ c ∈ ['\\', '"'], plainChar c = true)
  rw [if_neg h1]
  by_cases h1 : c = '\\'
  · rw [if_pos h1]; exact (by decide : ∀ c ∈ ['\\', '\\'], plainChar c = true)
  rw [if_neg h1]
  by_cases h1 : c = '\n'
  · rw [if_pos h1]; exact (by decide : ∀ c ∈ ['\\', 'n'], plainChar c = true)
  rw [if_neg h1]
  by_cases h1 : c = '\r'
  · rw [if_pos h1]; exact (by decide : ∀ c ∈ ['\\', 'r'], plainChar c = true)
  rw [if_neg h1]
  by_cases h1 : c = '\t'
  · rw [if_pos h1]; exact (by decide : ∀ c ∈ ['\\', 't'], plainChar c = true)
  rw [if_neg h1]
  by_cases h1 : c.toNat = 12
  · rw [if_pos h1]; exact (by decide : ∀ c ∈ ['\\', 'f'], plainChar c = true)
  rw [if_neg h1]
  by_cases h1 : c.toNat = 8
  · rw [if_pos h1]; exact (by decide : ∀ c ∈ ['\\', 'b'], plainChar c = true)
  rw [if_neg h1]
  by_cases h1 : 32 ≤ c.toNat ∧ c.toNat ≤ 126
  · rw [if_pos h1]; exact plain_cons (by simp [plainChar, h1]) plain_nil
  rw [if_neg h1]
  by_cases h1 : c.toNat < 65536
  · rw [if_pos h1]; exact plain_cons (by decide) (plain_cons (by decide) (plain_hex4 _))
  rw [if_neg h1]
  exact plain_cons (by decide) (plain_cons (by decide) (plain_append (plain_hex4 _)
    (plain_cons (by decide) (plain_cons (by decide) (plain_hex4 _)))))

theorem plain_jsonTail (s : List Char) : VisibleText (jsonTail s) := by
  induction s with
  | nil => exact plain_cons (by decide) plain_nil
  | cons c s ih => exact plain_append (plain_jsonChar c) ih

theorem plain_jsonStr (s : List Char) : VisibleText (jsonStr s) := plain_cons (by decide) (plain_jsonTail s)

theorem plain_numPart {c : Char} (h : isNumPart c = true) : plainChar c = true := by
  simp only [isNumPart, Bool.or_eq_true, decide_eq_true_eq] at h
  rcases h with ((((h | rfl) | rfl) | rfl) | rfl) | rfl
  · simp only [Char.isDigit, Bool.and_eq_true, decide_eq_true_eq] at h
    have h1 : 48 ≤ c.toNat := h.1
    have h2 : c.toNat ≤ 57 := h.2
    simp only [plainChar, Bool.and_eq_true, decide_eq_true_eq]
    omega
  all_goals decide

theorem plain_number (t : List Char) (v : Json) (h : scanNumber t = some (v, [])) : VisibleText t := by
  obtain ⟨u, hu, _, hp⟩ := scanNumber_split t _ h
  rw [List.append_nil] at hu
  exact fun c hc => plain_numPart (hp c (hu ▸ hc))

mutual
theorem plain_text (v : Json) (h : v.WF) : VisibleText v.text := by
  match v, h with
  | .null, _ => exact (by decide : ∀ c ∈ "null".toList, plainChar c = true)
  | .bool true, _ => exact (by decide : ∀ c ∈ "true".toList, plainChar c = true)
  | .bool false, _ => exact (by decide : ∀ c ∈ "false".toList, plainChar c = true)
  | .int n, _ => exact plain_number _ _ (scanNumber_int n)
  | .float t, h => exact plain_number _ _ h
  | .str s, _ => exact plain_jsonStr s
  | .arr .nil, _ => exact (by decide : ∀ c ∈ ['[', ']'], plainChar c = true)
  | .obj .nil, _ => exact (by decide : ∀ c ∈ ['{', '}'], plainChar c = true)
  | .arr (.cons v l), h =>
    simp only [Json.WF, JList.WF] at h
    simp only [Json.text]
    exact plain_cons (by decide) (plain_append (plain_text v h.1) (plain_more l h.2))
  | .obj (.cons k v l), h =>
    simp only [Json.WF, JFields.WF] at h
    simp only [Json.text]
    exact plain_cons (by decide) (plain_append (plain_jsonStr k) (plain_cons (by decide) (plain_cons (by decide)
      (plain_append (plain_text v h.1.1) (plain_moreFields l h.1.2)))))
theorem plain_more (l : JList) (h : l.WF) : VisibleText l.more := by
  match l, h with
  | .nil, _ => exact plain_cons (by decide) plain_nil
  | .cons v l, h =>
    simp only [JList.WF] at h
    simp only [JList.more]
    exact plain_cons (by decide) (plain_cons (by decide) (plain_append (plain_text v h.1) (plain_more l h.2)))
theorem plain_moreFields (l : JFields) (h : l.WF) : VisibleText l.more := by
  match l, h with
  | .nil, _ => exact plain_cons (by decide) plain_nil
  | .cons k v l, h =>
    simp only [JFields.WF] at h
    simp only [JFields.more]
    exact plain_cons (by decide) (plain_cons (by decide) (plain_append (plain_jsonStr k) (plain_cons (by decide) (plain_cons (by decide)
      (plain_append (plain_text v h.1) (plain_moreFields l h.2))))))
end

/-- **C208**: the text has only visible ASCII characters and spaces, whatever the names are: the encoding of the file, the line ends and the
place where its bytes are cut make no difference. -/
theorem topology_text_ascii (flt : Int × Nat → Json) (other : Int × Nat → List Char) (hf : ∀ d, (flt d).WF) (name : List Char)
    (auto : Bool) (k : Int) (ops : List TopoOp) :
    ∀ c ∈ ((Topo.init name auto k).run ops).serialize flt other, 32 ≤ c.toNat ∧ c.toNat ≤ 126 := by
  intro c hc
  have := plain_text _ (wf_topo flt other hf name auto k ops) c hc
  simpa [plainChar] using this

/-- Writing delays as one tenth of a second each is a way to write them; one node whose name has a quotation mark and an umlaut. -/
example : (∀ d : Int × Nat, ((fun _ => Json.float "0.1".toList) d).WF) ∧
    ((Topo.init ['x'] true 0).run [.add .host (some ['"', 'ä'])]).serialize (fun _ => .float "0.1".toList) (fun _ => []) =
      ("{\"directed\": false, \"multigraph\": false, \"graph\": {\"name\": \"x\"}, \"nodes\": [{\"label\": \"\\\"\\u00e4\", " ++
        "\"nodeobj\": {\"interfaces\": {}}, \"type\": \"Host\", \"id\": \"\\\"\\u00e4\"}], \"links\": []}").toList := by
  refine ⟨fun _ => ?_, ?_⟩
  · show scanNumber _ = _
    rfl
  · decide +kernel

end SY.Props
