import Verif.Report
import Verif.Props.Scenario
import Verif.Props.Str

/-!
# Properties of what the test harness says

C165 (a packet that does not match is a test failure), C166 (the diagnosis), C167 (an expectation that is met is
counted), C168 (the summary), C169 (comparing events and scenarios), C170 (the sanity check), C171 (the message at the
end), C172 (the header to display).
-/

namespace SY.Props

open SY

/-! ## C166: the diagnosis -/

theorem diagTypes_none (i : Nat) (r p : Packet) : diagTypes i r p = none ↔ sameTypes r p = true := by
  induction r generalizing i p with
  | nil => cases p <;> simp [diagTypes, sameTypes]
  | cons x r ih =>
    cases p with
    | nil => simp [diagTypes, sameTypes]
    | cons y p =>
      by_cases h : x.klass = y.klass <;> simp [diagTypes, sameTypes, h, ih]

theorem diagAttrs_compare (x y : Item) (l : List HdrAttr) :
    compareAttrs x y l = (fun t => decide (t = [])) <$> diagAttrs x y l := by
  induction l with
  | nil => rfl
  | cons a l ih =>
    simp only [compareAttrs, diagAttrs, ih]
    cases x.getattr a with
    | error e => rfl
    | ok u =>
      simp only [bind_ok]
      cases y.getattr a with
      | error e => rfl
      | ok v =>
        simp only [bind_ok]
        cases u.eq v with
        | error e => rfl
        | ok b =>
          cases b with
          | true =>
            simp only [bind_ok, shown, if_true]
            cases diagAttrs x y l <;> simp
          | false =>
            simp only [bind_ok, shown, diffText, Bool.false_eq_true, if_false]
            cases v.str with
            | error e => rfl
            | ok s =>
              simp only [bind_ok]
              cases u.str with
              | error e => rfl
              | ok t => cases diagAttrs x y l <;> simp

theorem diagHeaders_compare (d : Dict Klass (List HdrAttr)) (r p : Packet) :
    compareHeaders d r p = (fun t => decide (t = [])) <$> diagHeaders d r p := by
  induction r generalizing p with
  | nil => rfl
  | cons x r ih =>
    cases p with
    | nil => rfl
    | cons y p =>
      simp only [compareHeaders, diagHeaders, diagAttrs_compare, ih]
      cases diagAttrs x y ((d.get? x.klass).getD []) with
      | error e => rfl
      | ok t =>
        cases diagHeaders d r p with
        | error e => rfl
        | ok l => by_cases h : t = [] <;> simp [h]

/-- **C166**: there is a diagnosis exactly when the contents are said not to match, and making it raises nothing that the
comparison does not raise. -/
theorem diagnosis_exactly (m : Matcher) (p : Packet) : m.compare p = (fun d => d.isNone) <$> m.diagnose p := by
  unfold Matcher.compare Matcher.diagnose
  rcases h : diagTypes 0 m.ref p with _ | t
  · rw [if_pos ((diagTypes_none 0 _ _).mp h), diagHeaders_compare]
    cases diagHeaders m.attrs m.ref p with
    | error e => rfl
    | ok l => by_cases hl : l = [] <;> simp [hl]
  · rw [if_neg (fun h' => by rw [(diagTypes_none 0 _ _).mpr h'] at h; cases h)]
    rfl

/-- What an attribute is shown as. -/
def shownValue (it : Item) (a : HdrAttr) : Text :=
  match it.getattr a >>= AVal.str with
  | .ok t => t
  | .error _ => []

/-- The attribute does not have the same value in both. -/
def differs (x y : Item) (a : HdrAttr) : Prop :=
  ∃ u v, x.getattr a = .ok u ∧ y.getattr a = .ok v ∧ u.eq v = .ok false

instance (x y : Item) (a : HdrAttr) : Decidable (differs x y a) :=
  decidable_of_iff ((x.getattr a >>= fun u => y.getattr a >>= fun v => u.eq v) = .ok false) <| by
    unfold differs
    constructor
    · intro h
      obtain ⟨u, hu, h⟩ := bind_eq_ok.mp h
      obtain ⟨v, hv, h⟩ := bind_eq_ok.mp h
      exact ⟨u, v, hu, hv, h⟩
    · rintro ⟨u, v, hu, hv, h⟩
      simp [hu, hv, h]

/-- What is said about an attribute: its value in the packet sent (`y`) and in the packet expected (`x`). -/
def wrongLine (x y : Item) (a : HdrAttr) : Text :=
  a.name.toList ++ " is wrong (is ".toList ++ shownValue y a ++ " but should be ".toList ++ shownValue x a ++ ")".toList

/-- What is said about two headers, if anything: `l` are the attributes that matter. -/
def wrongHeader (l : List HdrAttr) (x y : Item) : Option Text :=
  if (l.filter fun a => differs x y a) = [] then none
  else some ("In the ".toList ++ x.klass.name ++ " header, ".toList ++
    joinText "; ".toList ((l.filter fun a => differs x y a).map (wrongLine x y)))

theorem diagAttrs_lines {x y : Item} {l : List HdrAttr} {t : List Text} (h : diagAttrs x y l = .ok t) :
    t = (l.filter fun a => differs x y a).map (wrongLine x y) := by
  induction l generalizing t with
  | nil => cases h; rfl
  | cons a l ih =>
    simp only [diagAttrs] at h
    obtain ⟨u, hu, h⟩ := bind_eq_ok.mp h
    obtain ⟨v, hv, h⟩ := bind_eq_ok.mp h
    obtain ⟨b, hb, h⟩ := bind_eq_ok.mp h
    obtain ⟨s, hs, h⟩ := bind_eq_ok.mp h
    obtain ⟨r, hr, h⟩ := bind_eq_ok.mp h
    obtain rfl := Except.ok.inj h
    rw [ih hr]
    cases b with
    | true =>
      have hd : ¬ differs x y a := by
        rintro ⟨u', v', hu', hv', hb'⟩
        rw [hu] at hu'; rw [hv] at hv'
        obtain rfl := Except.ok.inj hu'
        obtain rfl := Except.ok.inj hv'
        rw [hb] at hb'; cases hb'
      rw [if_pos rfl] at hs
      obtain rfl := Except.ok.inj hs
      simp [hd]
    | false =>
      have hd : differs x y a := ⟨u, v, hu, hv, hb⟩
      rw [if_neg (by simp)] at hs
      obtain ⟨d, hd', hs⟩ := bind_eq_ok.mp hs
      obtain rfl := Except.ok.inj hs
      unfold diffText at hd'
      obtain ⟨vt, hvt, hd'⟩ := bind_eq_ok.mp hd'
      obtain ⟨ut, hut, hd'⟩ := bind_eq_ok.mp hd'
      obtain rfl := Except.ok.inj hd'
      simp [hd, wrongLine, shownValue, hu, hv, hvt, hut]

theorem diagHeaders_lines {d : Dict Klass (List HdrAttr)} {r p : Packet} {l : List Text}
    (h : diagHeaders d r p = .ok l) :
    l = (r.zip p).filterMap fun xy => wrongHeader ((d.get? xy.1.klass).getD []) xy.1 xy.2 := by
  induction r generalizing p l with
  | nil => cases h; rfl
  | cons x r ih =>
    cases p with
    | nil => cases h; rfl
    | cons y p =>
      simp only [diagHeaders] at h
      obtain ⟨t, ht, h⟩ := bind_eq_ok.mp h
      obtain ⟨c, hc, h⟩ := bind_eq_ok.mp h
      obtain rfl := Except.ok.inj h
      have e := diagAttrs_lines ht
      rw [List.zip_cons_cons, List.filterMap_cons, ← ih hc]
      by_cases ht0 : t = []
      · have : ((d.get? x.klass).getD []).filter (fun a => differs x y a) = [] := by
          rw [ht0] at e; exact List.map_eq_nil_iff.mp e.symm
        simp [ht0, wrongHeader, this]
      · have : ((d.get? x.klass).getD []).filter (fun a => differs x y a) ≠ [] := by
          intro h0; rw [h0] at e; exact ht0 e
        simp only [if_neg ht0, wrongHeader, if_neg this]
        rw [← e]

/-- All attributes. -/
def everyAttr : List HdrAttr :=
  [.src, .dst, .ethertype, .vlanid, .pcp, .hardwaretype, .protocoltype, .operation, .senderhwaddr, .senderprotoaddr,
   .targethwaddr, .targetprotoaddr, .tos, .dscp, .ecn, .totalLength, .ipid, .flags, .fragmentOffset, .ttl, .protocol, .hl,
   .options, .trafficclass, .flowlabel, .nextheader, .hoplimit, .address, .ident, .offset, .mf, .length, .seq, .ack,
   .window, .flagstr, .urgentPointer, .icmptype, .icmpcode, .icmpdata, .icmp6type, .icmp6code, .command, .version, .af,
   .data, .flag .FIN, .flag .SYN, .flag .RST, .flag .PSH, .flag .ACK, .flag .URG, .flag .ECE, .flag .CWR, .flag .NS]

theorem mem_everyAttr (a : HdrAttr) : a ∈ everyAttr := by
  cases a with
  | flag f => cases f <;> decide
  | _ => decide

theorem attr_names : ∀ a ∈ everyAttr, ∀ b ∈ everyAttr, a.name = b.name → a = b := by decide +kernel

theorem attr_name_blank : ∀ a ∈ everyAttr, ' ' ∉ a.name.toList := by decide +kernel

/-- **C166**: different attributes have different names, none of which contains a blank; so the text of a difference
tells which attribute it is about. -/
theorem difference_identifies (x y x' y' : Item) (a b : HdrAttr) (h : wrongLine x y a = wrongLine x' y' b) : a = b := by
  have e : ∀ (x y : Item) (a : HdrAttr), wrongLine x y a = a.name.toList ++ ' ' :: ("is wrong (is ".toList ++
      (shownValue y a ++ (" but should be ".toList ++ (shownValue x a ++ ")".toList)))) := by
    intro x y a
    unfold wrongLine
    simp only [List.append_assoc]
    rfl
  rw [e, e] at h
  have := (cut_at (attr_name_blank a (mem_everyAttr a)) (attr_name_blank b (mem_everyAttr b)) h).1
  exact attr_names a (mem_everyAttr a) b (mem_everyAttr b) (String.toList_injective this)

/-- **C166**: if the headers are of the same classes, the diagnosis names, header by header, exactly the attributes that
are compared and differ, with the value in the packet sent and the value expected. -/
theorem diagnosis_attributes (m : Matcher) (p : Packet) (t : Text) (hs : m.ref.map Item.klass = p.map Item.klass)
    (h : m.diagnose p = .ok (some t)) :
    t = joinText ", ".toList ((m.ref.zip p).filterMap fun xy =>
      wrongHeader ((m.attrs.get? xy.1.klass).getD []) xy.1 xy.2) := by
  have hs' : ∀ (i : Nat) (r q : Packet), r.map Item.klass = q.map Item.klass → diagTypes i r q = none := by
    intro i r
    induction r generalizing i with
    | nil => intro q hq; cases q <;> simp_all [diagTypes]
    | cons x r ih =>
      intro q hq
      cases q with
      | nil => simp at hq
      | cons y q =>
        simp only [List.map_cons, List.cons.injEq] at hq
        simp only [diagTypes, if_pos hq.1]
        exact ih _ _ hq.2
  unfold Matcher.diagnose at h
  rw [hs' 0 _ _ hs] at h
  obtain ⟨l, hl, h⟩ := bind_eq_ok.mp h
  by_cases hn : l = []
  · rw [if_pos hn] at h; cases h
  · rw [if_neg hn] at h
    rw [← diagHeaders_lines hl]
    exact (Option.some.inj (Except.ok.inj h)).symm

/-- **C166**: if they are not, it names the first index at which the classes differ and both classes; or else the classes
of the headers that are too many, or missing. -/
theorem diagnosis_classes (m : Matcher) (p pre r q : Packet) (x y : Item) (k : Packet)
    (hk : k.map Item.klass = pre.map Item.klass) :
    (x.klass ≠ y.klass → m.ref = pre ++ x :: r → p = k ++ y :: q →
      m.diagnose p = .ok (some ("Packet header type is wrong at index ".toList ++ natText pre.length ++
        ": expecting ".toList ++ x.klass.name ++ " but found ".toList ++ y.klass.name))) ∧
    (m.ref = pre → p = k ++ y :: q →
      m.diagnose p = .ok (some ("Extra headers found in your packet: ".toList ++
        joinText " | ".toList ((y :: q).map fun it => it.klass.name)))) ∧
    (m.ref = pre ++ x :: r → p = k →
      m.diagnose p = .ok (some ("Missing headers in your packet: ".toList ++
        joinText " | ".toList ((x :: r).map fun it => it.klass.name)))) := by
  have skip : ∀ (a b : Packet) (i : Nat) (l l' : Packet), a.map Item.klass = b.map Item.klass →
      diagTypes i (a ++ l) (b ++ l') = diagTypes (i + a.length) l l' := by
    intro a
    induction a with
    | nil => intro b i l l' h; cases b <;> simp_all
    | cons z a ih =>
      intro b i l l' h
      cases b with
      | nil => simp at h
      | cons w b =>
        simp only [List.map_cons, List.cons.injEq] at h
        simp only [List.cons_append, diagTypes, if_pos h.1, ih _ _ _ _ h.2, List.length_cons]
        congr 1; omega
  refine ⟨fun hxy h1 h2 => ?_, fun h1 h2 => ?_, fun h1 h2 => ?_⟩
  · unfold Matcher.diagnose
    rw [h1, h2, skip _ _ _ _ _ hk.symm]
    simp [diagTypes, hxy]
  · unfold Matcher.diagnose
    rw [h1, h2]
    have := skip pre k 0 [] (y :: q) hk.symm
    rw [List.append_nil] at this
    rw [this]; rfl
  · unfold Matcher.diagnose
    rw [h1, h2]
    have := skip pre k 0 (x :: r) [] hk.symm
    rw [List.append_nil] at this
    rw [this]; rfl

/-- Any two packets are in one of the three cases of `diagnosis_classes`, or have the same classes. -/
theorem classes_cases (r p : Packet) :
    r.map Item.klass = p.map Item.klass ∨
    (∃ pre k x y r' q, k.map Item.klass = pre.map Item.klass ∧ x.klass ≠ y.klass ∧ r = pre ++ x :: r' ∧ p = k ++ y :: q) ∨
    (∃ k y q, k.map Item.klass = r.map Item.klass ∧ p = k ++ y :: q) ∨
    (∃ pre x r', p.map Item.klass = pre.map Item.klass ∧ r = pre ++ x :: r') := by
  induction r generalizing p with
  | nil =>
    cases p with
    | nil => exact .inl rfl
    | cons y p => exact .inr (.inr (.inl ⟨[], y, p, rfl, rfl⟩))
  | cons x r ih =>
    cases p with
    | nil => exact .inr (.inr (.inr ⟨[], x, r, rfl, rfl⟩))
    | cons y p =>
      by_cases h : x.klass = y.klass
      · rcases ih p with h1 | ⟨pre, k, a, b, r', q, h1, h2, h3, h4⟩ | ⟨k, b, q, h1, h2⟩ | ⟨pre, a, r', h1, h2⟩
        · exact .inl (by simp [h, h1])
        · exact .inr (.inl ⟨x :: pre, y :: k, a, b, r', q, by simp [h, h1], h2, by simp [h3], by simp [h4]⟩)
        · exact .inr (.inr (.inl ⟨y :: k, b, q, by simp [h, h1], by simp [h2]⟩))
        · exact .inr (.inr (.inr ⟨x :: pre, a, r', by simp [h, h1], by simp [h2]⟩))
      · exact .inr (.inl ⟨[], [], x, y, r, p, rfl, h, rfl, rfl⟩)

/-! ## Printing -/

theorem printable_str {h : Hdr} (hp : Printable h) : ∃ t, h.str = .ok t := by
  rcases hdr_str_cases h with ⟨h1, _⟩ | ⟨_, h2⟩
  · exact h1
  · exact absurd hp h2

theorem shownItems_ok (idx i : Int) (p : Packet) (hp : PrintablePkt p) : ∃ l, shownItems idx i p = .ok l := by
  induction p generalizing i with
  | nil => exact ⟨[], rfl⟩
  | cons x p ih =>
    obtain ⟨l, hl⟩ := ih (i + 1) fun h hh => hp h (List.mem_cons_of_mem _ hh)
    have hx : ∃ s, shownAs idx i x = .ok s := by
      cases x with
      | hdr h =>
        simp only [shownAs]
        split
        · exact printable_str (hp h List.mem_cons_self)
        · exact ⟨_, rfl⟩
      | _ => exact ⟨_, rfl⟩
    obtain ⟨s, hs⟩ := hx
    exact ⟨s :: l, by simp only [shownItems, hs, hl, bind_ok]⟩

theorem formatPkt_ok (v : Bool) (d : Option Cls) (p : Packet) (hp : PrintablePkt p) : ∃ t, formatPkt v d p = .ok t := by
  have hs : ∃ t, p.str = .ok t := (packet_str_partial p).1.mpr hp
  unfold formatPkt
  split
  · exact hs
  · rename_i c _
    have : ∃ i, p.headerIndex c 0 = .ok i := by
      rcases lookup_first p c with ⟨_, _, _, h, _⟩ | ⟨l, x, r, _, _, _, _, _, h, _⟩
      · exact ⟨_, h⟩
      · exact ⟨_, h⟩
    obtain ⟨i, hi⟩ := this
    simp only [highlight, hi, bind_ok]
    split
    · exact hs
    · obtain ⟨l, hl⟩ := shownItems_ok i 0 p hp
      exact ⟨joinText " | ".toList l, by simp only [hl, bind_ok]⟩

/-- The packets of an event can be printed; packets sent that have been replaced by bytes (`scenario_save_damage_violated`)
are left out. -/
def PrintableEvent : Event → Prop
  | .timeout _ => True
  | .input _ p _ _ => PrintablePkt p
  | .output w s => (∀ x ∈ w, PrintablePkt x.2.ref) ∧ ∀ x ∈ s, ∃ p, x.2 = .pkt p ∧ PrintablePkt p

theorem waitingTexts_ok (v : Bool) (d : Option Cls) (w : Dict (List Char) Matcher) (h : ∀ x ∈ w, PrintablePkt x.2.ref) :
    ∃ l, waitingTexts v d w = .ok l := by
  induction w with
  | nil => exact ⟨[], rfl⟩
  | cons x w ih =>
    obtain ⟨l, hl⟩ := ih fun y hy => h y (List.mem_cons_of_mem _ hy)
    obtain ⟨t, ht⟩ := formatPkt_ok v d _ (h x List.mem_cons_self)
    exact ⟨(t ++ " out ".toList ++ x.1) :: l, by simp only [waitingTexts, ht, hl, bind_ok]⟩

theorem sentTexts_ok (v : Bool) (d : Option Cls) (w : Dict (List Char) Sent)
    (h : ∀ x ∈ w, ∃ p, x.2 = .pkt p ∧ PrintablePkt p) : ∃ l, sentTexts v d w = .ok l := by
  induction w with
  | nil => exact ⟨[], rfl⟩
  | cons x w ih =>
    obtain ⟨l, hl⟩ := ih fun y hy => h y (List.mem_cons_of_mem _ hy)
    obtain ⟨p, e, hp⟩ := h x List.mem_cons_self
    obtain ⟨t, ht⟩ := formatPkt_ok v d p hp
    refine ⟨(t ++ " out ".toList ++ x.1) :: l, ?_⟩
    obtain ⟨k, s⟩ := x
    simp only at e
    subst e
    simp only [sentTexts, formatSent, ht, hl, bind_ok]

theorem event_str_ok (v : Bool) (n : Note) (e : Event) (h : PrintableEvent e) : ∃ t, e.str v n = .ok t := by
  cases e with
  | timeout t => exact ⟨_, rfl⟩
  | input dev p f cs =>
    obtain ⟨t, ht⟩ := formatPkt_ok v n.display p h
    exact ⟨_, by simp only [Event.str, ht, bind_ok]; rfl⟩
  | output w s =>
    obtain ⟨a, ha⟩ := waitingTexts_ok v n.display w h.1
    obtain ⟨b, hb⟩ := sentTexts_ok v n.display s h.2
    exact ⟨_, by simp only [Event.str, ha, hb, bind_ok]; rfl⟩

/-- **C165**: the text of an event: what is to be received where, or what is to be sent where, with the packets that were
sent already at the end. -/
theorem event_text (v : Bool) (n : Note) :
    (∀ t, Event.str v n (.timeout t) = .ok ("Timeout after ".toList ++ intText t ++ "s on a call to recv_packet".toList)) ∧
    (∀ d p f cs s, formatPkt v n.display p = .ok s →
      Event.str v n (.input d p f cs) = .ok ("recv_packet ".toList ++ s ++ " on ".toList ++ d)) ∧
    (∀ (w : Dict (List Char) Matcher) (x : Dict (List Char) Sent) (a b : List Text),
      w.mapM (fun y => formatPkt v n.display y.2.ref) = .ok a → x.mapM (fun y => formatSent v n.display y.2) = .ok b →
      Event.str v n (.output w x) = .ok ("send_packet(s) ".toList ++ joinText " and ".toList
        ((a ++ b).zipWith (fun t d => t ++ " out ".toList ++ d) (w.keys ++ x.keys)))) := by
  have hw : ∀ (w : Dict (List Char) Matcher) (a : List Text), w.mapM (fun y => formatPkt v n.display y.2.ref) = .ok a →
      a.length = w.length ∧
      waitingTexts v n.display w = .ok (a.zipWith (fun t d => t ++ " out ".toList ++ d) w.keys) := by
    intro w
    induction w with
    | nil => intro a h; obtain rfl := Except.ok.inj h; exact ⟨rfl, rfl⟩
    | cons y w ih =>
      intro a h
      rw [List.mapM_cons] at h
      obtain ⟨s, hs, h⟩ := bind_eq_ok.mp h
      obtain ⟨r, hr, h⟩ := bind_eq_ok.mp h
      obtain rfl := Except.ok.inj h
      obtain ⟨h1, h2⟩ := ih r hr
      exact ⟨by simp [h1], by simp only [waitingTexts, hs, h2, bind_ok, Dict.keys, List.map_cons, List.zipWith_cons_cons]⟩
  have hx : ∀ (w : Dict (List Char) Sent) (a : List Text), w.mapM (fun y => formatSent v n.display y.2) = .ok a →
      sentTexts v n.display w = .ok (a.zipWith (fun t d => t ++ " out ".toList ++ d) w.keys) := by
    intro w
    induction w with
    | nil => intro a h; obtain rfl := Except.ok.inj h; rfl
    | cons y w ih =>
      intro a h
      rw [List.mapM_cons] at h
      obtain ⟨s, hs, h⟩ := bind_eq_ok.mp h
      obtain ⟨r, hr, h⟩ := bind_eq_ok.mp h
      obtain rfl := Except.ok.inj h
      simp only [sentTexts, hs, ih r hr, bind_ok, Dict.keys, List.map_cons, List.zipWith_cons_cons]
  refine ⟨fun t => rfl, fun d p f cs s h => by simp only [Event.str, h, bind_ok], ?_⟩
  intro w x a b ha hb
  obtain ⟨h1, h2⟩ := hw w a ha
  have hl : a.length = w.keys.length := by simpa [Dict.keys] using h1
  simp only [Event.str, h2, hx x b hb, bind_ok, List.zipWith_append hl]

/-- An output event that was saved when some of its packets had been sent keeps bytes in their place; with a header to
display it cannot be printed. -/
theorem saved_event_violated (n : Note) (c : Cls) (w : Dict (List Char) Matcher) (k : List Char) (b : Bytes)
    (s : Dict (List Char) Sent) (hc : n.display = some c) (hw : ∀ x ∈ w, PrintablePkt x.2.ref) :
    Event.str false n (.output w ((k, .raw b) :: s)) = .error .attributeError := by
  obtain ⟨l, hl⟩ := waitingTexts_ok false n.display w hw
  rw [hc] at hl
  simp only [Event.str, hl, bind_ok, sentTexts, formatSent, hc, Bool.false_eq_true, if_false, bind_error]

/-! ## Stars -/

/-- Attributes that can be replaced by stars without an exception in any header that has them. -/
def plainAttrs : List HdrAttr :=
  [.src, .dst, .vlanid, .pcp, .operation, .senderhwaddr, .senderprotoaddr, .targethwaddr, .targetprotoaddr, .tos, .ttl,
   .ipid, .options, .trafficclass, .flowlabel, .address, .ident, .seq, .ack, .window, .icmpdata, .af]

/-- Stars only in place of such attributes of the header. -/
def PlainStars (h : Hdr) (st : Stars) : Prop := ∀ a, (st.get? a).isSome → a ∈ plainAttrs ∧ hasSlot h a = true

theorem plain_getattr (h : Hdr) (a : HdrAttr) (ha : a ∈ plainAttrs) :
    h.getattr a = .error .attributeError ∨ ((∃ v, h.getattr a = .ok v) ∧ hasSlot h a = true) := by
  simp only [plainAttrs, List.mem_cons, List.not_mem_nil, or_false] at ha
  rcases ha with rfl | rfl | rfl | rfl | rfl | rfl | rfl | rfl | rfl | rfl | rfl | rfl | rfl | rfl | rfl | rfl | rfl | rfl |
    rfl | rfl | rfl | rfl <;> cases h <;> first
  | exact .inl rfl
  | exact .inr ⟨⟨_, rfl⟩, rfl⟩

theorem plain_starAttr (h : Hdr) (st : Stars) (a : HdrAttr) (ha : a ∈ plainAttrs) (hs : PlainStars h st) :
    ∃ st', starAttr h st a = .ok st' ∧ PlainStars h st' := by
  have hset : ∀ t, hasSlot h a = true → PlainStars h (st.set a t) := by
    intro t hh b hb
    rw [Dict.get?_set] at hb
    by_cases e : a = b
    · exact e ▸ ⟨ha, hh⟩
    · rw [if_neg (by simpa using e)] at hb
      exact hs b hb
  have hsp : spoiltBy a = none := by
    simp only [plainAttrs, List.mem_cons, List.not_mem_nil, or_false] at ha
    rcases ha with rfl | rfl | rfl | rfl | rfl | rfl | rfl | rfl | rfl | rfl | rfl | rfl | rfl | rfl | rfl | rfl | rfl |
      rfl | rfl | rfl | rfl | rfl <;> rfl
  unfold starAttr starFor
  cases hg : st.get? a with
  | some t =>
    have hh := (hs a (by simp [hg])).2
    simp only [if_pos hh]
    exact ⟨_, rfl, hset _ hh⟩
  | none =>
    simp only [hsp]
    rcases plain_getattr h a ha with e | ⟨⟨v, e⟩, hh⟩
    · simp only [e, bind_error, if_true]
      exact ⟨_, rfl, hs⟩
    · simp only [e, bind_ok, hh, if_true]
      exact ⟨_, rfl, hset _ hh⟩

theorem plain_starStr (h : Hdr) (st : Stars) (hp : Printable h) (hs : PlainStars h st) : ∃ t, h.starStr st = .ok t := by
  have no : ∀ a, a ∉ plainAttrs → (st.get? a).isSome = false := by
    intro a ha
    cases hg : (st.get? a).isSome with
    | false => rfl
    | true => exact absurd (hs a hg).1 ha
  have ne := no .ethertype (by decide)
  have np := no .protocol (by decide)
  have nn := no .nextheader (by decide)
  have nf := no .flags (by decide)
  have nc := no .command (by decide)
  have named : ∀ a t, (st.get? a).isSome = false → namedStar st a t = .ok t := by
    intro a t h; simp [namedStar, h]
  cases h <;> unfold Hdr.starStr <;> dsimp only
  case icmp6 m =>
    by_cases hi : (st.get? .icmpdata).isSome = true
    · rw [if_pos hi]; exact ⟨_, rfl⟩
    · rw [if_neg hi]
      rcases data6Str_cases m.data with ⟨⟨t, h1⟩, h2⟩ | ⟨h1, hop, f, o, h, p, rl, re, rt, os, b, h2⟩
      · rw [h1]; exact ⟨_, rfl⟩
      · exact absurd h2 (hp _ _ _ _ _ _ _ _ _ _)
  case hop => exact printable_str hp
  case dst => exact printable_str hp
  all_goals first
    | exact ⟨_, rfl⟩
    | (rw [named _ _ ne]; exact ⟨_, rfl⟩)
    | (rw [named _ _ np]; exact ⟨_, rfl⟩)
    | (rw [named _ _ nn]; exact ⟨_, rfl⟩)
    | (rw [nf]; exact ⟨_, rfl⟩)
    | (rw [nc]; exact ⟨_, rfl⟩)

/-- Every header can be printed with its stars. -/
def AllPlain (q : List (Item × Stars)) : Prop := ∀ h st, (Item.hdr h, st) ∈ q → Printable h ∧ PlainStars h st

theorem plain_starPkt (c : Cls) (a : HdrAttr) (ha : a ∈ plainAttrs) (q : List (Item × Stars)) (hq : AllPlain q) :
    ∃ q', starPkt c a q = .ok q' ∧ AllPlain q' := by
  induction q with
  | nil => exact ⟨[], rfl, hq⟩
  | cons x q ih =>
    have hq' : AllPlain q := fun h st hm => hq h st (List.mem_cons_of_mem _ hm)
    obtain ⟨q1, h1, h2⟩ := ih hq'
    have keep : AllPlain (x :: q1) := by
      intro h st hm
      rcases List.mem_cons.mp hm with e | e
      · exact hq h st (e ▸ List.mem_cons_self)
      · exact h2 h st e
    obtain ⟨it, st⟩ := x
    cases it with
    | hdr h =>
      obtain ⟨hp, hs⟩ := hq h st List.mem_cons_self
      unfold starPkt
      by_cases hc : h.cls.isSub c = true
      · obtain ⟨st', e, hs'⟩ := plain_starAttr h st a ha hs
        rw [if_pos hc, e]
        refine ⟨_, rfl, ?_⟩
        intro k st2 hm
        rcases List.mem_cons.mp hm with e | e
        · cases e; exact ⟨hp, hs'⟩
        · exact hq' k st2 e
      · rw [if_neg hc, h1]; exact ⟨_, rfl, keep⟩
    | bytes b => unfold starPkt; rw [h1]; exact ⟨_, rfl, keep⟩
    | other b => unfold starPkt; rw [h1]; exact ⟨_, rfl, keep⟩

theorem plain_starAll (ws : List (Cls × HdrAttr)) (hw : ∀ w ∈ ws, w.2 ∈ plainAttrs) (q : List (Item × Stars))
    (hq : AllPlain q) : ∃ q', starAll ws q = .ok q' ∧ AllPlain q' := by
  induction ws generalizing q with
  | nil => exact ⟨q, rfl, hq⟩
  | cons w ws ih =>
    obtain ⟨q1, h1, h2⟩ := plain_starPkt w.1 w.2 (hw w List.mem_cons_self) q hq
    obtain ⟨q2, h3, h4⟩ := ih (fun x hx => hw x (List.mem_cons_of_mem _ hx)) q1 h2
    exact ⟨q2, by unfold starAll; rw [h1]; exact h3, h4⟩

theorem starStrs_ok (q : List (Item × Stars)) (hq : AllPlain q) : ∃ l, starStrs q = .ok l := by
  induction q with
  | nil => exact ⟨[], rfl⟩
  | cons x q ih =>
    obtain ⟨l, hl⟩ := ih fun h st hm => hq h st (List.mem_cons_of_mem _ hm)
    obtain ⟨it, st⟩ := x
    cases it with
    | hdr h =>
      obtain ⟨t, ht⟩ := plain_starStr h st (hq h st List.mem_cons_self).1 (hq h st List.mem_cons_self).2
      exact ⟨t :: l, by unfold starStrs; rw [ht, bind_ok, hl, bind_ok]⟩
    | bytes b => exact ⟨l, hl⟩
    | other b => exact ⟨l, hl⟩

/-- A packet that can be printed can be shown with stars for wildcards on these attributes. -/
theorem showPkt_ok (ws : List (Cls × HdrAttr)) (hw : ∀ w ∈ ws, w.2 ∈ plainAttrs) (p : Packet) (hp : PrintablePkt p) :
    ∃ t, showPkt ws p = .ok t := by
  have hq : AllPlain (p.map fun it => (it, [])) := by
    intro h st hm
    obtain ⟨it, hi, e⟩ := List.mem_map.mp hm
    cases e
    exact ⟨hp h hi, fun a ha => by cases ha⟩
  obtain ⟨q, h1, h2⟩ := plain_starAll ws hw _ hq
  obtain ⟨l, hl⟩ := starStrs_ok q h2
  exact ⟨_, by unfold showPkt; rw [h1, bind_ok, hl, bind_ok]⟩

/-- Without wildcards a packet is shown as it is printed. -/
theorem showPkt_none (p : Packet) : showPkt [] p = p.str := by
  have h1 : ∀ h : Hdr, h.starStr [] = h.str := by
    intro h
    cases h <;> first
      | rfl
      | (unfold Hdr.starStr; rfl)
  have h2 : ∀ p : Packet, starStrs (p.map fun it => (it, [])) = p.strs := by
    intro p
    induction p with
    | nil => rfl
    | cons x p ih =>
      cases x with
      | hdr h => simp only [List.map_cons, starStrs, Packet.strs, h1, ih]
      | bytes b => simp only [List.map_cons, starStrs, Packet.strs, ih]
      | other b => simp only [List.map_cons, starStrs, Packet.strs, ih]
  simp only [showPkt, starAll, bind_ok, h2, Packet.str]

/-! ## C165, C167: the operations with their messages -/

theorem str_printable {x y : Hdr} (h : y.str = x.str) (hx : Printable x) : Printable y := by
  obtain ⟨t, ht⟩ := printable_str hx
  rcases hdr_str_cases y with ⟨_, h2⟩ | ⟨h1, _⟩
  · exact h2
  · rw [h, ht] at h1; cases h1

theorem serLoop_printable (i : Nat) (p : Packet) (raw : List Bytes) (hp : PrintablePkt p) :
    PrintablePkt (Packet.serLoop i p raw).1 := by
  induction i generalizing p raw with
  | zero => exact hp
  | succ i ih =>
    unfold Packet.serLoop
    cases hx : listIndex p i with
    | error e => exact hp
    | ok it =>
      dsimp only
      cases hy : it.pre raw.flatten p with
      | error e => exact hp
      | ok it' =>
        have hset : PrintablePkt (p.set i it') := by
          intro h hm
          rcases List.mem_or_eq_of_mem_set hm with hm | hm
          · exact hp h hm
          · cases it with
            | hdr k =>
              simp only [Item.pre] at hy
              obtain ⟨k', hk, e⟩ := map_eq_ok.mp hy
              rw [← hm] at e
              cases e
              refine str_printable (pre_str hk) (hp k ?_)
              unfold listIndex at hx
              split at hx
              · rename_i h1
                have h2 := List.mem_of_getElem? h1
                repeat' split at hx
                all_goals first
                  | (cases hx; exact h2)
                  | cases hx
              · cases hx
            | _ => cases hy
        dsimp only
        cases it'.toBytes with
        | error e => exact hset
        | ok b => exact ih _ _ hset

theorem toBytes_printable (p : Packet) (hp : PrintablePkt p) : PrintablePkt p.toBytes.1 :=
  serLoop_printable _ _ _ hp

theorem matchPkt_printable (m : Matcher) (p : Packet) (hm : PrintablePkt m.ref) (hp : PrintablePkt p) :
    PrintablePkt (m.matchPkt p).1.ref ∧ PrintablePkt (m.matchPkt p).2.1 := by
  have h1 := toBytes_printable p hp
  have h2 := toBytes_printable m.ref hm
  unfold Matcher.matchPkt
  rcases hb : p.toBytes with ⟨p', e | b⟩ <;> rw [hb] at h1
  · exact ⟨hm, h1⟩
  · dsimp only
    rcases hr : m.ref.toBytes with ⟨r, e | b'⟩ <;> rw [hr] at h2
    · exact ⟨h2, h1⟩
    · exact ⟨h2, h1⟩

theorem matchOutput_printable (e : Event) (dev : List Char) (p : Packet) (he : PrintableEvent e) (hp : PrintablePkt p) :
    PrintableEvent (e.matchOutput dev p).1 := by
  cases e with
  | timeout t => exact he
  | input d q f cs => exact he
  | output w s =>
    unfold Event.matchOutput
    dsimp only
    cases hg : w.get? dev with
    | none => exact he
    | some m =>
      have hm := he.1 _ (Dict.mem_of_get? hg)
      obtain ⟨h1, h2⟩ := matchPkt_printable m p hm hp
      have hset : ∀ x ∈ w.set dev (m.matchPkt p).1, PrintablePkt x.2.ref := by
        intro x hx
        rcases Dict.mem_set hx with hx | hx
        · exact he.1 x hx
        · rw [hx]; exact h1
      dsimp only
      cases (m.matchPkt p).2.2 with
      | error x => exact ⟨hset, he.2⟩
      | ok b =>
        cases b with
        | false => exact ⟨hset, he.2⟩
        | true =>
          refine ⟨fun x hx => he.1 x (mem_erase hx), ?_⟩
          intro x hx
          rcases Dict.mem_set hx with hx | hx
          · exact he.2 x hx
          · exact ⟨_, by rw [hx], h2⟩

/-- The outcome without the message. -/
def _root_.SY.Outcome.res {α : Type} : Outcome α → Res α
  | .ok a => .ok a
  | .raised e => .error e
  | .failed _ => .error .testFailure

theorem fail_res {α : Type} {r : Res Text} (h : ∃ t, r = .ok t) (f : Text → Text) :
    (Outcome.fail r f : Outcome α).res = .error .testFailure := by
  obtain ⟨t, rfl⟩ := h; rfl

theorem packetTexts_ok (v : Bool) (ws : List (Cls × HdrAttr)) (hw : ∀ w ∈ ws, w.2 ∈ plainAttrs) (p : Packet)
    (hp : PrintablePkt p) (d : Option Text) : ∃ l, packetTexts v ws p d = .ok l := by
  obtain ⟨s, hs⟩ := showPkt_ok ws hw p hp
  obtain ⟨t, ht⟩ := (packet_str_partial p).1.mpr hp
  unfold packetTexts
  cases d with
  | none => dsimp only; rw [hs]; exact ⟨_, rfl⟩
  | some d =>
    cases v with
    | false => exact ⟨_, rfl⟩
    | true => dsimp only; rw [if_pos rfl, ht, bind_ok, hs]; exact ⟨_, rfl⟩

theorem reason_ok (v : Bool) (n : Note) (hw : ∀ w ∈ n.wild, w.2 ∈ plainAttrs) (m : Matcher) (p : Packet)
    (hp : PrintablePkt p) (b : Bool) (h : m.verdict p = .ok b) : ∃ t, m.reason v n p = .ok t := by
  unfold Matcher.verdict at h
  obtain ⟨c, hc, h⟩ := bind_eq_ok.mp h
  obtain ⟨bs, hb, _⟩ := bind_eq_ok.mp h
  rw [diagnosis_exactly] at hc
  obtain ⟨d, hd, _⟩ := map_eq_ok.mp hc
  obtain ⟨l, hl⟩ := packetTexts_ok v n.wild hw p hp d
  unfold Matcher.reason failReason
  rw [hd, bind_ok, hb, bind_ok, hl]
  exact ⟨_, rfl⟩

theorem matchPkt_ok {m : Matcher} {p : Packet} {b : Bool} (h : (m.matchPkt p).2.2 = .ok b) :
    (m.matchPkt p).1.verdict (m.matchPkt p).2.1 = .ok b := by
  unfold Matcher.matchPkt at h ⊢
  rcases hb : p.toBytes with ⟨p', e | b⟩ <;> rw [hb] at h
  · cases h
  · dsimp only at h ⊢
    rcases hr : m.ref.toBytes with ⟨r, e | b'⟩ <;> rw [hr] at h
    · cases h
    · exact h

theorem matchOutputR_res (v : Bool) (n : Note) (hw : ∀ w ∈ n.wild, w.2 ∈ plainAttrs) (e : Event) (dev : List Char)
    (p : Packet) (he : PrintableEvent e) (hp : PrintablePkt p) :
    (e.matchOutputR v n dev p).res = (e.matchOutput dev p).2.2 := by
  cases e with
  | timeout t => rfl
  | input d q f cs => rfl
  | output w s =>
    have hs := event_str_ok v n _ he
    unfold Event.matchOutputR Event.matchOutput
    dsimp only
    cases hg : w.get? dev with
    | none => exact fail_res hs _
    | some m =>
      dsimp only
      have hm := he.1 _ (Dict.mem_of_get? hg)
      cases hr : (m.matchPkt p).2.2 with
      | error x => rfl
      | ok b =>
        cases b with
        | true => rfl
        | false =>
          exact fail_res (reason_ok v n hw _ _ (matchPkt_printable m p hm hp).2 false (matchPkt_ok hr)) _

/-- All packets of the expectations that are pending can be printed. -/
def PrintableScen (s : Scenario) : Prop := ∀ x ∈ s.pending, PrintableEvent x.event

/-- The wildcards are on attributes that can be replaced by stars. -/
def PlainNotes (notes : Notes) : Prop := ∀ t, ∀ w ∈ (notes t).wild, w.2 ∈ plainAttrs

theorem testpassR_ok (v : Bool) (notes : Notes) (s : Scenario) (x : Entry) (xs : List Entry) (h : s.pending = x :: xs)
    (hs : PrintableScen s) : s.testpassR v notes = (s.testpass.1, none) := by
  obtain ⟨t, ht⟩ := event_str_ok v (notes x.ts) x.event (hs x (by rw [h]; exact List.mem_cons_self))
  unfold Scenario.testpassR
  rw [h]
  dsimp only
  rw [ht]
  cases xs with
  | nil => rfl
  | cons y ys =>
    obtain ⟨t', ht'⟩ := event_str_ok v (notes y.ts) y.event
      (hs y (by rw [h]; exact List.mem_cons_of_mem _ List.mem_cons_self))
    dsimp only
    rw [ht']

theorem recvR_same (v : Bool) (notes : Notes) (n : TestNet) (hs : PrintableScen n.scen) :
    (n.recvR v notes).1 = n.recv.1 ∧ (n.recvR v notes).2.res = n.recv.2 := by
  unfold TestNet.recvR TestNet.recv Scenario.next
  cases hp : n.scen.pending with
  | nil => exact ⟨rfl, rfl⟩
  | cons x xs =>
    obtain ⟨t, ht⟩ := event_str_ok v (notes x.ts) x.event (hs x (by rw [hp]; exact List.mem_cons_self))
    dsimp only
    unfold TestNet.recvHead
    cases hm : x.event.matchInput with
    | success =>
      dsimp only
      rw [testpassR_ok v notes n.scen x xs hp hs]
      dsimp only
      refine ⟨rfl, ?_⟩
      cases (x.event.generate n.ts n.scen.testpass.1.ifaces n.scen.testpass.1.lastout).2 with
      | ok a => rfl
      | error e =>
        unfold Outcome.ofRes
        dsimp only
        split
        · next h => rw [h]; rfl
        · rfl
    | fail => dsimp only; rw [ht]; exact ⟨rfl, rfl⟩
    | part => dsimp only; rw [ht]; exact ⟨rfl, rfl⟩

/-- `None`, or the exception. -/
def errOf {α : Type} : Res α → Option PyErr
  | .ok _ => none
  | .error e => some e

theorem sendR_same (v : Bool) (notes : Notes) (hn : PlainNotes notes) (n : TestNet) (port : SendPort) (p : Packet)
    (hs : PrintableScen n.scen) (hp : PrintablePkt p) :
    (n.sendR v notes port p).1 = (n.send port p).1 ∧ (n.sendR v notes port p).2.1 = (n.send port p).2.1 ∧
      errOf (n.sendR v notes port p).2.2.res = (n.send port p).2.2 := by
  unfold TestNet.sendR TestNet.send Scenario.done
  cases hpend : n.scen.pending with
  | nil => exact ⟨rfl, rfl, rfl⟩
  | cons x xs =>
    dsimp only
    rw [if_neg (by simp)]
    cases hport : n.port port with
    | error e => exact ⟨rfl, rfl, rfl⟩
    | ok dev =>
      have he := hs x (by rw [hpend]; exact List.mem_cons_self)
      have hr := matchOutputR_res v (notes x.ts) (hn _) x.event dev p he hp
      have he' := matchOutput_printable x.event dev p he hp
      obtain ⟨t, ht⟩ := event_str_ok v (notes x.ts) _ he'
      dsimp only
      unfold TestNet.sendOnR TestNet.sendOn Scenario.next
      rw [hpend]
      dsimp only
      rw [← hr]
      have hpass : ∀ y : Entry, y = { x with event := (x.event.matchOutput dev p).1 } →
          Scenario.testpassR v notes { n.scen with pending := setFirst (x :: xs) (x.event.matchOutput dev p).1 } =
          ((Scenario.testpass { n.scen with pending := setFirst (x :: xs) (x.event.matchOutput dev p).1 }).1, none) := by
        intro y hy
        refine testpassR_ok v notes _ y xs (by rw [hy]; rfl) ?_
        intro z hz
        rcases List.mem_cons.mp hz with e | e
        · rw [e]; exact he'
        · exact hs z (by rw [hpend]; exact List.mem_cons_of_mem _ e)
      cases hm : x.event.matchOutputR v (notes x.ts) dev p with
      | raised e => exact ⟨rfl, rfl, rfl⟩
      | failed w => exact ⟨rfl, rfl, rfl⟩
      | ok b =>
        cases b with
        | part => exact ⟨rfl, rfl, rfl⟩
        | fail =>
          unfold TestNet.afterMatchR TestNet.afterMatch Outcome.res
          dsimp only
          rw [ht]
          exact ⟨rfl, rfl, rfl⟩
        | success =>
          unfold TestNet.afterMatchR TestNet.afterMatch Outcome.res
          dsimp only
          rw [hpass _ rfl]
          exact ⟨rfl, rfl, rfl⟩

/-- One step of a program with the messages; exceptions are caught and ignored. -/
def testStepR (v : Bool) (notes : Notes) (n : TestNet) : TestOp → TestNet
  | .recv => (n.recvR v notes).1
  | .send port p => (n.sendR v notes port p).1
  | .alarm => { n with scen := n.scen.alarmFires.1 }

/-- The packets that are sent can be printed. -/
def PrintableOp : TestOp → Prop
  | .send _ p => PrintablePkt p
  | _ => True

theorem printable_testpass (s : Scenario) (hs : PrintableScen s) : PrintableScen s.testpass.1 := by
  intro x hx
  cases hp : s.pending with
  | nil =>
    have : s.testpass.1.pending = s.pending := by unfold Scenario.testpass; rw [hp]; exact hp
    rw [this] at hx; exact hs x hx
  | cons y ys =>
    rw [(testpass_lists hp).1] at hx
    exact hs x (by rw [hp]; exact List.mem_cons_of_mem _ hx)

theorem printable_step (n : TestNet) (op : TestOp) (hs : PrintableScen n.scen) (ho : PrintableOp op) :
    PrintableScen (testStep n op).scen := by
  cases op with
  | alarm => exact hs
  | recv =>
    simp only [testStep, TestNet.recv]
    split
    · exact hs
    · split
      · exact printable_testpass _ hs
      · exact hs
  | send port p =>
    simp only [testStep, TestNet.send]
    split
    · exact hs
    · split
      · exact hs
      · rename_i dev _
        simp only [TestNet.sendOn, Scenario.next]
        split
        · exact hs
        · rename_i ev hev
          have hfirst : PrintableScen { n.scen with pending := setFirst n.scen.pending (ev.matchOutput dev p).1 } := by
            cases hp : n.scen.pending with
            | nil => intro x hx; cases hx
            | cons x xs =>
              rw [hp] at hev
              obtain rfl := Except.ok.inj hev
              intro z hz
              rcases List.mem_cons.mp hz with e | e
              · rw [e]
                exact matchOutput_printable _ dev p (hs x (by rw [hp]; exact List.mem_cons_self)) ho
              · exact hs z (by rw [hp]; exact List.mem_cons_of_mem _ e)
          simp only [TestNet.afterMatch]
          split
          · exact hfirst
          · exact printable_testpass _ hfirst
          · exact hfirst
          · exact hfirst

/-- **C167**: whatever a program does with packets that can be printed, making the messages changes nothing: the harness is
in the same state as if there were none, step by step.  So the theorems of C50 and C51 are about the harness with its
messages, too. -/
theorem messages_harmless_partial (v : Bool) (notes : Notes) (hn : PlainNotes notes) (n : TestNet) (ops : List TestOp)
    (hs : PrintableScen n.scen) (ho : ∀ op ∈ ops, PrintableOp op) :
    ops.foldl (testStepR v notes) n = ops.foldl testStep n := by
  induction ops generalizing n with
  | nil => rfl
  | cons op ops ih =>
    have h1 : testStepR v notes n op = testStep n op := by
      cases op with
      | recv => exact (recvR_same v notes n hs).1
      | send port p => exact (sendR_same v notes hn n port p hs (ho _ List.mem_cons_self)).1
      | alarm => rfl
    simp only [List.foldl_cons, h1]
    exact ih _ (printable_step n op hs (ho _ List.mem_cons_self)) fun o h => ho o (List.mem_cons_of_mem _ h)

/-- **C167**: the expectations that have been met and those that are pending are together always those of the scenario, in
their order. -/
theorem met_counted_partial (v : Bool) (notes : Notes) (hn : PlainNotes notes) (n : TestNet) (ops : List TestOp)
    (hs : PrintableScen n.scen) (ho : ∀ op ∈ ops, PrintableOp op) :
    titles (ops.foldl (testStepR v notes) n).scen.completed ++ titles (ops.foldl (testStepR v notes) n).scen.pending =
      titles n.scen.completed ++ titles n.scen.pending := by
  rw [messages_harmless_partial v notes hn n ops hs ho]
  obtain ⟨l, h1, h2⟩ := scenario_in_order n ops
  rw [h1, h2, List.append_assoc]

/-- An event that cannot be printed is dropped when its expectation is met. -/
theorem testpassR_lost (v : Bool) (notes : Notes) (s : Scenario) (x : Entry) (xs : List Entry) (e : PyErr)
    (h : s.pending = x :: xs) (hx : x.event.str v (notes x.ts) = .error e) :
    (s.testpassR v notes).2 = some e ∧ (s.testpassR v notes).1.pending = xs ∧
      (s.testpassR v notes).1.completed = s.completed := by
  unfold Scenario.testpassR
  rw [h]
  dsimp only
  rw [hx]
  exact ⟨rfl, rfl, rfl⟩

/-- Every input expectation whose packet cannot be printed (a router advertisement, for example) is lost: the program asks
for the packet, the harness raises `AttributeError` instead of delivering it, and the expectation is neither pending nor
completed afterwards. -/
theorem met_counted_violated (v : Bool) (notes : Notes) (n : TestNet) (x : Entry) (xs : List Entry) (dev : List Char)
    (p : Packet) (f : Option Cls) (cs : List Copy) (h : n.scen.pending = x :: xs) (he : x.event = .input dev p f cs)
    (hd : v = true ∨ (notes x.ts).display = none) (hp : ¬ PrintablePkt p) :
    (n.recvR v notes).2 = .raised .attributeError ∧ (n.recvR v notes).1.scen.pending = xs ∧
      (n.recvR v notes).1.scen.completed = n.scen.completed := by
  have hx : x.event.str v (notes x.ts) = .error .attributeError := by
    rw [he]
    have : (if v then none else (notes x.ts).display) = none := by
      rcases hd with h | h
      · rw [h]; rfl
      · rw [h]; cases v <;> rfl
    simp only [Event.str, formatPkt, this, (packet_str_partial p).2.mpr hp, bind_error]
  obtain ⟨h1, h2, h3⟩ := testpassR_lost v notes n.scen x xs _ h hx
  have hm : x.event.matchInput = .success := by rw [he]; rfl
  unfold TestNet.recvR TestNet.recvHead
  rw [h]
  dsimp only
  rw [hm]
  dsimp only
  rcases ht : n.scen.testpassR v notes with ⟨s, o⟩
  rw [ht] at h1 h2 h3
  obtain rfl : o = some .attributeError := h1
  exact ⟨rfl, h2, h3⟩

/-- A scenario that delivers a router advertisement. -/
def exAdv : Packet :=
  [.hdr (.icmp6 ⟨134, 0, .ra 64 false false false false 1800 0 0 [] [], 0⟩)]

example : ¬ PrintablePkt exAdv := fun h => h _ List.mem_cons_self _ _ _ _ _ _ _ _ _ _ rfl

/-! ## C165: a packet that does not match -/

/-- **C165**: if the packet sent on a port is not the one expected there, the call ends with a test failure, whose message
says which port it was and why. -/
theorem mismatch_reported_partial (v : Bool) (notes : Notes) (hn : PlainNotes notes) (n : TestNet) (x : Entry)
    (xs : List Entry) (w : Dict (List Char) Matcher) (s : Dict (List Char) Sent) (dev : List Char) (m : Matcher) (p : Packet)
    (h : n.scen.pending = x :: xs) (he : x.event = .output w s) (hg : w.get? dev = some m)
    (hm : (m.matchPkt p).2.2 = .ok false) (hp : PrintablePkt p) :
    ∃ t, (m.matchPkt p).1.reason v (notes x.ts) (m.matchPkt p).2.1 = .ok t ∧
      (n.sendR v notes (.name dev) p).2.2 = .failed ("You called send_packet and while the output port ".toList ++ dev ++
        " is ok, ".toList ++ t ++ ".".toList) := by
  have hp' : PrintablePkt (m.matchPkt p).2.1 := by
    have h1 := toBytes_printable p hp
    unfold Matcher.matchPkt
    rcases hb : p.toBytes with ⟨p', e | b⟩ <;> rw [hb] at h1
    · exact h1
    · dsimp only
      rcases hr : m.ref.toBytes with ⟨r, e | b'⟩ <;> exact h1
  obtain ⟨t, ht⟩ := reason_ok v (notes x.ts) (hn _) _ _ hp' false (matchPkt_ok hm)
  refine ⟨t, ht, ?_⟩
  unfold TestNet.sendR
  rw [h]
  dsimp only [TestNet.port]
  unfold TestNet.sendOnR
  rw [he]
  dsimp only
  have : Event.matchOutputR v (notes x.ts) (.output w s) dev p = .failed
      ("You called send_packet and while the output port ".toList ++ dev ++ " is ok, ".toList ++ t ++ ".".toList) := by
    unfold Event.matchOutputR
    dsimp only
    rw [hg]
    dsimp only
    rw [hm]
    dsimp only
    rw [ht]
    rfl
  rw [this]
  rfl

/-- **C165**: the reason, if there are no predicates and not much is to be said. -/
theorem reason_text (n : Note) (m : Matcher) (p : Packet) (d : Text) (hp : m.preds = [])
    (h : m.diagnose p = .ok (some d)) :
    m.reason false n p = .ok ((if m.exact then "an exact match ".toList else "a inexact match ".toList) ++
      (if n.wild = [] then [] else "with wildcards ".toList) ++ "of packet contents failed.  ".toList ++ d) := by
  unfold Matcher.reason
  rw [h, bind_ok, hp]
  unfold failReason packetTexts contentText evalPreds
  cases n.wild <;> cases m.exact <;> rfl

/-- **C165**: the other messages: another port, another call, a call after the end. -/
theorem other_failures_partial (v : Bool) (notes : Notes) (n : TestNet) (x : Entry) (xs : List Entry)
    (h : n.scen.pending = x :: xs) (he : PrintableEvent x.event) :
    ∃ t, x.event.str v (notes x.ts) = .ok t ∧
      (∀ w s, x.event = .output w s → (n.recvR v notes).2 = .failed ("recv_packet was called instead of ".toList ++ t)) ∧
      (∀ w s dev p, x.event = .output w s → dev ∉ w.keys → (n.sendR v notes (.name dev) p).2.2 =
        .failed ("You called send_packet with an unexpected output port ".toList ++ dev ++
          ".  Here is what Switchyard expected: ".toList ++ t ++ ".".toList)) ∧
      (∀ dev p, x.event.isOutput = false → (n.sendR v notes (.name dev) p).2.2 =
        .failed ("send_packet was called instead of ".toList ++ t)) := by
  obtain ⟨t, ht⟩ := event_str_ok v (notes x.ts) x.event he
  refine ⟨t, ht, ?_, ?_, ?_⟩
  · intro w s hx
    unfold TestNet.recvR TestNet.recvHead
    rw [h]
    dsimp only
    rw [ht, hx]
    rfl
  · intro w s dev p hx hd
    unfold TestNet.sendR
    rw [h]
    dsimp only [TestNet.port]
    unfold TestNet.sendOnR
    have : Event.matchOutputR v (notes x.ts) x.event dev p = .failed
        ("You called send_packet with an unexpected output port ".toList ++ dev ++
          ".  Here is what Switchyard expected: ".toList ++ t ++ ".".toList) := by
      rw [hx] at ht ⊢
      unfold Event.matchOutputR
      dsimp only
      rw [(Dict.get?_eq_none w dev).mpr hd]
      dsimp only
      rw [ht]
      rfl
    rw [this]
    rfl
  · intro dev p hx
    unfold TestNet.sendR
    rw [h]
    dsimp only [TestNet.port]
    unfold TestNet.sendOnR
    cases hev : x.event with
    | output w s => rw [hev] at hx; cases hx
    | timeout k =>
      rw [hev] at ht
      unfold Event.matchOutputR Event.matchOutput TestNet.afterMatchR
      dsimp only
      rw [ht]
      rfl
    | input d q f cs =>
      rw [hev] at ht
      unfold Event.matchOutputR Event.matchOutput TestNet.afterMatchR
      dsimp only
      rw [ht]
      rfl

/-- Wildcards that cannot be shown: whatever the packet, as long as it starts with such a header. -/
theorem unshowable_violated (p : Packet) :
    (∀ h, showPkt [(.eth, .ethertype)] (.hdr (.eth h) :: p) = .error .attributeError) ∧
    (∀ h, showPkt [(.vlan, .ethertype)] (.hdr (.vlan h) :: p) = .error .attributeError) ∧
    (∀ h, showPkt [(.arp, .hardwaretype)] (.hdr (.arp h) :: p) = .error .attributeError) ∧
    (∀ h, showPkt [(.ip4, .protocol)] (.hdr (.ip4 h) :: p) = .error .attributeError) ∧
    (∀ h, showPkt [(.ip4, .dscp)] (.hdr (.ip4 h) :: p) = .error .attributeError) ∧
    (∀ h, showPkt [(.ip4, .tos), (.ip4, .dscp)] (.hdr (.ip4 h) :: p) = .error .typeError) ∧
    (∀ h, showPkt [(.ip4, .totalLength)] (.hdr (.ip4 h) :: p) = .error .attributeError) ∧
    (∀ h, showPkt [(.ip6, .nextheader)] (.hdr (.ip6 h) :: p) = .error .attributeError) ∧
    (∀ h, showPkt [(.ip6, .hoplimit)] (.hdr (.ip6 h) :: p) = .error .attributeError) ∧
    (∀ h, showPkt [(.udp, .length)] (.hdr (.udp h) :: p) = .error .attributeError) ∧
    (∀ h, showPkt [(.tcp, .flags)] (.hdr (.tcp h) :: p) = .error .typeError) ∧
    (∀ h f, showPkt [(.tcp, .flag f)] (.hdr (.tcp h) :: p) = .error .attributeError) ∧
    (∀ h, showPkt [(.icmp, .icmptype)] (.hdr (.icmp h) :: p) = .error .attributeError) ∧
    (∀ h, showPkt [(.icmp, .icmptype)] (.hdr (.icmp6 h) :: p) = .error .attributeError) ∧
    (∀ h, showPkt [(.rip, .command)] (.hdr (.rip h) :: p) = .error .attributeError) ∧
    (∀ b, showPkt [(.raw, .data)] (.hdr (.raw b) :: p) = .error .attributeError) := by
  refine ⟨?_, ?_, ?_, ?_, ?_, ?_, ?_, ?_, ?_, ?_, ?_, ?_, ?_, ?_, ?_, ?_⟩
  all_goals intro h
  case refine_12 => intro f; cases f <;> rfl
  all_goals rfl

/-- The verbose message says what was expected by showing the packet that was sent, always. -/
theorem expected_shown_violated (n : Note) (m : Matcher) (p : Packet) (d s t : Text) (hp : m.preds = [])
    (h : m.diagnose p = .ok (some d)) (hs : p.str = .ok s) (ht : showPkt n.wild p = .ok t) :
    m.reason true n p = .ok ((if m.exact then "an exact".toList else "a inexact".toList) ++
      (" match ".toList ++ ((if n.wild = [] then [] else "with wildcards ".toList) ++
      ("of packet contents failed.  ".toList ++ (d ++ (".".toList ++
      (" \nDetails: here is the packet that failed the check: ".toList ++ (s ++ (",".toList ++
      (" \nand here is what I expected to match: ".toList ++ t)))))))))) := by
  unfold Matcher.reason
  rw [h, bind_ok, hp]
  unfold failReason packetTexts contentText evalPreds
  rw [ht, hs]
  cases n.wild <;> cases m.exact <;>
  · simp only [bind_ok, if_true, Bool.false_eq_true, if_false, joinText, List.append_assoc, List.cons_append, List.nil_append,
      List.isEmpty_nil, List.isEmpty_cons, Bool.not_true, Bool.not_false, passText, Option.isNone_some, reduceCtorEq]
    rfl

/-- The packet that is expected, with two packets that are not it. -/
def exWild : List (Cls × HdrAttr) := [(.ip4, .protocol)]

/-- What a call ended with: nothing, an exception of another kind, or a test failure. -/
def endedBy {α : Type} : Outcome α → Option (Option PyErr)
  | .ok _ => none
  | .raised e => some (some e)
  | .failed _ => some none

/-- An expectation with a wildcard on the protocol of the IPv4 header. -/
def exWildEvent : Res Event := Event.mkOutput [("eth1".toList, exPacket)] false true exWild []

/-- The same with a predicate that no packet satisfies. -/
def exPredEvent : Res Event := Event.mkOutput [("eth1".toList, exPacket)] false true exWild [fun _ => .ok false]

/-- What `send_packet` ends with if this is expected. -/
def sentTo (v : Bool) (e : Res Event) (p : Packet) : Option (Option PyErr) :=
  match e with
  | .ok e => endedBy (TestNet.sendR v (fun _ => { wild := exWild, preds := ["p".toList] })
      { scen := Scenario.expect {} e "out".toList } (.name "eth1".toList) p).2.2
  | .error _ => none

/-- With a wildcard on the protocol of IPv4, a packet with another source port ends in a test failure or in
`AttributeError`, depending on whether messages are verbose; if a predicate fails, always in `AttributeError`. -/
theorem mismatch_reported_violated :
    sentTo false exWildEvent exOtherPort = some none ∧
    sentTo true exWildEvent exOtherPort = some (some .attributeError) ∧
    sentTo false exPredEvent exPacket = some (some .attributeError) := by decide +kernel

theorem predTexts_length (l : List (Text × Bool)) : (predTexts l).length = l.length := by
  fun_induction predTexts l <;> simp_all

/-- **C165**: every predicate is listed with its outcome, in order; an "and" stands before the last. -/
theorem predicates_listed (l : List (Text × Bool)) (i : Nat) (t : Text) (b : Bool) (h : l[i]? = some (t, b)) :
    (predTexts l)[i]? = some ((if i + 1 = l.length then "and".toList else []) ++ " the predicate (".toList ++ t ++
      ") ".toList ++ (if b then "passed".toList else "failed".toList) ++
      (if i + 1 = l.length then ".".toList else ",".toList)) := by
  induction l generalizing i with
  | nil => cases h
  | cons x l ih =>
    obtain ⟨t0, b0⟩ := x
    cases l with
    | nil =>
      cases i with
      | zero => cases h; rfl
      | succ i => cases h
    | cons y l =>
      cases i with
      | zero => cases h; simp [predTexts, passText]
      | succ i =>
        have := ih i h
        simp only [List.length_cons] at this
        simp only [predTexts, List.getElem?_cons_succ, this, List.length_cons, Nat.add_right_cancel_iff]

/-- **C165**: the reason, if the contents match but predicates fail. -/
theorem reason_predicates (v : Bool) (n : Note) (m : Matcher) (p : Packet) (bs : List Bool) (s : Text)
    (h : m.diagnose p = .ok none) (hb : evalPreds p m.preds = .ok bs) (h0 : bs ≠ []) (hs : showPkt n.wild p = .ok s) :
    m.reason v n p = .ok (joinText " ".toList
      (((if m.exact then "an exact match ".toList else "a inexact match ".toList) ++
        (if n.wild = [] then [] else "with wildcards ".toList) ++ "of packet contents passed, but".toList) ::
      "when comparing the packet you sent versus what I expected,".toList ::
      (predTexts (n.preds.zip bs) ++
        ["\nPacket field comparisons matched correctly: ".toList ++ s ++ ".".toList]))) := by
  unfold Matcher.reason failReason
  rw [h, bind_ok, hb, bind_ok]
  unfold packetTexts
  dsimp only
  rw [hs, bind_ok, bind_ok, if_neg h0]
  have e : contentText m.exact (!n.wild.isEmpty) (none : Option Text).isNone =
      (if m.exact then "an exact match ".toList else "a inexact match ".toList) ++
        (if n.wild = [] then [] else "with wildcards ".toList) ++ "of packet contents passed, but".toList := by
    cases n.wild <;> cases m.exact <;> rfl
  rw [e]
  rfl

/-- **C166**: where a packet is shown with stars, nothing is to be seen of the attributes they stand for. -/
theorem wildcards_hidden (p : Packet) :
    (∀ h a, showPkt [(.eth, .src)] (.hdr (.eth { h with src := a }) :: p) = showPkt [(.eth, .src)] (.hdr (.eth h) :: p)) ∧
    (∀ h a, showPkt [(.eth, .dst)] (.hdr (.eth { h with dst := a }) :: p) = showPkt [(.eth, .dst)] (.hdr (.eth h) :: p)) ∧
    (∀ h k, showPkt [(.vlan, .vlanid)] (.hdr (.vlan { h with vlanid := k }) :: p) =
      showPkt [(.vlan, .vlanid)] (.hdr (.vlan h) :: p)) ∧
    (∀ (h : IPv4) a b, showPkt [(.ip4, .src)] (.hdr (.ip4 { h with src := .v4 a }) :: p) =
      showPkt [(.ip4, .src)] (.hdr (.ip4 { h with src := .v4 b }) :: p)) ∧
    (∀ (h : IPv4) a b, showPkt [(.ip4, .dst)] (.hdr (.ip4 { h with dst := .v4 a }) :: p) =
      showPkt [(.ip4, .dst)] (.hdr (.ip4 { h with dst := .v4 b }) :: p)) ∧
    (∀ h a, showPkt [(.ip6, .src)] (.hdr (.ip6 { h with src := a }) :: p) = showPkt [(.ip6, .src)] (.hdr (.ip6 h) :: p)) ∧
    (∀ h a, showPkt [(.ip6, .dst)] (.hdr (.ip6 { h with dst := a }) :: p) = showPkt [(.ip6, .dst)] (.hdr (.ip6 h) :: p)) ∧
    (∀ h k, showPkt [(.udp, .src)] (.hdr (.udp { h with src := k }) :: p) = showPkt [(.udp, .src)] (.hdr (.udp h) :: p)) ∧
    (∀ h k, showPkt [(.udp, .dst)] (.hdr (.udp { h with dst := k }) :: p) = showPkt [(.udp, .dst)] (.hdr (.udp h) :: p)) ∧
    (∀ h k, showPkt [(.tcp, .src)] (.hdr (.tcp { h with src := k }) :: p) = showPkt [(.tcp, .src)] (.hdr (.tcp h) :: p)) ∧
    (∀ h k, showPkt [(.tcp, .dst)] (.hdr (.tcp { h with dst := k }) :: p) = showPkt [(.tcp, .dst)] (.hdr (.tcp h) :: p)) ∧
    (∀ h k, showPkt [(.tcp, .seq)] (.hdr (.tcp { h with seq := k }) :: p) = showPkt [(.tcp, .seq)] (.hdr (.tcp h) :: p)) ∧
    (∀ h k, showPkt [(.tcp, .ack)] (.hdr (.tcp { h with ack := k }) :: p) = showPkt [(.tcp, .ack)] (.hdr (.tcp h) :: p)) ∧
    (∀ h d, showPkt [(.icmp, .icmpdata)] (.hdr (.icmp { h with data := d }) :: p) =
      showPkt [(.icmp, .icmpdata)] (.hdr (.icmp h) :: p)) := by
  refine ⟨?_, ?_, ?_, ?_, ?_, ?_, ?_, ?_, ?_, ?_, ?_, ?_, ?_, ?_⟩ <;> intros <;> rfl

/-- What the packet of the examples is shown as, and why another one is not it. -/
example :
    showPkt [(.ip4, .src), (.eth, .dst), (.udp, .src)] exPacket =
      .ok ("Ethernet 02:00:00:00:00:01->**:**:**:**:**:** IP | IPv4 *.*.*.*->10.0.0.2 UDP | UDP *->53 | ".toList ++
        "RawPacketContents (2 bytes) b'hi'".toList) ∧
    (Matcher.new exPacket true [] [] >>= fun m => m.diagnose exOtherPort) =
      .ok (some "In the UDP header, dst is wrong (is 54 but should be 53)".toList) ∧
    (Matcher.new exPacket true [] [] >>= fun m => m.diagnose [.hdr (.raw [1])]) = .ok (some
      "Packet header type is wrong at index 0: expecting Ethernet but found RawPacketContents".toList) := by
  decide +kernel

/-! ## C172: the header to display -/

/-- A header that is not shown. -/
def dots (it : Item) : Text := it.klass.name ++ "...".toList

theorem shownAs_other {idx i : Int} (h : i ≠ idx) (x : Item) : shownAs idx i x = .ok (dots x) := by
  cases x with
  | hdr h' => exact if_neg h
  | bytes b => exact congrArg Except.ok (if_neg h)
  | other o => exact congrArg Except.ok (if_neg h)

theorem shownItems_after (idx i : Int) (r : Packet) (h : idx < i) : shownItems idx i r = .ok (r.map dots) := by
  induction r generalizing i with
  | nil => rfl
  | cons x r ih =>
    have hx := shownAs_other (show i ≠ idx by omega) x
    simp only [shownItems, hx, ih (i + 1) (by omega), bind_ok, List.map_cons]

theorem shownItems_at (l : Packet) (x : Item) (r : Packet) (i : Int) (s : Text)
    (hx : shownAs (i + l.length) (i + l.length) x = .ok s) :
    shownItems (i + l.length) i (l ++ x :: r) = .ok (l.map dots ++ s :: r.map dots) := by
  induction l generalizing i with
  | nil =>
    simp only [List.length_nil, Int.natCast_zero, Int.add_zero, List.nil_append, List.map_nil] at hx ⊢
    simp only [shownItems, hx, bind_ok, shownItems_after i (i + 1) r (by omega)]
  | cons y l ih =>
    have hy : shownAs (i + ((y :: l).length : Nat)) i y = .ok (dots y) :=
      shownAs_other (by simp only [List.length_cons]; omega) y
    have e : i + ((y :: l).length : Nat) = (i + 1) + (l.length : Nat) := by simp only [List.length_cons]; omega
    rw [e] at hx hy ⊢
    simp only [List.cons_append, shownItems, hy, ih (i + 1) hx, bind_ok, List.map_cons]

/-- **C172**: with a class to display, only the first header of the class is shown; of the others the names. -/
theorem display_one (c : Cls) (l r : Packet) (h : Hdr) (s : Text) (hc : h.cls.isSub c = true)
    (hl : ∀ y ∈ l, y.isA c = false) (hs : h.str = .ok s) :
    formatPkt false (some c) (l ++ .hdr h :: r) =
      .ok (joinText " | ".toList (l.map dots ++ s :: r.map dots)) := by
  have hi := headerIndex_found (c := c) (x := .hdr h) (l := l) (r := r) hc hl []
  simp only [List.nil_append, List.length_nil, Nat.zero_add, Int.natCast_zero] at hi
  have hsh := shownItems_at l (.hdr h) r 0 s (by simp [shownAs, hs])
  rw [Int.zero_add] at hsh
  simp only [formatPkt, Bool.false_eq_true, if_false, highlight, hi, bind_ok]
  rw [if_neg (by omega), hsh, bind_ok]

/-- **C172**: without a class, with one that the packet does not have, or if messages are verbose, all of it is. -/
theorem display_all (v : Bool) (d : Option Cls) (p : Packet)
    (h : v = true ∨ d = none ∨ ∃ c, d = some c ∧ ∀ y ∈ p, y.isA c = false) : formatPkt v d p = p.str := by
  rcases h with rfl | rfl | ⟨c, rfl, hc⟩
  · rfl
  · cases v <;> rfl
  · cases v with
    | true => rfl
    | false =>
      have hi := headerIndex_missing hc []
      simp only [List.nil_append, List.length_nil, Int.natCast_zero] at hi
      simp only [formatPkt, Bool.false_eq_true, if_false, highlight, hi, bind_ok, if_true]

example : Event.str false { display := some .ip4 } (Event.mkInput "eth0".toList exPacket) =
    .ok "recv_packet Ethernet... | IPv4 10.0.0.1->10.0.0.2 UDP | UDP... | RawPacketContents... on eth0".toList := by
  decide +kernel

/-! ## C168: the summary -/

/-- The text of an event. -/
def eventText (v : Bool) (notes : Notes) (x : Entry) : Text :=
  match x.event.str v (notes x.ts) with
  | .ok t => t
  | .error _ => []

theorem numberedAll_eq (wrap : Text → List Text) (v : Bool) (notes : Notes) (k : Nat) (l : List Entry)
    (h : ∀ x ∈ l, ∃ t, x.event.str v (notes x.ts) = .ok t) :
    numberedAll wrap v notes k l =
      .ok (l.mapIdx fun i x => numbered wrap v (k + i) x.descr (eventText v notes x)) := by
  induction l generalizing k with
  | nil => rfl
  | cons x l ih =>
    obtain ⟨t, ht⟩ := h x List.mem_cons_self
    have := ih (k + 1) fun y hy => h y (List.mem_cons_of_mem _ hy)
    simp only [numberedAll, ht, bind_ok, this, List.mapIdx_cons, eventText, Nat.add_zero]
    congr 2
    apply List.ext_getElem?
    intro i
    simp only [List.getElem?_mapIdx]
    congr 1
    funext y
    congr 1
    omega

theorem numberedAll_ok {wrap : Text → List Text} {v : Bool} {notes : Notes} {k : Nat} {l : List Entry} {r : List Text}
    (h : numberedAll wrap v notes k l = .ok r) : ∀ x ∈ l, ∃ t, x.event.str v (notes x.ts) = .ok t := by
  induction l generalizing k r with
  | nil => intro x hx; cases hx
  | cons y l ih =>
    simp only [numberedAll] at h
    obtain ⟨t, ht, h⟩ := bind_eq_ok.mp h
    obtain ⟨s, hs, h⟩ := bind_eq_ok.mp h
    intro x hx
    rcases List.mem_cons.mp hx with e | e
    · exact e ▸ ⟨t, ht⟩
    · exact ih hs x e

/-- **C168**: the summary lists every expectation once, in order: those met under "Passed", numbered from one, the first
that is pending under "Failed" with the event, and the others under "Pending", numbered again. -/
theorem summary_lists_partial (wrap : Text → List Text) (v : Bool) (notes : Notes) (s : Scenario)
    (h : ∀ x ∈ s.completed ++ s.pending, ∃ t, x.event.str v (notes x.ts) = .ok t) :
    s.summaryTexts wrap v notes = .ok (
      (if s.completed = [] then [] else "\nPassed:".toList ::
        s.completed.mapIdx fun i x => numbered wrap v (1 + i) x.descr (eventText v notes x)) ++
      match s.pending with
      | [] => []
      | x :: xs => ["\nFailed:".toList, wrapEvent wrap x.descr (eventText v notes x) true] ++
        (if xs = [] then [] else "\nPending (couldn't test because of prior failure):".toList ::
          xs.mapIdx fun i x => numbered wrap v (1 + i) x.descr (eventText v notes x))) := by
  have hc := numberedAll_eq wrap v notes 1 s.completed fun x hx => h x (List.mem_append_left _ hx)
  have nil : ∀ (l : List Entry), (l.mapIdx fun i x => numbered wrap v (1 + i) x.descr (eventText v notes x)) = [] ↔ l = [] := by
    intro l; cases l <;> simp
  unfold Scenario.summaryTexts
  rw [hc, bind_ok]
  cases hp : s.pending with
  | nil =>
    dsimp only
    by_cases h0 : s.completed = []
    · rw [if_pos h0, if_pos ((nil _).mpr h0)]; rfl
    · rw [if_neg h0, if_neg (fun e => h0 ((nil _).mp e)), List.append_nil]
  | cons x xs =>
    obtain ⟨t, ht⟩ := h x (List.mem_append_right _ (by rw [hp]; exact List.mem_cons_self))
    have hb := numberedAll_eq wrap v notes 1 xs fun y hy =>
      h y (List.mem_append_right _ (by rw [hp]; exact List.mem_cons_of_mem _ hy))
    have et : eventText v notes x = t := by simp [eventText, ht]
    dsimp only
    rw [ht, bind_ok, hb, bind_ok, et]
    by_cases h0 : s.completed = [] <;> by_cases h1 : xs = [] <;>
      simp [h0, h1]

/-- **C168**: there is a summary exactly if all events of the scenario can be printed, whether they passed or not. -/
theorem summary_iff (wrap : Text → List Text) (v : Bool) (notes : Notes) (s : Scenario) :
    (∃ l, s.summaryTexts wrap v notes = .ok l) ↔
      ∀ x ∈ s.completed ++ s.pending, ∃ t, x.event.str v (notes x.ts) = .ok t := by
  constructor
  · rintro ⟨l, h⟩
    unfold Scenario.summaryTexts at h
    obtain ⟨a, ha, h⟩ := bind_eq_ok.mp h
    have hc := numberedAll_ok ha
    intro x hx
    rcases List.mem_append.mp hx with hx | hx
    · exact hc x hx
    · cases hp : s.pending with
      | nil => rw [hp] at hx; cases hx
      | cons y ys =>
        rw [hp] at h hx
        dsimp only at h
        obtain ⟨t, ht, h⟩ := bind_eq_ok.mp h
        obtain ⟨b, hb, h⟩ := bind_eq_ok.mp h
        rcases List.mem_cons.mp hx with e | e
        · exact e ▸ ⟨t, ht⟩
        · exact numberedAll_ok hb x e
  · exact fun h => ⟨_, summary_lists_partial wrap v notes s h⟩

/-- A scenario whose last expectation delivers a router advertisement has no summary, whatever happened before. -/
theorem summary_violated (wrap : Text → List Text) (notes : Notes) (s : Scenario) (d : List Char) (k : Nat)
    (dev : List Char) (f : Option Cls) (cs : List Copy) (h : ⟨.input dev exAdv f cs, d, k⟩ ∈ s.completed ++ s.pending) :
    ¬ ∃ l, s.summaryTexts wrap true notes = .ok l := by
  rw [summary_iff]
  intro hh
  obtain ⟨t, ht⟩ := hh _ h
  cases ht

theorem wrapEvent_first (wrap : Text → List Text) (v : Bool) (descr ev l : Text) (r : List Text) (h : wrap descr = l :: r) :
    ∃ rest, wrapEvent wrap descr ev v = "    ".toList ++ (l ++ rest) := by
  unfold wrapEvent
  rw [h]
  cases r with
  | nil => exact ⟨_, List.append_assoc _ _ _⟩
  | cons a r =>
    refine ⟨['\n'] ++ joinText ['\n'] ((a :: r).map ("    ".toList ++ ·)) ++
      (if v then '\n' :: joinText ['\n'] ((wrap ("Expected event: ".toList ++ ev)).map ("        ".toList ++ ·)) else []), ?_⟩
    simp only [List.map_cons, joinText, List.append_assoc]

/-- **C168**: the number of an expectation, up to 9999, takes the place of blanks only: the description follows it as it
has been wrapped. -/
theorem summary_number_partial (wrap : Text → List Text) (v : Bool) (k : Nat) (descr ev l : Text) (r : List Text)
    (h : wrap descr = l :: r) (hk : k < 10000) :
    ∃ rest, wrapEvent wrap descr ev v = "    ".toList ++ (l ++ rest) ∧
      numbered wrap v k descr ev = natText k ++ List.replicate (4 - (natText k).length) ' ' ++ (l ++ rest) := by
  obtain ⟨rest, hr⟩ := wrapEvent_first wrap v descr ev l r h
  refine ⟨rest, hr, ?_⟩
  have hl : (natText k).length ≤ 4 := (Nat.length_toDigits_le_iff (by decide) (by decide)).mpr hk
  unfold numbered
  rw [hr, List.drop_append_of_le_length hl, List.append_assoc]
  congr 2
  rw [show "    ".toList = List.replicate 4 ' ' from rfl, List.drop_replicate]

example : numbered (fun t => [t]) false 12 "the packet arrives".toList [] = "12  the packet arrives".toList := by
  decide +kernel

/-- From the ten thousandth expectation on, the description loses its first letter. -/
theorem summary_number_violated (wrap : Text → List Text) (v : Bool) (k : Nat) (descr ev l : Text) (c : Char)
    (r : List Text) (h : wrap descr = (c :: l) :: r) (hk : 10000 ≤ k) (hk' : k < 100000) :
    ∃ rest, wrapEvent wrap descr ev v = "    ".toList ++ (c :: l ++ rest) ∧
      numbered wrap v k descr ev = natText k ++ (l ++ rest) := by
  obtain ⟨rest, hr⟩ := wrapEvent_first wrap v descr ev _ r h
  refine ⟨rest, hr, ?_⟩
  have h5 : (natText k).length ≤ 5 := (Nat.length_toDigits_le_iff (by decide) (by decide)).mpr hk'
  have h4 : ¬ (natText k).length ≤ 4 := fun h => by
    have := (Nat.length_toDigits_le_iff (b := 10) (n := k) (k := 4) (by decide) (by decide)).mp h
    omega
  have he : (natText k).length = 5 := by omega
  unfold numbered
  rw [hr, he]
  rfl

/-! ## C169: comparing events and scenarios -/

/-- **C169**: an event is equal to itself, if it can be printed. -/
theorem event_eq_refl_partial (v : Bool) (n : Note) (e : Event) (h : PrintableEvent e) : e.eq v n n e = .ok true := by
  cases e with
  | timeout t => simp [Event.eq]
  | input d p f cs =>
    obtain ⟨t, ht⟩ := (packet_str_partial p).1.mpr h
    simp [Event.eq, ht]
  | output w s =>
    obtain ⟨t, ht⟩ := event_str_ok v n _ h
    simp [Event.eq, ht]

/-- **C169**: comparing does not depend on the order. -/
theorem event_eq_symm (v : Bool) (n n' : Note) (e e' : Event) (b : Bool) (h : e.eq v n n' e' = .ok b) :
    e'.eq v n' n e = .ok b := by
  cases e <;> cases e' <;> simp only [Event.eq] at h ⊢ <;> try exact h
  · rw [← h]; congr 1; exact decide_eq_decide.mpr ⟨Eq.symm, Eq.symm⟩
  · rename_i d p _ _ d' p' _ _
    by_cases hd : d = d'
    · rw [if_pos hd] at h
      obtain ⟨s, hs, h⟩ := bind_eq_ok.mp h
      obtain ⟨s', hs', h⟩ := bind_eq_ok.mp h
      rw [if_pos hd.symm, hs', bind_ok, hs, bind_ok, ← h]
      congr 1; exact decide_eq_decide.mpr ⟨Eq.symm, Eq.symm⟩
    · rw [if_neg hd] at h; rw [if_neg (fun e => hd e.symm)]; exact h
  · obtain ⟨s, hs, h⟩ := bind_eq_ok.mp h
    obtain ⟨s', hs', h⟩ := bind_eq_ok.mp h
    rw [hs', bind_ok, hs, bind_ok, ← h]
    congr 1; exact decide_eq_decide.mpr ⟨Eq.symm, Eq.symm⟩

/-- **C169**: events equal to the same event are equal. -/
theorem event_eq_trans (v : Bool) (n n' n'' : Note) (e e' e'' : Event) (h : e.eq v n n' e' = .ok true)
    (h' : e'.eq v n' n'' e'' = .ok true) : e.eq v n n'' e'' = .ok true := by
  cases e <;> cases e' <;> first | (cases h; done) | skip
  · cases e'' <;> first | (cases h'; done) | skip
    simp only [Event.eq, Except.ok.injEq, decide_eq_true_eq] at h h' ⊢
    exact h.trans h'
  · cases e'' <;> first | (cases h'; done) | skip
    rename_i d p _ _ d' p' _ _ d'' p'' _ _
    simp only [Event.eq] at h h' ⊢
    by_cases hd : d = d'
    · by_cases hd' : d' = d''
      · rw [if_pos hd] at h; rw [if_pos hd'] at h'; rw [if_pos (hd.trans hd')]
        obtain ⟨s, hs, h⟩ := bind_eq_ok.mp h
        obtain ⟨s', hs', h⟩ := bind_eq_ok.mp h
        obtain ⟨t, ht, h'⟩ := bind_eq_ok.mp h'
        obtain ⟨t', ht', h'⟩ := bind_eq_ok.mp h'
        rw [hs'] at ht
        obtain rfl := Except.ok.inj ht
        simp only [Except.ok.injEq, decide_eq_true_eq] at h h'
        simp [hs, ht', h, h']
      · rw [if_neg hd'] at h'; cases h'
    · rw [if_neg hd] at h; cases h
  · cases e'' <;> first | (cases h'; done) | skip
    simp only [Event.eq] at h h' ⊢
    obtain ⟨s, hs, h⟩ := bind_eq_ok.mp h
    obtain ⟨s', hs', h⟩ := bind_eq_ok.mp h
    obtain ⟨t, ht, h'⟩ := bind_eq_ok.mp h'
    obtain ⟨t', ht', h'⟩ := bind_eq_ok.mp h'
    rw [hs'] at ht
    obtain rfl := Except.ok.inj ht
    simp only [Except.ok.injEq, decide_eq_true_eq] at h h'
    simp [hs, ht', h, h']

/-- **C169**: equal input events are for the same interface and their packets are printed alike. -/
theorem input_eq_iff (v : Bool) (n n' : Note) (d d' : List Char) (p p' : Packet) (f f' : Option Cls) (cs cs' : List Copy)
    (hp : PrintablePkt p) (hp' : PrintablePkt p') :
    Event.eq v n n' (.input d p f cs) (.input d' p' f' cs') = .ok true ↔ d = d' ∧ p.str = p'.str := by
  obtain ⟨t, ht⟩ := (packet_str_partial p).1.mpr hp
  obtain ⟨t', ht'⟩ := (packet_str_partial p').1.mpr hp'
  simp only [Event.eq]
  by_cases hd : d = d'
  · simp [hd, ht, ht']
  · simp [hd]

/-- **C169**: a scenario is equal to itself, and it does not matter which interfaces it has or how long it waits. -/
theorem scenario_eq_partial (v : Bool) (notes : Notes) (s : Scenario)
    (h : ∀ x ∈ s.pending ++ s.completed, PrintableEvent x.event) : s.eq v notes notes s = .ok true := by
  have key : ∀ l : List Entry, (∀ x ∈ l, PrintableEvent x.event) → entriesEq v notes notes l l = .ok true := by
    intro l
    induction l with
    | nil => intro _; rfl
    | cons x l ih =>
      intro hl
      have := event_eq_refl_partial v (notes x.ts) x.event (hl x List.mem_cons_self)
      simp [entriesEq, this, ih fun y hy => hl y (List.mem_cons_of_mem _ hy)]
  unfold Scenario.eq
  rw [if_neg (fun h => h rfl), if_neg (fun h => h rfl)]
  exact key _ h

theorem entriesEq_true (v : Bool) (n n' : Notes) (l l' : List Entry) (hl : l.length = l'.length) :
    entriesEq v n n' l l' = .ok true ↔ ∀ (i : Nat) (x y : Entry), l[i]? = some x → l'[i]? = some y →
      Event.eq v (n x.ts) (n' y.ts) x.event y.event = .ok true ∧ x.descr = y.descr ∧ x.ts = y.ts := by
  induction l generalizing l' with
  | nil => exact ⟨fun _ i x y h => by simp at h, fun _ => rfl⟩
  | cons x l ih =>
    cases l' with
    | nil => cases hl
    | cons y l' =>
      have ih := ih l' (by simpa using hl)
      constructor
      · intro h
        unfold entriesEq at h
        obtain ⟨b, hb, h⟩ := bind_eq_ok.mp h
        by_cases hc : (b && decide (x.descr = y.descr) && decide (x.ts = y.ts)) = true
        · rw [if_pos hc] at h
          simp only [Bool.and_eq_true, decide_eq_true_eq] at hc
          intro i x' y' hx hy
          cases i with
          | zero =>
            obtain rfl := Option.some.inj hx
            obtain rfl := Option.some.inj hy
            exact ⟨by rw [hb, hc.1.1], hc.1.2, hc.2⟩
          | succ i => exact ih.mp h i x' y' hx hy
        · rw [if_neg hc] at h; cases h
      · intro h
        obtain ⟨h1, h2, h3⟩ := h 0 x y rfl rfl
        unfold entriesEq
        rw [h1, bind_ok, if_pos (by simp [h2, h3])]
        exact ih.mpr fun i x' y' hx hy => h (i + 1) x' y' hx hy

/-- **C169**: scenarios are equal exactly if they have equally many expectations and each is equal to the one in the same
place, with the same description. -/
theorem scenario_eq_iff (v : Bool) (n n' : Notes) (s s' : Scenario) :
    s.eq v n n' s' = .ok true ↔ s.nextTs = s'.nextTs ∧
      (s.pending ++ s.completed).length = (s'.pending ++ s'.completed).length ∧
      ∀ (i : Nat) (x y : Entry), (s.pending ++ s.completed)[i]? = some x → (s'.pending ++ s'.completed)[i]? = some y →
        Event.eq v (n x.ts) (n' y.ts) x.event y.event = .ok true ∧ x.descr = y.descr ∧ x.ts = y.ts := by
  unfold Scenario.eq
  by_cases h1 : s.nextTs = s'.nextTs
  · rw [if_neg (fun h => h h1)]
    by_cases h2 : (s.pending ++ s.completed).length = (s'.pending ++ s'.completed).length
    · rw [if_neg (fun h => h h2), entriesEq_true v n n' _ _ h2]
      exact ⟨fun h => ⟨h1, h2, h⟩, fun h => h.2.2⟩
    · rw [if_pos h2]
      exact ⟨fun h => (nomatch h), fun h => absurd h.2.1 h2⟩
  · rw [if_pos h1]
    exact ⟨fun h => (nomatch h), fun h => absurd h.1 h1⟩

/-- **C169**: equal output events are printed alike, equal timeouts are as long. -/
theorem output_eq_iff (v : Bool) (n n' : Note) (w w' : Dict (List Char) Matcher) (s s' : Dict (List Char) Sent)
    (h : PrintableEvent (.output w s)) (h' : PrintableEvent (.output w' s')) :
    (Event.eq v n n' (.output w s) (.output w' s') = .ok true ↔
      Event.str v n (.output w s) = Event.str v n' (.output w' s')) ∧
    ∀ t t', Event.eq v n n' (.timeout t) (.timeout t') = .ok true ↔ t = t' := by
  obtain ⟨t, ht⟩ := event_str_ok v n _ h
  obtain ⟨t', ht'⟩ := event_str_ok v n' _ h'
  refine ⟨by simp [Event.eq, ht, ht'], fun k k' => by simp [Event.eq]⟩

/-- Two scenarios are equal although they have other interfaces and another timeout. -/
theorem scenario_eq_violated (v : Bool) (notes : Notes) (s : Scenario) (ifaces : Dict (List Char) Iface) (t : Nat)
    (h : ∀ x ∈ s.pending ++ s.completed, PrintableEvent x.event) :
    s.eq v notes notes { s with ifaces := ifaces, timeout := t } = .ok true :=
  scenario_eq_partial v notes s h

/-- Two output events are equal although one compares exactly and the other does not, with other wildcards and other
predicates. -/
theorem output_eq_violated (v : Bool) (n : Note) (w : Dict (List Char) Matcher) (s : Dict (List Char) Sent)
    (h : PrintableEvent (.output w s)) (f : Matcher → Matcher) (hf : ∀ m, (f m).ref = m.ref) :
    Event.eq v n n (.output w s) (.output (w.map fun x => (x.1, f x.2)) s) = .ok true := by
  have key : ∀ w : Dict (List Char) Matcher,
      waitingTexts v n.display (w.map fun x => (x.1, f x.2)) = waitingTexts v n.display w := by
    intro w
    induction w with
    | nil => rfl
    | cons x w ih => simp only [List.map_cons, waitingTexts, hf, ih]
  obtain ⟨t, ht⟩ := event_str_ok v n _ h
  have ht' : Event.str v n (.output (w.map fun x => (x.1, f x.2)) s) = .ok t := by
    rw [← ht]; simp only [Event.str, key]
  simp [Event.eq, ht, ht']

/-- And two are different that expect the same packets on the same ports, named in another order. -/
theorem output_eq_order_violated :
    (match Event.mkOutput [("a".toList, exPacket), ("b".toList, exPacket)] false true [] [],
        Event.mkOutput [("b".toList, exPacket), ("a".toList, exPacket)] false true [] [] with
      | .ok e, .ok e' => some (e.eq false {} {} e')
      | _, _ => none) = some (.ok false) := by decide +kernel

/-! ## C170: the sanity check -/

/-- The event is about interfaces of the scenario. -/
def SaneEvent (ifaces : List (List Char)) : Event → Prop
  | .timeout _ => True
  | .input d _ _ _ => d ∈ ifaces
  | .output w _ => w.keys ≠ [] ∧ ∀ d ∈ w.keys, d ∈ ifaces

theorem sanePorts_true {ifaces : Dict (List Char) Iface} {t : Res Text} {l : List (List Char)} :
    sanePorts ifaces t l = .ok true ↔ ∀ d ∈ l, d ∈ ifaces.keys := by
  induction l with
  | nil => simp [sanePorts]
  | cons d l ih =>
    unfold sanePorts
    by_cases h : d ∈ ifaces.keys
    · rw [if_pos h, ih]; simp [h]
    · rw [if_neg h]
      constructor
      · intro e
        obtain ⟨_, _, e⟩ := bind_eq_ok.mp e
        obtain ⟨_, _, e⟩ := bind_eq_ok.mp e
        cases e
      · intro e; exact absurd (e d List.mem_cons_self) h

theorem sanePorts_ok {ifaces : Dict (List Char) Iface} {t : Res Text} (ht : ∃ s, t = .ok s) (l : List (List Char)) :
    ∃ b, sanePorts ifaces t l = .ok b := by
  obtain ⟨s, rfl⟩ := ht
  induction l with
  | nil => exact ⟨_, rfl⟩
  | cons d l ih =>
    obtain ⟨b, hb⟩ := ih
    unfold sanePorts
    split
    · exact ⟨b, hb⟩
    · rw [bind_ok, hb]; exact ⟨_, rfl⟩

theorem saneEvent_true (v : Bool) (n : Note) (ifaces : Dict (List Char) Iface) (e : Event) :
    saneEvent v n ifaces e = .ok true ↔ SaneEvent ifaces.keys e := by
  cases e with
  | timeout t => simp [saneEvent, SaneEvent]
  | input d p f cs =>
    unfold saneEvent SaneEvent
    dsimp only
    by_cases h : d ∈ ifaces.keys
    · rw [if_pos h]; simp [h]
    · rw [if_neg h]
      constructor
      · intro e; obtain ⟨_, _, e⟩ := bind_eq_ok.mp e; cases e
      · intro e; exact absurd e h
  | output w s =>
    unfold saneEvent SaneEvent
    dsimp only
    by_cases h : w.keys = []
    · rw [if_pos h]
      constructor
      · intro e; obtain ⟨_, _, e⟩ := bind_eq_ok.mp e; cases e
      · intro e; exact absurd h e.1
    · rw [if_neg h, sanePorts_true]; simp [h]

theorem saneAll_true (v : Bool) (notes : Notes) (ifaces : Dict (List Char) Iface) (l : List Entry) :
    saneAll v notes ifaces l = .ok true ↔ ∀ x ∈ l, SaneEvent ifaces.keys x.event := by
  induction l with
  | nil => simp [saneAll]
  | cons x l ih =>
    rw [List.forall_mem_cons, ← ih, ← saneEvent_true v (notes x.ts)]
    simp only [saneAll]
    constructor
    · intro h
      obtain ⟨b, hb, h⟩ := bind_eq_ok.mp h
      obtain ⟨c, hc, h⟩ := bind_eq_ok.mp h
      obtain ⟨rfl, rfl⟩ : b = true ∧ c = true := by simpa using h
      exact ⟨hb, hc⟩
    · rintro ⟨h1, h2⟩
      rw [h1, bind_ok, h2]; rfl

/-- **C170**: the sanity check says that nothing is wrong exactly if every pending event is about interfaces of the
scenario and every output event about at least one. -/
theorem sane_iff (v : Bool) (notes : Notes) (s : Scenario) :
    s.sane v notes = .ok true ↔ ∀ x ∈ s.pending, SaneEvent s.ifaces.keys x.event :=
  saneAll_true v notes s.ifaces s.pending

/-- **C170**: otherwise it says that something is, if the events can be printed. -/
theorem sane_refused_partial (v : Bool) (notes : Notes) (s : Scenario) (hs : PrintableScen s) :
    s.sane v notes = .ok false ↔ ∃ x ∈ s.pending, ¬ SaneEvent s.ifaces.keys x.event := by
  have hev : ∀ x : Entry, PrintableEvent x.event → ∃ b, saneEvent v (notes x.ts) s.ifaces x.event = .ok b := by
    intro x hx
    obtain ⟨t, ht⟩ := event_str_ok v (notes x.ts) x.event hx
    unfold saneEvent
    cases hxe : x.event with
    | timeout k => exact ⟨_, rfl⟩
    | input d p f cs =>
      rw [hxe] at ht
      dsimp only
      split
      · exact ⟨_, rfl⟩
      · rw [ht]; exact ⟨_, rfl⟩
    | output w q =>
      rw [hxe] at ht
      dsimp only
      split
      · rw [ht]; exact ⟨_, rfl⟩
      · exact sanePorts_ok ⟨t, ht⟩ _
  have hall : ∀ l : List Entry, (∀ x ∈ l, PrintableEvent x.event) → ∃ b, saneAll v notes s.ifaces l = .ok b := by
    intro l
    induction l with
    | nil => intro _; exact ⟨_, rfl⟩
    | cons x l ih =>
      intro hl
      obtain ⟨b, hb⟩ := hev x (hl x List.mem_cons_self)
      obtain ⟨c, hc⟩ := ih fun y hy => hl y (List.mem_cons_of_mem _ hy)
      exact ⟨b && c, by simp only [saneAll, hb, hc, bind_ok]⟩
  obtain ⟨b, hb⟩ := hall _ hs
  have ht := sane_iff v notes s
  have hb' : s.sane v notes = .ok b := hb
  rw [hb'] at ht ⊢
  cases b with
  | true =>
    have h1 := ht.mp rfl
    constructor
    · intro e; cases e
    · rintro ⟨x, hx, hn⟩; exact absurd (h1 x hx) hn
  | false =>
    refine ⟨fun _ => ?_, fun _ => rfl⟩
    apply Classical.byContradiction
    intro hc
    have : ∀ x ∈ s.pending, SaneEvent s.ifaces.keys x.event :=
      fun x hx => Classical.byContradiction fun hn => hc ⟨x, hx, hn⟩
    have := ht.mpr this
    cases this

/-- A router advertisement expected on an interface that does not exist is not warned about: the check raises. -/
theorem sane_violated (notes : Notes) (s : Scenario) (x : Entry) (xs : List Entry) (dev : List Char) (f : Option Cls)
    (cs : List Copy) (h : s.pending = x :: xs) (he : x.event = .input dev exAdv f cs) (hd : dev ∉ s.ifaces.keys) :
    s.sane true notes = .error .attributeError := by
  unfold Scenario.sane
  rw [h]
  unfold saneAll saneEvent
  rw [he]
  dsimp only
  rw [if_neg hd]
  rfl

/-! ## C171: the message at the end -/

/-- The text has no capital letters. -/
def Small (t : Text) : Prop := t.map Char.toLower = t

instance (t : Text) : Decidable (Small t) := by unfold Small; infer_instance

theorem small_append {s t : Text} (hs : Small s) (ht : Small t) : Small (s ++ t) := by
  unfold Small at *; rw [List.map_append, hs, ht]

theorem small_join {sep : Text} {l : List Text} (hs : Small sep) (hl : ∀ t ∈ l, Small t) : Small (joinText sep l) := by
  induction l with
  | nil => rfl
  | cons x l ih =>
    cases l with
    | nil => exact hl x List.mem_cons_self
    | cons y l =>
      exact small_append (small_append (hl x List.mem_cons_self) hs) (ih fun t ht => hl t (List.mem_cons_of_mem _ ht))

theorem small_plural {α : Type} (l : List α) : Small (plural l) := by
  unfold plural; split <;> decide

/-- **C171**: if the program ends too early, the message names the ports on which a packet has been sent and those on which
it has not, if their names have no capital letters. -/
theorem end_message_partial (w : Dict (List Char) Matcher) (s : Dict (List Char) Sent) (hw : w ≠ [])
    (h : ∀ d ∈ w.keys ++ s.keys, Small d) :
    Event.failText (.output w s) =
      if s.keys = [] then
        "Your code did not send packet".toList ++ ((if w.keys.length = 1 then [] else ['s']) ++ (" on port".toList ++
          ((if w.keys.length = 1 then [] else ['s']) ++ (" ".toList ++ joinText ",".toList w.keys))))
      else
        "Your code has sent a packet on port".toList ++ ((if s.keys.length = 1 then [] else ['s']) ++ (" ".toList ++
          (joinText ",".toList s.keys ++ (", but not on port".toList ++
          ((if w.keys.length = 1 then [] else ['s']) ++ (" ".toList ++ joinText ",".toList w.keys)))))) := by
  have hk : w.keys ≠ [] := by cases w with
    | nil => exact absurd rfl hw
    | cons x w => simp [Dict.keys]
  have jw : Small (joinText ",".toList w.keys) := small_join (by decide) fun d hd => h d (List.mem_append_left _ hd)
  have js : Small (joinText ",".toList s.keys) := small_join (by decide) fun d hd => h d (List.mem_append_right _ hd)
  have pw := small_plural w.keys
  have ps := small_plural s.keys
  unfold Small at jw js pw ps
  unfold Event.failText unsentText
  dsimp only
  by_cases hs : s.keys = []
  · rw [if_pos hs, if_pos hs, if_neg hk, if_pos hs, List.nil_append]
    have hx : Small ("our code did not send packet".toList) := by decide
    have hy : Small ("on port".toList) := by decide
    have hz : Small (" ".toList) := by decide
    unfold Small at hx hy hz
    show 'Y' :: List.map Char.toLower ("our code did not send packet".toList ++ plural w.keys ++ " ".toList ++
      "on port".toList ++ plural w.keys ++ " ".toList ++ joinText ",".toList w.keys) = _
    simp only [List.map_append, hx, hy, hz, jw, pw, List.append_assoc]
    rfl
  · rw [if_neg hs, if_neg hs, if_neg hk, if_neg hk, if_neg hs]
    have hx : Small ("our code has sent a packet on port".toList) := by decide
    have hy : Small ("on port".toList) := by decide
    have hz : Small (" ".toList) := by decide
    have h1 : Small (", but ".toList) := by decide
    have h2 : Small ("not ".toList) := by decide
    unfold Small at hx hy hz h1 h2
    show 'Y' :: List.map Char.toLower ("our code has sent a packet on port".toList ++ plural s.keys ++ " ".toList ++
      joinText ",".toList s.keys ++ ", but ".toList ++ ("not ".toList ++
      "on port".toList ++ plural w.keys ++ " ".toList ++ joinText ",".toList w.keys)) = _
    simp only [List.map_append, hx, hy, hz, h1, h2, jw, pw, js, ps, List.append_assoc]
    rfl

example : Event.failText (.output [("eth1".toList, ⟨true, [], [], [], none⟩)] [("eth0".toList, .raw [])]) =
    "Your code has sent a packet on port eth0, but not on port eth1".toList := by decide +kernel

/-- No port whose name has a capital letter is named, whatever the expectation. -/
theorem end_message_violated (w : Dict (List Char) Matcher) (s : Dict (List Char) Sent) (d : List Char) (c : Char)
    (hc : c ∈ d) (hu : c.isUpper = true) : ¬ d <:+: (Event.failText (.output w s)).tail := by
  have hlow : ∀ c : Char, c.toLower.isUpper = false := by
    intro c
    unfold Char.toLower
    split
    · rename_i h
      have h1 : 65 ≤ c.val.toNat := h.1
      have h2 : c.val.toNat ≤ 90 := h.2
      have h3 : (c.val + ('a'.val - 'A'.val)).toNat = (c.val.toNat + 32) % 4294967296 := UInt32.toNat_add _ _
      simp only [Char.isUpper, decide_eq_false_iff_not]
      rintro ⟨_, h4⟩
      have h5 : (c.val + ('a'.val - 'A'.val)).toNat ≤ 90 := h4
      omega
    · rename_i h
      simp only [Char.isUpper, decide_eq_false_iff_not]
      exact h
  intro h
  have hm := h.subset hc
  unfold Event.failText at hm
  dsimp only at hm
  cases ht : unsentText w.keys s.keys with
  | nil => rw [ht] at hm; cases hm
  | cons a t =>
    rw [ht] at hm
    simp only [capitalize, List.tail_cons] at hm
    obtain ⟨b, _, rfl⟩ := List.mem_map.mp hm
    rw [hlow] at hu; cases hu

/-! ## The scenario of the examples -/

theorem exPacket_printable : PrintablePkt exPacket ∧ PrintablePkt exOtherPort := by
  constructor <;> intro h hh
  all_goals
    rcases List.mem_cons.mp hh with e | hh
    · cases e; trivial
    · rcases List.mem_cons.mp hh with e | hh
      · cases e; trivial
      · rcases List.mem_cons.mp hh with e | hh
        · cases e; trivial
        · rcases List.mem_cons.mp hh with e | hh
          · cases e; trivial
          · cases hh

/-- It meets the hypotheses of the theorems above: every event can be printed, and every wildcard shown. -/
example : PrintableScen exScen ∧ PlainNotes (fun _ => { wild := [(.ip4, .ttl), (.eth, .src)] }) ∧
    (∀ op ∈ [TestOp.recv, .send (.name "eth1".toList) exOtherPort], PrintableOp op) := by
  refine ⟨?_, ?_, ?_⟩
  · intro x hx
    simp only [exScen, List.mem_cons, List.not_mem_nil, or_false] at hx
    rcases hx with rfl | rfl | rfl
    · exact exPacket_printable.1
    · refine ⟨?_, fun y hy => nomatch hy⟩
      intro y hy
      have : y.2.ref = exPacket ∨ y.2.ref = exOtherPort := by
        rcases List.mem_cons.mp hy with rfl | hy
        · exact .inl rfl
        · rcases List.mem_cons.mp hy with rfl | hy
          · exact .inr rfl
          · cases hy
      rcases this with h | h <;> rw [h]
      · exact exPacket_printable.1
      · exact exPacket_printable.2
    · trivial
  · intro t w hw
    rcases List.mem_cons.mp hw with rfl | hw
    · decide
    · rcases List.mem_cons.mp hw with rfl | hw
      · decide
      · cases hw
  · intro op ho
    rcases List.mem_cons.mp ho with rfl | ho
    · trivial
    · rcases List.mem_cons.mp ho with rfl | ho
      · exact exPacket_printable.2
      · cases ho

/-- The wrong packet on a port: the message the user reads. -/
example : (match (TestNet.sendR false (fun _ => {}) (TestNet.recvR false (fun _ => {}) { scen := exScen }).1
      (.name "eth1".toList) exOtherPort).2.2 with
    | .failed t => t
    | _ => []) = ("You called send_packet and while the output port eth1 is ok, an exact match of packet contents failed.  " ++
      "In the UDP header, dst is wrong (is 54 but should be 53).").toList := by decide +kernel

/-- The summary after the first expectation has been met. -/
example : (TestNet.recvR false (fun _ => {}) { scen := exScen }).1.scen.summaryTexts (fun t => [t]) false (fun _ => {}) =
    .ok ["\nPassed:".toList, "1   in".toList, "\nFailed:".toList,
      ("    out\n        Expected event: send_packet(s) Ethernet 02:00:00:00:00:01->01:02:03:04:05:06 IP | " ++
        "IPv4 10.0.0.1->10.0.0.2 UDP | UDP 5353->53 | RawPacketContents (2 bytes) b'hi' out eth1 and " ++
        "Ethernet 02:00:00:00:00:01->01:02:03:04:05:06 IP | IPv4 10.0.0.1->10.0.0.2 UDP | UDP 5353->54 | " ++
        "RawPacketContents (2 bytes) b'hi' out eth2").toList,
      "\nPending (couldn't test because of prior failure):".toList, "1   wait".toList] := by decide +kernel

/-- All its events are about its interfaces; without `eth2` they are not. -/
example : exScen.sane false (fun _ => {}) = .ok true ∧
    Scenario.sane false (fun _ => {}) { exScen with ifaces := exScen.ifaces.take 2 } = .ok false := by decide +kernel

end SY.Props
