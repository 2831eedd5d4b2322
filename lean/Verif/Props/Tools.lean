import Verif.Tools
import Verif.Props.Pcap
import Verif.Props.PacketParse

/-! # Properties C201-C203: the example programs for capturing, reading, logging and sending packets -/

namespace SY.Props

/-- The outcomes of receiving the packets `ws`, each written at the time that goes with it, and then nothing more. -/
def captured (ws : List (PcapPkt × (Nat × Nat))) : List (Res (Option PcapPkt) × (Nat × Nat)) :=
  ws.map (fun w => (.ok (some w.1), w.2)) ++ [(.ok none, (0, 1))]

theorem sydump_all (ws : List (PcapPkt × (Nat × Nat))) (h : ∀ w ∈ ws, showRaw w.1.raw ≠ .error .diverges) :
    ∀ f o, sydump (captured ws) f o =
      ⟨f ++ ws.map (fun w => recordOf (w.1.raw, w.2)), o ++ ws.map (fun w => showRaw w.1.raw), .done⟩ := by
  induction ws with
  | nil => intro f o; simp [captured, sydump]
  | cons w ws ih =>
    intro f o
    have hw := h w (by simp)
    have := ih (fun x hx => h x (List.mem_cons_of_mem _ hx)) (dumpPacket f w.2 w.1.raw none) (o ++ [showRaw w.1.raw])
    simp only [captured] at this
    simp only [captured, List.map_cons, List.cons_append, sydump, hw, if_false, this]
    simp [dumpPacket, recordOf]

/-- Reading one record that was written. -/
theorem reader_dumped {w : Bytes × (Nat × Nat)} (h : IsDouble w.2) (rs : List PcapRec) :
    ∃ p, readerRecv (fun _ => true) (recordOf w :: rs) = (.ok (some p), rs) ∧ p.raw = w.1 := by
  obtain ⟨p, hp, hr⟩ := read_for h
  exact ⟨p, by simp [readerRecv, nextRecord, hp], hr.raw⟩

theorem readpkt_good (ws : List (Bytes × (Nat × Nat))) (h : ∀ w ∈ ws, IsDouble w.2) :
    ∀ (ts : List Text) (k : Nat), ws.map (fun w => showRaw w.1) = ts.map .ok → ws.length < k →
      readpkt k (ws.map recordOf) = (ts, .done) := by
  induction ws with
  | nil =>
    intro ts k ht hk
    cases ts with
    | cons => simp at ht
    | nil =>
      cases k with
      | zero => simp at hk
      | succ k => rfl
  | cons w ws ih =>
    intro ts k ht hk
    cases ts with
    | nil => simp at ht
    | cons t ts =>
      cases k with
      | zero => simp at hk
      | succ k =>
        simp only [List.map_cons, List.cons.injEq] at ht
        obtain ⟨p, hp, hr⟩ := reader_dumped (h w (by simp)) (ws.map recordOf)
        have := ih (fun x hx => h x (List.mem_cons_of_mem _ hx)) ts k ht.2 (by simp at hk; omega)
        simp [readpkt, hp, hr, ht.1, this]

theorem readpkt_bad (ws : List (Bytes × (Nat × Nat))) (h : ∀ w ∈ ws, IsDouble w.2) :
    ∀ (ts : List Text) (e : PyErr) (more : List (Res Text)) (k : Nat),
      ws.map (fun w => showRaw w.1) = ts.map .ok ++ .error e :: more → ws.length < k →
      readpkt k (ws.map recordOf) = (ts, endOf e) := by
  induction ws with
  | nil => intro ts e more k ht; simp at ht
  | cons w ws ih =>
    intro ts e more k ht hk
    cases k with
    | zero => simp at hk
    | succ k =>
      obtain ⟨p, hp, hr⟩ := reader_dumped (h w (by simp)) (ws.map recordOf)
      cases ts with
      | nil =>
        simp only [List.map_cons, List.map_nil, List.nil_append, List.cons.injEq] at ht
        simp [readpkt, hp, hr, ht.1]
      | cons t ts =>
        simp only [List.map_cons, List.cons_append, List.cons.injEq] at ht
        have := ih (fun x hx => h x (List.mem_cons_of_mem _ hx)) ts e more k ht.2 (by simp at hk; omega)
        simp [readpkt, hp, hr, ht.1, this]

/-- **C201**, partial: whatever packets sydump.py receives, if all of them can be parsed and printed, it writes their bytes in
order, prints a text for each, and reaches its end; and readpkt.py, given the file, prints the same texts in the same order
and reaches its end.  Missing: packets that cannot be parsed or printed (`capture_tools_violated`). -/
theorem capture_tools_partial (ws : List (PcapPkt × (Nat × Nat))) (h : ∀ w ∈ ws, IsDouble w.2) (ts : List Text)
    (ht : ws.map (fun w => showRaw w.1.raw) = ts.map .ok) :
    let d := sydump (captured ws) [] []
    d.how = .done ∧ d.out = ts.map .ok ∧ d.file.map PcapRec.data = ws.map (fun w => w.1.raw) ∧
      readpktFiles [d.file] = ([ts], .done) := by
  have hn : ∀ w ∈ ws, showRaw w.1.raw ≠ .error .diverges := by
    intro w hw he
    have : showRaw w.1.raw ∈ ts.map .ok := ht ▸ List.mem_map_of_mem (f := fun w : PcapPkt × (Nat × Nat) => showRaw w.1.raw) hw
    rw [he] at this
    simp at this
  have hr := readpkt_good (ws.map fun w => (w.1.raw, w.2)) (by
      intro x hx
      obtain ⟨w, hw, rfl⟩ := List.mem_map.mp hx
      exact h w hw) ts (ws.length + 1) (by simpa [Function.comp_def] using ht) (by simp)
  simp only [List.map_map, Function.comp_def] at hr
  simp only [sydump_all ws hn, List.nil_append]
  refine ⟨trivial, ht, by simp [Function.comp_def, recordOf], ?_⟩
  simp [readpktFiles, hr]

/-- **C201**, what becomes of packets that raise when they are parsed or printed: sydump.py reports each and writes all
packets; readpkt.py prints the texts before the first such packet and then ends with its exception, so that neither
the rest of the file nor any further file is read. -/
theorem capture_tools_raise (ws : List (PcapPkt × (Nat × Nat))) (h : ∀ w ∈ ws, IsDouble w.2)
    (hn : ∀ w ∈ ws, showRaw w.1.raw ≠ .error .diverges) (ts : List Text) (e : PyErr) (more : List (Res Text))
    (ht : ws.map (fun w => showRaw w.1.raw) = ts.map .ok ++ .error e :: more) (files : List (List PcapRec)) :
    let d := sydump (captured ws) [] []
    d.how = .done ∧ d.out.length = ws.length ∧ d.file.map PcapRec.data = ws.map (fun w => w.1.raw) ∧
      readpktFiles (d.file :: files) = ([ts], .crashed e) := by
  have hr := readpkt_bad (ws.map fun w => (w.1.raw, w.2)) (by
      intro x hx
      obtain ⟨w, hw, rfl⟩ := List.mem_map.mp hx
      exact h w hw) ts e more (ws.length + 1) (by simpa [Function.comp_def] using ht) (by simp)
  have he : e ≠ .diverges := by
    rintro rfl
    have : (.error .diverges : Res Text) ∈ ws.map (fun w => showRaw w.1.raw) := by rw [ht]; simp
    obtain ⟨w, hw, hc⟩ := List.mem_map.mp this
    exact hn w hw hc
  simp only [List.map_map, Function.comp_def] at hr
  simp only [sydump_all ws hn, List.nil_append]
  refine ⟨trivial, by simp, by simp [Function.comp_def, recordOf], ?_⟩
  simp [readpktFiles, hr, endOf, he]

/-- An ARP request and a frame of one byte. -/
def capArp : Bytes :=
  [255, 255, 255, 255, 255, 255, 2, 0, 0, 0, 0, 1, 8, 6, 0, 1, 8, 0, 6, 4, 0, 1, 2, 0, 0, 0, 0, 1, 10, 0, 0, 1,
   0, 0, 0, 0, 0, 0, 10, 0, 0, 2]

theorem capArp_shows : ∃ t, showRaw capArp = .ok t := by
  obtain ⟨t, ht, _⟩ := Except.of_test (r := showRaw capArp) (p := fun _ => true) (by decide +kernel)
  exact ⟨t, ht⟩

example : ∃ ts : List Text, ts.length = 2 ∧
    ([(⟨(1, 1), 42, 42, capArp⟩, (3, 2)), (⟨(2, 1), 42, 42, capArp⟩, (5, 2))] : List (PcapPkt × (Nat × Nat))).map
      (fun w => showRaw w.1.raw) = ts.map .ok ∧ IsDouble (3, 2) ∧ IsDouble (5, 2) := by
  obtain ⟨t, ht⟩ := capArp_shows
  exact ⟨[t, t], rfl, by simp [ht], ⟨1, rfl, by decide⟩, ⟨1, rfl, by decide⟩⟩

/-- The negation of **C201**: a frame of one byte is captured, and ends readpkt.py before the ARP request after it. -/
theorem capture_tools_violated :
    let d := sydump (captured [(⟨(1, 1), 1, 1, [7]⟩, (3, 2)), (⟨(2, 1), 42, 42, capArp⟩, (5, 2))]) [] []
    d.how = .done ∧ d.file.length = 2 ∧ readpktFiles [d.file] = ([[]], .crashed .notEnoughData) := by
  decide +kernel

/-- The negation of **C201**: one frame on which parsing never returns ends the capture for good, whatever was to follow; it
is not written. -/
theorem capture_hang_violated :
    ∃ raw : Bytes, raw.length = 38 ∧ ∀ (p : PcapPkt) (now : Nat × Nat) rest f o, p.raw = raw →
      sydump ((.ok (some p), now) :: rest) f o = ⟨f, o, .hung⟩ := by
  obtain ⟨raw, hl, hr⟩ := parse_terminates_violated
  refine ⟨raw, hl, ?_⟩
  rintro p now rest f o rfl
  have : showRaw p.raw = .error .diverges := by simp [showRaw, hr]
  simp [sydump, this]

/-- The negation of **C201** for times: the time a packet was captured is not written, but that of writing. -/
theorem capture_times_violated (p : PcapPkt) (ts : Nat × Nat) (now : Nat × Nat) (rest) (f : List PcapRec) (o : List (Res Text)) :
    sydump ((.ok (some { p with ts := ts }), now) :: rest) f o = sydump ((.ok (some p), now) :: rest) f o := rfl

/-- **C202**, partial: whatever sniff.py receives until it is shut down, mixed with any number of `NoPackets`, it logs
device and text of every packet in order and returns, if all can be printed.  Missing: the number of packets, which is
never printed (`sniff_count_violated`), and packets that cannot be printed (`sniff_print_violated`). -/
theorem sniff_logs_partial (rs : List (Res (List Char × Packet))) (later : List (Res (List Char × Packet)))
    (h : ∀ r ∈ rs, r = .error .noPackets ∨ ∃ d p t, r = .ok (d, p) ∧ p.str = .ok t) :
    ∀ l, ∃ new, sniff (rs ++ .error .shutdown :: later) l = ⟨l ++ new, none, .done⟩ ∧
      new.map (fun x => (x.1, (.ok x.2 : Res Text))) =
        (rs.filterMap Except.toOption).map (fun x => (x.1, x.2.str)) := by
  induction rs with
  | nil => intro l; exact ⟨[], by simp [sniff], rfl⟩
  | cons r rs ih =>
    intro l
    have ih := ih (fun x hx => h x (List.mem_cons_of_mem _ hx))
    rcases h r (by simp) with rfl | ⟨d, p, t, rfl, hp⟩
    · obtain ⟨new, h1, h2⟩ := ih l
      exact ⟨new, by simpa [sniff] using h1, by rw [List.filterMap_cons_none rfl]; exact h2⟩
    · obtain ⟨new, h1, h2⟩ := ih (l ++ [(d, t)])
      exact ⟨(d, t) :: new, by simp [sniff, hp, h1], by rw [List.filterMap_cons_some (f := Except.toOption) (b := (d, p)) rfl]; simp [hp, h2]⟩

example : ∃ t, Packet.str [.hdr (.raw [104, 105])] = .ok t := ⟨_, rfl⟩

/-- The negation of **C202**: the number of packets is never printed, whatever happens. -/
theorem sniff_count_violated (rs : List (Res (List Char × Packet))) : ∀ l, (sniff rs l).printed = none := by
  induction rs with
  | nil => intro l; rfl
  | cons r rs ih =>
    intro l
    rcases r with e | ⟨d, p⟩
    · cases e <;> first | exact ih l | rfl
    · simp only [sniff]
      split
      · rfl
      · exact ih _

/-- The negation of **C202**: a packet that cannot be printed ends the program with the exception of printing it. -/
theorem sniff_print_violated (d : List Char) (p : Packet) (e : PyErr) (h : p.str = .error e) (rs) (l) :
    sniff (.ok (d, p) :: rs) l = ⟨l, none, endOf e⟩ := by
  simp [sniff, h]

/-- The negation of **C203**: on every network with an interface sendpkt.py sends nothing at all and ends with an
exception: AttributeError if the first interface has an IPv4 address, IndexError otherwise. -/
theorem sendpkt_violated (i : Iface) (is : List Iface) :
    sendpkt (i :: is) = ([], some (if ∃ x ∈ i.ips, ∃ n, x.addr = .v4 n then .attributeError else .indexError)) := by
  have key : ∀ x : IPIface, x.isV4 = true ↔ ∃ n, x.addr = .v4 n := by
    intro x
    unfold IPIface.isV4
    split <;> simp_all
  by_cases hx : ∃ x ∈ i.ips, ∃ n, x.addr = .v4 n
  · obtain ⟨x, hx1, hx2⟩ := hx
    have hm : x ∈ i.ips.filter IPIface.isV4 := List.mem_filter.mpr ⟨hx1, (key x).mpr hx2⟩
    rw [if_pos ⟨x, hx1, hx2⟩]
    unfold sendpkt probes probeSrc
    cases hf : i.ips.filter IPIface.isV4 with
    | nil => rw [hf] at hm; cases hm
    | cons y ys => rfl
  · rw [if_neg hx]
    have hf : i.ips.filter IPIface.isV4 = [] := by
      rw [List.filter_eq_nil_iff]
      intro x hx1 hx2
      exact hx ⟨x, hx1, (key x).mp hx2⟩
    simp [sendpkt, probes, probeSrc, hf]

/-- **C203**, partial, for the program with `.ip` in place of `.src.ip`: if all interfaces have an IPv4 address, exactly one packet
is sent on each, in order, with the Ethernet address of the interface and one of its IPv4 addresses.  Missing: the
program as it is (`sendpkt_violated`). -/
theorem sendpkt_repaired_partial (ifs : List Iface) (h : ∀ i ∈ ifs, ∃ x ∈ i.ips, ∃ n, x.addr = .v4 n) :
    ∃ ps, probes (fun x => .ok x.addr) ifs = (ps, none) ∧
      ps.map (fun p => (p.port, p.ethsrc)) = ifs.map (fun i => (i.name, i.ethaddr)) ∧
      Each (fun i p => (∃ n, p.ipsrc = .v4 n) ∧ ∃ x ∈ i.ips, x.addr = p.ipsrc) ifs ps := by
  induction ifs with
  | nil => exact ⟨[], rfl, rfl, trivial⟩
  | cons i is ih =>
    obtain ⟨ps, h1, h2, h3⟩ := ih (fun j hj => h j (List.mem_cons_of_mem _ hj))
    obtain ⟨x, hx1, n, hx2⟩ := h i (by simp)
    have hm : x ∈ i.ips.filter IPIface.isV4 := List.mem_filter.mpr ⟨hx1, by simp [IPIface.isV4, hx2]⟩
    cases hf : i.ips.filter IPIface.isV4 with
    | nil => rw [hf] at hm; cases hm
    | cons y ys =>
      have hy : y ∈ i.ips.filter IPIface.isV4 := by rw [hf]; simp
      obtain ⟨hy1, hy2⟩ := List.mem_filter.mp hy
      refine ⟨⟨i.name, i.ethaddr, y.addr⟩ :: ps, by simp [probes, probeSrc, hf, h1], by simp [h2], ⟨⟨?_, y, hy1, rfl⟩, h3⟩⟩
      unfold IPIface.isV4 at hy2
      split at hy2
      · exact ⟨_, by assumption⟩
      · cases hy2

example : ∃ i : Iface, ∃ x ∈ i.ips, ∃ n, x.addr = .v4 n :=
  ⟨⟨"eth0".toList, ⟨[2, 0, 0, 0, 0, 1]⟩, [⟨.v4 0x0a000001, 24⟩], 0, .wired⟩, _, List.mem_singleton.mpr rfl, _, rfl⟩

end SY.Props
