import Verif.Common
import Verif.Scan

/-! # IPv4 options (`/repo/switchyard/lib/packet/ipv4.py` 25-372) -/

namespace SY

/-- IP option objects, by class: `IPOptionNoOperation`/`IPOptionEndOfOptionList` (25-58),
`IPOptionXRouting` and its three subclasses (61-153), `IPOptionTimestamp` (158-225),
`IPOption4Bytes` and its three subclasses (228-269).  Integers that Python leaves unchecked
until `struct.pack` are kept as naturals; only `flag` has an unchecked integer setter (179-180)
and is an `Int`. -/
inductive IPOpt
  | single (optnum : Nat)
  | routing (optnum : Nat) (ptr : Nat) (addrs : List (BitVec 32))
  | timestamp (ptr : Nat) (flag : Int) (entries : List (Option (BitVec 32) × Nat))
  | fourB (optnum : Nat) (value : Nat) (copyflag : Nat)
  deriving DecidableEq, Repr

/-- `length()` : 35-36, 71-72, 169-172, 239-240. -/
def IPOpt.length : IPOpt → Nat
  | .single _ => 1
  | .routing _ _ addrs => 3 + addrs.length * 4
  | .timestamp _ flag entries => 4 + entries.length * (if flag = 0 then 4 else 8)
  | .fourB .. => 4

/-- Body of the loop at 185-188: one timestamp entry. -/
def tsEntryBytes (flag : Int) (e : Option (BitVec 32) × Nat) : Res Bytes :=
  if flag > 0 then
    match e.1 with
    | some a => pack [.u 4] [.i e.2] >>= fun t => .ok (beEnc 4 a.toNat ++ t)
    | none => .error .attributeError
  else pack [.u 4] [.i e.2]

/-- The loop at 185-188. -/
def tsEntriesBytes (flag : Int) : List (Option (BitVec 32) × Nat) → Res Bytes
  | [] => .ok []
  | e :: es => tsEntryBytes flag e >>= fun b => tsEntriesBytes flag es >>= fun r => .ok (b ++ r)

/-- Concatenated packed addresses, 79-80. -/
def addrsBytes : List (BitVec 32) → Bytes
  | [] => []
  | a :: as => beEnc 4 a.toNat ++ addrsBytes as

/-- `to_bytes` : 38-39, 77-81, 182-189, 247-249.  `0x40 | 4` and `copyflag | optnum` are
bitwise. -/
def IPOpt.toBytes (o : IPOpt) : Res Bytes :=
  match o with
  | .single n => pack [.u 1] [.i n]
  | .routing n ptr addrs =>
    pack [.u 1, .u 1, .u 1] [.i n, .i o.length, .i ptr] >>= fun h => .ok (h ++ addrsBytes addrs)
  | .timestamp ptr flag entries =>
    pack [.u 1, .u 1, .u 1, .u 1] [.i (0x40 ||| 4 : Nat), .i o.length, .i ptr, .i flag] >>= fun h =>
    tsEntriesBytes flag entries >>= fun r => .ok (h ++ r)
  | .fourB n v c => pack [.u 1, .u 1, .u 2] [.i (c ||| n : Nat), .i o.length, .i v]

/-- `IPv4Address(raw[(3+i*4):(7+i*4)])` for `i` in `range(n)`, 89-90; a short slice raises. -/
def readAddrs : Nat → Bytes → Res (List (BitVec 32))
  | 0, _ => .ok []
  | n+1, raw => ipv4OfBytes (raw.take 4) >>= fun a => readAddrs n (raw.drop 4) >>= fun as => .ok (a :: as)

/-- `struct.iter_unpack('!II', raw)` / `('!I', raw)` loop, 204-209; a length that is not a
multiple of the item size raises before the first item. -/
def readEntries (haveip : Bool) : Nat → Bytes → List (Option (BitVec 32) × Nat)
  | 0, _ => []
  | n+1, raw =>
    if haveip then
      (some (BitVec.ofNat 32 (beDec (raw.take 4))), beDec ((raw.drop 4).take 4)) ::
        readEntries haveip n (raw.drop 8)
    else (none, beDec (raw.take 4)) :: readEntries haveip n (raw.drop 4)

/-- The end of `IPOptionTimestamp.from_bytes`, 199-210: `sz` is the size of one entry. -/
def tsOf (ptr flag xlen : Nat) (body : Bytes) (sz : Nat) : Res (IPOpt × Nat) :=
  if body.length % sz ≠ 0 then .error .structError
  else .ok (.timestamp ptr flag (readEntries (decide (flag ≠ 0)) (body.length / sz) body), xlen)

/-- One iteration of the body of `IPOptionList.from_bytes`, 298-306: the option parsed from a
non-empty `rawbytes[i:]` and the number of bytes eaten.  The `from_bytes` methods are at
41-42, 83-92 (with the pointer setter 98-103), 191-210, 242-245. -/
def optStep (raw : Bytes) : Res (IPOpt × Nat) :=
  match raw with
  | [] => .error .indexError
  | t :: _ =>
    enumOf ipOptionNumbers ((t.toNat &&& 0x1f : Nat) : Int) >>= fun n =>
    if n = 0 ∨ n = 1 then .ok (.single n, 1)
    else if n = 3 ∨ n = 7 ∨ n = 9 then
      byteAt raw 1 >>= fun len =>
      byteAt raw 2 >>= fun ptr =>
      readAddrs ((len.toNat - 3) / 4) (raw.drop 3) >>= fun addrs =>
      if 0 ≤ (ptr.toNat / 4 : Nat) - (1 : Int) ∧ (ptr.toNat / 4 : Nat) - (1 : Int) < addrs.length then
        .ok (.routing n ptr.toNat addrs, len.toNat)
      else .error .valueError
    else if n = 4 then
      unpack [.u 1, .u 1, .u 1, .u 1] (raw.take 4) >>= fun fields =>
      match fields with
      | [.i _, .i xlen, .i ptr, .i fl] =>
        if xlen.toNat > raw.length then .error .notEnoughData
        else tsOf ptr.toNat (fl.toNat &&& 0x0f) xlen.toNat ((raw.take xlen.toNat).drop 4)
              (if fl.toNat &&& 0x0f ≠ 0 then 8 else 4)
      | _ => .error .structError
    else
      unpack [.u 1, .u 1, .u 2] (raw.take 4) >>= fun fields =>
      match fields with
      | [.i _, .i _, .i v] => .ok (.fourB n v.toNat (if n = 20 then 0x80 else 0), 4)
      | _ => .error .structError

/-- `IPOptionList.from_bytes`, 289-307.  The literal loop is `scanLoop optStep`. -/
def parseOpts (raw : Bytes) : Res (List IPOpt) := scan optStep raw

/-- Concatenation of the options' bytes, 314-318. -/
def optsConcat : List IPOpt → Res Bytes
  | [] => .ok []
  | o :: os => o.toBytes >>= fun b => optsConcat os >>= fun r => .ok (b ++ r)

/-- `IPOptionList.to_bytes`, 309-321: `padbytes = 4 - (len(raw) % 4)`. -/
def optsToBytes (os : List IPOpt) : Res Bytes :=
  match os with
  | [] => .ok []
  | _ => optsConcat os >>= fun raw => .ok (raw ++ zeros (4 - raw.length % 4))

/-- Python index normalisation used at 332-355; `none` is `IndexError`. -/
def pyIndex (len : Nat) (i : Int) : Option Nat :=
  let j := if i < 0 then (len : Int) + i else i
  if 0 ≤ j ∧ j < len then some j.toNat else none

/-! ## Facts used by the property files -/

/-- Options that can be serialised and read back: the value ranges enforced by the wire format
and by the classes' own constructors. -/
def IPOpt.WF : IPOpt → Prop
  | .single n => n = 0 ∨ n = 1
  | .routing n ptr addrs => (n = 3 ∨ n = 7 ∨ n = 9) ∧ 3 + addrs.length * 4 ≤ 255 ∧ ptr < 256 ∧
      1 ≤ ptr / 4 ∧ ptr / 4 ≤ addrs.length
  | .timestamp ptr flag entries =>
      ptr < 256 ∧ 0 ≤ flag ∧ flag < 16 ∧ 4 + entries.length * (if flag = 0 then 4 else 8) ≤ 255 ∧
      ∀ e ∈ entries, (e.1.isSome ↔ flag ≠ 0) ∧ e.2 < 2 ^ 32
  | .fourB n v c => (n = 11 ∨ n = 12 ∨ n = 20) ∧ v < 65536 ∧ c = (if n = 20 then 0x80 else 0)

theorem pack_u {w : Nat} {n : Nat} (h : n < 256 ^ w) : pack [.u w] [.i n] = .ok (beEnc w n) := by
  simp only [pack]
  rw [if_pos ⟨by omega, by exact_mod_cast h⟩]
  simp

theorem length_addrsBytes (as : List (BitVec 32)) : (addrsBytes as).length = as.length * 4 := by
  induction as with
  | nil => rfl
  | cons a as ih => simp [addrsBytes, ih]; omega

theorem readAddrs_addrsBytes (as : List (BitVec 32)) (rest : Bytes) :
    readAddrs as.length (addrsBytes as ++ rest) = .ok as := by
  induction as with
  | nil => rfl
  | cons a as ih =>
    simp only [List.length_cons, readAddrs, addrsBytes, List.append_assoc]
    have h1 : (beEnc 4 a.toNat ++ (addrsBytes as ++ rest)).take 4 = beEnc 4 a.toNat := by simp
    have h2 : (beEnc 4 a.toNat ++ (addrsBytes as ++ rest)).drop 4 = addrsBytes as ++ rest := by simp
    rw [h1, h2, ih]; simp

theorem tsEntries_ok {flag : Int} {es : List (Option (BitVec 32) × Nat)}
    (h0 : 0 ≤ flag) (h : ∀ e ∈ es, (e.1.isSome ↔ flag ≠ 0) ∧ e.2 < 2 ^ 32) :
    ∃ b, tsEntriesBytes flag es = .ok b ∧ b.length = es.length * (if flag = 0 then 4 else 8) ∧
      readEntries (decide (flag ≠ 0)) es.length b = es := by
  induction es with
  | nil => exact ⟨[], rfl, by simp, rfl⟩
  | cons e es ih =>
    obtain ⟨b, hb, hl, hr⟩ := ih (fun e he => h e (by simp [he]))
    obtain ⟨h1, h2⟩ := h e (by simp)
    have hp : pack [.u 4] [.i e.2] = .ok (beEnc 4 e.2) := pack_u (by simpa using h2)
    have hd := beDec_beEnc (w := 4) (n := e.2) (by simpa using h2)
    obtain ⟨a, t⟩ := e
    simp only at h1 h2 hp hd
    by_cases hf : flag = 0
    · subst hf
      have : a = none := by
        cases a with
        | none => rfl
        | some a => simp at h1
      subst this
      refine ⟨beEnc 4 t ++ b, ?_, ?_, ?_⟩
      · simp [tsEntriesBytes, tsEntryBytes, hp, hb]
      · simp [hl]; omega
      · simp only [List.length_cons, readEntries]
        have h3 : (beEnc 4 t ++ b).take 4 = beEnc 4 t := by simp
        have h4 : (beEnc 4 t ++ b).drop 4 = b := by simp
        simp only [ne_eq, not_true_eq_false, decide_false, Bool.false_eq_true, if_false]
        rw [h3, h4, hd]
        simpa using hr
    · obtain ⟨a', rfl⟩ : ∃ a', a = some a' := Option.isSome_iff_exists.mp (h1.mpr hf)
      refine ⟨beEnc 4 a'.toNat ++ (beEnc 4 t ++ b), ?_, ?_, ?_⟩
      · simp only [tsEntriesBytes, tsEntryBytes, hp, hb, bind_ok]
        rw [if_pos (by omega)]
        simp
      · simp [hl, hf]; omega
      · simp only [List.length_cons, readEntries]
        have h3 : (beEnc 4 a'.toNat ++ (beEnc 4 t ++ b)).take 4 = beEnc 4 a'.toNat := by simp
        have h4 : (beEnc 4 a'.toNat ++ (beEnc 4 t ++ b)).drop 4 = beEnc 4 t ++ b := by simp
        have h5 : (beEnc 4 a'.toNat ++ (beEnc 4 t ++ b)).drop 8 = b := by
          rw [show (8 : Nat) = 4 + 4 from rfl, ← List.drop_drop, h4]; simp
        have h6 : (beEnc 4 t ++ b).take 4 = beEnc 4 t := by simp
        simp only [ne_eq, hf, not_false_eq_true, decide_true, if_true]
        rw [h3, h4, h5, h6, hd, beDec_beEnc (bv32_lt a'), BitVec.ofNat_toNat]
        simp only [ne_eq, hf, not_false_eq_true, decide_true] at hr
        simp [hr]

theorem IPOpt.toBytes_ok {o : IPOpt} (w : o.WF) :
    ∃ b, o.toBytes = .ok b ∧ b.length = o.length ∧ 1 ≤ b.length ∧
      ∀ rest, optStep (b ++ rest) = .ok (o, b.length) := by
  cases o with
  | single n =>
    refine ⟨beEnc 1 n, ?_, by simp [IPOpt.length], by simp, ?_⟩
    · exact pack_u (by rcases w with rfl | rfl <;> decide)
    · intro rest
      rcases w with rfl | rfl <;> rfl
  | routing n ptr addrs =>
    obtain ⟨w1, w2, w3, w4, w5⟩ := w
    refine ⟨beEnc 1 n ++ (beEnc 1 (3 + addrs.length * 4) ++ (beEnc 1 ptr ++ addrsBytes addrs)), ?_,
      ?_, ?_, ?_⟩
    · rw [IPOpt.toBytes.eq_def]
      simp only [IPOpt.length]
      rw [pack_cons_u (by rcases w1 with rfl | rfl | rfl <;> decide), pack_cons_u (by omega),
        pack_cons_u (by omega)]
      simp only [pack_nil, map_ok, bind_ok, Int.toNat_natCast, List.append_nil, List.append_assoc]
    · simp [IPOpt.length, length_addrsBytes]; omega
    · simp
    · intro rest
      have hb2 : (UInt8.ofNat (3 + addrs.length * 4)).toNat = 3 + addrs.length * 4 := by
        simp; omega
      have hb3 : (UInt8.ofNat ptr).toNat = ptr := by simp; omega
      have hn : ∃ t : UInt8, beEnc 1 n = [t] ∧
          enumOf ipOptionNumbers ((t.toNat &&& 0x1f : Nat) : Int) = .ok n := by
        rcases w1 with rfl | rfl | rfl
        · exact ⟨3, by decide, by decide⟩
        · exact ⟨7, by decide, by decide⟩
        · exact ⟨9, by decide, by decide⟩
      obtain ⟨t, ht, hen⟩ := hn
      rw [ht]
      have e1 : ∀ x : Nat, beEnc 1 x = [UInt8.ofNat x] := by intro x; simp [beEnc]
      simp only [e1, List.cons_append, List.nil_append, optStep, hen, bind_ok, byteAt,
        List.getElem?_cons_zero, List.getElem?_cons_succ, List.drop_succ_cons, List.drop_zero,
        hb2, hb3, List.append_assoc]
      rw [if_neg (by rcases w1 with rfl | rfl | rfl <;> decide), if_pos w1]
      have h4 : (3 + addrs.length * 4 - 3) / 4 = addrs.length := by omega
      rw [h4, readAddrs_addrsBytes]
      simp only [bind_ok]
      rw [if_pos (by omega)]
      simp [length_addrsBytes]; omega
  | timestamp ptr flag entries =>
    obtain ⟨w1, w2, w3, w4, w5⟩ := w
    obtain ⟨eb, h1, h2, h3⟩ := tsEntries_ok w2 w5
    obtain ⟨f, rfl⟩ := Int.eq_ofNat_of_zero_le w2
    generalize hsz : (if (f : Int) = 0 then 4 else 8) = sz at *
    have hszv : sz = 4 ∨ sz = 8 := by split at hsz <;> omega
    refine ⟨beEnc 1 68 ++ (beEnc 1 (4 + entries.length * sz) ++ (beEnc 1 ptr ++ (beEnc 1 f ++ eb))),
      ?_, ?_, ?_, ?_⟩
    · rw [IPOpt.toBytes.eq_def]
      simp only [IPOpt.length, h1, hsz]
      rw [pack_cons_u (by decide), pack_cons_u (by omega), pack_cons_u (by omega),
        pack_cons_u (by omega)]
      simp only [pack_nil, map_ok, bind_ok, Int.toNat_natCast, List.append_nil, List.append_assoc,
        Int.toNat_natCast]
      rfl
    · simp only [IPOpt.length, hsz, List.length_append, length_beEnc, h2]; omega
    · simp
    · intro rest
      have e1 : ∀ x : Nat, beEnc 1 x = [UInt8.ofNat x] := by intro x; simp [beEnc]
      have hb2 : (UInt8.ofNat (4 + entries.length * sz)).toNat = 4 + entries.length * sz := by
        simp; omega
      have hb3 : (UInt8.ofNat ptr).toNat = ptr := by simp; omega
      have hb4 : (UInt8.ofNat f).toNat = f := by simp; omega
      have hlen : (beEnc 1 68 ++ (beEnc 1 (4 + entries.length * sz) ++ (beEnc 1 ptr ++ (beEnc 1 f ++ eb)))
          ).length = 4 + entries.length * sz := by simp [h2]; omega
      have hen : enumOf ipOptionNumbers (((UInt8.ofNat 68).toNat &&& 0x1f : Nat) : Int) = .ok 4 := by
        decide
      rw [hlen]
      simp only [e1, List.cons_append, List.nil_append, optStep, hen, bind_ok]
      rw [if_neg (by decide), if_neg (by decide), if_pos (by decide)]
      simp only [List.take_succ_cons, List.take_zero, unpack, List.length_cons, List.length_nil,
        calcsize, Fld.size, unpackGo, if_pos, bind_ok, List.drop_succ_cons, List.drop_zero,
        beDec, Int.toNat_natCast, hb2, hb3, hb4, Nat.pow_zero, Nat.mul_one, Nat.add_zero,
        Nat.zero_add]
      have hand : f &&& 15 = f := by
        rw [Nat.and_two_pow_sub_one_eq_mod f 4]; omega
      rw [if_neg (by simp [h2]; omega)]
      have htake : List.drop 4 (List.take (4 + entries.length * sz)
          (UInt8.ofNat 68 :: UInt8.ofNat (4 + entries.length * sz) :: UInt8.ofNat ptr :: UInt8.ofNat f ::
            (eb ++ rest))) = eb := by
        rw [List.drop_take]
        simp [h2]
      rw [htake]
      have hsz' : (if f &&& 15 ≠ 0 then 8 else 4) = sz := by
        rw [hand]; split at hsz <;> split <;> omega
      have hdec : decide (f &&& 15 ≠ 0) = decide ((f : Int) ≠ 0) := by
        rw [hand]; congr 1; rw [eq_iff_iff]; omega
      rw [hsz']
      simp only [tsOf, h2, Nat.mul_mod_left, ne_eq, not_true_eq_false, if_false]
      have hdiv : entries.length * sz / sz = entries.length :=
        Nat.mul_div_cancel _ (by omega)
      rw [hdiv]
      simp only [ne_eq] at hdec h3
      rw [hdec, h3, hand]
  | fourB n v c =>
    obtain ⟨w1, w2, w3⟩ := w
    obtain ⟨t, ht1, ht2, ht3, ht4⟩ : ∃ t : Nat, c ||| n = t ∧ t < 256 ∧
        enumOf ipOptionNumbers (((UInt8.ofNat t).toNat &&& 0x1f : Nat) : Int) = .ok n ∧
        (n ≠ 0 ∧ n ≠ 1 ∧ n ≠ 3 ∧ n ≠ 7 ∧ n ≠ 9 ∧ n ≠ 4) := by
      subst w3
      rcases w1 with rfl | rfl | rfl <;> exact ⟨_, rfl, by decide, by decide, by decide⟩
    refine ⟨beEnc 1 t ++ (beEnc 1 4 ++ beEnc 2 v), ?_, by simp [IPOpt.length], by simp, ?_⟩
    · rw [IPOpt.toBytes.eq_def]
      simp only [IPOpt.length, ht1]
      rw [pack_cons_u (by omega), pack_cons_u (by decide), pack_cons_u (by omega)]
      simp only [pack_nil, map_ok, Int.toNat_natCast, List.append_nil]
    · intro rest
      have e1 : ∀ x : Nat, beEnc 1 x = [UInt8.ofNat x] := by intro x; simp [beEnc]
      simp only [e1, List.cons_append, List.nil_append, optStep, ht3, bind_ok]
      rw [if_neg (by omega), if_neg (by omega), if_neg (by omega)]
      have htk : (UInt8.ofNat t :: UInt8.ofNat 4 :: (beEnc 2 v ++ rest)).take 4 =
          UInt8.ofNat t :: UInt8.ofNat 4 :: beEnc 2 v := by simp
      rw [htk]
      simp only [unpack, List.length_cons, length_beEnc, calcsize, Fld.size, if_pos, unpackGo,
        bind_ok, List.drop_succ_cons, List.drop_zero, List.take_succ_cons, List.take_zero]
      have h2 : (beEnc 2 v).take 2 = beEnc 2 v := by
        apply List.take_of_length_le; simp
      rw [h2, beDec_beEnc (by simpa using w2), w3]
      simp

end SY
