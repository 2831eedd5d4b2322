import Verif.Packet
import Verif.Props.Icmpv6
import Verif.Props.IPv4
import Verif.Props.IPv6
import Verif.Props.Tcp
import Verif.Props.Rip

/-! # Properties C38–C40, C89: serialising packets -/

namespace SY.Props

/-! ## What `pre_serialize` looks up in the packet -/

/-- The fields of the first IPv4 header that transport checksums depend on. -/
def key4 (ip : IPv4) : IPAddr × IPAddr × Nat := (ip.src, ip.dst, ip.protocol)
/-- The fields of the first IPv6 header that the ICMPv6 checksum depends on. -/
def key6 (ip : IPv6) : BitVec 128 × BitVec 128 := (ip.src, ip.dst)

/-- Two packets in which finalising a header gives the same result. -/
def SameCtx (p q : Packet) : Prop :=
  p.ip4?.map key4 = q.ip4?.map key4 ∧ p.ip6?.map key6 = q.ip6?.map key6

theorem SameCtx.refl (p : Packet) : SameCtx p p := ⟨rfl, rfl⟩
theorem SameCtx.symm {p q : Packet} (h : SameCtx p q) : SameCtx q p := ⟨h.1.symm, h.2.symm⟩
theorem SameCtx.trans {p q r : Packet} (h : SameCtx p q) (g : SameCtx q r) : SameCtx p r :=
  ⟨h.1.trans g.1, h.2.trans g.2⟩

theorem udp_pre_key (h : UDP) (t : Bytes) {a b : Option IPv4} (e : a.map key4 = b.map key4) :
    h.preSerialize t a = h.preSerialize t b := by
  cases a <;> cases b <;> simp [key4] at e
  · rfl
  · obtain ⟨e1, e2, e3⟩ := e
    simp [UDP.preSerialize, UDP.computeChecksum, e1, e2, e3]

theorem tcp_pre_key (h : TCP) (t : Bytes) {a b : Option IPv4} (e : a.map key4 = b.map key4) :
    h.preSerialize t a = h.preSerialize t b := by
  cases a <;> cases b <;> simp [key4] at e
  · rfl
  · obtain ⟨e1, e2, e3⟩ := e
    simp [TCP.preSerialize, TCP.computeChecksum, e1, e2, e3]

theorem icmp6_pre_key (h : ICMPMsg ICMPv6Data) {a b : Option IPv6} (e : a.map key6 = b.map key6) :
    icmp6PreSerialize h a = icmp6PreSerialize h b := by
  cases a <;> cases b <;> simp [key6] at e
  · rfl
  · obtain ⟨e1, e2⟩ := e
    simp [icmp6PreSerialize, icmp6Checksum, e1, e2]

theorem Item.pre_ctx (it : Item) (t : Bytes) {p q : Packet} (h : SameCtx p q) : it.pre t p = it.pre t q := by
  cases it with
  | hdr x =>
    cases x with
    | udp u => simp only [Item.pre, Hdr.pre, udp_pre_key u t h.1]
    | tcp u => simp only [Item.pre, Hdr.pre, tcp_pre_key u t h.1]
    | icmp6 u => simp only [Item.pre, Hdr.pre, icmp6_pre_key u h.2]
    | _ => rfl
  | _ => rfl

/-- Finalising changes neither the class nor the fields looked up by other headers. -/
theorem Hdr.pre_keys {h h' : Hdr} {t : Bytes} {p : Packet} (e : h.pre t p = .ok h') :
    h'.cls = h.cls ∧ (∀ a, h = .ip4 a → ∃ b, h' = .ip4 b ∧ key4 b = key4 a) ∧
      (∀ a, h = .ip6 a → ∃ b, h' = .ip6 b ∧ key6 b = key6 a) := by
  cases h with
  | ip4 a =>
    simp only [Hdr.pre] at e
    obtain ⟨b, hb, rfl⟩ := map_eq_ok.mp e
    refine ⟨rfl, fun a' ha => ⟨b, rfl, ?_⟩, fun a' ha => by cases ha⟩
    cases ha
    unfold IPv4.preSerialize at hb
    obtain ⟨n, _, hb⟩ := bind_eq_ok.mp hb
    cases hb; rfl
  | ip6 a =>
    cases e
    exact ⟨rfl, fun a' ha => (by cases ha), fun a' ha => by cases ha; exact ⟨_, rfl, rfl⟩⟩
  | udp a =>
    simp only [Hdr.pre] at e
    obtain ⟨b, _, rfl⟩ := map_eq_ok.mp e
    exact ⟨rfl, fun a' ha => (by cases ha), fun a' ha => by cases ha⟩
  | tcp a =>
    simp only [Hdr.pre] at e
    obtain ⟨b, _, rfl⟩ := map_eq_ok.mp e
    exact ⟨rfl, fun a' ha => (by cases ha), fun a' ha => by cases ha⟩
  | icmp6 a =>
    simp only [Hdr.pre] at e
    obtain ⟨b, _, rfl⟩ := map_eq_ok.mp e
    exact ⟨rfl, fun a' ha => (by cases ha), fun a' ha => by cases ha⟩
  | _ =>
    cases e
    exact ⟨rfl, fun a' ha => (by cases ha), fun a' ha => by cases ha⟩

theorem ip4?_append (l s : Packet) :
    Packet.ip4? (l ++ s) = (Packet.ip4? l).or (Packet.ip4? s) := by
  unfold Packet.ip4? Packet.byName
  rw [List.find?_append]
  cases h : l.find? _ with
  | none => rfl
  | some it =>
    have := List.find?_some h
    match it, this with
    | .hdr (.ip4 _), _ => rfl

theorem ip6?_append (l s : Packet) :
    Packet.ip6? (l ++ s) = (Packet.ip6? l).or (Packet.ip6? s) := by
  unfold Packet.ip6? Packet.byName
  rw [List.find?_append]
  cases h : l.find? _ with
  | none => rfl
  | some it =>
    have := List.find?_some h
    match it, this with
    | .hdr (.ip6 _), _ => rfl

/-- Replacing an element by its finalised version does not change the context. -/
theorem sameCtx_set {x x' : Item} {t : Bytes} {p : Packet} (e : x.pre t p = .ok x') (l s : Packet) :
    SameCtx (l ++ x :: s) (l ++ x' :: s) := by
  cases x with
  | hdr h =>
    simp only [Item.pre] at e
    obtain ⟨h', he, rfl⟩ := map_eq_ok.mp e
    obtain ⟨hc, h4, h6⟩ := Hdr.pre_keys he
    have c4 : ∀ s : Packet, (Packet.ip4? (.hdr h :: s)).map key4 = (Packet.ip4? (.hdr h' :: s)).map key4 := by
      intro s
      by_cases h1 : h.cls = .ip4
      · cases h <;> simp only [Hdr.cls, reduceCtorEq] at h1
        rename_i a
        obtain ⟨b, rfl, hk⟩ := h4 a rfl
        simp [Packet.ip4?, Packet.byName, List.find?, Hdr.cls, hk]
      · have e1 : (h.cls == Cls.ip4) = false := by simpa using h1
        simp [Packet.ip4?, Packet.byName, List.find?, hc, e1]
    have c6 : ∀ s : Packet, (Packet.ip6? (.hdr h :: s)).map key6 = (Packet.ip6? (.hdr h' :: s)).map key6 := by
      intro s
      by_cases h1 : h.cls = .ip6
      · cases h <;> simp only [Hdr.cls, reduceCtorEq] at h1
        rename_i a
        obtain ⟨b, rfl, hk⟩ := h6 a rfl
        simp [Packet.ip6?, Packet.byName, List.find?, Hdr.cls, hk]
      · have e1 : (h.cls == Cls.ip6) = false := by simpa using h1
        simp [Packet.ip6?, Packet.byName, List.find?, hc, e1]
    constructor
    · rw [ip4?_append, ip4?_append, Option.map_or, Option.map_or, c4]
    · rw [ip6?_append, ip6?_append, Option.map_or, Option.map_or, c6]
  | _ => cases e

/-! ## C39: serialisation is compositional -/

/-- Finalise and serialise a list of headers inside the packet `ctx`, in front of the bytes `tail`:
each header is finalised against the bytes of everything after it. -/
def finish (ctx : Packet) (tail : Bytes) : Packet → Res (Packet × List Bytes)
  | [] => .ok ([], [])
  | it :: rest =>
    finish ctx tail rest >>= fun r =>
    it.pre (r.2.flatten ++ tail) ctx >>= fun it' =>
    it'.toBytes >>= fun b =>
    .ok (it' :: r.1, b :: r.2)

theorem finish_snoc (ctx : Packet) (tail : Bytes) (l : Packet) (x : Item) :
    finish ctx tail (l ++ [x]) = (x.pre tail ctx >>= fun x' => x'.toBytes >>= fun b =>
      finish ctx (b ++ tail) l >>= fun r => .ok (r.1 ++ [x'], r.2 ++ [b])) := by
  induction l with
  | nil =>
    simp only [List.nil_append, finish, bind_ok, List.flatten_nil]
  | cons y l ih =>
    simp only [List.cons_append, finish, ih]
    cases x.pre tail ctx with
    | error e => rfl
    | ok x' =>
      simp only [bind_ok]
      cases x'.toBytes with
      | error e => rfl
      | ok b =>
        simp only [bind_ok]
        cases finish ctx (b ++ tail) l with
        | error e => rfl
        | ok r =>
          simp only [bind_ok, List.flatten_append, List.flatten_cons, List.flatten_nil, List.append_nil,
            List.append_assoc]
          cases y.pre (r.2.flatten ++ (b ++ tail)) ctx with
          | error e => rfl
          | ok y' =>
            simp only [bind_ok]
            cases y'.toBytes <;> simp

theorem finish_ctx {p q : Packet} (h : SameCtx p q) (tail : Bytes) (l : Packet) :
    finish p tail l = finish q tail l := by
  induction l with
  | nil => rfl
  | cons x l ih =>
    simp only [finish, ih]
    cases finish q tail l with
    | error e => rfl
    | ok r => simp only [bind_ok, Item.pre_ctx x _ h]

theorem listIndex_mid {α : Type} (l s : List α) (x : α) : listIndex (l ++ x :: s) (l.length : Int) = .ok x := by
  unfold listIndex
  rw [if_neg (by omega), Int.toNat_natCast]
  simp

theorem serLoop_spec (n : Nat) (l s : Packet) (hl : l.length = n) (rl : List Bytes) :
    (∀ l' bs, finish (l ++ s) rl.flatten l = .ok (l', bs) →
      Packet.serLoop n (l ++ s) rl = (l' ++ s, .ok (bs ++ rl))) ∧
    (∀ e, finish (l ++ s) rl.flatten l = .error e → (Packet.serLoop n (l ++ s) rl).2 = .error e) := by
  induction n generalizing l s rl with
  | zero =>
    have : l = [] := List.length_eq_zero_iff.mp hl
    subst this
    exact ⟨fun l' bs h => (by cases h; rfl), fun e h => by cases h⟩
  | succ n ih =>
    obtain ⟨l0, x, rfl⟩ : ∃ l0 x, l = l0 ++ [x] :=
      ⟨l.dropLast, l.getLast (by intro e; simp [e] at hl),
        (List.dropLast_concat_getLast (by intro e; simp [e] at hl)).symm⟩
    have hn : l0.length = n := by simpa using hl
    rw [finish_snoc]
    simp only [Packet.serLoop, List.append_assoc, List.singleton_append]
    have hi : listIndex (l0 ++ x :: s) (n : Int) = .ok x := by rw [← hn]; exact listIndex_mid l0 s x
    rw [hi]
    simp only
    cases hx : x.pre rl.flatten (l0 ++ x :: s) with
    | error e => exact ⟨fun l' bs h => (by cases h), fun e' h => by simpa using h⟩
    | ok x' =>
      have hset : (l0 ++ x :: s).set n x' = l0 ++ x' :: s := by
        rw [← hn]; simp
      simp only [bind_ok, hset]
      cases hb : x'.toBytes with
      | error e => exact ⟨fun l' bs h => (by cases h), fun e' h => by simpa using h⟩
      | ok b =>
        simp only [bind_ok]
        have hctx := sameCtx_set hx l0 s
        obtain ⟨i1, i2⟩ := ih l0 (x' :: s) hn (b :: rl)
        rw [List.flatten_cons, ← finish_ctx hctx] at i1 i2
        cases hf : finish (l0 ++ x :: s) (b ++ rl.flatten) l0 with
        | error e =>
          refine ⟨fun l' bs h => (by cases h), fun e' h => ?_⟩
          cases h
          exact i2 _ hf
        | ok r =>
          refine ⟨fun l' bs h => ?_, fun e' h => by cases h⟩
          cases h
          rw [i1 r.1 r.2 hf]
          simp

/-- The loop of `to_bytes` computes the right fold `finish`. -/
theorem toBytes_eq_finish (p : Packet) :
    (p.toBytes).2 = (fun r => r.2.flatten) <$> finish p [] p ∧
      ∀ p' bs, finish p [] p = .ok (p', bs) → (p.toBytes).1 = p' := by
  obtain ⟨h1, h2⟩ := serLoop_spec p.length p [] rfl []
  simp only [List.append_nil, List.flatten_nil] at h1 h2
  constructor
  · unfold Packet.toBytes
    cases hf : finish p [] p with
    | error e => simp [h2 e hf]
    | ok r => simp [h1 r.1 r.2 hf]
  · intro p' bs hf
    unfold Packet.toBytes
    rw [h1 p' bs hf]

theorem toBytes_inv {p p' : Packet} {b : Bytes} (h : p.toBytes = (p', .ok b)) :
    ∃ bs, finish p [] p = .ok (p', bs) ∧ b = bs.flatten := by
  obtain ⟨h1, h2⟩ := toBytes_eq_finish p
  rw [h] at h1 h2
  cases hf : finish p [] p with
  | error e => rw [hf] at h1; cases h1
  | ok r =>
    rw [hf] at h1
    cases h1
    exact ⟨r.2, by rw [show p' = r.1 from h2 r.1 r.2 hf], rfl⟩

theorem toBytes_of_finish {p p' : Packet} {bs : List Bytes} (h : finish p [] p = .ok (p', bs)) :
    p.toBytes = (p', .ok bs.flatten) := by
  obtain ⟨h1, h2⟩ := toBytes_eq_finish p
  rw [h] at h1
  exact Prod.ext (h2 p' bs h) h1

theorem finish_pointwise {ctx : Packet} {tail : Bytes} {p p' : Packet} {bs : List Bytes}
    (h : finish ctx tail p = .ok (p', bs)) :
    p'.length = p.length ∧ bs.length = p.length ∧
      ∀ (i : Nat) (it : Item), p[i]? = some it → ∃ it' c, it.pre ((bs.drop (i + 1)).flatten ++ tail) ctx = .ok it' ∧
        it'.toBytes = .ok c ∧ p'[i]? = some it' ∧ bs[i]? = some c := by
  induction p generalizing p' bs with
  | nil => cases h; exact ⟨rfl, rfl, fun i it hi => by simp at hi⟩
  | cons x p ih =>
    simp only [finish] at h
    obtain ⟨r, hr, h⟩ := bind_eq_ok.mp h
    obtain ⟨x', hx, h⟩ := bind_eq_ok.mp h
    obtain ⟨b, hb, h⟩ := bind_eq_ok.mp h
    cases h
    obtain ⟨g1, g2, g3⟩ := ih hr
    refine ⟨by simp [g1], by simp [g2], fun i it hi => ?_⟩
    cases i with
    | zero =>
      simp only [List.getElem?_cons_zero, Option.some.injEq] at hi
      subst hi
      exact ⟨x', b, by simpa using hx, hb, rfl, rfl⟩
    | succ i =>
      simp only [List.getElem?_cons_succ] at hi
      obtain ⟨it', c, k1, k2, k3, k4⟩ := g3 i it hi
      exact ⟨it', c, by simpa using k1, k2, by simpa using k3, by simpa using k4⟩

/-- **C39**: a packet's bytes are the concatenation, in order, of one byte string per header, where
header `i` was finalised against exactly the bytes of the headers after it (and the original
packet) and is left finalised in the packet. -/
theorem packet_compositional (p p' : Packet) (b : Bytes) (h : p.toBytes = (p', .ok b)) :
    ∃ bs : List Bytes, b = bs.flatten ∧ bs.length = p.length ∧ p'.length = p.length ∧
      ∀ (i : Nat) (it : Item), p[i]? = some it → ∃ it' c, it.pre (bs.drop (i + 1)).flatten p = .ok it' ∧
        it'.toBytes = .ok c ∧ p'[i]? = some it' ∧ bs[i]? = some c := by
  obtain ⟨bs, hf, rfl⟩ := toBytes_inv h
  obtain ⟨h1, h2, h3⟩ := finish_pointwise hf
  simp only [List.append_nil] at h3
  exact ⟨bs, rfl, h2, h1, h3⟩

/-- **C39** (converse): it fails only if finalising or serialising some header fails, and is
successful whenever byte strings as described exist. -/
theorem packet_serialises (p : Packet) (bs : List Bytes) (hl : bs.length = p.length)
    (h : ∀ (i : Nat) (it : Item), p[i]? = some it → ∃ it' c, it.pre (bs.drop (i + 1)).flatten p = .ok it' ∧
        it'.toBytes = .ok c ∧ bs[i]? = some c) : (p.toBytes).2 = .ok bs.flatten := by
  have key : ∀ (q : Packet) (bs : List Bytes), bs.length = q.length →
      (∀ (i : Nat) (it : Item), q[i]? = some it → ∃ it' c, it.pre (bs.drop (i + 1)).flatten p = .ok it' ∧
        it'.toBytes = .ok c ∧ bs[i]? = some c) → ∃ q', finish p [] q = .ok (q', bs) := by
    intro q
    induction q with
    | nil =>
      intro bs hl _
      have : bs = [] := List.length_eq_zero_iff.mp hl
      subst this
      exact ⟨[], rfl⟩
    | cons x q ih =>
      intro bs hl h
      cases bs with
      | nil => simp at hl
      | cons b bs =>
        obtain ⟨q', hq⟩ := ih bs (by simpa using hl) fun i it hi => by
          have := h (i + 1) it (by simpa using hi)
          simpa using this
        obtain ⟨x', c, k1, k2, k3⟩ := h 0 x rfl
        simp only [List.getElem?_cons_zero, Option.some.injEq] at k3
        subst k3
        refine ⟨x' :: q', ?_⟩
        simp only [finish, hq, bind_ok, List.append_nil]
        simp only [Nat.zero_add, List.drop_succ_cons, List.drop_zero] at k1
        rw [k1]
        simp [k2]
  obtain ⟨q', hq⟩ := key p bs hl h
  rw [toBytes_of_finish hq]

/-! ## C40: serialisation is idempotent -/

theorem Hdr.pre_idem {h h' : Hdr} {t : Bytes} {p : Packet} (e : h.pre t p = .ok h') : h'.pre t p = .ok h' := by
  cases h with
  | ip4 a =>
    simp only [Hdr.pre] at e
    obtain ⟨b, hb, rfl⟩ := map_eq_ok.mp e
    unfold IPv4.preSerialize at hb
    obtain ⟨n, hn, hb⟩ := bind_eq_ok.mp hb
    cases hb
    simp only [Hdr.pre, IPv4.preSerialize]
    have : ({ a with totallen := n + t.length } : IPv4).size = .ok n := hn
    rw [this]; rfl
  | ip6 a => cases e; rfl
  | udp a =>
    simp only [Hdr.pre] at e
    obtain ⟨b, hb, rfl⟩ := map_eq_ok.mp e
    unfold UDP.preSerialize at hb
    obtain ⟨c, hc, hb⟩ := bind_eq_ok.mp hb
    cases hb
    simp only [Hdr.pre, UDP.preSerialize]
    have : UDP.computeChecksum ⟨a.src, a.dst, 8 + t.length, c⟩ p.ip4? t = .ok c := by
      rw [← hc]; cases p.ip4? <;> rfl
    rw [this]; rfl
  | tcp a =>
    simp only [Hdr.pre] at e
    obtain ⟨b, hb, rfl⟩ := map_eq_ok.mp e
    unfold TCP.preSerialize at hb
    obtain ⟨c, hc, hb⟩ := bind_eq_ok.mp hb
    cases hb
    simp only [Hdr.pre, TCP.preSerialize]
    have : TCP.computeChecksum { a with csum := c } (TCP.size { a with csum := c } + t.length) p.ip4? t = .ok c := by
      rw [← hc]; cases p.ip4? <;> rfl
    rw [this]; rfl
  | icmp6 a =>
    simp only [Hdr.pre] at e
    obtain ⟨b, hb, rfl⟩ := map_eq_ok.mp e
    simp only [Hdr.pre]
    cases hp : p.ip6? with
    | none => rw [hp] at hb; cases hb
    | some ip =>
      rw [hp] at hb
      simp only [icmp6PreSerialize] at hb ⊢
      obtain ⟨c, hc, hb⟩ := bind_eq_ok.mp hb
      cases hb
      have : icmp6Checksum { a with csum := c } ip = .ok c := hc
      rw [this]; rfl
  | _ => cases e; rfl

theorem Item.pre_idem {x x' : Item} {t : Bytes} {p : Packet} (e : x.pre t p = .ok x') : x'.pre t p = .ok x' := by
  cases x with
  | hdr h =>
    simp only [Item.pre] at e
    obtain ⟨h', he, rfl⟩ := map_eq_ok.mp e
    simp only [Item.pre, Hdr.pre_idem he, map_ok]
  | _ => cases e

theorem finish_idem {ctx : Packet} {tail : Bytes} {p p' : Packet} {bs : List Bytes}
    (h : finish ctx tail p = .ok (p', bs)) : finish ctx tail p' = .ok (p', bs) := by
  induction p generalizing p' bs with
  | nil => cases h; rfl
  | cons x p ih =>
    simp only [finish] at h
    obtain ⟨r, hr, h⟩ := bind_eq_ok.mp h
    obtain ⟨x', hx, h⟩ := bind_eq_ok.mp h
    obtain ⟨b, hb, h⟩ := bind_eq_ok.mp h
    cases h
    simp only [finish, ih hr, bind_ok, Item.pre_idem hx, hb]

/-- All finalised headers present the same context. -/
theorem finish_sameCtx {ctx : Packet} {tail : Bytes} {p p' : Packet} {bs : List Bytes}
    (h : finish ctx tail p = .ok (p', bs)) (l : Packet) : SameCtx (l ++ p) (l ++ p') := by
  induction p generalizing p' bs l with
  | nil => cases h; exact SameCtx.refl _
  | cons x p ih =>
    simp only [finish] at h
    obtain ⟨r, hr, h⟩ := bind_eq_ok.mp h
    obtain ⟨x', hx, h⟩ := bind_eq_ok.mp h
    obtain ⟨b, hb, h⟩ := bind_eq_ok.mp h
    cases h
    refine (sameCtx_set hx l p).trans ?_
    have := ih hr (l ++ [x'])
    simpa using this

/-- **C40**: serialising again, immediately or after any number of serialisations, gives the same
bytes and changes nothing. -/
theorem packet_idempotent (p p' : Packet) (b : Bytes) (h : p.toBytes = (p', .ok b)) : p'.toBytes = (p', .ok b) := by
  obtain ⟨bs, hf, rfl⟩ := toBytes_inv h
  apply toBytes_of_finish
  have hc : SameCtx p p' := finish_sameCtx hf []
  rw [← finish_ctx hc]
  exact finish_idem hf

/-- A UDP-in-IPv4 packet with a payload. -/
def exPacket : Packet :=
  [.hdr (.eth ⟨⟨[1, 2, 3, 4, 5, 6]⟩, ⟨[2, 0, 0, 0, 0, 1]⟩, 0x0800⟩),
   .hdr (.ip4 ⟨0, 0, 7, 2, 0, 64, 17, .v4 0x0a000001, .v4 0x0a000002, []⟩),
   .hdr (.udp ⟨5353, 53, 0, 0⟩), .hdr (.raw [104, 105])]

theorem exPacket_ok : ∃ p' b, exPacket.toBytes = (p', .ok b) ∧ b.length = 44 := by
  have h : ∃ b, exPacket.toBytes.2 = .ok b ∧ (b.length == 44) = true :=
    Except.of_test (by decide +kernel)
  obtain ⟨b, h1, h2⟩ := h
  exact ⟨exPacket.toBytes.1, b, Prod.ext rfl h1, by simpa using h2⟩

example : ∃ p' b, exPacket.toBytes = (p', .ok b) := let ⟨p', b, h, _⟩ := exPacket_ok; ⟨p', b, h⟩

/-! ## C38: the length of a packet -/

/-- The header classes whose `len` is the number of bytes they serialise to. -/
def goodLen : Hdr → Prop
  | .route _ | .frag _ | .hop _ | .dst _ | .rip _ => False
  | _ => True

theorem wire_length {D : Type} {K : ICMPKind D} {m : ICMPMsg D} {c : Nat} {b : Bytes} (h : K.wire m c = .ok b) :
    K.size m = .ok b.length := by
  unfold ICMPKind.wire at h
  obtain ⟨x, hx, h⟩ := bind_eq_ok.mp h
  obtain ⟨d, hd, h⟩ := bind_eq_ok.mp h
  cases h
  unfold ICMPKind.size
  rw [hd, ← length_pack hx]
  simp

theorem Hdr.size_toBytes {h : Hdr} {b : Bytes} (hb : h.toBytes = .ok b) (hg : goodLen h) :
    h.size = .ok b.length := by
  cases h with
  | eth a => exact congrArg _ (length_pack hb).symm
  | vlan a => exact congrArg _ (length_pack hb).symm
  | arp a =>
    simp only [Hdr.toBytes, Arp.toBytes] at hb
    exact congrArg _ (length_pack hb).symm
  | ip4 a =>
    obtain ⟨o, d0, d, c, h1, _, _, h2, rfl⟩ := IPv4.toBytes_inv hb
    simp only [Hdr.size, IPv4.size, h1, bind_ok, List.length_append, length_pack h2]
    rfl
  | ip6 a => exact congrArg _ (length_pack hb).symm
  | udp a => exact congrArg _ (length_pack hb).symm
  | tcp a =>
    simp only [Hdr.toBytes, TCP.toBytes] at hb
    exact congrArg _ (length_pack hb).symm
  | icmp a =>
    simp only [Hdr.toBytes, ICMPKind.toBytes] at hb
    obtain ⟨c, _, hb⟩ := bind_eq_ok.mp hb
    exact wire_length hb
  | icmp6 a => exact wire_length hb
  | null a =>
    simp only [Hdr.toBytes, nullToBytes] at hb
    split at hb
    · cases hb; simp [Hdr.size]
    · cases hb
  | raw a => cases hb; rfl
  | nullHdr => cases hb; rfl
  | route a => cases hg
  | frag a => cases hg
  | hop a => cases hg
  | dst a => cases hg
  | rip a => cases hg

theorem Hdr.pre_size {h h' : Hdr} {t : Bytes} {p : Packet} (e : h.pre t p = .ok h') : h'.size = h.size := by
  cases h with
  | ip4 a =>
    simp only [Hdr.pre] at e
    obtain ⟨b, hb, rfl⟩ := map_eq_ok.mp e
    unfold IPv4.preSerialize at hb
    obtain ⟨n, _, hb⟩ := bind_eq_ok.mp hb
    cases hb; rfl
  | ip6 a => cases e; rfl
  | udp a =>
    simp only [Hdr.pre] at e
    obtain ⟨b, _, rfl⟩ := map_eq_ok.mp e
    rfl
  | tcp a =>
    simp only [Hdr.pre] at e
    obtain ⟨b, _, rfl⟩ := map_eq_ok.mp e
    rfl
  | icmp6 a =>
    simp only [Hdr.pre] at e
    obtain ⟨b, hb, rfl⟩ := map_eq_ok.mp e
    cases hp : p.ip6? with
    | none => rw [hp] at hb; cases hb
    | some ip =>
      rw [hp] at hb
      simp only [icmp6PreSerialize] at hb
      obtain ⟨c, _, hb⟩ := bind_eq_ok.mp hb
      cases hb; rfl
  | _ => cases e; rfl

theorem Hdr.pre_good {h h' : Hdr} {t : Bytes} {p : Packet} (e : h.pre t p = .ok h') : goodLen h → goodLen h' := by
  have := (Hdr.pre_keys e).1
  cases h <;> cases h' <;> simp [Hdr.cls] at this <;> simp [goodLen]

theorem finish_size {ctx : Packet} {tail : Bytes} {p p' : Packet} {bs : List Bytes}
    (h : finish ctx tail p = .ok (p', bs)) (hg : ∀ x, .hdr x ∈ p → goodLen x) :
    p.size = .ok bs.flatten.length ∧ p'.size = .ok bs.flatten.length := by
  induction p generalizing p' bs with
  | nil => cases h; exact ⟨rfl, rfl⟩
  | cons x p ih =>
    simp only [finish] at h
    obtain ⟨r, hr, h⟩ := bind_eq_ok.mp h
    obtain ⟨x', hx, h⟩ := bind_eq_ok.mp h
    obtain ⟨b, hb, h⟩ := bind_eq_ok.mp h
    cases h
    obtain ⟨i1, i2⟩ := ih hr (fun y hy => hg y (by simp [hy]))
    cases x with
    | hdr a =>
      simp only [Item.pre] at hx
      obtain ⟨a', ha, rfl⟩ := map_eq_ok.mp hx
      have s1 := Hdr.size_toBytes hb (Hdr.pre_good ha (hg a (by simp)))
      have s2 := (Hdr.pre_size ha).symm.trans s1
      simp only [Packet.size, Item.size, s1, s2, i1, i2, bind_ok, List.flatten_cons, List.length_append, and_self]
    | _ => cases hx

/-- **C38**, partial: for a packet without IPv6 extension headers and RIPv2 messages, `len(pkt)`,
before and after serialising, is the length of the bytes it serialises to. -/
theorem packet_length_partial (p p' : Packet) (b : Bytes) (h : p.toBytes = (p', .ok b))
    (hg : ∀ x, .hdr x ∈ p → goodLen x) : p.size = .ok b.length ∧ p'.size = .ok b.length := by
  obtain ⟨bs, hf, rfl⟩ := toBytes_inv h
  exact finish_size hf hg

example : ∃ p' b, exPacket.toBytes = (p', .ok b) ∧ ∀ x, .hdr x ∈ exPacket → goodLen x := by
  obtain ⟨p', b, h, _⟩ := exPacket_ok
  refine ⟨p', b, h, fun x hx => ?_⟩
  simp [exPacket] at hx
  rcases hx with rfl | rfl | rfl | rfl <;> trivial

theorem tlv_length_pos {o : TLV} {b : Bytes} (h : o.toBytes = .ok b) : 1 ≤ b.length := by
  cases o <;> simp only [TLV.toBytes] at h
  · cases h; simp
  · obtain ⟨x, hx, h⟩ := bind_eq_ok.mp h
    cases h
    simp [length_pack hx, calcsize, Fld.size]
    try omega
  · simp [length_pack h, calcsize, Fld.size]
  · simp [length_pack h, calcsize, Fld.size]
  · simp [length_pack h, calcsize, Fld.size]
  · obtain ⟨x, hx, h⟩ := bind_eq_ok.mp h
    cases h
    simp [length_pack hx, calcsize, Fld.size]
    try omega

theorem tlvs_length {os : List TLV} {b : Bytes} (h : tlvsBytes os = .ok b) : os.length ≤ b.length := by
  induction os generalizing b with
  | nil => cases h; simp
  | cons o os ih =>
    simp only [tlvsBytes] at h
    obtain ⟨x, hx, h⟩ := bind_eq_ok.mp h
    obtain ⟨y, hy, h⟩ := bind_eq_ok.mp h
    cases h
    have := ih hy
    have := tlv_length_pos hx
    simp; omega

/-- The negation of **C38** for hop-by-hop and destination option headers: the length of every one
that can be serialised is reported wrongly (it is the number of options). -/
theorem hop_len_violated (h : HopOpt) (b : Bytes) (hb : h.toBytes = .ok b) : h.size < b.length := by
  unfold HopOpt.toBytes at hb
  obtain ⟨x, hx, hb⟩ := bind_eq_ok.mp hb
  obtain ⟨c, hc, hb⟩ := bind_eq_ok.mp hb
  cases hb
  have := tlvs_length hx
  unfold extBytes at hc
  split at hc
  · cases hc
  · have := length_pack hc
    simp [HopOpt.size, this, calcsize, Fld.size]; omega

example : (HopOpt.toBytes ⟨some 17, [.mkPadN 6]⟩) = .ok [17, 0, 1, 4, 0, 0, 0, 0] := by decide +kernel

/-- The negation of **C38** for fragment and routing headers: their length is the value of an octet
that is 0 in every header built with the constructor, while they take 8 and 24 bytes. -/
theorem ext_len_violated (f : Fragment) (r : RouteOpt) (b c : Bytes) (hb : f.toBytes = .ok b) (hc : r.toBytes = .ok c) :
    b.length = 8 ∧ f.size = f.optlen ∧ c.length = 24 ∧ r.size = r.optlen ∧
      Fragment.default.size = 0 ∧ RouteOpt.default.size = 0 := by
  refine ⟨?_, rfl, ?_, rfl, rfl, rfl⟩
  · unfold Fragment.toBytes at hb
    obtain ⟨x, hx, hb⟩ := bind_eq_ok.mp hb
    obtain ⟨y, hy, hb⟩ := bind_eq_ok.mp hb
    cases hb
    unfold extBytes at hx
    split at hx
    · cases hx
    · simp [length_pack hx, length_pack hy, calcsize, Fld.size]
  · unfold RouteOpt.toBytes at hc
    obtain ⟨x, hx, hc⟩ := bind_eq_ok.mp hc
    obtain ⟨y, hy, hc⟩ := bind_eq_ok.mp hc
    cases hc
    unfold extBytes at hx
    split at hx
    · cases hx
    · simp [length_pack hx, length_pack hy, calcsize, Fld.size]

/-- The negation of **C38**: an IPv6 packet with a fragment header. -/
theorem packet_length_violated : ∃ (p : Packet) (b : Bytes), (p.toBytes).2 = .ok b ∧ p.size ≠ .ok b.length := by
  have h : ∃ b, (Packet.toBytes [.hdr (.ip6 { IPv6.default with next := 44 }), .hdr (.frag ⟨some 17, 0, 5, 100, true⟩)]).2
      = .ok b ∧ (b.length == 48) = true := Except.of_test (by decide +kernel)
  obtain ⟨b, h1, h2⟩ := h
  refine ⟨_, b, h1, ?_⟩
  rw [beq_iff_eq.mp h2]
  decide +kernel

/-! ## C89: which IP header the transport checksum uses -/

/-- **C89**, partial: if the packet contains one IPv4 header, the UDP checksum is computed from that
header's addresses and protocol, wherever it is. -/
theorem transport_uses_ip_partial (l r : Packet) (ip : IPv4) (h4 : ∀ x, .hdr (.ip4 x) ∉ l) :
    (l ++ .hdr (.ip4 ip) :: r).ip4? = some ip := by
  have hn : Packet.byName l .ip4 = none := by
    unfold Packet.byName
    rw [List.find?_eq_none]
    intro x hx
    cases x with
    | hdr h =>
      cases h <;> simp [Hdr.cls]
      exact h4 _ hx
    | _ => simp
  rw [ip4?_append]
  simp [Packet.ip4?, hn]
  simp [Packet.byName, Hdr.cls]

example : ∀ x, Item.hdr (.ip4 x) ∉ [Item.hdr (.eth ⟨⟨[1, 2, 3, 4, 5, 6]⟩, ⟨[2, 0, 0, 0, 0, 1]⟩, 0x0800⟩)] := by simp

/-- The negation of **C89**: in an IP-in-IP packet the UDP checksum is computed with the addresses of
the outer header although the inner one is the header that carries the UDP datagram, for every outer
and inner header. -/
theorem transport_outer_header_violated (outer inner : IPv4) (u : UDP) (rest : Packet) (tail : Bytes) :
    (Hdr.udp u).pre tail (.hdr (.ip4 outer) :: .hdr (.ip4 inner) :: .hdr (.udp u) :: rest) =
      .udp <$> u.preSerialize tail (some outer) := rfl

/-- The negation of **C89** as seen by a receiver: two IP-in-IP packets that differ only in the outer
source address carry different UDP checksums. -/
theorem transport_outer_header_visible_violated :
    ∃ (a b : IPv4) (rest : Packet), a.protocol = b.protocol ∧ a.dst = b.dst ∧
      (Hdr.pre (.udp ⟨1, 2, 0, 0⟩) [] (.hdr (.ip4 a) :: rest)) ≠ Hdr.pre (.udp ⟨1, 2, 0, 0⟩) [] (.hdr (.ip4 b) :: rest) ∧
      (∃ inner, rest = [.hdr (.ip4 inner), .hdr (.udp ⟨1, 2, 0, 0⟩)]) :=
  ⟨⟨0, 0, 0, 0, 0, 64, 4, .v4 1, .v4 2, []⟩, ⟨0, 0, 0, 0, 0, 64, 4, .v4 7, .v4 2, []⟩,
    [.hdr (.ip4 ⟨0, 0, 0, 0, 0, 64, 17, .v4 1, .v4 2, []⟩), .hdr (.udp ⟨1, 2, 0, 0⟩)], rfl, rfl,
    by decide +kernel, ⟨_, rfl⟩⟩

/-! ## C89: transport checksums over IPv6 -/

/-- The negation of **C89**: in a packet without an IPv4 header, in particular when carried by IPv6,
UDP and TCP are sent with checksum 0, whatever the contents. -/
theorem transport_checksum_ipv6_violated (p : Packet) (h4 : ∀ x, .hdr (.ip4 x) ∉ p) (u : UDP) (t : TCP) (tail : Bytes) :
    (Hdr.udp u).pre tail p = .ok (.udp { u with len := 8 + tail.length, csum := 0 }) ∧
      (Hdr.tcp t).pre tail p = .ok (.tcp { t with csum := 0 }) := by
  have hn : Packet.byName p .ip4 = none := by
    unfold Packet.byName
    rw [List.find?_eq_none]
    intro x hx
    cases x with
    | hdr h =>
      cases h <;> simp [Hdr.cls]
      exact h4 _ hx
    | _ => simp
  have : p.ip4? = none := by simp [Packet.ip4?, hn]
  constructor
  · simp only [Hdr.pre, this]; rfl
  · simp only [Hdr.pre, this]; rfl

example : ∀ x, Item.hdr (.ip4 x) ∉ [Item.hdr (.ip6 IPv6.default), .hdr (.udp ⟨1, 2, 0, 0⟩)] := by simp

end SY.Props
