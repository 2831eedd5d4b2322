import Verif.AddrText
import Verif.Props.IPv6Text

/-! # C193, C194: the names of sockets -/

namespace SY.Props

theorem textArg_name (e : Endpoint) : textArg (stringifyAddrs e) = .ok (.addr e.1, .num e.2) := by
  simp [textArg, stringifyAddrs, ipAddressText_text]

/-! ## C193: names can be used as addresses -/

/-- A message that is delivered to a socket with nothing waiting is received, by `recvfrom`, together with an address; what
is sent to that address, by any socket and at any later time, is addressed to exactly the sender. -/
theorem reply_reaches_sender {st : SockState} {o : List Nat} (h : Reach st o) {proto : Int} {pr : Nat}
    {la ra : IPArg × PortArg} {lip rip : IPAddr} {data : Bytes} (hpr : enumOf ipProtocols proto = .ok pr)
    (hl : ipAddress la.1 = .ok lip) (hr : ipAddress ra.1 = .ok rip) {i : Nat} {s : Sock} (hi : i ∈ o)
    (hs : st.socks[i]? = some s) (hp : s.proto = pr) (ha : s.localAddr = (lip, la.2.int)) (he : s.inbox = [])
    (ht : ∀ t, s.timeout = some t → 0 ≤ t) :
    ∃ m, ((st.step (.sendToApp proto la ra data)).1.step (.recv i)).2 = .up m ∧ m.from.1 = data ∧
      ∀ (st' : SockState) (s' : Sock) (reply : Bytes), st'.sendtoText s' reply m.from.2 =
        ({ st' with fromApp := st'.fromApp ++ [⟨s'.proto, s'.localAddr, (rip, ra.2.int), reply⟩] }, .code reply.length) := by
  have hd := (socket_delivery_partial h hpr hl hr (data := data)).1 i s ⟨hi, hs, hp, ha⟩
  rw [hd]
  refine ⟨⟨(lip, la.2.int), (rip, ra.2.int), data⟩, ?_, rfl, ?_⟩
  · have hlt : i < st.socks.length := (List.getElem?_eq_some_iff.mp hs).1
    have hget : (delivered st i s ⟨(lip, la.2.int), (rip, ra.2.int), data⟩).socks[i]? =
        some { s with inbox := [⟨(lip, la.2.int), (rip, ra.2.int), data⟩] } := by
      simp [delivered, hlt, he]
    simp only [SockState.step, SockState.on, hget, SockState.recv]
    cases hb : s.block <;> cases htm : s.timeout with
    | none => simp [queueGet]
    | some t =>
      have : ¬ t < 0 := by have := ht t htm; omega
      simp [queueGet, this]
  · intro st' s' reply
    simp only [SockState.sendtoText, UpMsg.from, textArg_name, SockState.sendto, normalizeAddrs, ipAddress, bind_ok, PortArg.int,
      SockState.sendDown]

/-- A socket connected to the name of another one sends to the address that one is bound to, and reports that name. -/
theorem connect_to_name (st : SockState) (i : Nat) (s t : Sock) (hi : st.socks[i]? = some s) :
    ∃ s', (st.connectText i s t.sockname).1.socks[i]? = some s' ∧ (st.connectText i s t.sockname).2 = .code 0 ∧
      s'.remote = some t.localAddr ∧ s'.peername = .ok t.sockname ∧ s'.sockname = s.sockname := by
  have hlt : i < st.socks.length := (List.getElem?_eq_some_iff.mp hi).1
  refine ⟨{ s with remote := some t.localAddr }, ?_, ?_, rfl, rfl, rfl⟩ <;>
    simp [SockState.connectText, Sock.sockname, textArg_name, SockState.connect, normalizeAddrs, ipAddress, PortArg.int, SockState.put, hlt]

/-- The name identifies the address. -/
theorem sockname_iff (s t : Sock) : s.sockname = t.sockname ↔ s.localAddr = t.localAddr := by
  constructor
  · intro h
    have h1 : s.localAddr.1.text = t.localAddr.1.text := congrArg Prod.fst h
    have h2 : s.localAddr.2 = t.localAddr.2 := by simpa [Sock.sockname, stringifyAddrs] using congrArg Prod.snd h
    exact Prod.ext (ipText_inj h1) h2
  · intro h; simp [Sock.sockname, h]

/-- After `bind` has succeeded the name is the one that was asked for, with the address written the usual way. -/
theorem bind_name (st st' : SockState) (i : Nat) (s : Sock) (a : NameTuple) (sys : List Int) (fw : Option PyErr)
    (hi : st.socks[i]? = some s) (h : st.bindText i s a sys fw = (st', .code 0)) :
    ∃ ip s', ipAddressText a.1 = .ok ip ∧ st'.socks[i]? = some s' ∧ s'.sockname = (ip.text, a.2) ∧
      (∀ b : IPAddr, a.1 = b.text → s'.sockname = a) := by
  have hlt : i < st.socks.length := (List.getElem?_eq_some_iff.mp hi).1
  cases hip : ipAddressText a.1 with
  | error e =>
    simp only [SockState.bindText, textArg, hip] at h
    have : (Prod.snd (if (PortArg.num a.2).isIn (sys ++ st.emuports) = true then ((st, .code (-1)) : SockState × Out) else (st, .raises e))) = .code 0 := by
      exact congrArg Prod.snd h
    split at this <;> cases this
  | ok ip =>
    have hta : textArg a = .ok (.addr ip, .num a.2) := by simp [textArg, hip]
    simp only [SockState.bindText, hta, SockState.bind, normalizeAddrs, ipAddress, bind_ok, PortArg.int] at h
    split at h
    · exact absurd (congrArg Prod.snd h) (by simp)
    · cases fw with
      | some e => exact absurd (congrArg Prod.snd h) (by simp)
      | none =>
        simp only [SockState.registryUpdate] at h
        cases hg : st.toApp.get? s.id with
        | none => rw [hg] at h; exact absurd (congrArg Prod.snd h) (by simp)
        | some q =>
          rw [hg] at h
          cases h
          refine ⟨ip, { s with localAddr := (ip, a.2) }, rfl, by simp [SockState.put, hlt], rfl, fun b hb => ?_⟩
          rw [hb, ipAddressText_text] at hip
          cases hip
          exact Prod.ext hb.symm rfl

/-- A socket bound to an IPv6 address in a long notation, and another that connects to its name. -/
example :
    let st := (runSock (.init, []) sockHist).1
    ∃ s, st.socks[0]? = some s ∧ (st.bindText 0 s ("fe80:0:0:0::01".toList, 6000) [53] none).2 = .code 0 ∧
      ((st.bindText 0 s ("fe80:0:0:0::01".toList, 6000) [53] none).1.socks[0]?).map Sock.sockname = some ("fe80::1".toList, 6000) :=
  ⟨⟨17, none, true, none, (.v4 0x7f000001, 5000), []⟩, by decide +kernel⟩

/-- False of the code: the name of the peer of a socket that is not connected raises `TypeError`, not the `OSError` that
`send` raises then. -/
theorem peername_violated (s : Sock) (h : s.remote = none) (st : SockState) (data : Bytes) :
    s.peername = .error .typeError ∧ st.send s data = (st, .raises .osError) := by
  simp [Sock.peername, SockState.send, h]

/-! ## C194: addresses that do not exist are refused -/

/-- A text that is neither an IPv4 address nor written in a form of RFC 4291 is refused by `connect` and `sendto`, and
nothing changes; `bind` refuses it too, one way or the other. -/
theorem bad_address_refused (st : SockState) (i : Nat) (s : Sock) (t : List Char) (p : Int) (data : Bytes) (sys : List Int)
    (fw : Option PyErr) (h4 : ∀ a, t ≠ ipv4Text a) (h6 : ∀ a, ¬ Rfc4291 t a) :
    st.connectText i s (t, p) = (st, .raises .valueError) ∧ st.sendtoText s data (t, p) = (st, .raises .valueError) ∧
    (st.bindText i s (t, p) sys fw = (st, .raises .valueError) ∨ st.bindText i s (t, p) sys fw = (st, .code (-1))) := by
  have e4 : ipv4Parse t = none := by
    cases h : ipv4Parse t with
    | none => rfl
    | some a => exact absurd ((ipv4_text_iff _ _).mp h) (h4 a)
  have e6 : ipv6Parse t = none := by
    cases h : ipv6Parse t with
    | none => rfl
    | some a => exact absurd ((ipv6_text_iff _ _).mp h) (h6 a)
  have e : textArg (t, p) = .error .valueError := by simp [textArg, ipAddressText, e4, e6]
  refine ⟨by simp [SockState.connectText, e], by simp [SockState.sendtoText, e], ?_⟩
  simp only [SockState.bindText, e]
  split
  · exact .inr rfl
  · exact .inl rfl

/-- Conversely every address is accepted. -/
theorem good_address_accepted (t : List Char) (p : Int) :
    (∃ ip, textArg (t, p) = .ok (.addr ip, .num p)) ↔ (∃ a, t = ipv4Text a) ∨ (∃ a, Rfc4291 t a) := by
  constructor
  · rintro ⟨ip, h⟩
    cases h4 : ipv4Parse t with
    | some a => exact .inl ⟨a, (ipv4_text_iff _ _).mp h4⟩
    | none =>
      cases h6 : ipv6Parse t with
      | some a => exact .inr ⟨a, (ipv6_text_iff _ _).mp h6⟩
      | none => simp [textArg, ipAddressText, h4, h6] at h
  · rintro (⟨a, rfl⟩ | ⟨a, h⟩)
    · exact ⟨.v4 a, by simp [textArg, ipAddressText, ipv4Parse_text]⟩
    · have h6 := (ipv6_text_iff _ _).mpr h
      cases h4 : ipv4Parse t with
      | some b => exact ⟨.v4 b, by simp [textArg, ipAddressText, h4]⟩
      | none => exact ⟨.v6 a, by simp [textArg, ipAddressText, h4, h6]⟩

/-- A host name is refused. -/
example : (SockState.init.connectText 0 ⟨17, none, true, none, (anyAddr, 40000), []⟩ ("localhost".toList, 80)) =
    (.init, .raises .valueError) := by decide +kernel

/-- False of the code for ports: whatever the number, `sendto` reports that the data were sent, and `connect` that the
socket is connected. -/
theorem any_port_violated (st : SockState) (i : Nat) (s : Sock) (a : IPAddr) (p : Int) (data : Bytes) :
    (st.sendtoText s data (a.text, p)).2 = .code data.length ∧ (st.connectText i s (a.text, p)).2 = .code 0 := by
  have e : textArg (a.text, p) = .ok (.addr a, .num p) := textArg_name (a, p)
  simp [SockState.sendtoText, SockState.connectText, e, SockState.sendto, SockState.connect, normalizeAddrs, ipAddress,
    PortArg.int, SockState.sendDown]

/-! ## C92: `setblocking` -/

/-- After `setblocking(False)` a receive with nothing waiting fails at once; after `setblocking(True)` it waits for the
timeout that was set, or for ever. -/
theorem setblocking_spec (st : SockState) (i : Nat) (s : Sock) (he : s.inbox = []) :
    (st.recv i (s.setblocking false)).2 = .timedOut 0 ∧
    (s.timeout = none → (st.recv i (s.setblocking true)).2 = .blocks) ∧
    (∀ t, s.timeout = some t → 0 ≤ t → (st.recv i (s.setblocking true)).2 = .timedOut t) := by
  refine ⟨?_, fun h => ?_, fun t h h0 => ?_⟩
  · cases ht : s.timeout <;> simp [SockState.recv, Sock.setblocking, queueGet, he, ht]
  · simp [SockState.recv, Sock.setblocking, queueGet, he, h]
  · have : ¬ t < 0 := by omega
    simp [SockState.recv, Sock.setblocking, queueGet, he, h, this]

end SY.Props
