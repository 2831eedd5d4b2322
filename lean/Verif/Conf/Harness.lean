import Verif.Conf.Env
import Verif.Socket

/-! # The project's own unit tests, run on the model: matchers, scenarios, sockets

The assertions of `/repo/tests/test_matcher.py`, `test_scenarios.py` and `test_socket.py`, transcribed.  Left out are assertions
about logging, about arguments that the model cannot express (wildcards and predicates that are not of the right form), and
files. -/

namespace SY.Conf
open SY

/-! ## test_matcher.py -/

/-- `Ethernet() + Arp()`. -/
def mArp : Packet := [.hdr (.eth .default), .hdr (.arp .default)]
/-- `Ethernet() + IPv4()`. -/
def mIp : Packet := [.hdr (.eth .default), .hdr (.ip4 .default)]
/-- `Ethernet(...) + IPv4(...) + ICMP()`. -/
def mIcmp (e : Ethernet) (i : IPv4) : Packet := [.hdr (.eth e), .hdr (.ip4 i), .hdr (.icmp .default4)]
/-- The UDP packet of 175-177, 197-200, 238-240 and others. -/
def mUdp (e : Ethernet) (src dst : String) (sp dp : Nat) : Packet :=
  [.hdr (.eth e), .hdr (.ip4 { IPv4.default with protocol := 17, src := ip4 src, dst := ip4 dst }),
   .hdr (.udp { UDP.default with src := sp, dst := dp })]
/-- The matcher made from `ref`, applied to `p`. -/
def mTry (ref p : Packet) (exact : Bool := true) (wild : List (Cls × HdrAttr) := []) (preds : List (Packet → Res Bool) := []) :
    Res Bool := Matcher.new ref exact wild preds >>= fun m => (m.matchPkt p).2.2
/-- What `fail_reason` says then. -/
def mWhy (ref p : Packet) (exact : Bool := true) (wild : List (Cls × HdrAttr) := []) (preds : List (Packet → Res Bool) := [])
    (texts : List Text := []) : Res Text :=
  Matcher.new ref exact wild preds >>= fun m => (m.matchPkt p).1.reason false ⟨none, wild, texts⟩ (m.matchPkt p).2.1
/-- An Ethernet header with other addresses. -/
def mEth (dst src : String) : Ethernet := { Ethernet.default with dst := mac dst, src := mac src }

-- testExactMatch0, 17-22
example : mTry mArp mArp = .ok true ∧
    mTry mArp [.hdr (.eth (mEth "00:00:00:00:00:00" "00:00:00:00:01:01")), .hdr (.arp .default)] = .ok false := by decide +kernel
-- testExactMatch2, 29-34
example : mTry (mIcmp .default .default) (mIcmp { Ethernet.default with ethertype := 0x0806 } .default) = .ok false := by
  decide +kernel

/-- The packet of testExactMatch3, 37. -/
def mNull : Packet :=
  [.hdr (.null 2), .hdr (.ip4 { IPv4.default with protocol := 17, src := ip4 "127.0.0.1", dst := ip4 "127.0.0.1" }),
   .hdr (.udp { UDP.default with src := 65535, dst := 10000 }), .hdr (.raw (ascii "Hello stack"))]
-- testExactMatch3, 36-44
example : mTry mNull mNull true [(.udp, .src)] = .ok true ∧ mTry mNull mNull false [(.udp, .src)] = .ok true := by
  decide +kernel
-- testWildcardMatch0, 46-57
example : mTry mIp mIp true [(.eth, .src)] = .ok true ∧
    mTry mIp [.hdr (.eth .default), .hdr (.ip4 { IPv4.default with ipid := 100 })] true [(.eth, .src)] = .ok false ∧
    mTry mIp [.hdr (.eth (mEth "00:00:00:00:00:00" "01:02:03:04:05:06")), .hdr (.ip4 .default)] true [(.eth, .src)] = .ok true ∧
    mTry mIp [.hdr (.eth (mEth "01:02:03:04:05:06" "01:02:03:04:05:06")), .hdr (.ip4 .default)] true [(.eth, .src)] = .ok false ∧
    (mWhy mIp [.hdr (.eth (mEth "01:02:03:04:05:06" "01:02:03:04:05:06")), .hdr (.ip4 .default)] true [(.eth, .src)]).map
      (within "dst is wrong") = .ok true := by decide +kernel
-- testWildcardMatch1, 62-75
example : mTry mIp mIp false = .ok true ∧
    mTry mIp [.hdr (.eth .default), .hdr (.ip4 { IPv4.default with ipid := 4500, tos := 10 })] false = .ok true ∧
    mTry mIp [.hdr (.eth { Ethernet.default with ethertype := 0x86dd }), .hdr (.ip4 .default)] false = .ok false ∧
    (mWhy mIp [.hdr (.eth { Ethernet.default with ethertype := 0x86dd }), .hdr (.ip4 .default)] false).map
      (within "ethertype is wrong") = .ok true ∧
    mTry mIp [.hdr (.eth .default)] false = .ok false ∧
    (mWhy mIp [.hdr (.eth .default)] false).map (within "Missing headers in your packet: IPv4") = .ok true := by decide +kernel

/-- `lambda pkt: pkt[0].src == ...`, 79, 89, 97. -/
def pSrc (s : String) (p : Packet) : Res Bool :=
  match p with
  | it :: _ => it.getattr .src >>= fun v => v.eq (.eth (mac s))
  | [] => .error .indexError
/-- `lambda p: p.has_header(IPv4) and 32 <= p[IPv4].ttl <= 34`, 83. -/
def pTtl (p : Packet) : Res Bool :=
  p.headerIndex .ip4 0 >>= fun i =>
  match p[i.toNat]? with
  | some (.hdr (.ip4 h)) => .ok (decide (i ≠ -1) && decide (32 ≤ h.ttl) && decide (h.ttl ≤ 34))
  | _ => .ok false

-- testPredicateMatch1, 77-86
example : mTry mIp mIp false [] [pSrc "00:00:00:00:00:00"] = .ok true := by decide +kernel
example : (Event.mkOutput [("en1".toList, mIcmp .default { IPv4.default with ttl := 32 })] false false [] [pTtl] >>= fun e =>
    (e.matchOutput "en1".toList (mIcmp .default { IPv4.default with ttl := 32 })).2.2) = .ok .success := by decide +kernel
-- testPredicateMatch2, 88-93
example : mTry mIp mIp false [] [pSrc "00:00:00:00:00:01"] = .ok false ∧
    (mWhy mIp mIp false [] [pSrc "00:00:00:00:00:01"] ["lambda pkt: pkt[0].src == '00:00:00:00:00:01' ".toList]).map
      (within "(lambda pkt: pkt[0].src == '00:00:00:00:00:01' )") = .ok true := by decide +kernel
-- testPredicateMatch3, 4, 95-111
example : mTry mIp mIp false [] [pSrc "00:00:00:00:00:00", fun p => .ok (match p with
    | [_, .hdr (.ip4 h)] => decide (h.ttl = 0)
    | _ => false)] = .ok true := by decide +kernel
-- testWildcarding, 126-141
example : mTry [.hdr (.eth .default), .hdr (.ip4 { IPv4.default with src := ip4 "192.168.1.1", dst := ip4 "192.168.1.2", ttl := 64 })]
    [.hdr (.eth (mEth "11:11:11:11:11:11" "00:00:00:00:00:00")),
     .hdr (.ip4 { IPv4.default with src := ip4 "192.168.1.1", dst := ip4 "192.168.1.3", ttl := 64 })]
    false [(.eth, .dst), (.ip4, .dst)] = .ok true := by decide +kernel

/-- The ARP request of 144 and 156, with given hardware addresses in the ARP header. -/
def mReq (sender target : String) : Packet :=
  match createIpArpRequest (.text "11:22:33:44:55:66".toList) (.addr (ip4 "192.168.1.1")) (.addr (ip4 "192.168.10.10")) with
  | .ok (e, a) => [.hdr (.eth e), .hdr (.arp { a with senderhwaddr := mac sender, targethwaddr := mac target })]
  | .error _ => []
-- testWildcarding2, 143-153
example : mTry (mReq "11:22:33:44:55:66" "00:ff:00:ff:00:ff") (mReq "11:22:33:44:55:66" "ff:ff:ff:ff:ff:ff") false
      [(.arp, .targethwaddr)] = .ok true ∧
    mTry (mReq "00:ff:00:ff:00:ff" "00:ff:00:ff:00:ff") (mReq "11:22:33:44:55:66" "ff:ff:ff:ff:ff:ff") false
      [(.arp, .targethwaddr)] = .ok false := by decide +kernel

/-- An output expectation for one packet, offered another one. -/
def mOut (dev : String) (ref p : Packet) (exact : Bool) (wild : List (Cls × HdrAttr)) : Res MatchRes :=
  Event.mkOutput [(dev.toList, ref)] false exact wild [] >>= fun e => (e.matchOutput dev.toList p).2.2
/-- Whether the exception it raises says so. -/
def mSays (dev : String) (ref p : Packet) (exact : Bool) (wild : List (Cls × HdrAttr)) (part : String) : Res Bool :=
  Event.mkOutput [(dev.toList, ref)] false exact wild [] >>= fun e =>
  match e.matchOutputR false ⟨none, wild, []⟩ dev.toList p with
  | .failed why => .ok (within part why)
  | .raised x => .error x
  | .ok _ => .error .generic

-- testWildcardMatchOutput, 155-172
example : (Event.mkOutput [("eth1".toList, mReq "11:22:33:44:55:66" "ff:ff:ff:ff:ff:ff")] false false [(.arp, .targethwaddr)] [] >>=
      fun e => (e.str false {}).map (within "IPv4")) = .ok false ∧
    mOut "eth1" (mReq "11:22:33:44:55:66" "ff:ff:ff:ff:ff:ff") (mReq "11:22:33:44:55:66" "ff:ff:ff:ff:ff:ff") false
      [(.arp, .targethwaddr)] = .ok .success ∧
    mOut "eth1" (mReq "11:22:33:44:55:66" "ff:ff:ff:ff:ff:ff") (mReq "11:22:33:44:55:66" "00:ff:00:ff:00:ff") false
      [(.arp, .targethwaddr)] = .ok .success ∧
    mOut "eth1" (mReq "11:22:33:44:55:66" "ff:ff:ff:ff:ff:ff") (mReq "00:ff:00:ff:00:ff" "00:ff:00:ff:00:ff") false
      [(.arp, .targethwaddr), (.eth, .src)] = .error .testFailure ∧
    mSays "eth1" (mReq "11:22:33:44:55:66" "ff:ff:ff:ff:ff:ff") (mReq "00:ff:00:ff:00:ff" "00:ff:00:ff:00:ff") false
      [(.arp, .targethwaddr), (.eth, .src)] "IPv4" = .ok false := by decide +kernel
-- testWildCard2, 174-188
example : mOut "eth1" (mUdp .default "1.2.3.4" "5.6.7.8" 9999 4444) (mUdp .default "1.2.3.4" "5.6.7.8" 9999 4444) false
      [(.udp, .src)] = .ok .success ∧
    mSays "eth1" (mUdp .default "1.2.3.4" "5.6.7.8" 9999 4444) (mUdp .default "1.2.3.4" "5.6.7.8" 9999 5555) false
      [(.udp, .src)] "In the UDP header, dst is wrong" = .ok true := by decide +kernel
-- testMatcherOutputDiagnosis, 190-233
example : mSays "en0" [] (mIcmp .default .default) true [] "Extra headers" = .ok true ∧
    mSays "en0" (mIcmp .default .default) [] true [] "Missing headers" = .ok true ∧
    mSays "en0" (mIcmp .default .default)
      [.hdr (.eth .default), .hdr (.ip4 { IPv4.default with protocol := 17 }), .hdr (.udp .default)] true []
      "Packet header type is wrong at index 2" = .ok true := by decide +kernel
/-- The packet of 222, with given destination and port. -/
def mTtl (dst : String) (sp : Nat) : Packet :=
  [.hdr (.eth .default), .hdr (.ip4 { IPv4.default with src := ip4 "1.2.3.4", dst := ip4 dst, protocol := 17, ttl := 78 }),
   .hdr (.udp { UDP.default with src := sp, dst := 42 })]
example : mSays "en0" (mTtl "4.5.6.7" 10) (mTtl "5.5.5.5" 11) true [] "In the IPv4 header, dst is wrong" = .ok true ∧
    mSays "en0" (mTtl "4.5.6.7" 10) (mTtl "5.5.5.5" 11) true [] "In the UDP header, src is wrong" = .ok true := by decide +kernel
-- testWildcardOutput2, 235-262
example : mTry (mUdp .default "1.2.3.4" "5.6.7.8" 9999 4444) (mUdp .default "1.2.3.4" "5.6.7.8" 2345 4444) true
      [(.udp, .src), (.ip4, .dst), (.eth, .src)] = .ok true ∧
    (mWhy (mUdp .default "1.2.3.4" "5.6.7.8" 9999 4444) (mUdp .default "1.2.3.4" "5.6.7.8" 2345 4444) true
      [(.udp, .src), (.ip4, .dst), (.eth, .src)]).map (within
        "Ethernet **:**:**:**:**:**->00:00:00:00:00:00 IP | IPv4 1.2.3.4->*.*.*.* UDP | UDP *->4444") = .ok true ∧
    (mWhy (mUdp .default "1.2.3.4" "5.6.7.8" 9999 4444) (mUdp .default "1.2.3.4" "5.6.7.8" 2345 4444) true
      [(.udp, .src), (.eth, .src)]).map (within
        "Ethernet **:**:**:**:**:**->00:00:00:00:00:00 IP | IPv4 1.2.3.4->5.6.7.8 UDP | UDP *->4444") = .ok true ∧
    (mWhy (mUdp .default "1.2.3.4" "5.6.7.8" 9999 4444) (mUdp .default "1.2.3.4" "5.6.7.8" 2345 4444) true
      [(.udp, .src)]).map (within
        "Ethernet 00:00:00:00:00:00->00:00:00:00:00:00 IP | IPv4 1.2.3.4->5.6.7.8 UDP | UDP *->4444") = .ok true := by
  decide +kernel
-- testInputTimeoutEv, 271-277
example : ((Event.timeout 1).matchOutput [] []).2.2 = .ok .fail ∧ (Event.timeout 1).matchInput = .success ∧
    ((Event.timeout 1).generate 1 [] none).2.isOk = false := by decide +kernel
-- testMatcherSyntax, 295-314
example : ([mUdp .default "1.2.3.4" "1.2.3.4" 2345 4444, mUdp .default "2.2.2.2" "1.2.3.4" 2345 4444,
      mUdp (mEth "00:00:00:00:00:00" "00:11:22:33:44:55") "1.2.3.4" "1.2.3.4" 2345 4444,
      mUdp (mEth "00:11:22:33:44:55" "00:11:22:33:44:55") "1.2.3.4" "1.2.3.4" 2345 4444].map fun p =>
      mTry (mUdp .default "1.2.3.4" "5.6.7.8" 9999 4444) p true [(.udp, .src), (.ip4, .dst), (.eth, .src)]) =
    [.ok true, .ok false, .ok true, .ok false] := by decide +kernel

/-! ## test_scenarios.py -/

/-- The interfaces of CONTENTS1, 20-23 (the last argument is a second address). -/
def scIfs : List (String × String × String) :=
  [("router-eth0", "40:00:00:00:00:00", "192.168.1.1"), ("router-eth1", "40:00:00:00:00:01", "192.168.100.1"),
   ("router-eth2", "40:00:00:00:00:02", "10.0.1.2"), ("router-eth3", "40:00:00:00:00:03", "10.1.1.2")]
/-- Add them all. -/
def scAdd (s : Scenario) : List (String × String × String) → Res Scenario
  | [] => .ok s
  | (n, e, a) :: l =>
    s.addInterface n.toList (.text e.toList) [.text a.toList, .text "255.255.255.0".toList] none >>= fun s => scAdd s l
/-- A packet of two headers. -/
def scPkt (x : Ethernet × Arp) : Packet := [.hdr (.eth x.1), .hdr (.arp x.2)]
/-- The scenario of CONTENTS1, 15-33. -/
def scOne : Res Scenario :=
  scAdd (Scenario.setTimeout {} 1) scIfs >>= fun s =>
  createIpArpRequest (.text "30:00:00:00:00:01".toList) (.addr (ip4 "10.1.1.1")) (.addr (ip4 "10.1.1.2")) >>= fun req =>
  createIpArpReply (.text "40:00:00:00:00:03".toList) (.text "30:00:00:00:00:01".toList) (.addr (ip4 "10.1.1.2"))
    (.addr (ip4 "10.1.1.1")) >>= fun rep =>
  Event.mkOutput [("router-eth3".toList, scPkt rep)] false true [] [] >>= fun out =>
  .ok ((s.expect (.mkInput "router-eth3".toList (scPkt req)) "Incoming ARP request".toList).expect out
    "Outgoing ARP reply".toList)

-- testScenarioFromPy, 61-68
example : scOne.map (fun s => (s.next.map Event.isOutput, s.testpass.1.next.map Event.isOutput,
      s.testpass.1.testpass.1.next.map Event.isOutput)) = .ok (.ok false, .ok true, .error .testFailure) := by decide +kernel
-- testScenarioFromSrpy, 70-77
example : (scOne >>= fun s => s.save.2 >>= fun f => f.restore >>= fun t => Scenario.eq false (fun _ => {}) (fun _ => {}) s t) =
    .ok true := by decide +kernel
-- testSlowOutput, 79-84
example : scOne.map (fun s => (s.testpass.1.alarm, s.testpass.1.alarmFires.2)) = .ok (some 1, some .testFailure) := by
  decide +kernel
-- testNoMorePending, 86-92
example : scOne.map (fun s => (Scenario.testpass { s with pending := s.pending.take 1 }).1.next.isOk) = .ok false := by
  decide +kernel
-- testScenarioSanity, 94-96
example : (scOne >>= fun s => s.sane false (fun _ => {})) = .ok true := by decide +kernel
-- testInterfaces, 98-104
example : scOne.map (fun s => s.ifaces.keys) = .ok (scIfs.map fun x => x.1.toList) := by decide +kernel

/-- Expect the empty packet on a device. -/
def scOut (dev : String) : Event :=
  match Event.mkOutput [(dev.toList, [])] false true [] [] with
  | .ok e => e
  | .error _ => .timeout 0
/-- `==`. -/
def scEq (s t : Scenario) : Res Bool := Scenario.eq false (fun _ => {}) (fun _ => {}) s t
/-- The two scenarios of testMiscScenario with their interfaces, 138-139. -/
def scS : Scenario := ((Scenario.addInterface {} "eth0".toList (.text "00:00:00:11:11:11".toList) [] none).toOption).getD {}
@[inherit_doc scS] def scT : Scenario :=
  ((Scenario.addInterface {} "eth1".toList (.text "00:00:00:11:11:11".toList) [] none).toOption).getD {}
-- testMiscScenario, 130-154
example : (Event.mkOutput [] false true [] []).isOk = false ∧ (Event.mkOutput [] true true [] []).isOk = false := by decide +kernel
example : scS.ifaces.keys = ["eth0".toList] ∧ scT.ifaces.keys = ["eth1".toList] ∧ scEq {} {} = .ok true ∧ scEq scS scT = .ok true ∧
    scEq (scS.expect (scOut "eth0") "pktout".toList) (scT.expect (scOut "eth0") "pktout".toList) = .ok true ∧
    scEq (scS.expect (scOut "eth0") "pktout".toList)
      ((scT.expect (scOut "eth0") "pktout".toList).expect (scOut "eth1") "pktout2".toList) = .ok false ∧
    scEq ((scS.expect (scOut "eth0") "pktout".toList).expect (scOut "eth1") "pktout2".toList)
      ((scT.expect (scOut "eth0") "pktout".toList).expect (scOut "eth1") "pktout2".toList) = .ok true ∧
    scEq (((scS.expect (scOut "eth0") "pktout".toList).expect (scOut "eth1") "pktout2".toList).expect
        (.mkInput "eth0".toList []) "pkt3".toList)
      (((scT.expect (scOut "eth0") "pktout".toList).expect (scOut "eth1") "pktout2".toList).expect
        (scOut "eth1") "pkt3".toList) = .ok false := by decide +kernel

/-! ## test_socket.py: ports of the operating system, and drawn ones, are made up; data is bytes -/

/-- All calls, one after the other, with what they return. -/
def sockRun (st : SockState) : List SockOp → SockState × List Out
  | [] => (st, [])
  | op :: ops => ((sockRun (st.step op).1 ops).1, (st.step op).2 :: (sockRun (st.step op).1 ops).2)
/-- `setUp`, 36-49. -/
def sock0 : SockState := (SockState.init.step (.setdefault (some 10))).1
/-- A new socket that draws the port 22 first, which is in use. -/
def sockNew (proto : Int) (port : Int) : SockOp := .new proto [22] [22, port] none
/-- An address and port. -/
def sockAddr (s : String) (p : Int) : IPArg × PortArg := (.addr (ip4 s), .num p)

-- testEphemeral, 51-54
example : sock0.ephemeral [22] [22, 40000] = some 40000 := by decide +kernel
-- testSockCreate, 56-80
example : (sockRun sock0 [sockNew 0 40000]).1.toApp = [((17, .v4 0, 40000), 0)] ∧
    (sockRun sock0 [sockNew 0 40000, .close 0]).1.toApp = [] := by decide +kernel
-- testDefaults, 92-97
example : (sockRun sock0 [.setdefault (some 20), sockNew 0 40000]).1.socks.map (·.timeout) = [some 20] := by decide +kernel
-- testAppSend, 123-142
example : (sockRun sock0 [sockNew 0 40000, .recvFromApp (some 1), .sendto 0 (ascii "testme!") (sockAddr "127.0.0.1" 10000),
      .recvFromApp (some 1)]).2 =
    [.sock 0, .raises .noPackets, .code 7,
     .down ⟨17, (.v4 0, 40000), (ip4 "127.0.0.1", 10000), ascii "testme!"⟩] := by decide +kernel
-- testAppRecv, 144-185
example : (sockRun sock0 [sockNew 0 40000,
      .sendToApp 17 (sockAddr "127.0.0.1" 40000) (sockAddr "127.0.0.1" 10000) (ascii "testme!"), .recv 0,
      .sendToApp 17 (sockAddr "127.0.0.1" 8888) (sockAddr "127.0.0.1" 9999) (ascii "testme!")]).2 =
    [.sock 0, .bool true, .up ⟨(ip4 "127.0.0.1", 40000), (ip4 "127.0.0.1", 10000), ascii "testme!"⟩, .bool false] ∧
    (sockRun sock0 [sockNew 0 40000,
      .sendToApp 17 (sockAddr "127.0.0.1" 40000) (sockAddr "127.0.0.1" 10000) (ascii "testme!"), .recv 0]).1.socks.map
      (·.inbox) = [[]] := by decide +kernel
-- testConnect, 187-208
example : (sockRun sock0 [sockNew 55 40000, .send 0 (ascii "testsend"), .connect 0 (sockAddr "127.0.0.1" 4567),
      .send 0 (ascii "testsend"), .recvFromApp (some 1)]).2 =
    [.sock 0, .raises .osError, .code 0, .code 8,
     .down ⟨55, (.v4 0, 40000), (ip4 "127.0.0.1", 4567), ascii "testsend"⟩] := by decide +kernel
-- testSockName, 237-244
example : (sockRun sock0 [sockNew 55 40000, .connect 0 (sockAddr "127.0.0.1" 4567),
      .bind 0 (sockAddr "127.0.0.1" 9876) [22] none]).1.socks.map (fun s => (s.localAddr, s.remote)) =
    [((ip4 "127.0.0.1", 9876), some (ip4 "127.0.0.1", 4567))] := by decide +kernel
-- testTimeouts, 246-255
example : (sockRun sock0 [sockNew 55 40000, .settimeout 0 (some 20), .setdefault (some 30), sockNew 55 40001]).1.socks.map
    (·.timeout) = [some 20, some 30] := by decide +kernel
-- testCloseShutdown, 257-268
example : (sockRun sock0 [sockNew 55 40000]).1.toApp.length = 1 ∧
    (sockRun sock0 [sockNew 55 40000, .close 0, .close 0, .close 0, .close 0]) =
      ({ (sockRun sock0 [sockNew 55 40000]).1 with toApp := [] }, [.sock 0, .code 0, .code 0, .code 0, .code 0]) := by
  decide +kernel
-- testBlocking, 270-290
example : (sockRun sock0 [sockNew 55 40000, .settimeout 0 none]).1.socks.map (fun s => (s.timeout, s.block)) = [(some 10, true)] ∧
    (sockRun sock0 [sockNew 55 40000, .settimeout 0 (some 10), .setblocking 0 false]).1.socks.map (fun s => (s.timeout, s.block)) =
      [(some 10, false)] ∧
    (sockRun sock0 [sockNew 55 40000, .setblocking 0 false, .recv 0, .settimeout 0 (some 0), .recv 0]).2 =
      [.sock 0, .nothing, .timedOut 0, .nothing, .timedOut 0] := by decide +kernel

/-- The sockets of testMultiSocket, 293-302. -/
def sockThree : List SockOp :=
  [sockNew 17 40000, sockNew 6 40001, sockNew 55 40002, .bind 0 (sockAddr "127.0.0.1" 80) [22] none,
   .bind 1 (sockAddr "127.0.0.1" 80) [22] none, .sendToApp 17 (sockAddr "127.0.0.1" 80) (sockAddr "127.0.0.1" 4567) (ascii "to s1"),
   .sendToApp 17 (sockAddr "1.2.3.4" 5678) (sockAddr "0.0.0.0" 40001) (ascii "failure")]
-- testMultiSocket, 292-315
example : (sockRun sock0 sockThree).2 = [.sock 0, .sock 1, .sock 2, .code 0, .code (-1), .bool true, .bool false] ∧
    (sockRun sock0 sockThree).1.toApp.length = 3 ∧
    (sockRun sock0 sockThree).1.socks.map (fun s => s.inbox.length) = [1, 0, 0] := by decide +kernel
-- testFail, 317-326
example : (sock0.step (.new 0 [22] [40000] (some .generic))).2 = .raises .generic := by decide +kernel

end SY.Conf
