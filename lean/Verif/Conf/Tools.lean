import Verif.Conf.Harness
import Verif.Start
import Verif.OfSwitch
import Verif.Pcap

/-! # The project's own unit tests, run on the model: programs under test, starting, network objects, captures, the switch

The assertions of `/repo/tests/test_srpy.py`, `test_importer.py`, `test_llnetdev.py`, `test_pcapffi.py` and `test_ofswitch.py`,
transcribed.  Left out are assertions about logging and the layout of what is printed, those about mock objects, and those of
test_ofswitch.py with OpenFlow 1.3 messages, which the switch of the model never receives. -/

namespace SY.Conf
open SY

/-! ## test_srpy.py -/

/-- The ARP reply of USERCODE5-7, 141, or of USERCODE9-11, 201. -/
def srReply (mac1 mac2 : String) : Packet :=
  match createIpArpReply (.text mac1.toList) (.text mac2.toList) (.addr (ip4 "10.1.1.2")) (.addr (ip4 "10.1.1.1")) with
  | .ok x => scPkt x
  | .error _ => []
/-- The right one, and the wrong one. -/
def srGood : Packet := srReply "40:00:00:00:00:03" "30:00:00:00:00:01"
@[inherit_doc srGood] def srBad : Packet := srReply "40:00:00:00:00:AB" "30:00:00:00:00:CD"

/-- The scenario of CONTENTS1, 49-71: that of test_scenarios.py with two more expectations. -/
def srScen : Res Scenario :=
  scOne >>= fun s => Event.mkOutput [("router-eth3".toList, srGood)] false true [] [] >>= fun out =>
  .ok ((s.expect (.timeout 1) "Timeout on recv".toList).expect out "Outgoing ARP reply (2)".toList)

/-- What a program does: receive (and catch `NoPackets`, if so), send, sleep for longer than the timeout, crash. -/
inductive SrStep
  | recv (catching : Bool)
  | send (dev : String) (p : Packet)
  | sleep
  | crash

/-- The program, until an exception escapes.  While it sleeps the alarm, if one is set, goes off. -/
def srRun (n : TestNet) : List SrStep → TestNet × Option PyErr
  | [] => (n, none)
  | .recv c :: l =>
    match n.recv with
    | (n, .ok _) => srRun n l
    | (n, .error e) => if c && e == .noPackets then srRun n l else (n, some e)
  | .send d p :: l =>
    match n.send (.name d.toList) p with
    | (n, _, some e) => (n, some e)
    | (n, _, none) => srRun n l
  | .sleep :: l =>
    match n.scen.alarm with
    | none => srRun n l
    | some _ =>
      match n.scen.alarmFires with
      | (s, some e) => ({ n with scen := s }, some e)
      | (s, none) => srRun { n with scen := s } l
  | .crash :: _ => (n, some .generic)

/-- The numbers of tests passed, failed and pending, and what is reported. -/
def srTest (l : List SrStep) : Res ((Nat × Nat × Nat) × Verdict) :=
  srScen.map fun s => ((srRun ⟨s, 0⟩ l).1.scen.summary, verdict (srRun ⟨s, 0⟩ l).1.scen (srRun ⟨s, 0⟩ l).2)

-- testEmptyUserProgram, 480-486
example : srTest [] = .ok ((0, 1, 3), .aTestFailed) := by decide +kernel
-- testCleanScenario, 488-492
example : srScen.map (fun s => (s.done, s.pending.length, s.completed.length)) = .ok (false, 4, 0) := by decide +kernel
-- testOneRecvCall, 494-501
example : srTest [.recv false] = .ok ((1, 1, 2), .aTestFailed) := by decide +kernel
-- testTwoRecvCalls, 503-511
example : srTest [.recv false, .recv false] = .ok ((1, 1, 2), .aTestFailed) := by decide +kernel
-- testDelayedSent, 513-521
example : srTest [.recv false, .sleep, .recv false] = .ok ((1, 1, 2), .aTestFailed) := by decide +kernel
-- testScenarioTimeoutHandledCorrectly, 523-529
example : srTest [.recv false, .send "router-eth3" srGood, .recv true, .send "router-eth3" srGood] =
    .ok ((4, 0, 0), .allPassed) := by decide +kernel
-- testShutdownSignal, 531-537
example : srTest [.recv false, .send "router-eth3" srGood, .recv true, .send "router-eth3" srGood, .recv false] =
    .ok ((4, 0, 0), .allPassed) := by decide +kernel
-- testTooManySends, 539-547
example : srTest [.recv false, .send "router-eth3" srGood, .recv true, .send "router-eth3" srGood, .send "router-eth3" srGood] =
    .ok ((4, 0, 0), .somethingUnexpected) := by decide +kernel
-- testEpicFail, 549-557
example : srTest [.crash] = .ok ((0, 1, 3), .crashed) := by decide +kernel
-- testDeviceMatchFail, 559-566
example : srTest [.recv false, .send "router-eth2" srBad] = .ok ((1, 1, 2), .aTestFailed) := by decide +kernel
-- testPacketMatchFail, 568-575
example : srTest [.recv false, .send "router-eth3" srBad] = .ok ((1, 1, 2), .aTestFailed) := by decide +kernel
-- testSendInsteadOfRecv, 577-583
example : srTest [.send "router-eth3" srBad] = .ok ((0, 1, 3), .aTestFailed) := by decide +kernel

/-- `_parse_codeargs`. -/
def srArgs (s : String) : Res CodeArgs := parseCodeargs (some s.toList)
/-- `_start_usercode(f, None, _parse_codeargs(s))`: the call, and the number of warnings. -/
def srStart (star kw : Bool) (s : String) : Res (Res UserCall × Nat) :=
  (srArgs s).map (startUsercode ⟨["net".toList], 0, [], star, kw⟩)
-- testParseCodeArgs, 437-478
example : parseCodeargs none = .ok ⟨[], []⟩ ∧ srArgs "abc" = .ok ⟨["abc".toList], []⟩ ∧
    srArgs "abc=5" = .ok ⟨[], [("abc".toList, "5".toList)]⟩ := by decide +kernel
example : srStart false false "abc" = .ok (.ok ⟨[], []⟩, 1) ∧ srStart false false "abc efg=13" = .ok (.ok ⟨[], []⟩, 2) ∧
    srStart false false "efg=13" = .ok (.ok ⟨[], []⟩, 1) ∧ srStart true false "efg=13" = .ok (.ok ⟨[], []⟩, 1) ∧
    srStart true true "arg1 stararg1 stararg2 x=1 y=2" =
      .ok (.ok ⟨["arg1".toList, "stararg1".toList, "stararg2".toList], [(['x'], ['1']), (['y'], ['2'])]⟩, 0) ∧
    srStart true false "efg" = .ok (.ok ⟨["efg".toList], []⟩, 0) ∧ srStart true true "efg" = .ok (.ok ⟨["efg".toList], []⟩, 0) ∧
    srStart true true "efg abc=42" = .ok (.ok ⟨["efg".toList], [("abc".toList, "42".toList)]⟩, 0) := by decide +kernel

/-- A machine on which everything succeeds but what is given. -/
def srEnv (imports tests : Option PyErr) : StartEnv :=
  ⟨[], fun _ => true, fun _ _ => none, fun _ => none, none, imports, tests, none, none⟩
-- testDryRun, 420-430 (`main_test` imports the code and returns)
example : mainTest (srEnv none none) { dryrun := true, compile := ["stest".toList], usercode := some "ucode1.py".toList } ⟨[], []⟩
    "ucode1.py".toList = ([.imported "ucode1.py".toList], none) := rfl
-- testNoCode, 612-618
example : (startFramework (srEnv none none) { tests := ["stest3".toList] }).acts = [] ∧
    (startFramework (srEnv none none) { tests := ["stest3".toList] }).raised = none := ⟨rfl, rfl⟩
-- testCompileWithCode, 620-628
example : startFramework (srEnv none none) { compile := ["stest3".toList], usercode := some "ucode13".toList } =
    ⟨[.compiled "stest3".toList], none, .absent, false⟩ := rfl
-- testFailUserCode, 630-637
example : (startFramework (srEnv (some .generic) none)
      { app := some "appcode13".toList, tests := ["stest3".toList], usercode := some "doesntexist".toList }).raised =
    some .generic := rfl
-- testReal2, 666-681
example : startFramework (srEnv none none) { usercode := some "ucode13".toList } = ⟨[.noDevices], none, .absent, false⟩ := by
  decide +kernel

/-! ## test_importer.py -/

/-- The files of the tests, by directory and name: all have `x` and `fn`. -/
def impFiles (dir : Dir) (names : List String) : Files := fun d n =>
  if d = dir ∧ n ∈ names.map String.toList then some ⟨["x".toList, "fn".toList], none, []⟩ else none
/-- The directory of the tests. -/
def impHome : Dir := ["home".toList]
/-- `import_or_die` with one file there: what it returns, and the modules loaded. -/
def impTry (dir : Dir) (file arg : String) (entries : List String) : Res (Option (Dir × List Char)) × List (List Char) :=
  let r := Importing.importOrDie ⟨[["lib".toList]], []⟩ (impFiles dir [file]) impHome arg.toList (entries.map String.toList)
  (r.2, r.1.mods.keys)
-- testImporter1 and 1b, 19-34
example : impTry impHome "firsttest" "firsttest.py" [] = (.ok none, ["firsttest".toList]) := by decide +kernel
example : impTry impHome "firsttwo_partdau" "firsttwo_partdau" [] = (.ok none, ["firsttwo_partdau".toList]) := by decide +kernel
-- testImporter2, 36-43
example : impTry impHome "testimp2" "testimp2.py" ["fn"] = (.ok (some (impHome, "fn".toList)), ["testimp2".toList]) := by
  decide +kernel
-- testImporter3, 45-50
example : (impTry impHome "testimp3" "testimp3.py" ["ugh"]).1 = .error .generic := by decide +kernel
-- testImporter4, 52-60
example : impTry ["tmp".toList] "testimp4" "/tmp/testimp4.py" ["main", "blob", "fn"] =
    (.ok (some (["tmp".toList], "fn".toList)), ["testimp4".toList]) := by decide +kernel
-- testImporter5, 62-74
example : (impTry impHome "x" "/tmp/notafile.py" []).1 = .error .generic ∧
    (impTry impHome "x" "nothinghere.py" []).1 = .error .generic ∧ (impTry impHome "x" "nothinghere" []).1 = .error .generic := by decide +kernel
-- testBadScenario, 432-435 of test_srpy.py: the file has no scenario
example : (loadScenarios ⟨[], []⟩ (fun d n => if d = impHome ∧ n = "ucode1".toList then some ⟨["main".toList], none, []⟩ else none)
    impHome ["ucode1".toList]).2 = ([], some .generic) := by decide +kernel

/-! ## test_llnetdev.py -/

/-- The interfaces of `setUp`, 31-34. -/
def devScen : Res Scenario :=
  Scenario.addInterface {} "eth1".toList (.text "11:11:11:11:11:11".toList) [] none >>= fun s =>
  s.addInterface "eth0".toList (.text "00:00:00:00:00:00".toList) [] none >>= fun s =>
  s.addInterface "eth2".toList (.text "22:22:22:22:22:22".toList) [] none >>= fun s =>
  s.addInterface "eth7".toList (.text "77:77:77:77:77:77".toList) [.text "192.168.1.1/24".toList] none
/-- The devices found for port arguments. -/
def devPort (f : TestNet → Res (List Char)) : Res (List Char) := devScen >>= fun s => f ⟨s, 0⟩
-- testFakeSendDevName, DevNum and IntfObj, 52-78
example : devPort (·.port (.name "eth1".toList)) = .ok "eth1".toList ∧ devPort (·.port (.num 0)) = .ok "eth1".toList ∧
    devPort (·.port (.num 3)) = .ok "eth7".toList ∧
    devPort (fun n => match n.scen.ifaces.get? "eth2".toList with | some i => n.port (.intf i) | none => .error .keyError) =
      .ok "eth2".toList := by decide +kernel
/-- The network object. -/
def devNet : NetBase := ⟨none, (devScen.toOption.map (·.ifaces)).getD [], []⟩
-- testFakeCallback, 98-116
example : (((devNet.setCallback (some 5)).intfDown "eth7".toList).notes.map fun x => (x.callback, x.intf.name, x.up)) =
      [(5, "eth7".toList, false)] ∧
    (devNet.byName "eth0".toList).map (fun i => (devNet.intfUp i).2) = .ok (some .valueError) ∧
    (devNet.intfUp ⟨"testif".toList, mac "00:00:00:11:11:11", [⟨ip4 "1.2.3.4", 32⟩], 0, .unknown⟩).2 = none := by decide +kernel
-- testFakeAddrLookups, 118-154
example : (devNet.byName "eth9".toList).map Iface.name = .error .keyError ∧
    (devNet.byMac (.text "11:11:11:11:11:11".toList)).map Iface.name = .ok "eth1".toList ∧
    (devNet.byMac (.text "11:11:11:11:11:99".toList)).map Iface.name = .error .keyError ∧
    (devNet.byIp (.addr (ip4 "192.168.1.1"))).map Iface.name = .ok "eth7".toList ∧
    (devNet.byIp (.addr (ip4 "192.168.0.1"))).map Iface.name = .error .keyError ∧
    devNet.lookupDevname 99 = .error .keyError ∧ devNet.lookupDevname 0 = .ok "eth1".toList := by decide +kernel
/-- The network of testReal, 173. -/
def devReal : NetBase := ⟨none, [("en0".toList, ⟨"en0".toList, .any, [⟨ip4 "1.2.3.4", 24⟩], 1, .wired⟩)], []⟩
-- testReal, 168-206: an unknown device, and packets that are none
example : (sendReal devReal (.name "baddev".toList) []).2 = .error .valueError ∧
    realRaises devReal (.name "en0".toList) (.raw [0xde, 0xad]) = some .valueError := by decide +kernel
-- testRawSock, 208-262: packets that cannot be sent, and one that can
example : (rawSend []).2 = .error .generic ∧ (rawSend [.hdr (.null 2)]).2 = .error .generic ∧
    (rawSend [.hdr (.null 2), .hdr (.udp .default)]).2 = .error .generic ∧
    (rawSend [.hdr (.ip4 { IPv4.default with protocol := 17 }), .hdr (.udp .default)]).2.map List.length = .ok 28 := by
  decide +kernel

/-! ## test_pcapffi.py -/

/-- The packet of 12. -/
def capPkt : Bytes :=
  [0, 0, 0, 0, 0, 0, 0, 0, 0, 0, 0, 0, 8, 0, 0x45, 0, 0, 0x1c, 0, 0, 0, 0, 0, 1, 0xba, 0xe2, 0, 0, 0, 0, 0, 0, 0, 0, 8, 0, 0xf7, 0xff,
   0, 0, 0, 0]
/-- The file after the two writes of 13-15, at some time. -/
def capFile : List PcapRec × Option PyErr := dumpAny (dumpPacket [] (5, 1) capPkt none) (5, 1) none none
/-- The filter for a protocol. -/
def capFilter (proto : UInt8) (b : Bytes) : Bool := b[23]? == some proto
-- testWriteRead1, 10-33
example : capFile.2 = some .generic ∧
    ((readerCalls (capFilter 1) 3 capFile.1).map fun r => r.map fun p => p.map fun p => (p.caplen, p.len, p.raw)) =
    [.ok (some (42, 42, capPkt)), .ok none, .ok none] := by decide +kernel
-- testWriteRead2, 35-55
example : readerCalls (capFilter 6) 2 capFile.1 = [.ok none, .ok none] := by decide +kernel
/-- The device of testCreate, 64-66. -/
def capCreated : PcapWorld := (PcapWorld.start.create 1 false).1
/-- The calls made on it. -/
def capBlocking (w : PcapWorld) : Option (Res Bool) := (w.handles.get? 0).map PcapHandle.getBlocking
-- testCreate, 64-106: nothing can be read, sent or set before the device is activated, and receiving gives nothing
example : capBlocking capCreated = some (.error .generic) ∧
    (capCreated.step (fun _ _ => true) (.setBlocking 1 true)).bind (fun r => r.2) = none ∧
    (capCreated.step (fun _ _ => true) (.setBlocking 1 true)).bind (fun r => capBlocking r.1) = some (.error .generic) ∧
    (PcapObj.readFd ⟨0, false, none⟩ (-1)).2 = -1 ∧ pcapSend false 0 = .error .generic ∧
    (PcapObj.readFd ⟨0, false, none⟩ (-1)).1.recv ⟨none, fun _ => .other, fun _ => 0⟩ 5 (some 0) = .ok none ∧
    (capCreated.step (fun _ _ => true) (.setFilter 1 "icmp".toList)).bind (fun r => r.2) = some .generic := by decide +kernel

/-! ## test_ofswitch.py -/

/-- The network of 46. -/
def ofEnv1 : OfEnv :=
  ⟨true, ⟨none, [("eth0".toList, ⟨"eth0".toList, mac "11:22:33:44:55:66", [⟨ip4 "192.168.1.1", 24⟩], 0, .unknown⟩)], []⟩,
    fun _ _ => none, 1⟩
/-- The messages that a switch sends when it is given one. -/
def ofReplies (m : OfMsg) : Res (List OfMsg) :=
  (OfSwitch.new (ascii "abcdef00") 1).map fun s => (s.start.run ofEnv1 [.msg (some m) 0]).2.1
-- testHello10, 77-86
example : ofReplies (reply10 0 42 none) = .ok [reply10 0 42 none] := by decide +kernel
-- testBarrier10, 99-107
example : ofReplies (reply10 18 42 none) = .ok [reply10 19 42 none] := by decide +kernel
-- testFeaturesRequest10, 119-126
example : (ofReplies (reply10 5 42 none)).map List.length = .ok 1 := by decide +kernel
-- testData1, 128-135
example : (OfSwitch.new (ascii "abcdef00") 1).map (fun s =>
    (s.start.run ofEnv1 [.data "eth0".toList (mIcmp .default .default) 0]).2.1.length) = .ok 1 := by decide +kernel

end SY.Conf
