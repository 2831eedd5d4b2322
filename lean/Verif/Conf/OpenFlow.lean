import Verif.Conf.Harness
import Verif.OfMsg

/-! # The project's own unit tests, run on the model: OpenFlow 1.0 messages

The assertions of `/repo/tests/test_openflow.py`, transcribed.  Bodies are made by giving their attributes.  Two messages are
equal (packet.py 48-56, openflow10.py 137-138) if their headers and bodies are written as the same bytes. -/

namespace SY.Conf
open SY

/-- The bytes of a message. -/
def ofBytes (m : OfMsg) : Res Bytes := m.toBytes >>= fun r => .ok r.2
/-- `Packet.from_bytes(m.to_bytes(), OpenflowHeader) == m`, after serialisation has completed the header of `m`. -/
def ofBack (m : OfMsg) : Res Bool :=
  m.toBytes >>= fun r => OfMsg.parse r.2 >>= fun q =>
  r.1.hdr.toBytes >>= fun a => q.hdr.toBytes >>= fun a' => bodyBytes r.1.body >>= fun b => bodyBytes q.body >>= fun b' =>
  .ok (decide (a = a' ∧ b = b' ∧ q.rest = []))
/-- A message of a given type with a given body. -/
def ofWith (type xid : Int) (b : OfBody) : OfMsg := { OfMsg.build type xid 1 with body := some b }

-- testHello, 36-45
example : ofBytes (OfMsg.build 0 0 1) = .ok [1, 0, 0, 8, 0, 0, 0, 0] ∧
    ofBytes (OfMsg.build 0 42 1) = .ok [1, 0, 0, 8, 0, 0, 0, 0x2a] ∧ ofBack (OfMsg.build 0 42 1) = .ok true := by decide +kernel
-- testSwitchFeatureRequest, 47-50
example : ofBytes (OfMsg.build 5 0 1) = .ok [1, 5, 0, 8, 0, 0, 0, 0] := by decide +kernel
-- testSwitchFeatureReply, 52-61
example : ofBack (ofWith 6 0 (.features ⟨[0xab, 0xcd, 0, 1, 2, 3, 4, 5], 0, 1, [], [],
    [⟨0, mac "ab:cd:ef:ab:cd:ef", ascii "eth0", [], [], [], [], [], []⟩]⟩)) = .ok true := by decide +kernel
-- testEchoRequest, testEchoReply, 63-79
example : [2, 3].map (fun t => (ofBytes (ofWith t 0 (.echo [1, 0x23, 0x45]))).map fun b => b.drop 8) =
    [.ok [1, 0x23, 0x45], .ok [1, 0x23, 0x45]] ∧
    [2, 3].map (fun t => ofBack (ofWith t 0 (.echo [1, 0x23, 0x45]))) = [.ok true, .ok true] := by decide +kernel

-- testMatchStruct, 81-101
example : OfMatch.default.toBytes.map List.length = .ok 40 ∧
    (OfMatch.default.toBytes >>= fun b => OfMatch.fromBytes b >>= fun m => .ok m.1) = .ok OfMatch.default ∧
    (OfMatch.default.wildcardAll.toBytes >>= fun b => OfMatch.fromBytes b >>= fun m =>
      .ok (m.1.nwSrcWild, m.1.getNwDstWild, m.1.wildcards)) = .ok (32, 32, [0x3fffff]) ∧
    (OfMatch.default.wildcardAll.resetWildcards.addWildcard 4 >>= fun m => m.addWildcard 8 >>= fun m => m.toBytes >>= fun b =>
      OfMatch.fromBytes b >>= fun m' => .ok (decide (m'.1.wildcards = m.wildcards))) = .ok true := by decide +kernel
-- testMatchOverlap1, 103-108
example : OfMatch.default.overlaps .default false = .ok true ∧
    OfMatch.default.wildcardAll.matchesPacket (mIcmp .default .default) = .ok true := by decide +kernel
-- testMatchOverlap2, 110-114
example : (OfMatch.default.setInPort 5 >>= fun m => OfMatch.default.overlaps m false) = .ok false := by decide +kernel
-- testMatchOverlap3, 116-123
example : (OfMatch.default.setInPort 5 >>= fun m => OfMatch.default.addWildcard 1 >>= fun m2 => .ok (m.matchesEntry m2)) =
      .ok true ∧
    (OfMatch.default.setInPort 5 >>= fun m => OfMatch.default.addWildcard 1 >>= fun m2 => m.addWildcard 1 >>= fun m =>
      m.overlaps m2 false) = .ok true := by decide +kernel
-- testMatchOverlap4, 125-132
example : (OfMatch.default.setNwSrc (.addr (ip4 "1.2.3.4")) >>= fun m =>
      .ok (m.matchesEntry (OfMatch.default.setNwSrcWild 32))) = .ok true ∧
    (OfMatch.default.setNwSrc (.addr (ip4 "1.2.3.4")) >>= fun m =>
      (m.setNwSrcWild 32).overlaps (OfMatch.default.setNwSrcWild 32) false) = .ok true := by decide +kernel
-- testMatchOverlap5, 134-142
example : (OfMatch.default.setNwSrc (.addr (ip4 "0.0.1.1")) >>= fun m =>
      .ok (m.matchesEntry (OfMatch.default.setNwSrcWild 16))) = .ok true ∧
    (OfMatch.default.setNwSrc (.addr (ip4 "0.0.1.1")) >>= fun m =>
      (m.setNwSrcWild 16).overlaps (OfMatch.default.setNwSrcWild 16) false) = .ok true ∧
    (OfMatch.default.setNwSrc (.addr (ip4 "0.0.1.1")) >>= fun m =>
      (m.setNwSrcWild 16).overlaps (OfMatch.default.setNwSrcWild 16) true) = .ok false := by decide +kernel

/-- The packet of 145-147 and 161-163, with given source port and address. -/
def ofTcp (src : String) (sp : Nat) : Packet :=
  [.hdr (.eth { Ethernet.default with src := mac "11:22:33:44:55:66", dst := mac "aa:bb:cc:dd:ee:ff" }),
   .hdr (.ip4 { IPv4.default with src := ip4 src, dst := ip4 "5.6.7.8", protocol := 6 }),
   .hdr (.tcp { TCP.default with src := sp, dst := 10000 })]
-- testBuildMatch, 144-158
example : (OfMatch.build (ofTcp "1.2.3.4" 4000)) = .ok { OfMatch.default with
    dlSrc := mac "11:22:33:44:55:66", dlDst := mac "aa:bb:cc:dd:ee:ff", dlVlan := 0, dlVlanPcp := 0, nwProto := 6, nwTos := 0, nwSrc := 0x01020304, nwDst := ip4 "5.6.7.8", tpSrc := 4000, tpDst := 10000 } := by
  decide +kernel
-- testPacketMatch, 160-177
example : (OfMatch.build (ofTcp "1.2.3.4" 4000) >>= fun m => m.matchesPacket (ofTcp "1.2.3.4" 4000)) = .ok true ∧
    (OfMatch.build (ofTcp "1.2.3.4" 4000) >>= fun m => m.matchesPacket (ofTcp "1.2.3.4" 42)) = .ok false ∧
    (OfMatch.build (ofTcp "1.2.3.4" 4000) >>= fun m => m.addWildcard 64 >>= fun m => m.matchesPacket (ofTcp "1.2.3.4" 42)) =
      .ok true ∧
    (OfMatch.build (ofTcp "1.2.3.4" 4000) >>= fun m => m.addWildcard 64 >>= fun m => m.matchesPacket (ofTcp "1.2.3.0" 42)) =
      .ok false ∧
    (OfMatch.build (ofTcp "1.2.3.4" 4000) >>= fun m => m.addWildcard 64 >>= fun m =>
      (m.setNwSrcWild 8).matchesPacket (ofTcp "1.2.3.0" 42)) = .ok true := by decide +kernel
-- testPacketMatch2, 179-189
example : OfMatch.matchesPacket { OfMatch.default with
      dlSrc := mac "30:00:00:00:00:03", dlDst := mac "30:00:00:00:00:02", nwSrc := 0x0a002ac8, nwDst := ip4 "172.16.42.2", nwProto := 1, tpSrc := 8, tpDst := 0, dlType := 0x0800, dlVlan := 65535, dlVlanPcp := 0, inPort := 2 }
    (mIcmp { Ethernet.default with src := mac "30:00:00:00:00:03", dst := mac "30:00:00:00:00:02" }
      { IPv4.default with src := ip4 "10.0.42.200", dst := ip4 "172.16.42.2", protocol := 1 }) = .ok true := by decide +kernel
-- testError, 191-203
example : ofBytes (ofWith 1 0 (.error (some 0) (some 1) (List.replicate 10 0xef))) =
      .ok ([1, 1, 0, 0x16, 0, 0, 0, 0, 0, 0, 0, 1] ++ List.replicate 10 0xef) ∧
    ofBytes (ofWith 1 0 (.error (some 2) (some 5) (List.replicate 10 0xef))) =
      .ok ([1, 1, 0, 0x16, 0, 0, 0, 0, 0, 2, 0, 5] ++ List.replicate 10 0xef) ∧
    (ofErrorCodes 0).map (·.contains 1) = some true ∧ (ofErrorCodes 2).map (·.contains 5) = some true := by decide +kernel

/-- The packet of 207-208, as bytes. -/
def ofInner : Bytes :=
  ((Packet.toBytes (mIcmp { Ethernet.default with src := mac "11:22:33:44:55:66", dst := mac "aa:bb:cc:dd:ee:ff" }
    { IPv4.default with src := ip4 "1.2.3.4", dst := ip4 "5.6.7.8" })).2.toOption).getD []
-- testPacketIn, 205-225
example : ofInner.length = 42 ∧ ofBack (ofWith 10 44 (.packetIn 0xffffffff 0xffff 0xff ofInner)) = .ok true ∧
    ofBack (ofWith 10 44 (.packetIn 1334 42 0 ofInner)) = .ok true := by decide +kernel
-- testPacketOut, 227-237
example : ofBack (ofWith 13 43 (.packetOut 0xffffffff 4 [actOutput 0xfffb] (some ofInner))) = .ok true := by decide +kernel

/-- The actions of 252-264. -/
def ofActs : Res (List OfAction) :=
  actDlAddr 4 (.text "55:44:33:22:11:00".toList) >>= fun a => actDlAddr 5 (.text "aa:bb:cc:dd:ee:ff".toList) >>= fun b =>
  actNwAddr 6 (.addr (ip4 "10.1.2.3")) >>= fun c => actNwAddr 7 (.addr (ip4 "10.2.3.4")) >>= fun d =>
  actTpPort 9 1111 >>= fun e => actTpPort 10 2222 >>= fun f =>
  .ok [actOutput 0xfffb, actEnqueue 0xfffb 13, actVlanVid 42, actVlanPcp 2, a, b, c, d, actNwTos 0x11, e, f, f,
    actVendor 0xbeefbeef (ascii "1234")]
/-- The match of 246-251. -/
def ofFmMatch : Res OfMatch :=
  OfMatch.default.addWildcard 4 >>= fun m => m.addWildcard 2 >>= fun m => m.setDlDst (.text "55:44:33:22:ab:cd".toList) >>= fun m =>
  m.setNwSrc (.addr (ip4 "149.43.0.0")) >>= fun m => (m.setNwSrcWild 16).setInPort 42
-- testFlowMod, 239-268
example : (ofActs >>= fun acts => ofFmMatch >>= fun m =>
    ofBack (ofWith 14 72 (.flowMod ⟨m, 0xcafebeefbabe0000, 0, 1800, 3600, 0xffee, 0xdeadbeef, 0, [], acts⟩))) = .ok true := by
  decide +kernel
-- testFlowRemoved, 270-281
example : ofBack (ofWith 11 43 (.flowRemoved ⟨OfMatch.default.wildcardAll, 42, 0xabcd, 0xff, 5, 5000000, 0, 0, 0⟩)) =
    .ok true := by decide +kernel
-- testPortMod, 283-294
example : ofBack (ofWith 15 0 (.portMod 0 (mac "b2:00:1d:9c:4f:40") [2] [2] [1024, 128, 32])) = .ok true := by decide +kernel
-- testPortStatus, 296-304
example : ofBack (ofWith 12 0 (.portStatus 2 ⟨13, EthAddr.any, ascii "testport", [], [], [], [], [], []⟩)) = .ok true := by
  decide +kernel
-- testBarrier, 306-315
example : [18, 19].map (fun t => ofBack (OfMsg.build t 0 1)) = [.ok true, .ok true] := by decide +kernel
-- testQueueConfigRequest, testQueueConfigReply, 317-333
example : ofBack (ofWith 20 0 (.queueReq 4)) = .ok true ∧ ofBack (ofWith 21 2 (.queueReply 4 [⟨7, [400]⟩])) = .ok true := by
  decide +kernel
-- testSwitchStats to testVendorStats, 335-433: the requests and replies as constructed
example : [0, 1, 2, 3, 4, 5, 0xffff].map (fun t => (OfStats.request t).map fun s => ofBack (ofWith 16 0 (.stats s))) =
    List.replicate 7 (some (.ok true)) := by decide +kernel
example : [0, 1, 2, 3, 4, 5, 0xffff].map (fun t => (OfStats.reply t).map fun s => ofBack (ofWith 17 0 (.stats s))) =
    List.replicate 7 (some (.ok true)) := by decide +kernel
-- testIndividualFlowStats, 356-371
example : ofBack (ofWith 17 42 (.stats ⟨1, .flow ⟨42, OfMatch.default.wildcardAll, 5, 16384, 0x2222, 32, 48, 4, 10, 11,
    [actOutput 0xfffb]⟩⟩)) = .ok true := by decide +kernel

end SY.Conf
