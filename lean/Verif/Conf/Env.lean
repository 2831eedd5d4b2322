import Verif.Conf.Icmp
import Verif.Firewall
import Verif.TopoSave
import Verif.Units

/-! # The project's own unit tests, run on the model: addresses, firewall, topologies, units, interfaces

The assertions of `/repo/tests/test_addr.py`, `test_hostfirewall.py` and `test_topo.py`, transcribed. -/

namespace SY.Conf
open SY

/-! ## test_addr.py -/

-- testEthAddr, 7-22
example : EthAddr.mk' .none = .ok .any := by decide +kernel
example : (mac "01-80-C2-00-00-0e").isBridgeFiltered = .ok true ∧ (mac "e2-00-00-00-00-00").isLocal = .ok true ∧
    (mac "e2-00-00-00-00-00").isGlobal = .ok false ∧ (mac "e2-00-00-00-00-00").raw = [0xe2, 0, 0, 0, 0, 0] := by
  decide +kernel
example : (mac "e2-00-00-00-00-00").toStr '-' = "e2-00-00-00-00-00".toList ∧
    (mac "e2-00-00-00-00-00").toStr = "e2:00:00:00:00:00".toList ∧
    (mac "01-80-C2-00-00-0e").ltArg (.addr (mac "e2-00-00-00-00-00")) = .ok true := by decide +kernel
-- testSpecialEth, 24-27
example : EthAddr.any.raw = zeros 6 ∧ (mac "01:80:c2:00:00:0e").isMulticast = .ok true := by decide +kernel

/-! ## test_hostfirewall.py -/

/-- A machine on which everything succeeds, and a port is any decimal number. -/
def fwEnv : FwEnv := ⟨fun _ => true, fun _ => true, fun t => t.foldl (fun n c => n.map (· * 10 + (c.toNat - 48))) (some 0)⟩
/-- A machine before Switchyard is started. -/
def fwMachine : Machine := ⟨⟨["-A INPUT -j ACCEPT"], [.other "x"], []⟩, fun _ => 0⟩
/-- The texts of rules. -/
def fwRules (l : List String) : List (List Char) := l.map String.toList

-- testLinux, 29-50: the commands after iptables-save
example : (LinuxFirewall.new fwEnv fwMachine ["eth0"] (fwRules ["icmp:*", "tcp:80"])).map (fun r => r.2.rulecmds) =
    .ok [.flush, .flushRaw, .drop (some .icmp) "eth0" none, .drop (some .tcp) "eth0" (some "80".toList)] := by decide +kernel
example : ((LinuxFirewall.new fwEnv fwMachine ["eth0"] (fwRules ["icmp:*", "tcp:80"])).map
    (fun r => (r.2.addRule fwEnv r.1 "udp:123".toList).1.2.rulecmds)) =
    .ok [.flush, .flushRaw, .drop (some .icmp) "eth0" none, .drop (some .tcp) "eth0" (some "80".toList),
      .drop (some .udp) "eth0" (some "123".toList)] := by decide +kernel
-- testLinux2, 52-65
example : (LinuxFirewall.new fwEnv fwMachine ["eth0", "eth1"] (fwRules ["all"])).map (fun r => (r.2.rulecmds, r.2.arpignore)) =
    .ok ([.flush, .flushRaw, .drop none "eth0" none, .drop none "eth1" none], [("eth0", 0), ("eth1", 0)]) := by decide +kernel
-- testLinux3, 67-76
example : (LinuxFirewall.new fwEnv fwMachine ["eth0", "eth1"] (fwRules ["none"])).map (fun r => r.2.rulecmds) =
    .ok [.flush, .flushRaw] := by decide +kernel
-- testMacos, 78-90
example : macParseRules ["eth0"] (fwRules ["icmp:*", "tcp:80"]) =
    .ok [.proto "eth0" .icmp none, .proto "eth0" .tcp (some "80".toList)] := by decide +kernel
-- testBadRule1, 2, 92-100
example : testAddRule [] "mpxyz".toList = .error .valueError ∧ testAddRule [] "xicmp:asdf".toList = .error .valueError := by
  decide +kernel
-- testTest, 102-112
example : (testAddRule [] "all".toList >>= fun r => testAddRule r "none".toList >>= fun r => testAddRule r "icmp:*".toList >>=
    fun r => testAddRule r "tcp:80".toList >>= fun r => testAddRule r "udp:123".toList) =
    .ok [.all, .none, .proto .icmp none, .proto .tcp (some "80".toList), .proto .udp (some "123".toList)] := by decide +kernel

/-! ## test_topo.py: units -/

-- testHumanizeCap, 11-24
example : [100, 1000, 10000, 150000, 1500000, 10000000, 100000000, 900000000, 1000000000, 100000000000, 2000000000000].map
    humanizeBandwidth = ["100 bits/s", "1 Kb/s", "10 Kb/s", "150 Kb/s", "1.5 Mb/s", "10 Mb/s", "100 Mb/s", "900 Mb/s", "1 Gb/s",
      "100 Gb/s", "2 Tb/s"].map (fun s => .ok s.toList) := by decide +kernel
example : humanizeBandwidth (10 ^ 20) = .error .generic := by decide +kernel
-- testUnhumanizeCap, 26-44
example : ["100 bits/s", "1 Kb/s", "1 KB/s", "  1  KByte per sec", "  1.0  KByte per sec", "10 Kb/s", "150 Kb/s", "1.5 Mb/s",
      "10 Mb/s", "100 Mb/s", "900 Mb/s", "1 Gb/s", "100 Gb/s", "2 Tb/s", "100000", "100000  "].map
      (fun s => unhumanizeBandwidth s.toList) =
    [100, 1000, 8000, 8000, 8000, 10000, 150000, 1500000, 10000000, 100000000, 900000000, 1000000000, 100000000000,
      2000000000000, 100000, 100000].map (fun n => .ok (some n)) := by decide +kernel
example : CapArg.parse (.int 10000) = .ok (some (some 10000)) ∧ unhumanizeBandwidth " xyz".toList = .ok none := by decide +kernel
-- testHumanizeDelay, 46-54 (the last line is below a microsecond, which the model does not have)
example : [100000, 10000, 1000, 2000, 200, 1000000, 1500000].map humanizeDelay =
    ["100 msecs", "10 msecs", "1 msec", "2 msecs", "200 µsecs", "1 sec", "1500 msecs"].map String.toList := by decide +kernel
-- testUnhumanizeDelay, 56-67: numerator and denominator of the delay in seconds
example : ["100 milliseconds", "10 milliseconds", "1 millisecond", "2 milliseconds", "200 microseconds", "1 second",
      "1.5 seconds", "0.1"].map (fun s => unhumanizeDelay s.toList) =
    [(100, 1000), (10, 1000), (1, 1000), (2, 1000), (200, 1000000), (1, 1), (15, 10), (1, 10)].map (fun x => .ok (some x)) := by
  decide +kernel
example : unhumanizeDelay "ab.32".toList = .ok none ∧ unhumanizeDelay "1 picosec".toList = .ok none := by decide +kernel

/-! ## test_topo.py: topologies -/

/-- `addLink` with the arguments of the test. -/
def lnk (a b : String) : TopoOp := .addLink a.toList b.toList (.text "1 Mb/s".toList) (.text "5 milliseconds".toList)

/-- The topology of testTopoBuild, 70-78. -/
def topo1 : Topo :=
  (Topo.init [] true 0).run [.add .host (some "h1".toList), .add .host (some "h2".toList), .add .router (some "r1".toList),
    .add .switch (some "s1".toList), lnk "h1" "r1", lnk "h1" "s1", lnk "h2" "r1", lnk "h2" "s1"]

/-- The names of nodes. -/
def names (l : List (List Char)) : List String := l.map String.ofList

-- testTopoBuild, 79-101
example : topo1.autoMacs = true ∧ topo1.hasNode "h1".toList = true ∧ (topo1.add .host (some "h1".toList)).2.toOption = none ∧
    topo1.hasLink "h1".toList "r1".toList = true ∧ topo1.hasLink "h1".toList "h2".toList = false := by decide +kernel
example : names topo1.nodes.keys = ["h1", "h2", "r1", "s1"] ∧ names (topo1.ofKind .router) = ["r1"] ∧
    names (topo1.ofKind .switch) = ["s1"] ∧ names (topo1.ofKind .host) = ["h1", "h2"] := by decide +kernel
example : topo1.links.map (fun x => (String.ofList x.1, String.ofList x.2)) =
    [("h1", "r1"), ("h1", "s1"), ("h2", "r1"), ("h2", "s1")] := by decide +kernel
example : topo1.nodes.get? "x1".toList = none ∧ topo1.getEdge "h1".toList "x1".toList = .error .keyError ∧
    topo1.getEdge "x1".toList "h1".toList = .error .keyError := by decide +kernel
-- testTopoBuild, 103-109
example : names (topo1.neighbors "h1".toList) = ["r1", "s1"] ∧
    (topo1.nodes.get? "h1".toList).map (·.ifs.length) = some 2 ∧
    (topo1.iface? "h1".toList "eth0".toList).map (·.ethaddr.toStr) = some "00:00:00:00:00:01".toList ∧
    (topo1.iface? "h1".toList "eth1".toList).map (·.ethaddr.toStr) = some "00:00:00:00:00:03".toList := by decide +kernel
-- testTopoBuild, 111-112
example : ((topo1.assignIPs (some "192.168.1.0/24".toList)).1.iface? "h1".toList "eth0".toList).map (·.ips) =
    some [⟨ip4 "192.168.1.1", 24⟩] := by decide +kernel
-- testTopoBuild, 114-121
example : topo1.getLinkInterfaces "h1".toList "r1".toList = .ok (.ifname "eth0".toList, .ifname "eth0".toList) := by
  decide +kernel
/-- Line 117. -/
def topo2 : Topo :=
  ((topo1.assignIPs (some "192.168.1.0/24".toList)).1.setAddrs "h1".toList "eth0".toList (.text "11:22:33:44:55:66".toList)
    (.text "10.0.1.1/16".toList)).1
example : (topo2.getAddrs "h1".toList "eth0".toList).map (fun x => (x.1, decide (⟨ip4 "10.0.1.1", 16⟩ ∈ x.2))) =
    .ok (mac "11:22:33:44:55:66", true) := by decide +kernel
-- testTopoBuild, 123-137
example : (topo2.removeLink "h1".toList "r1".toList).1.hasLink "h1".toList "r1".toList = false ∧
    ((topo2.removeLink "h1".toList "r1".toList).1.setLink "h1".toList "r1".toList (.text "10Mbps".toList) .none).2.isSome =
      true := by decide +kernel
example : (((topo2.removeLink "h1".toList "r1".toList).1.assignIPs none).1.iface? "h2".toList "eth0".toList).map
    (fun i => i.ips.map (·.plen)) = some [24, 8] := by decide +kernel
example : (topo2.setAddrs "h42".toList "eth0".toList .none .none).2.isSome = true ∧
    (topo2.setAddrs "h2".toList "eth99".toList .none .none).2.isSome = true := by decide +kernel

/-- `addLink` of testTopoCompose, 144-151. -/
def lnk2 (a b : String) : TopoOp := .addLink a.toList b.toList (.text "100Mb/s".toList) (.text "50 ms".toList)
/-- 140-145. -/
def topoA : Topo :=
  (Topo.init "A".toList true 0).run [.add .host (some "h1".toList), .add .switch (some "s1".toList),
    .add .host (some "h2".toList), lnk2 "h1" "s1", lnk2 "h2" "s1"]
/-- 146-151. -/
def topoB : Topo :=
  (Topo.init "B".toList true 0).run [.add .host (some "h1".toList), .add .router (some "r1".toList),
    .add .host (some "h2".toList), lnk2 "h1" "r1", lnk2 "h2" "r1"]
/-- 152-157. -/
def topoC : Res Topo :=
  ((topoA.addPrefix (some "A".toList) false).1.union (topoB.addPrefix (some "B".toList) false).1 false).2

-- testTopoCompose, 153-154
example : names (topoA.addPrefix (some "A".toList) false).1.nodes.keys = ["A_h1", "A_s1", "A_h2"] ∧
    (topoA.addPrefix (some "A".toList) false).1.links.map (fun x => (String.ofList x.1, String.ofList x.2)) =
      [("A_h1", "A_s1"), ("A_s1", "A_h2")] := by decide +kernel
-- testTopoCompose, 156-161
example : topoC.map (fun t => names t.nodes.keys) = .ok ["A_h1", "A_s1", "A_h2", "B_h1", "B_r1", "B_h2"] := by decide +kernel
example : topoC.map (fun t => ((t.addLink "B_r1".toList "A_s1".toList (.text "1Gb/s".toList) (.float 1 10)).1.links.map
    (fun x => (String.ofList x.1, String.ofList x.2)))) =
    .ok [("A_h1", "A_s1"), ("A_s1", "A_h2"), ("A_s1", "B_r1"), ("B_h1", "B_r1"), ("B_r1", "B_h2")] := by decide +kernel
example : topoC.map (fun t => names (t.add .router none).1.nodes.keys) =
    .ok ["A_h1", "A_s1", "A_h2", "B_h1", "B_r1", "B_h2", "r0"] := by decide +kernel
-- testTopoAddRemove, 168-180
example : names (topoA.removeNode "s1".toList).1.nodes.keys = ["h1", "h2"] ∧ (topoA.removeNode "s1".toList).1.links = [] := by
  decide +kernel
-- test_serunser, 182-193
example : (Saved.restore topoA.save 0).map (fun t => decide (t.save = topoA.save)) = .ok true := by decide +kernel
-- testNodeIfRebuild, 195-208
example : (readIface 0 "eth0".toList "eth0 mac:00:00:00:00:00:18 ip:192.168.3.3/24".toList).map
    (fun r => (r.2.ethaddr, r.2.ips)) = .ok (mac "00:00:00:00:00:18", [⟨ip4 "192.168.3.3", 24⟩]) ∧
    (readIface 0 "eth0".toList "eth0 mac:00:00:00:00:00:18".toList).map (fun r => (r.2.ethaddr, r.2.ips, r.2.text)) =
      .ok (mac "00:00:00:00:00:18", [], "eth0 mac:00:00:00:00:00:18".toList) := by decide +kernel

/-! ## test_topo.py: interfaces -/

/-- `Interface("test", None)`. -/
def testIf : Iface := ⟨"test".toList, .any, [], 0, .unknown⟩
-- testInterface, 210-233
example : (Iface.new 0 "test".toList .none none .unknown).map (·.2) = .ok testIf ∧
    testIf.text = "test mac:00:00:00:00:00:00".toList := by decide +kernel
example : (testIf.setEth (.addr (mac "00:11:22:33:44:55"))).1.ethaddr.toStr = "00:11:22:33:44:55".toList ∧
    (testIf.setEth (.raw [1, 2, 3, 4, 5, 6])).1.ethaddr = mac "01:02:03:04:05:06" ∧
    (testIf.setEth .other).2.isSome = true := by decide +kernel
example : (testIf.assignIp (.text "1.2.3.4/24".toList)).1.text = "test mac:00:00:00:00:00:00 ip:1.2.3.4/24".toList ∧
    ((testIf.assignIp (.text "1.2.3.4/24".toList)).1.removeIpaddr (.text "1.2.3.4".toList)).1 = testIf ∧
    (testIf.assignIp (.text "9.8.7.6".toList)).1.ips = [⟨ip4 "9.8.7.6", 32⟩] := by decide +kernel

/-- The devices of testDevListMaker, 257-261. -/
def devs3 : List PcapDev := [⟨"a".toList, false⟩, ⟨"b".toList, true⟩, ⟨"c".toList, false⟩]
-- testDevListMaker, 235-276
example : names (makeDeviceList [⟨"a".toList, false⟩] (fun _ => true) ["a".toList] []) = ["a"] ∧
    names (makeDeviceList [⟨"a".toList, false⟩] (fun _ => true) [] []) = ["a"] ∧
    makeDeviceList [⟨"a".toList, false⟩] (fun _ => true) [] ["a".toList] = [] ∧
    makeDeviceList [⟨"a".toList, false⟩] (fun _ => true) ["xyz".toList] ["a".toList] = [] := by decide +kernel
example : names (makeDeviceList devs3 (fun _ => true) ["xyz".toList] ["a".toList]) = ["c"] ∧
    names (makeDeviceList devs3 (fun _ => true) [] ["a".toList]) = ["c"] ∧
    makeDeviceList devs3 (fun _ => false) [] [] = [] := by decide +kernel

end SY.Conf
