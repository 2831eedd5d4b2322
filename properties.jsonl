{"id": "C01", "title": "Internet checksum self-verifies", "statement": "If checksum(data) is computed over a byte string whose 16-bit checksum slot (at an even offset) is zero, and the result is then written big-endian into that slot, checksum() of the whole byte string is 0.", "quantifier": "every byte string shorter than 128 KiB (all packets), every even slot offset, even and odd total lengths", "why_tests_cant": "2^(8n) inputs; carry folding, odd trailing byte and the byte-swapped (native order) accumulation only misbehave for particular carry patterns.", "anchors": ["switchyard/lib/packet/common.py:checksum"]}
{"id": "C02", "title": "Checksum equals the RFC 1071 one's-complement sum", "statement": "checksum(data) returns the complement of the end-around-carry sum of data read as big-endian 16-bit words (odd tail padded with a zero byte), although the code adds native little-endian words and swaps at the end; outside the size where two carry folds suffice the function can return a wrong value.", "quantifier": "every byte string (equality for those whose word sum is below 2^32; a witness family beyond it)", "why_tests_cant": "Byte-order independence is an algebraic fact over all inputs; no finite sample covers carries in both byte lanes, and the two-fold limit only shows for >128 KiB inputs.", "anchors": ["switchyard/lib/packet/common.py:checksum"]}
{"id": "C03", "title": "Checksum skip_word equals zeroing the word", "statement": "checksum(data, skip_word=k) equals checksum of data with 16-bit word k replaced by zero, for every k inside the data, and equals checksum(data) for k past the end.", "quantifier": "every byte string and every word index", "why_tests_cant": "Unbounded data and index.", "anchors": ["switchyard/lib/packet/common.py:checksum"]}
{"id": "C04", "title": "MAC address text round-trip", "statement": "For every 6-byte MAC address a, EthAddr(str(a)) and EthAddr(a.toStr('-')) succeed and equal a; hence distinct addresses have distinct text.", "quantifier": "all 2^48 addresses", "why_tests_cant": "2^48 values.", "anchors": ["switchyard/lib/address/__init__.py:EthAddr.__init__", "switchyard/lib/address/__init__.py:EthAddr.toStr"]}
{"id": "C05", "title": "EthAddr always holds six bytes", "statement": "Whatever accepted argument EthAddr is constructed from (bytes, text, EthAddr, None), its raw value is exactly 6 bytes, so a header containing it serialises to the documented layout and predicates never raise.", "quantifier": "every constructor argument", "why_tests_cant": "Unbounded strings and byte strings; short byte strings are silently accepted.", "anchors": ["switchyard/lib/address/__init__.py:EthAddr.__init__", "switchyard/lib/address/__init__.py:EthAddr.raw"]}
{"id": "C06", "title": "MAC address equality and ordering", "statement": "EthAddr == is an equivalence that coincides with equality of the raw bytes (and is consistent with hash), and < is a strict total order agreeing with the numeric value of the 48-bit address.", "quantifier": "all pairs and triples of addresses", "why_tests_cant": "2^96 pairs.", "anchors": ["switchyard/lib/address/__init__.py:EthAddr.__eq__", "switchyard/lib/address/__init__.py:EthAddr.__lt__", "switchyard/lib/address/__init__.py:EthAddr.__hash__"]}
{"id": "C07", "title": "MAC address classification", "statement": "is_multicast iff the I/G bit (bit 0 of the first byte) is set, is_local iff the U/L bit (bit 1) is set, is_global is its negation, and is_bridge_filtered holds exactly for 01:80:c2:00:00:00 .. 01:80:c2:00:00:0f.", "quantifier": "all 2^48 addresses", "why_tests_cant": "2^48 values.", "anchors": ["switchyard/lib/address/__init__.py:EthAddr.isMulticast", "switchyard/lib/address/__init__.py:EthAddr.isLocal", "switchyard/lib/address/__init__.py:EthAddr.isBridgeFiltered"]}
{"id": "C08", "title": "Ethernet header round-trip", "statement": "For every Ethernet header with 6-byte addresses and an EtherType above 1500, from_bytes(to_bytes(h)+rest) reconstructs h and returns exactly rest; the wire layout is dst, src, type; conversely every successfully parsed frame with type > 1500 re-serialises to the same 14 bytes.", "quantifier": "all addresses, all enumerated EtherTypes, all payloads", "why_tests_cant": "Unbounded payloads and 2^96 addresses.", "anchors": ["switchyard/lib/packet/ethernet.py:Ethernet.to_bytes", "switchyard/lib/packet/ethernet.py:Ethernet.from_bytes"]}
{"id": "C09", "title": "Ethernet frames with a length field survive re-serialisation", "statement": "Parsing a frame whose type/length field is an 802.3 length (<= 1500) and serialising it again yields the original bytes.", "quantifier": "every frame", "why_tests_cant": "All inputs; the code collapses every length to NoType (0xFFFF).", "anchors": ["switchyard/lib/packet/ethernet.py:Ethernet.from_bytes", "switchyard/lib/packet/ethernet.py:Ethernet.to_bytes"]}
{"id": "C10", "title": "802.1Q tag round-trip", "statement": "A Vlan header's vlan id, priority and inner EtherType survive to_bytes/from_bytes for every value its setters can store; the vlanid setter always stores the low 12 bits; bytes -> object -> bytes is the identity on every parseable tag.", "quantifier": "all setter inputs, all 2^16 TCI values, all inner types, all payloads", "why_tests_cant": "Setter clamping versus the 4-bit field only disagrees for high-priority tags.", "anchors": ["switchyard/lib/packet/ethernet.py:Vlan.vlanid", "switchyard/lib/packet/ethernet.py:Vlan.pcp", "switchyard/lib/packet/ethernet.py:Vlan.from_bytes", "switchyard/lib/packet/ethernet.py:Vlan.to_bytes"]}
{"id": "C11", "title": "ARP round-trip", "statement": "Every Arp header with 6-byte hardware and IPv4 protocol addresses survives to_bytes/from_bytes, and every byte string accepted by Arp.from_bytes re-serialises to its first 28 bytes with the remainder returned untouched.", "quantifier": "all addresses, operations, protocol types and trailing bytes", "why_tests_cant": "2^160 address combinations, unbounded payload.", "anchors": ["switchyard/lib/packet/arp.py:Arp.to_bytes", "switchyard/lib/packet/arp.py:Arp.from_bytes"]}
{"id": "C12", "title": "ARP helper packets", "statement": "create_ip_arp_request broadcasts at the Ethernet layer with the sender/target fields set from its arguments, and create_ip_arp_reply differs from it exactly in the Ethernet destination, the operation and the target hardware address.", "quantifier": "all address arguments", "why_tests_cant": "All argument tuples.", "anchors": ["switchyard/lib/packet/util.py:create_ip_arp_request", "switchyard/lib/packet/util.py:create_ip_arp_reply"]}
{"id": "C13", "title": "IPv4 header round-trip", "statement": "For every IPv4 header without options reachable through its setters, from_bytes(to_bytes(h)+payload) reconstructs every field (including the computed checksum and total length) and returns payload.", "quantifier": "all field values the setters admit, all payloads", "why_tests_cant": "2^128+ header values.", "anchors": ["switchyard/lib/packet/ipv4.py:IPv4.to_bytes", "switchyard/lib/packet/ipv4.py:IPv4.from_bytes"]}
{"id": "C14", "title": "Serialised IPv4 headers are internally consistent", "statement": "In the bytes Packet.to_bytes produces for an IPv4 header, the checksum verifies over the whole header including options, IHL*4 is the real header length, and total length is header plus everything after it.", "quantifier": "all headers, all option lists, all payloads that can be serialised", "why_tests_cant": "Checksum over arbitrary options and fields.", "anchors": ["switchyard/lib/packet/ipv4.py:IPv4.checksum", "switchyard/lib/packet/ipv4.py:IPv4.hl", "switchyard/lib/packet/ipv4.py:IPv4.pre_serialize"]}
{"id": "C15", "title": "IPv4 options are padded minimally to 32 bits", "statement": "IPOptionList.to_bytes output is the concatenation of the options padded with zero bytes to the next multiple of 4, with fewer than 4 pad bytes.", "quantifier": "all option lists", "why_tests_cant": "All option lists; exactly the aligned ones misbehave.", "anchors": ["switchyard/lib/packet/ipv4.py:IPOptionList.to_bytes"]}
{"id": "C16", "title": "IPv4 option list round-trip", "statement": "Parsing the serialisation of an option list gives back the same options (followed only by end-of-list padding).", "quantifier": "all lists of serialisable options", "why_tests_cant": "Unbounded lists of heterogeneous options.", "anchors": ["switchyard/lib/packet/ipv4.py:IPOptionList.from_bytes", "switchyard/lib/packet/ipv4.py:IPOptionList.to_bytes"]}
{"id": "C17", "title": "IPv4 option parsing terminates", "statement": "IPOptionList.from_bytes terminates (with a list or an exception) on every byte string, so receiving any IPv4 packet terminates.", "quantifier": "all byte strings", "why_tests_cant": "Termination for all inputs; one zero length byte diverges.", "anchors": ["switchyard/lib/packet/ipv4.py:IPOptionList.from_bytes", "switchyard/lib/packet/ipv4.py:IPOptionTimestamp.from_bytes"]}
{"id": "C18", "title": "IPv4 setters keep the header serialisable", "statement": "After any sequence of attribute assignments (each succeeding or raising), tos, ttl, ipid, fragment offset, flags and protocol are within their wire ranges, and a raising assignment leaves the header unchanged.", "quantifier": "all assignment histories with arbitrary integers", "why_tests_cant": "Unbounded histories and values.", "anchors": ["switchyard/lib/packet/ipv4.py:IPv4.tos", "switchyard/lib/packet/ipv4.py:IPv4.ttl", "switchyard/lib/packet/ipv4.py:IPv4.ipid", "switchyard/lib/packet/ipv4.py:IPv4.fragment_offset", "switchyard/lib/packet/ipv4.py:IPv4.flags", "switchyard/lib/packet/ipv4.py:IPv4.protocol"]}
{"id": "C19", "title": "DSCP and ECN are independent", "statement": "Assigning dscp=v makes dscp read v and leaves ecn unchanged; assigning ecn=v makes ecn read v and leaves dscp unchanged.", "quantifier": "all 256 prior TOS values and all valid v", "why_tests_cant": "Only some prior values expose a wrong mask.", "anchors": ["switchyard/lib/packet/ipv4.py:IPv4.dscp", "switchyard/lib/packet/ipv4.py:IPv4.ecn"]}
{"id": "C20", "title": "IPv4 fragment flags follow RFC 791", "statement": "The flag bits of a serialised/parsed header mean what RFC 791 says: every standard flags value (0, DF, MF) is parseable, MoreFragments is wire bit 0x2000 and DontFragment 0x4000.", "quantifier": "all flag values", "why_tests_cant": "Needs the specification, not the implementation, as oracle for every packet.", "anchors": ["switchyard/lib/packet/common.py:IPFragmentFlag", "switchyard/lib/packet/ipv4.py:IPv4.from_bytes", "switchyard/lib/packet/ipv4.py:IPv4.to_bytes"]}
{"id": "C21", "title": "IPv4 parsing never re-delivers header bytes", "statement": "Whatever IPv4.from_bytes accepts, the bytes it returns as payload are a suffix of the input that starts at or after byte 20.", "quantifier": "all byte strings", "why_tests_cant": "All malformed inputs (IHL < 5).", "anchors": ["switchyard/lib/packet/ipv4.py:IPv4.from_bytes"]}
{"id": "C22", "title": "UDP length and checksum on the wire", "statement": "When a packet with an IPv4 and a UDP header is serialised, the UDP length is 8 + payload length and the checksum verifies over the RFC 768 pseudo-header, header and payload.", "quantifier": "all addresses, ports, payloads within 16-bit length", "why_tests_cant": "Unbounded payload; carry patterns.", "anchors": ["switchyard/lib/packet/udp.py:UDP.pre_serialize", "switchyard/lib/packet/udp.py:UDP._compute_checksum_ipv4"]}
{"id": "C23", "title": "UDP round-trip", "statement": "Every UDP header with 16-bit fields survives to_bytes/from_bytes with the trailing bytes returned; every byte string of at least 8 bytes parses and re-serialises to itself; shorter ones raise NotEnoughDataError.", "quantifier": "all field values, all byte strings", "why_tests_cant": "2^64 headers, unbounded payload.", "anchors": ["switchyard/lib/packet/udp.py:UDP.to_bytes", "switchyard/lib/packet/udp.py:UDP.from_bytes"]}
{"id": "C24", "title": "TCP round-trip", "statement": "Every option-less TCP header survives to_bytes/from_bytes (all compared fields) with the payload returned untouched, and from_bytes with data offset d skips exactly 4*d bytes.", "quantifier": "all field values and payloads", "why_tests_cant": "2^150 headers.", "anchors": ["switchyard/lib/packet/tcp.py:TCP.to_bytes", "switchyard/lib/packet/tcp.py:TCP.from_bytes"]}
{"id": "C25", "title": "TCP flag accessors are independent", "statement": "Setting or clearing one of the nine flags makes that flag read back as set or clear, changes no other flag and keeps the flag word within 9 bits; after any history each flag reads the value of its last assignment.", "quantifier": "all flag words and all assignment histories", "why_tests_cant": "Unbounded histories over 512 states.", "anchors": ["switchyard/lib/packet/tcp.py:TCP._isset", "switchyard/lib/packet/tcp.py:TCP._setflag"]}
{"id": "C26", "title": "TCP checksum on the wire", "statement": "When a packet with an IPv4 and a TCP header is serialised, the TCP checksum verifies over the RFC 793 pseudo-header, header and payload.", "quantifier": "all addresses, fields, payloads", "why_tests_cant": "Unbounded payload; carry patterns.", "anchors": ["switchyard/lib/packet/tcp.py:TCP.pre_serialize", "switchyard/lib/packet/tcp.py:TCP._compute_checksum_ipv4"]}
{"id": "C27", "title": "TCP payload never contains header bytes", "statement": "Whatever TCP.from_bytes accepts, the returned payload is a suffix of the input that excludes the 20-byte fixed header.", "quantifier": "all byte strings", "why_tests_cant": "All malformed data offsets (< 5).", "anchors": ["switchyard/lib/packet/tcp.py:TCP.from_bytes"]}
{"id": "C28", "title": "ICMP type, code and data stay coherent", "statement": "After any sequence of icmptype / icmpcode / icmpdata assignments the message's code is one of the codes defined for its type, and its data object is of the class registered for the type or a subclass of it.", "quantifier": "all assignment histories, including failing ones", "why_tests_cant": "Unbounded histories over 15 types and their codes.", "anchors": ["switchyard/lib/packet/icmp.py:ICMP.icmptype", "switchyard/lib/packet/icmp.py:ICMP.icmpcode", "switchyard/lib/packet/icmp.py:ICMP.icmpdata"]}
{"id": "C29", "title": "ICMP round-trip", "statement": "For each ICMP message type, serialising a header and parsing the bytes gives back an equal message.", "quantifier": "all types, codes and message contents", "why_tests_cant": "Unbounded data contents.", "anchors": ["switchyard/lib/packet/icmp.py:ICMP.to_bytes", "switchyard/lib/packet/icmp.py:ICMP.from_bytes"]}
{"id": "C30", "title": "ICMP checksum on the wire", "statement": "The serialised ICMP message always verifies: checksum() over it is zero.", "quantifier": "all messages", "why_tests_cant": "Unbounded data; carry patterns.", "anchors": ["switchyard/lib/packet/icmp.py:ICMP.checksum", "switchyard/lib/packet/icmp.py:ICMP.to_bytes"]}
{"id": "C31", "title": "IPv6 header round-trip", "statement": "Every IPv6 fixed header with in-range traffic class, flow label and hop limit survives to_bytes/from_bytes, the payload is returned untouched, and Packet.to_bytes writes the true payload length.", "quantifier": "all field values and payloads", "why_tests_cant": "2^300 headers.", "anchors": ["switchyard/lib/packet/ipv6.py:IPv6.to_bytes", "switchyard/lib/packet/ipv6.py:IPv6.from_bytes", "switchyard/lib/packet/ipv6.py:IPv6.pre_serialize"]}
{"id": "C32", "title": "IPv6 extension headers round-trip", "statement": "Each IPv6 extension header (fragment, routing, hop-by-hop, destination) survives to_bytes/from_bytes and consumes exactly the length its length octet declares.", "quantifier": "all field values, option lists and payloads", "why_tests_cant": "Unbounded option lists.", "anchors": ["switchyard/lib/packet/ipv6.py:IPv6ExtensionHeader", "switchyard/lib/packet/ipv6.py:IPv6RouteOption", "switchyard/lib/packet/ipv6.py:IPv6Fragment", "switchyard/lib/packet/ipv6.py:IPv6HopOption"]}
{"id": "C33", "title": "ICMPv6 checksum on the wire", "statement": "When a packet with IPv6 and ICMPv6 headers is serialised, the ICMPv6 checksum verifies over the RFC 4443 pseudo-header and message.", "quantifier": "all addresses, types and message bodies", "why_tests_cant": "Unbounded data; carry patterns.", "anchors": ["switchyard/lib/packet/icmpv6.py:ICMPv6.pre_serialize", "switchyard/lib/packet/icmpv6.py:ICMPv6.checksum"]}
{"id": "C34", "title": "Neighbor-discovery options round-trip", "statement": "Each ICMPv6 option serialises to a multiple of 8 bytes whose length octet is exact, and an option list parses back to the same options.", "quantifier": "all option lists and contents", "why_tests_cant": "Unbounded lists and payload lengths.", "anchors": ["switchyard/lib/packet/icmpv6.py:ICMPv6OptionList", "switchyard/lib/packet/icmpv6.py:_ICMPv6OptionLinkLayerAddress", "switchyard/lib/packet/icmpv6.py:ICMPv6OptionPrefixInformation", "switchyard/lib/packet/icmpv6.py:ICMPv6OptionMTU", "switchyard/lib/packet/icmpv6.py:ICMPv6OptionRedirectedHeader"]}
{"id": "C35", "title": "ICMPv6 option parsing terminates", "statement": "Parsing the option area of any ICMPv6 message terminates on every byte string.", "quantifier": "all byte strings", "why_tests_cant": "Termination for all inputs; a zero length octet on an unknown option diverges.", "anchors": ["switchyard/lib/packet/icmpv6.py:ICMPv6OptionList.from_bytes"]}
{"id": "C36", "title": "Router/neighbor advertisement flags survive the wire", "statement": "The flag bits set on a router or neighbor advertisement are the flag bits read back after serialising and parsing.", "quantifier": "all flag combinations and field values", "why_tests_cant": "A wrong mask loses flags only for particular bits.", "anchors": ["switchyard/lib/packet/icmpv6.py:ICMPv6RouterAdvertisement", "switchyard/lib/packet/icmpv6.py:ICMPv6NeighborAdvertisement"]}
{"id": "C37", "title": "RIPv2 message round-trip", "statement": "A RIPv2 message with any list of routes survives to_bytes/from_bytes, route order preserved; its wire length is 4 + 20 * number of routes.", "quantifier": "all route lists", "why_tests_cant": "Unbounded lists; host/network mask ambiguity.", "anchors": ["switchyard/lib/packet/ripv2.py:RIPv2.to_bytes", "switchyard/lib/packet/ripv2.py:RIPv2.from_bytes", "switchyard/lib/packet/ripv2.py:RIPRouteEntry"]}
{"id": "C38", "title": "Packet length equals serialised length", "statement": "len(pkt) equals len(pkt.to_bytes()).", "quantifier": "all packets", "why_tests_cant": "All header stacks; some header classes override size/len.", "anchors": ["switchyard/lib/packet/packet.py:Packet.size", "switchyard/lib/packet/packet.py:Packet.to_bytes"]}
{"id": "C39", "title": "Packet serialisation is compositional", "statement": "pkt.to_bytes() is the concatenation, in header order, of each header's bytes, where each header is finalised against exactly the serialised bytes that follow it.", "quantifier": "all header lists", "why_tests_cant": "Unbounded stacks.", "anchors": ["switchyard/lib/packet/packet.py:Packet.to_bytes"]}
{"id": "C40", "title": "Packet serialisation is idempotent", "statement": "Serialising a packet twice gives the same bytes: finalising headers in to_bytes does not change what a later to_bytes returns.", "quantifier": "all packets", "why_tests_cant": "to_bytes mutates headers; any header reading a mutated field of another could drift.", "anchors": ["switchyard/lib/packet/packet.py:Packet.to_bytes", "switchyard/lib/packet/ipv4.py:IPv4.pre_serialize", "switchyard/lib/packet/udp.py:UDP.pre_serialize", "switchyard/lib/packet/tcp.py:TCP.pre_serialize"]}
{"id": "C41", "title": "Packet parse/serialise round-trip", "statement": "For every well-formed Ethernet/[VLAN]/IPv4/{UDP,TCP,ICMP}/payload stack, Packet(pkt.to_bytes()) has the same headers and payload; parsing then serialising such bytes is the identity.", "quantifier": "all header field values and payloads", "why_tests_cant": "Product of all header spaces.", "anchors": ["switchyard/lib/packet/packet.py:Packet._parse", "switchyard/lib/packet/packet.py:Packet.to_bytes"]}
{"id": "C42", "title": "Packet parsing loses no bytes and terminates", "statement": "Packet(raw) either raises or produces a header list in which each header consumed a prefix of what the previous one left and any non-empty remainder becomes a final raw payload; it does so for every byte string in finitely many steps.", "quantifier": "all byte strings, all starting header classes", "why_tests_cant": "All inputs, including hostile ones.", "anchors": ["switchyard/lib/packet/packet.py:Packet._parse", "switchyard/lib/packet/packet.py:PacketHeaderBase.next_header_class"]}
{"id": "C43", "title": "Packet behaves as a header sequence", "statement": "Any sequence of add/prepend/insert/delete/assign operations on a packet has exactly the effect of the same operations on an abstract list of headers, with IndexError/KeyError for missing targets leaving it unchanged; negative indices count from the end.", "quantifier": "all operation histories and indices", "why_tests_cant": "Unbounded histories.", "anchors": ["switchyard/lib/packet/packet.py:Packet.add_header", "switchyard/lib/packet/packet.py:Packet.prepend_header", "switchyard/lib/packet/packet.py:Packet.insert_header", "switchyard/lib/packet/packet.py:Packet.__delitem__", "switchyard/lib/packet/packet.py:Packet.__setitem__", "switchyard/lib/packet/packet.py:Packet._checkidx"]}
{"id": "C44", "title": "Header lookup returns the first match", "statement": "get_header / has_header / get_header_index / pkt[Class] agree with each other and denote the first header (at or after startidx) of the class; -1/None/KeyError exactly when there is none.", "quantifier": "all packets, classes and start indices", "why_tests_cant": "Unbounded stacks with repeated header types.", "anchors": ["switchyard/lib/packet/packet.py:Packet.get_header", "switchyard/lib/packet/packet.py:Packet.get_header_index", "switchyard/lib/packet/packet.py:Packet.has_header", "switchyard/lib/packet/packet.py:Packet.__getitem__"]}
{"id": "C45", "title": "Packet equality is a congruence", "statement": "Packet equality is reflexive, symmetric and transitive over packets of the same header classes, and packets of different length or header type are never equal.", "quantifier": "all pairs/triples of packets", "why_tests_cant": "Unbounded stacks; per-class equality relations differ.", "anchors": ["switchyard/lib/packet/packet.py:Packet.__eq__"]}
{"id": "C46", "title": "Emulated sockets: one owner per bound port", "statement": "In every reachable state of the socket emulation no two open sockets own the same (protocol, address, port), and bind to a port already owned fails with -1 leaving both sockets usable.", "quantifier": "all histories of socket/bind/connect/send/recv/close calls", "why_tests_cant": "Unbounded histories; ephemeral allocation interleaved with explicit binds.", "anchors": ["switchyard/lib/socket/socketemu.py:ApplicationLayer", "switchyard/lib/socket/socketemu.py:socket.bind"]}
{"id": "C47", "title": "Emulated sockets: delivery", "statement": "A message handed to send_to_app is queued exactly once, on the socket bound to exactly that (protocol, address, port) if there is one, otherwise on the one bound to 0.0.0.0 with that port, otherwise nowhere and False is returned.", "quantifier": "all registries, addresses, ports, messages", "why_tests_cant": "All registry states.", "anchors": ["switchyard/lib/socket/socketemu.py:ApplicationLayer.send_to_app"]}
{"id": "C48", "title": "Emulated sockets: FIFO without loss", "statement": "The messages an application receives on a socket are exactly those delivered to it, in delivery order; messages the application sends reach the network side in the order sent, once each.", "quantifier": "all histories", "why_tests_cant": "Unbounded queues and interleavings.", "anchors": ["switchyard/lib/socket/socketemu.py:socket.recvfrom", "switchyard/lib/socket/socketemu.py:socket.sendto", "switchyard/lib/socket/socketemu.py:ApplicationLayer.recv_from_app"]}
{"id": "C49", "title": "Emulated sockets: close isolates", "statement": "Closing a socket (any number of times) frees its own address and never disturbs delivery to another socket.", "quantifier": "all histories", "why_tests_cant": "A second close after port reuse only goes wrong in a particular interleaving.", "anchors": ["switchyard/lib/socket/socketemu.py:socket.close", "switchyard/lib/socket/socketemu.py:ApplicationLayer._unregister_socket"]}
{"id": "C50", "title": "Test scenarios consume expectations in order", "statement": "A run of user code against a scenario reports success exactly when the sequence of receive/send calls matches the expectation list in order; pending+completed always is the original list split at one point, and nothing is skipped or repeated.", "quantifier": "all expectation lists and call sequences", "why_tests_cant": "Unbounded sequences.", "anchors": ["switchyard/lib/testing.py:TestScenario", "switchyard/llnettest.py:LLNetTest.recv_packet", "switchyard/llnettest.py:LLNetTest.send_packet"]}
{"id": "C51", "title": "Output expectations on several ports are order-independent", "statement": "A PacketOutputEvent with k (device, packet) pairs succeeds after the k matching sends in any order, reports partial success before that, and fails on a wrong packet or a device already used or not expected.", "quantifier": "all device/packet maps and all send permutations", "why_tests_cant": "k! orders.", "anchors": ["switchyard/lib/testing.py:PacketOutputEvent.match"]}
{"id": "C52", "title": "Scenario persistence preserves the expectations", "statement": "Saving and restoring a scenario preserves the ordered list of expectations.", "quantifier": "all scenarios at any point of a run", "why_tests_cant": "Mid-run states reorder.", "anchors": ["switchyard/lib/testing.py:TestScenario.__getstate__", "switchyard/lib/testing.py:TestScenario.__setstate__"]}
{"id": "C53", "title": "Packet matcher semantics", "statement": "An exact matcher accepts a packet iff it has the same header types in the same order, equal non-wildcarded fields and all predicates hold; wildcarding more fields never rejects a packet accepted before.", "quantifier": "all packets, wildcard sets, predicate lists", "why_tests_cant": "All packets and wildcard subsets.", "anchors": ["switchyard/lib/testing.py:_PacketMatcher"]}
{"id": "C54", "title": "Host firewall restores the machine", "statement": "After entering and leaving the firewall context with any rules added in between, the packet-filter tables and the arp_ignore settings equal those before, for every subset of interfaces whose sysctl fails.", "quantifier": "all sets of interfaces, rule lists, prior states", "why_tests_cant": "All histories and failing subsets.", "anchors": ["switchyard/hostfirewall.py:LinuxFirewall"]}
{"id": "C55", "title": "Host firewall rules cover every interface", "statement": "Each accepted rule produces one drop rule per interface for the requested protocol/port; malformed rules raise ValueError and install nothing.", "quantifier": "all rule strings and interface lists", "why_tests_cant": "Unbounded strings; regular-expression anchoring.", "anchors": ["switchyard/hostfirewall.py:AbstractFirewall._interp_rule", "switchyard/hostfirewall.py:LinuxFirewall._parse_rule"]}
{"id": "C56", "title": "OpenFlow table: highest-priority matching entry wins", "statement": "match_packet returns the actions of the matching entry of highest priority, after any history of add/modify/delete.", "quantifier": "all table histories and packets", "why_tests_cant": "All histories.", "anchors": ["switchyard/lib/openflow/ofswitch.py:FlowTable"]}
{"id": "C57", "title": "OpenFlow packet buffer never loses a live packet", "statement": "A buffer id returned by the buffer manager designates that packet until it is removed; capacity is never exceeded and ids of live packets are distinct.", "quantifier": "all add/pop histories", "why_tests_cant": "Needs a particular add/pop interleaving.", "anchors": ["switchyard/lib/openflow/ofswitch.py:PacketBufferManager"]}
{"id": "C58", "title": "OpenFlow message framing", "statement": "Whatever partial reads and writes the transport performs, the message sender transmits exactly the serialised bytes and the receiver reassembles exactly one message of the length in its header, leaving the stream at the next message.", "quantifier": "all messages and all chunkings", "why_tests_cant": "All chunkings.", "anchors": ["switchyard/lib/openflow/ofswitch.py:send_openflow_message", "switchyard/lib/openflow/ofswitch.py:receive_openflow_message"]}
{"id": "C59", "title": "OpenFlow flow expiry", "statement": "Entries past their idle or hard timeout stop being used and are removed; entries not past them stay.", "quantifier": "all tables and clock values", "why_tests_cant": "All clock values.", "anchors": ["switchyard/lib/openflow/ofswitch.py:TableEntry.has_expired", "switchyard/lib/openflow/ofswitch.py:FlowTable.expire_entries"]}
{"id": "C60", "title": "OpenFlow match round-trip", "statement": "An OpenFlow 1.0 match structure survives to_bytes/from_bytes, including address-prefix wildcards.", "quantifier": "all matches", "why_tests_cant": "All field and wildcard combinations.", "anchors": ["switchyard/lib/openflow/openflow10.py:OpenflowMatch"]}
{"id": "C61", "title": "OpenFlow action list round-trip", "statement": "A list of actions serialises and parses back to the same list, and parsing any byte string terminates.", "quantifier": "all action lists, all byte strings", "why_tests_cant": "Unbounded lists; zero length diverges.", "anchors": ["switchyard/lib/openflow/openflow10.py:_unpack_actions"]}
{"id": "C62", "title": "Topology interface identities are unique", "statement": "After any history of node and link additions, interface names are unique per node, auto-assigned MAC addresses are unique across the topology, and every link end names an existing interface of its node.", "quantifier": "all construction histories", "why_tests_cant": "Unbounded histories.", "anchors": ["switchyard/lib/topo/topobuild.py:Topology.addLink", "switchyard/lib/topo/topobuild.py:Node.addInterface"]}
{"id": "C63", "title": "Topology link queries report both ends", "statement": "getLinkInterfaces(a,b) returns (interface of a, interface of b) for the link between them.", "quantifier": "all topologies and links", "why_tests_cant": "All topologies.", "anchors": ["switchyard/lib/topo/topobuild.py:Topology.getLinkInterfaces"]}
{"id": "C64", "title": "Topology node bookkeeping", "statement": "Automatically named nodes never collide with existing names, adding a duplicate name raises and changes nothing, and removing a node removes exactly it and its incident links.", "quantifier": "all histories", "why_tests_cant": "Unbounded histories with explicit names shadowing generated ones.", "anchors": ["switchyard/lib/topo/topobuild.py:Topology.addHost", "switchyard/lib/topo/topobuild.py:Topology.removeNode"]}
{"id": "C65", "title": "Automatic IP assignment", "statement": "assignIPAddresses gives pairwise distinct addresses inside the subnet to every host/router link end, and none to switches.", "quantifier": "all topologies and subnets large enough", "why_tests_cant": "All topologies.", "anchors": ["switchyard/lib/topo/topobuild.py:Topology.assignIPAddresses"]}
{"id": "C66", "title": "Link capacity text round-trip", "statement": "unhumanize_bandwidth(humanize_bandwidth(b)) == b for every integer capacity below 10^15, and larger ones raise.", "quantifier": "all integers", "why_tests_cant": "10^15 values; unit boundaries.", "anchors": ["switchyard/lib/topo/util.py:humanize_bandwidth", "switchyard/lib/topo/util.py:unhumanize_bandwidth"]}
{"id": "C67", "title": "Link delay text round-trip", "statement": "unhumanize_delay(humanize_delay(d)) == d for every delay that is a whole number of microseconds.", "quantifier": "all microsecond counts", "why_tests_cant": "Unbounded; unit selection and pluralisation.", "anchors": ["switchyard/lib/topo/util.py:humanize_delay", "switchyard/lib/topo/util.py:unhumanize_delay"]}
{"id": "C68", "title": "Link emulator delivers exactly once, never early", "statement": "Every packet handed to the link emulator is delivered exactly once to its queue, not before its expiry time, and deliveries happen in expiry order among packets present.", "quantifier": "all arrival schedules and clocks", "why_tests_cant": "All schedules.", "anchors": ["switchyard/sim/linkem.py:LinkEmulator.run"]}
{"id": "C69", "title": "Interface lookup", "statement": "interface_by_name/ipaddr/macaddr return an interface with that key iff one exists (KeyError otherwise); intf_up registers a new name exactly once and notifies, intf_down notifies only known interfaces.", "quantifier": "all interface sets, keys, histories", "why_tests_cant": "All sets and histories.", "anchors": ["switchyard/llnetbase.py:LLNetBase"]}
{"id": "C70", "title": "Interface numbers", "statement": "Interfaces created without an explicit number receive pairwise distinct numbers, and lookup by number returns an interface carrying it.", "quantifier": "all creation histories", "why_tests_cant": "Unbounded histories mixing explicit and automatic numbers.", "anchors": ["switchyard/lib/interface.py:Interface.ifnum", "switchyard/llnetbase.py:LLNetBase._lookup_devname"]}
{"id": "C71", "title": "Device selection", "statement": "make_device_list returns exactly the real, non-excluded devices, loopback only if included, restricted to the include list when one of its names exists.", "quantifier": "all device sets and include/exclude lists", "why_tests_cant": "All subsets.", "anchors": ["switchyard/lib/interface.py:make_device_list"]}
{"id": "C72", "title": "Receive loop delivers in order and honours shutdown", "statement": "recv_packet on a live network returns queued packets in arrival order, skipping only undecodable link types, raises NoPackets only when nothing decodable is queued, and raises Shutdown (never a packet) once stopped.", "quantifier": "all queue contents and stop points", "why_tests_cant": "All interleavings of receiver threads, signal and consumer.", "anchors": ["switchyard/llnetreal.py:LLNetReal.recv_packet", "switchyard/llnetreal.py:LLNetReal._sig_handler"]}
{"id": "C73", "title": "User code arguments", "statement": "The code-argument string is split into positional and keyword arguments preserving order and last-wins keywords; user code is started exactly with the arguments its signature can accept.", "quantifier": "all argument strings and signatures", "why_tests_cant": "All strings.", "anchors": ["switchyard/syinit.py:_parse_codeargs", "switchyard/llnetbase.py:_start_usercode"]}
{"id": "C74", "title": "Hub flooding", "statement": "The hub example sends a received frame unchanged out of every interface except the one it came in on, exactly once each, unless it is addressed to one of the hub's own MACs.", "quantifier": "all interface lists, frames and input ports", "why_tests_cant": "All.", "anchors": ["examples/myhub.py:main", "examples/exercises/learning_switch/myswitch.py:main"]}
{"id": "C75", "title": "Checksum detects any single corrupted byte", "statement": "Changing any one byte of a byte string whose checksum() is 0 to a different value gives a byte string whose checksum() is not 0.", "quantifier": "every byte string up to 128 KiB, every position, every replacement byte", "why_tests_cant": "All positions and values in unbounded messages; the one's-complement double zero makes some two-byte-value swaps invisible in principle.", "anchors": ["switchyard/lib/packet/common.py:checksum"]}
{"id": "C76", "title": "UDP never transmits a zero checksum", "statement": "The checksum field of a serialised UDP header over IPv4 is never 0 (RFC 768 reserves 0 for 'no checksum'; a computed 0 is sent as 0xffff), and over IPv6 a real checksum is sent.", "quantifier": "all addresses, ports and payloads", "why_tests_cant": "Only one in 65536 packets computes to zero.", "anchors": ["switchyard/lib/packet/udp.py:UDP.pre_serialize", "switchyard/lib/packet/udp.py:UDP._compute_checksum_ipv4"]}
{"id": "C77", "title": "802.1Q priority occupies the top three bits of the tag", "statement": "The tag control information of a serialised Vlan header is priority (3 bits), drop-eligible (1 bit), VLAN id (12 bits), so a tag with priority p has p in its top three bits.", "quantifier": "all priorities and VLAN ids", "why_tests_cant": "All values; a self-consistent but shifted encoding passes every round-trip test.", "anchors": ["switchyard/lib/packet/ethernet.py:Vlan.to_bytes", "switchyard/lib/packet/ethernet.py:Vlan.from_bytes"]}
{"id": "C78", "title": "IPv4 header addresses are IPv4 addresses", "statement": "Assigning an address to an IPv4 header's src or dst either raises or stores an IPv4 address, all four bytes of which appear on the wire.", "quantifier": "all address arguments", "why_tests_cant": "All address values of both families.", "anchors": ["switchyard/lib/packet/ipv4.py:IPv4.src", "switchyard/lib/packet/ipv4.py:IPv4.dst", "switchyard/lib/packet/ipv4.py:IPv4.to_bytes"]}
{"id": "C79", "title": "Forwarding does not change IPv4 options", "statement": "Parsing the options area of a header and serialising the result gives an area of the same length.", "quantifier": "all option areas", "why_tests_cant": "All option lists; growth only shows after a parse/serialise cycle.", "anchors": ["switchyard/lib/packet/ipv4.py:IPOptionList.from_bytes", "switchyard/lib/packet/ipv4.py:IPOptionList.to_bytes"]}
{"id": "C80", "title": "Parsed headers report the received checksum", "statement": "After parsing a UDP, TCP or IPv4 header from bytes, the header's checksum attribute is the 16-bit value that was in the bytes.", "quantifier": "all byte strings that parse", "why_tests_cant": "All received values, including wrong ones: a test with a correct checksum cannot tell a stored value from a recomputed one.", "anchors": ["switchyard/lib/packet/udp.py:UDP.checksum", "switchyard/lib/packet/tcp.py:TCP.checksum", "switchyard/lib/packet/ipv4.py:IPv4.checksum"]}
{"id": "C81", "title": "TCP options survive forwarding", "statement": "Parsing a TCP segment and serialising the header again reproduces the header bytes, options included (up to the checksum, which is recomputed).", "quantifier": "all segments whose data offset is at least 5", "why_tests_cant": "All option areas.", "anchors": ["switchyard/lib/packet/tcp.py:TCP.from_bytes", "switchyard/lib/packet/tcp.py:TCPOptions.from_bytes"]}
{"id": "C82", "title": "Truncated headers raise NotEnoughDataError", "statement": "Parsing a header from a byte string too short for its fixed part raises NotEnoughDataError, for every header class.", "quantifier": "all header classes, all short byte strings", "why_tests_cant": "All prefixes of all messages; error paths are rarely exercised.", "anchors": ["switchyard/lib/packet/ethernet.py:Ethernet.from_bytes", "switchyard/lib/packet/arp.py:Arp.from_bytes", "switchyard/lib/packet/ipv4.py:IPv4.from_bytes", "switchyard/lib/packet/udp.py:UDP.from_bytes", "switchyard/lib/packet/tcp.py:TCP.from_bytes", "switchyard/lib/packet/icmp.py:ICMP.from_bytes", "switchyard/lib/packet/icmp.py:ICMPEchoRequest.from_bytes", "switchyard/lib/packet/icmp.py:ICMPAddressMaskRequest.from_bytes"]}
{"id": "C83", "title": "IPv6 headers put their attributes on the wire", "statement": "Serialising an IPv6 header either raises or emits version 6 and exactly the traffic class, flow label and hop limit that the attributes hold; values that do not fit their 8-, 20- and 8-bit fields are rejected.", "quantifier": "all attribute values, in range or not", "why_tests_cant": "All integers; out-of-range values spill silently into neighbouring fields.", "anchors": ["switchyard/lib/packet/ipv6.py:IPv6.to_bytes", "switchyard/lib/packet/ipv6.py:IPv6.trafficclass", "switchyard/lib/packet/ipv6.py:IPv6.flowlabel", "switchyard/lib/packet/ipv6.py:IPv6.ttl"]}
{"id": "C84", "title": "Link-layer address options carry the address they were built with", "statement": "A source or target link-layer address option constructed with an Ethernet address has that address as its attribute and puts it on the wire.", "quantifier": "all addresses, both option classes", "why_tests_cant": "All addresses; a test using the default address passes.", "anchors": ["switchyard/lib/packet/icmpv6.py:ICMPv6OptionSourceLinkLayerAddress", "switchyard/lib/packet/icmpv6.py:ICMPv6OptionTargetLinkLayerAddress"]}
{"id": "C85", "title": "ICMPv6 messages are coherent and survive serialising and parsing", "statement": "After any history of type, code and data assignments, the code is one defined for the type and the data object is of the type's class; and serialising such a message and parsing it gives an equal message with every attribute and option intact and nothing left over.", "quantifier": "all assignment histories including ones that raise; all messages", "why_tests_cant": "Unbounded histories and option lists.", "anchors": ["switchyard/lib/packet/icmp.py:ICMP.icmptype", "switchyard/lib/packet/icmp.py:ICMP.icmpcode", "switchyard/lib/packet/icmp.py:ICMP.icmpdata", "switchyard/lib/packet/icmpv6.py:ICMPv6", "switchyard/lib/packet/icmp.py:ICMP.from_bytes"]}
{"id": "C86", "title": "Parsing an ICMPv6 message consumes all of it", "statement": "When an ICMPv6 message parses, no part of it is delivered again as a following payload.", "quantifier": "all byte strings that parse", "why_tests_cant": "All option areas, including options of unknown type and duplicate payloads.", "anchors": ["switchyard/lib/packet/icmp.py:ICMP.from_bytes", "switchyard/lib/packet/icmpv6.py:ICMPv6OptionList.from_bytes", "switchyard/lib/packet/icmp.py:ICMP.size"]}
{"id": "C87", "title": "Every ICMPv6 message type can be received", "statement": "Parsing a message whose type is a member of ICMPv6Type either gives a header of that type or raises one of the documented parsing errors (ValueError, NotEnoughDataError).", "quantifier": "all ICMPv6 types, codes and bodies", "why_tests_cant": "All types and bodies: the types without a data class are the ones nobody wrote a test for.", "anchors": ["switchyard/lib/packet/common.py:ICMPv6Type", "switchyard/lib/packet/common.py:ICMPv6TypeCodeMap", "switchyard/lib/packet/icmp.py:ICMP.from_bytes"]}
{"id": "C88", "title": "Parsing into a header object replaces its contents", "statement": "After h.from_bytes(raw) the object h holds what raw says and nothing of what it held before.", "quantifier": "all header objects (RIPv2 in particular, whose contents are a list) and byte strings", "why_tests_cant": "Tests parse into fresh objects; the prior state is arbitrary.", "anchors": ["switchyard/lib/packet/ripv2.py:RIPv2.from_bytes"]}
{"id": "C89", "title": "Transport checksums use the IP header that carries them", "statement": "When a packet is serialised, the checksum of a UDP or TCP header is computed over the pseudo-header of the nearest preceding IP header, of either version, and the bytes that follow.", "quantifier": "all header stacks, including several IP headers in one packet", "why_tests_cant": "All stacks; with a single IPv4 header the first one is the enclosing one.", "anchors": ["switchyard/lib/packet/udp.py:UDP.pre_serialize", "switchyard/lib/packet/tcp.py:TCP.pre_serialize", "switchyard/lib/packet/packet.py:Packet.get_header_by_name"]}
{"id": "C90", "title": "Equal headers serialise equally", "statement": "If two headers of the same class compare equal then, in the same packet context, they serialise to the same bytes.", "quantifier": "all pairs of headers of the same class", "why_tests_cant": "All pairs: an attribute left out of __eq__ is invisible to tests that compare with ==.", "anchors": ["switchyard/lib/packet/ethernet.py:Vlan.__eq__", "switchyard/lib/packet/arp.py:Arp.__eq__", "switchyard/lib/packet/ipv4.py:IPv4.__eq__", "switchyard/lib/packet/ipv6.py:IPv6.__eq__", "switchyard/lib/packet/udp.py:UDP.__eq__", "switchyard/lib/packet/tcp.py:TCP.__eq__", "switchyard/lib/packet/icmp.py:ICMP.__eq__", "switchyard/lib/packet/icmp.py:ICMPData.__eq__"]}
{"id": "C91", "title": "Whatever a packet accepts it can serialise", "statement": "Payload bytes accepted by any operation that puts them into a packet (add_header, +=, +, prepend_header, insert_header, item assignment) are part of what the packet serialises to.", "quantifier": "all packets, positions and payloads", "why_tests_cant": "All positions and operations; tests use add_header.", "anchors": ["switchyard/lib/packet/packet.py:Packet.add_header", "switchyard/lib/packet/packet.py:Packet.prepend_header", "switchyard/lib/packet/packet.py:Packet.insert_header", "switchyard/lib/packet/packet.py:Packet.__setitem__", "switchyard/lib/packet/packet.py:Packet.to_bytes"]}
{"id": "C92", "title": "Emulated sockets: timeouts mean what they say", "statement": "After settimeout(t), gettimeout returns t and a receive on a socket with nothing waiting blocks when t is None, fails at once when t is 0, and fails after t otherwise, whatever timeouts were set before.", "quantifier": "all sockets, all earlier settings, all timeouts", "why_tests_cant": "Depends on the whole sequence of earlier settimeout/setblocking calls.", "anchors": ["switchyard/lib/socket/socketemu.py:socket.settimeout", "switchyard/lib/socket/socketemu.py:socket.gettimeout", "switchyard/lib/socket/socketemu.py:socket.setblocking"]}
{"id": "C93", "title": "Documented unit spellings are understood", "statement": "unhumanize_bandwidth reads n followed by k/K, m/M, g/G or t/T and a further letter as n times the right power of ten, times 8 exactly when that letter is B; unhumanize_delay reads n followed by any documented spelling of micro-, milli- or seconds as n of that unit; both return None for units they do not know.", "quantifier": "all numbers and all spellings of the documented unit families", "why_tests_cant": "The unit families are infinite (anything may follow the recognised letters) and so are the numbers.", "anchors": ["switchyard/lib/topo/util.py:unhumanize_bandwidth", "switchyard/lib/topo/util.py:unhumanize_delay"]}
{"id": "C94", "title": "Interface addresses are a set", "statement": "assign_ipaddr adds exactly the given address to ipaddrs, remove_ipaddr removes exactly the given one, both raise and change nothing when they cannot, and ipaddrs never holds an address twice.", "quantifier": "all interfaces, all histories of assignments and removals", "why_tests_cant": "Unbounded histories; several prefixes for the same address.", "anchors": ["switchyard/lib/interface.py:Interface.assign_ipaddr", "switchyard/lib/interface.py:Interface.remove_ipaddr"]}
{"id": "C95", "title": "Sending puts exactly the packet on the wire", "statement": "send_packet on a live network sends exactly the packet's bytes on the named device, however the device is named (object, name, number), refuses unknown devices with ValueError, and leaves the packet object usable: sending it again sends the same bytes.", "quantifier": "all networks, interfaces and packets", "why_tests_cant": "Every header stack, every combination of device types and every order of sends.", "anchors": ["switchyard/llnetreal.py:LLNetReal.send_packet", "switchyard/llnetreal.py:_RawSocket.send_packet"]}
{"id": "C96", "title": "Interfaces of a live network carry the configured addresses", "statement": "The interface object made for a device has exactly the configured IP addresses, each with the configured prefix length.", "quantifier": "all address lists and masks", "why_tests_cant": "All addresses and masks.", "anchors": ["switchyard/llnetreal.py:LLNetReal._assemble_devinfo"]}
{"id": "C97", "title": "Emulated transmission time", "statement": "The simulator delays a packet by the time its bits take at the link's capacity plus the link's propagation delay.", "quantifier": "all packets, capacities and delays", "why_tests_cant": "All packets.", "anchors": ["switchyard/sim/nodeexec.py:NodeExecutor.send_packet"]}
{"id": "C98", "title": "Checksum start argument", "statement": "checksum(data, start) folds a caller-supplied partial sum into the result: it equals the checksum of the data preceded by that 16-bit word (in the byte order the function uses); per its documentation start is an offset.", "quantifier": "all byte strings, all start values below 65536", "why_tests_cant": "All data and all start values.", "anchors": ["switchyard/lib/packet/common.py:checksum"]}
{"id": "C99", "title": "addInterface gives the new interface the given addresses", "statement": "addInterface(ethaddr, ipaddr) on a topology node creates one new interface with a name not used on that node before, with the given MAC and IP address, and leaves the other interfaces of all nodes alone.", "quantifier": "all topologies reached by any history, all nodes and address arguments", "why_tests_cant": "Unbounded histories of a stateful numbering scheme.", "anchors": ["switchyard/lib/topo/topobuild.py:Node.addInterface"]}
{"id": "C100", "title": "Headers are laid out on the wire as their RFCs draw them", "statement": "The bytes of every header the library serialises are the header's fields, most significant bit first, each with the width and in the place the RFC's picture gives it: Ethernet, 802.1Q, ARP, IPv4 and its options, IPv6 and its extension headers, UDP, TCP with each flag in its own bit, ICMP, ICMPv6 and the neighbour discovery options, RIPv2.", "quantifier": "all header values, all option lists, all payloads", "why_tests_cant": "A round-trip test passes when encoder and decoder agree on a wrong layout; only the picture itself, for all field values, shows that other machines read the same fields.", "anchors": ["switchyard/lib/packet/ethernet.py: to_bytes", "switchyard/lib/packet/arp.py: to_bytes", "switchyard/lib/packet/ipv4.py: to_bytes", "switchyard/lib/packet/ipv6.py: to_bytes", "switchyard/lib/packet/udp.py: to_bytes", "switchyard/lib/packet/tcp.py: to_bytes", "switchyard/lib/packet/icmp.py: to_bytes", "switchyard/lib/packet/icmpv6.py: to_bytes", "switchyard/lib/packet/ripv2.py: to_bytes"]}
{"id": "C101", "title": "A matcher accepts its own packet, again and again", "statement": "The matcher made from a packet accepts that packet and the packet with its computed fields filled in, whatever the wildcards and whether exact or not, as long as its predicates hold; matching a packet leaves nothing behind that changes a later answer.", "quantifier": "all packets that serialise, all wildcard sets and predicate lists, all repetitions", "why_tests_cant": "Matching serialises and so modifies both packets; every header class and every history of matches has to be covered.", "anchors": ["switchyard/lib/testing.py:_PacketMatcher.match"]}
{"id": "C102", "title": "Saving and restoring a matcher", "statement": "A matcher that is saved and restored accepts and refuses the same packets as the original.", "quantifier": "all reference packets, wildcards, predicates and all packets matched", "why_tests_cant": "The restored reference packet is parsed from bytes; that it is compared alike has to hold for every packet.", "anchors": ["switchyard/lib/testing.py:_PacketMatcher.__getstate__", "switchyard/lib/testing.py:_PacketMatcher.__setstate__"]}
{"id": "C103", "title": "An exact match is a match of the bytes", "statement": "A packet that an exact matcher without wildcards accepts has the same bytes on the wire as the reference packet (documentation: exact determines whether a byte-by-byte comparison is done).", "quantifier": "all reference packets and all packets", "why_tests_cant": "Every field of every header counts; a field that is not compared shows only with packets differing there.", "anchors": ["switchyard/lib/testing.py:_PacketMatcher._compute_comparison_attrs", "switchyard/lib/testing.py:_PacketMatcher._compare_packet_against_reference"]}
{"id": "C104", "title": "A packet that does not match is refused", "statement": "Matching a packet that can be serialised answers yes or no; it does not raise an exception, however different the packet is from the reference.", "quantifier": "all reference packets and all packets", "why_tests_cant": "The wrong packets that a program under test may send are unbounded.", "anchors": ["switchyard/lib/testing.py:_PacketMatcher.match"]}
{"id": "C105", "title": "The time limit for outputs", "statement": "While the next expectation of a scenario is an output, an alarm makes the test fail once the scenario's time limit has passed; at all other times no alarm is pending and a late alarm is ignored.", "quantifier": "all scenarios and all sequences of receive and send calls, failures and alarms", "why_tests_cant": "The timer is armed and cancelled as expectations are completed; every history of calls and signals counts.", "anchors": ["switchyard/lib/testing.py:TestScenario.testpass", "switchyard/lib/testing.py:TestScenario._timer_expiry", "switchyard/lib/testing.py:TestScenario.cancel_timer"]}
{"id": "C106", "title": "Compiled scenario files", "statement": "A compiled scenario is written to the file whose name has the suffix .srpy instead of .py, opens again to the same contents, and a file whose contents do not belong to its digest is refused.", "quantifier": "all file names, all contents, all modifications of files", "why_tests_cant": "All file names and all corruptions cannot be enumerated.", "anchors": ["switchyard/lib/testing.py:compile_scenario", "switchyard/lib/testing.py:uncompile_scenario"]}
{"id": "C107", "title": "Interfaces of a scenario are numbered in order", "statement": "Interfaces added to a scenario without an explicit number get the numbers 0, 1, 2, ... in the order in which they are added, no two the same, and sending on a number sends on that interface.", "quantifier": "all sequences of add_interface calls", "why_tests_cant": "Unbounded sequences, including names added again.", "anchors": ["switchyard/lib/testing.py:TestScenario.add_interface", "switchyard/llnettest.py:LLNetTest.send_packet"]}
{"id": "C108", "title": "Parsed headers follow the assigned numbers", "statement": "In a packet parsed from bytes the first header is of the class asked for, every header is followed by a header of the class assigned to the EtherType, IP protocol, next-header or address-family number it carries, and parsing stops, leaving raw contents, only at a number to which no class is assigned.", "quantifier": "all byte strings, all first header classes except RIPv2 (whose from_bytes does not return the rest), chains of any length", "why_tests_cant": "Header chains are unbounded and each dispatch table entry matters for each position in the chain.", "anchors": ["switchyard/lib/packet/packet.py:Packet._parse", "switchyard/lib/packet/ethernet.py:Ethernet.next_header_class", "switchyard/lib/packet/ipv4.py:IPv4.next_header_class", "switchyard/lib/packet/ipv6.py:IPv6.next_header_class", "switchyard/lib/packet/null.py:Null.next_header_class"]}
{"id": "C109", "title": "A RIPv2 message is a list of routes", "statement": "h[i] and h[i] = r act on the route at position i, negative positions counting from the end, and raise IndexError for every other position; a message is accepted only in version 2 and with a known command, which it then has; a route is read from exactly 20 bytes.", "quantifier": "all RIPv2 headers, all integers i, all routes, all byte strings", "why_tests_cant": "All lengths and all indices.", "anchors": ["switchyard/lib/packet/ripv2.py:RIPv2.__getitem__", "switchyard/lib/packet/ripv2.py:RIPv2.__setitem__", "switchyard/lib/packet/ripv2.py:RIPv2.from_bytes", "switchyard/lib/packet/ripv2.py:RIPRouteEntry.from_bytes"]}
{"id": "C110", "title": "Membership of headers in packets", "statement": "h in p is true exactly if some item of the packet compares equal to h before any comparison raises, and false exactly if every item compares unequal.", "quantifier": "all packets and all items", "why_tests_cant": "All packets of all lengths.", "anchors": ["switchyard/lib/packet/packet.py:Packet.__contains__"]}
{"id": "C111", "title": "Defaults and ranges of ICMPv6 options and data, and routing header types", "statement": "A prefix-information option takes exactly the nonnegative lifetimes and changes nothing else; assigning the type of an ICMPv6 message gives data with the default contents of that type; only type-2 routing headers are accepted and their fields are the bytes of the header.", "quantifier": "all integers, all options, all message types, all byte strings", "why_tests_cant": "All integers and byte strings.", "anchors": ["switchyard/lib/packet/icmpv6.py:ICMPv6OptionPrefixInformation.valid_lifetime", "switchyard/lib/packet/icmpv6.py:ICMPv6OptionPrefixInformation.preferred_lifetime", "switchyard/lib/packet/icmpv6.py:ICMPv6RouterAdvertisement", "switchyard/lib/packet/ipv6.py:IPv6RouteOption.from_bytes"]}
{"id": "C112", "title": "Texts of IPv4 addresses and interface addresses", "statement": "A text is accepted as an IPv4 address exactly if it is the dotted quad of one, and as an interface address exactly if it is a dotted quad alone (prefix 32) or followed by a slash and a number up to 32, a netmask or a host mask.", "quantifier": "all texts", "why_tests_cant": "All texts.", "anchors": ["switchyard/lib/address.py:IPAddr", "switchyard/lib/interface.py:Interface.assign_ipaddr"]}
{"id": "C113", "title": "Arguments of assign_ipaddr and addresses of devices", "statement": "assign_ipaddr adds exactly the address its argument denotes (0.0.0.0/32 for None), raises for anything else and then changes nothing; the Ethernet address of an interface made for a device is the last link-layer address the system reports.", "quantifier": "all interfaces, all arguments, all lists of addresses reported", "why_tests_cant": "All sets of addresses and all texts.", "anchors": ["switchyard/lib/interface.py:Interface.assign_ipaddr", "switchyard/llnetreal.py:LLNetReal._assemble_devinfo"]}
{"id": "C114", "title": "State of a new socket", "statement": "A new socket has the protocol asked for (UDP if none), the default timeout in force, blocks, is not connected, is bound to 0.0.0.0, has received nothing, and creating it changes no other socket.", "quantifier": "all states of the socket layer, all protocols, all port draws", "why_tests_cant": "All histories of sockets.", "anchors": ["switchyard/lib/socket/socketemu.py:socket.__init__"]}
{"id": "C115", "title": "Links of a topology: removal and neighbours", "statement": "Removing a link removes exactly that link, or raises and changes nothing if there is none; the neighbours of a node are exactly the nodes it has a link with.", "quantifier": "all topologies, all pairs of names", "why_tests_cant": "All graphs.", "anchors": ["switchyard/lib/topo/topobuild.py:Topology.removeLink", "switchyard/lib/topo/topobuild.py:Topology.neighbors"]}
{"id": "C116", "title": "Characteristics of a link", "statement": "A capacity or delay given for a link, as a number or as text with units, is what is recorded for it, a false value leaves the recorded one, no other link or node changes, and with both given the call raises exactly if the capacity is 10^15 bits per second or more.", "quantifier": "all topologies, links, capacities and delays", "why_tests_cant": "All graphs and all numbers.", "anchors": ["switchyard/lib/topo/topobuild.py:Topology.setLinkCharacteristics"]}
{"id": "C117", "title": "OpenFlow match semantics", "statement": "matches_packet accepts a packet exactly if every field of its Ethernet, VLAN, ARP, IP and transport headers that is not covered by a wildcard equals the field of the match, addresses being compared up to the wildcarded low bits.", "quantifier": "all matches, all packets", "why_tests_cant": "All wildcard sets, prefix lengths and packets.", "anchors": ["switchyard/lib/openflow/openflow10.py:OpenflowMatch.matches_packet"]}
{"id": "C118", "title": "An OpenFlow match built from a packet accepts it", "statement": "build_from_packet returns a match without wildcards that carries the fields of the packet's headers and accepts the packet.", "quantifier": "all packets", "why_tests_cant": "All header combinations and field values.", "anchors": ["switchyard/lib/openflow/openflow10.py:OpenflowMatch.build_from_packet"]}
{"id": "C119", "title": "OpenFlow flag sets on the wire", "statement": "A set of flags read from an integer and written again gives the flags of that integer, and a set written and read is the same set.", "quantifier": "all sets and all integers", "why_tests_cant": "All subsets.", "anchors": ["switchyard/lib/openflow/openflow10.py:_make_bitmap", "switchyard/lib/openflow/openflow10.py:_unpack_bitmap"]}
{"id": "C120", "title": "Comparing OpenFlow matches", "statement": "If matches_entry says that one match falls under another, every packet accepted by the first is accepted by the second; two matches overlap exactly if some packet is accepted by both.", "quantifier": "all pairs of matches, all packets", "why_tests_cant": "All pairs of wildcard sets and all packets.", "anchors": ["switchyard/lib/openflow/openflow10.py:OpenflowMatch.matches_entry", "switchyard/lib/openflow/openflow10.py:OpenflowMatch.overlaps_with"]}
{"id": "C121", "title": "OpenFlow messages on the wire", "statement": "Every OpenFlow 1.0 message (errors, echo, vendor, features, configuration, packet-in, packet-out, flow modification and removal, port status and modification, queue configuration) serialises to the bytes of the specification with its length field counting them, and parsing those bytes gives the message back; parsing any byte string ends with a message or an exception.", "quantifier": "all messages with all field values, lists of any length, all byte strings", "why_tests_cant": "All field values and list lengths, and all byte strings.", "anchors": ["switchyard/lib/openflow/openflow10.py:OpenflowHeader", "switchyard/lib/openflow/openflow10.py:OpenflowFlowMod", "switchyard/lib/openflow/openflow10.py:OpenflowSwitchFeaturesReply", "switchyard/lib/openflow/openflow10.py:OpenflowPhysicalPort", "switchyard/lib/openflow/openflow10.py:OpenflowQueueGetConfigReply"]}
{"id": "C122", "title": "An OpenFlow switch forwards by its flows", "statement": "Flow-modification messages from the controller change the flow table, and a packet from the network that an entry matches is sent by that entry's actions; all other packets go to the controller, for as long as the switch runs.", "quantifier": "all histories of controller messages and packets, in any order", "why_tests_cant": "All interleavings of messages and packets.", "anchors": ["switchyard/lib/openflow/ofswitch.py:OpenflowSwitch._flow_mod_handler", "switchyard/lib/openflow/ofswitch.py:OpenflowSwitch._handle_datapath", "switchyard/lib/openflow/ofswitch.py:OpenflowSwitch.datapath_loop"]}
{"id": "C123", "title": "An OpenFlow switch answers its controller", "statement": "Every hello, features, configuration, barrier, echo and statistics request is answered once, in order, with its transaction number; configuration replies tell the configuration last set; unknown types are answered by an error; packet-ins carry the number of the port, increasing transaction numbers and the first bytes of the packet, as many as last configured; port numbers in features replies are those of packet-ins.", "quantifier": "all histories of controller messages and packets, in any order, both protocol versions", "why_tests_cant": "All interleavings of messages and packets.", "anchors": ["switchyard/lib/openflow/ofswitch.py:OpenflowSwitch._controller_thread", "switchyard/lib/openflow/ofswitch.py:OpenflowSwitch._send_packet_in", "switchyard/lib/openflow/ofswitch.py:OpenflowSwitch._hello_handler", "switchyard/lib/openflow/ofswitch.py:OpenflowSwitch._get_config_request_handler"]}
{"id": "C124", "title": "A controller connection is made when it is needed", "statement": "After a call that needs the connection, the object is connected if the controller accepts, and what is sent reaches it.", "quantifier": "all histories of calls", "why_tests_cant": "All histories.", "anchors": ["switchyard/lib/openflow/ofswitch.py:ControllerConnection.connect"]}
{"id": "C125", "title": "Packet-out messages", "statement": "A packet-out message sends the packet it names or carries exactly as its actions say: to the numbered port, back, or once to every other interface, in order; a buffered packet leaves the buffer.", "quantifier": "all reachable states of the switch, all packets and action lists", "why_tests_cant": "All histories, action lists and sets of interfaces.", "anchors": ["switchyard/lib/openflow/ofswitch.py:OpenflowSwitch._packet_out_handler", "switchyard/lib/openflow/openflow10.py:ActionOutput.__call__"]}
{"id": "C126", "title": "A saved topology is restored", "statement": "The text a topology serializes to can be read back, and the topology read has the same name, nodes (kinds, labels, order), interfaces with their Ethernet and IP addresses, links and link attributes, and can be worked on like the one saved.", "quantifier": "all histories of operations that build a topology", "why_tests_cant": "All topologies, names and addresses.", "anchors": ["switchyard/lib/topo/topobuild.py:Topology.serialize", "switchyard/lib/topo/topobuild.py:Topology.unserialize", "switchyard/lib/topo/topobuild.py:Node.__init__", "switchyard/lib/topo/topobuild.py:Node.asDict"]}
{"id": "C127", "title": "Prefixing node names of a topology", "statement": "Adding a prefix renames every node from x to prefix_x and changes nothing else: links, their interfaces and attributes, kinds and interfaces of the nodes stay; without a prefix the name of the topology is used, and with copy=True the original stays as it is and a renamed copy is returned.", "quantifier": "all histories of operations that build a topology, all prefixes", "why_tests_cant": "All topologies and names, including names that clash with renamed ones.", "anchors": ["switchyard/lib/topo/topobuild.py:Topology.addNodeLabelPrefix", "switchyard/lib/topo/topobuild.py:Topology.__relabel_graph"]}
{"id": "C128", "title": "The union of two topologies", "statement": "The union of two topologies has exactly the nodes and links of both, each as it was, raises if node names clash, and modifies neither; its interfaces have different Ethernet addresses if those of both are assigned automatically.", "quantifier": "all pairs of histories that build topologies", "why_tests_cant": "All pairs of topologies.", "anchors": ["switchyard/lib/topo/topobuild.py:Topology.union"]}
{"id": "C129", "title": "An OpenFlow match holds what it is given", "statement": "After any sequence of assignments and of add, remove, reset and wildcard-all calls, each field of a match reads the last value assigned that it accepts, a wildcard is set exactly if it was added and not removed since, and the numbers of ignored address bits are the last ones assigned, between 0 and 32; an assignment that raises changes nothing.", "quantifier": "all histories of operations on a match object", "why_tests_cant": "All histories and all integers.", "anchors": ["switchyard/lib/openflow/openflow10.py:OpenflowMatch"]}
{"id": "C130", "title": "OpenFlow statistics messages", "statement": "Statistics requests and replies are laid out as the OpenFlow 1.0 specification says, reading what was written gives an equal object, and what another implementation writes by the specification is read with the meaning it has there; parsing ends for every input.", "quantifier": "all statistics objects with attributes in range; all byte strings", "why_tests_cant": "All attribute values, action lists and byte strings.", "anchors": ["switchyard/lib/openflow/openflow10.py:_OpenflowStatsRequest", "switchyard/lib/openflow/openflow10.py:IndividualFlowStatsReply", "switchyard/lib/openflow/openflow10.py:AggregateFlowStatsReply", "switchyard/lib/openflow/openflow10.py:TableStatsReply", "switchyard/lib/openflow/openflow10.py:PortStatsReply", "switchyard/lib/openflow/openflow10.py:QueueStatsReply"]}
{"id": "C131", "title": "Length of an OpenFlow message", "statement": "len(message) is the number of bytes to_bytes() returns.", "quantifier": "all OpenFlow messages that can be serialised", "why_tests_cant": "All messages and attribute values.", "anchors": ["switchyard/lib/packet/packet.py:Packet.size", "switchyard/lib/openflow/openflow10.py:OpenflowHeader.size", "switchyard/lib/openflow/openflow10.py:QueueStatsReply.size", "switchyard/lib/openflow/openflow10.py:VendorStatsRequest.size"]}
{"id": "C132", "title": "Capture files give back what was written", "statement": "Packets written to a capture file are read back, or handed to the function given to loop, in order and complete, those a filter drops left out, with the bytes and lengths written and the times given up to a microsecond; copying a capture file keeps the times; after the last packet reading gives None for ever; anything but bytes is refused.", "quantifier": "all sequences of packets and nonnegative times that a double holds, all filters, any number of reads", "why_tests_cant": "Holds for all packets and all floating-point times.", "anchors": ["switchyard/pcapffi.py:PcapDumper", "switchyard/pcapffi.py:PcapReader", "switchyard/pcapffi.py:_PcapFfi._recv_packet"]}
{"id": "C133", "title": "Receiving from a capture device", "statement": "recv_packet(timeout) gives the first packet that arrives before the timeout is over, or None if none does, and waits without end if the timeout is None or negative; errors of libpcap raise PcapException; send_packet returns True exactly if libpcap took the bytes.", "quantifier": "all devices, timeouts and schedules of arrivals and clock readings", "why_tests_cant": "Depends on arrivals and on the clock.", "anchors": ["switchyard/pcapffi.py:PcapLiveDevice.recv_packet", "switchyard/pcapffi.py:PcapLiveDevice.send_packet", "switchyard/pcapffi.py:PcapLiveDevice.stats"]}
{"id": "C134", "title": "Filters on all open devices", "statement": "set_bpf_filter_on_all_devices sets the filter on every device that is open, also while other threads open and close devices, and on none if one refuses it; it never uses a handle that is closed; no handle is closed twice, closing a closed device raises, and a constructor that raises leaves no device open.", "quantifier": "all histories of opening, creating, activating, filtering, closing and dropping devices, with close in two steps", "why_tests_cant": "All histories and interleavings.", "anchors": ["switchyard/pcapffi.py:PcapLiveDevice.set_bpf_filter_on_all_devices", "switchyard/pcapffi.py:PcapLiveDevice.close", "switchyard/pcapffi.py:PcapLiveDevice.__init__"]}
{"id": "C135", "title": "Settings of a capture device", "statement": "blocking reads the value that was assigned; a device that was created and activated can receive; activate raises only if the device could not be activated; set_tstamp_type takes exactly the types the device lists.", "quantifier": "all devices, values and histories", "why_tests_cant": "All histories and devices.", "anchors": ["switchyard/pcapffi.py:PcapLiveDevice.blocking", "switchyard/pcapffi.py:PcapLiveDevice.activate", "switchyard/pcapffi.py:PcapLiveDevice.create", "switchyard/pcapffi.py:PcapLiveDevice.set_tstamp_type"]}
{"id": "C136", "title": "Wiring of a simulation", "statement": "Simulating a topology gives a network with exactly its nodes in which a packet sent on an interface leads to the interface at the other end of the link, with the capacity and delay of the link, and every interface of a node can be sent on.", "quantifier": "all topologies made by any history of operations", "why_tests_cant": "All topologies.", "anchors": ["switchyard/sim/cli.py:SyssGlue.rebuildGlue", "switchyard/sim/cli.py:SyssGlue.__addLink", "switchyard/sim/nodeexec.py:NodeExecutor.addEgressInterface"]}
{"id": "C137", "title": "No packet is lost, copied or misdirected in a simulation", "statement": "In a running simulation every packet sent on an interface comes once to the interface at the other end of its link and nowhere else, or is still on its way; packets handed to a node as its own come to it once and in order; taking a packet never fails.", "quantifier": "all topologies that can be simulated and all interleavings of sending, delivery, receiving and changes of monitors", "why_tests_cant": "All interleavings of threads.", "anchors": ["switchyard/sim/nodeexec.py:NodeExecutor", "switchyard/sim/cli.py:SyssGlue"]}
{"id": "C138", "title": "Receiving on a simulated node", "statement": "recv_packet(timeout) on a simulated node returns a packet as (time, port, packet) as soon as there is one, NoPackets if the timeout is over, Shutdown if the node is stopped, and waits without limit if the timeout is None, as the interface LLNetBase documents.", "quantifier": "all timeouts, arrivals and clock readings", "why_tests_cant": "Depends on arrivals and on the clock.", "anchors": ["switchyard/sim/nodeexec.py:NodeExecutor.recv_packet", "switchyard/llnetbase.py:LLNetBase.recv_packet"]}
{"id": "C139", "title": "Abbreviated simulator commands", "statement": "In the simulator's command line a line whose first word is the beginning of the name of exactly one command runs that command with the remaining words; a line whose first word begins no command does nothing but complain.", "quantifier": "all lines, with any white space", "why_tests_cant": "All lines and abbreviations.", "anchors": ["switchyard/sim/cli.py:Cli.default"]}
{"id": "C140", "title": "Simulator commands that change the network", "statement": "The commands add, remove and set, in every form their help texts give, change the network as the topology operation they name does, and the simulation that runs afterwards is that of the changed network.", "quantifier": "all networks, and all words, abbreviations and orders of settings in a command", "why_tests_cant": "All command lines and networks.", "anchors": ["switchyard/sim/cli.py:Cli.do_add", "switchyard/sim/cli.py:Cli.do_remove", "switchyard/sim/cli.py:Cli.do_set", "switchyard/sim/cli.py:Cli.__gather_link_characteristics"]}
{"id": "C141", "title": "Refused simulator commands", "statement": "A command the simulator refuses leaves the network as it was, and the command line goes on.", "quantifier": "all networks and all commands that are malformed or cannot be done", "why_tests_cant": "All command lines and networks.", "anchors": ["switchyard/sim/cli.py:Cli.do_add", "switchyard/sim/cli.py:Cli.do_remove", "switchyard/sim/cli.py:Cli.do_set"]}
{"id": "C142", "title": "Loading, running code and leaving", "statement": "load replaces the network by that in the file and simulates it; exec runs the given code on the nodes; exit stops all nodes and ends.", "quantifier": "all networks, files and moments", "why_tests_cant": "All networks and thread schedules.", "anchors": ["switchyard/sim/cli.py:Cli.do_load", "switchyard/sim/cli.py:Cli.do_exec", "switchyard/sim/cli.py:Cli.do_exit", "switchyard/sim/cli.py:SyssGlue.stop", "switchyard/sim/nodeexec.py:NodeExecutor.shutdown"]}
{"id": "C143", "title": "Monitors of the simulator", "statement": "monitor attaches a monitor of the given kind to the given interfaces (one, all of a node, or all) until unmonitor removes it; it sees every packet received there and no other; captures of different interfaces go to different files whose names begin with the given prefix.", "quantifier": "all networks, places and interleavings of receiving, sending and other monitors", "why_tests_cant": "All interleavings.", "anchors": ["switchyard/sim/cli.py:Cli.do_monitor", "switchyard/sim/cli.py:Cli.do_unmonitor", "switchyard/sim/cli.py:SyssGlue.addMonitor", "switchyard/sim/monitor.py"]}
{"id": "C144", "title": "Unsaved changes", "statement": "If the network differs from the file last saved or loaded, exit and load ask first and go on only if the answer is a beginning of yes.", "quantifier": "all histories of commands and thread steps, all answers", "why_tests_cant": "All histories.", "anchors": ["switchyard/sim/cli.py:Cli.do_exit", "switchyard/sim/cli.py:Cli.do_load", "switchyard/sim/cli.py:Cli.do_save", "switchyard/sim/cli.py:Cli.__get_yn"]}
{"id": "C145", "title": "Sending from the simulator's command line", "statement": "replay sends all packets of a capture file in order on the given interface and nothing else; sendeth hands one packet to the named node; both complain if what is named does not exist.", "quantifier": "all networks, interfaces and capture files", "why_tests_cant": "All networks and files.", "anchors": ["switchyard/sim/cli.py:Cli.do_replay", "switchyard/sim/cli.py:Cli.do_sendeth"]}
{"id": "C146", "title": "The code that runs is the code in the named file", "statement": "Naming a file of user code, a scenario or an application on the command line, with or without its ending, runs the code in that file; user code is entered at main, or at switchy_main if there is no main; if it has neither, an ImportError is raised.", "quantifier": "all files, current directories, search paths and modules loaded before", "why_tests_cant": "Depends on everything loaded and on the search path.", "anchors": ["switchyard/importcode.py:import_or_die", "switchyard/lib/testing.py:get_test_scenario_from_file"]}
{"id": "C147", "title": "What the command line asks for is what is done", "statement": "swyard runs user code live on exactly the devices chosen by -i and -x with the host's traffic blocked by the rules given with -f (all of it by default), runs the given scenarios with -t without touching the host, only compiles with -c, only lists with --listif, starts the simulator with --cli on the topology given with --topology, runs nothing with --dryrun, and restores the firewall in every case.", "quantifier": "all combinations of options and all ways the steps can fail", "why_tests_cant": "All combinations of options and failures.", "anchors": ["switchyard/swyard.py:main", "switchyard/syinit.py:start_framework", "switchyard/llnetreal.py:main_real", "switchyard/llnettest.py:main_test"]}
{"id": "C148", "title": "An application starts when the network is set up", "statement": "An application given with -a is started if and only if the setup succeeded, after the firewall is in force; if it is not started its thread ends.", "quantifier": "all combinations of options, failures and interleavings of the two threads", "why_tests_cant": "All interleavings and failures.", "anchors": ["switchyard/syinit.py:start_framework", "switchyard/syinit.py:_start_app"]}
{"id": "C149", "title": "A live program ends when its code ends", "statement": "When user code ends, by returning or by an exception, the network is shut down; when an application given with -a ends, the network is shut down.", "quantifier": "all options, exceptions and interleavings", "why_tests_cant": "All interleavings and failures.", "anchors": ["switchyard/llnetreal.py:main_real", "switchyard/llnetreal.py:LLNetReal.shutdown", "switchyard/syinit.py:_start_app"]}
{"id": "C150", "title": "A scenario can deliver a value taken from what the program sent", "statement": "If an input expectation is made with copyfromlastout=(port, header, attribute, header', attribute'), then the packet delivered is the one given, except that attribute' of its first header' has the value that attribute of the first header had in the packet the program last sent on that port; several such tuples can be given in a list.", "quantifier": "all scenarios, packets sent, ports, header classes, attributes and values", "why_tests_cant": "All packets, attributes, values and histories of expectations.", "anchors": ["switchyard/lib/testing.py:PacketInputEvent", "switchyard/lib/testing.py:TestScenario.lastout", "switchyard/lib/testing.py:TestScenario.testpass"]}
{"id": "C151", "title": "Packets do not change each other", "statement": "Changing, extending, shortening or serialising a packet never changes another packet: a deep copy and a sum of packets are new packets, and neither they nor their operands change when the other is changed.", "quantifier": "all histories of statements that make, parse, change, extend, add, copy and serialise packets", "why_tests_cant": "All histories of statements and all ways headers are shared.", "anchors": ["switchyard/lib/packet/packet.py:Packet.__add__", "switchyard/lib/packet/packet.py:Packet.__iadd__", "switchyard/lib/packet/packet.py:Packet.to_bytes", "switchyard/lib/packet/packet.py:PacketHeaderBase.__add__"]}
{"id": "C152", "title": "An expectation means the packet as it was when it was made", "statement": "An input or output expectation made of a packet stands for the packet as it was when the expectation was made: what is done afterwards with this or any other packet, by the author or by the program, changes neither what is delivered nor what is accepted.", "quantifier": "all histories of statements of the author and the program, all packets and ways they share headers", "why_tests_cant": "All histories of statements and all sharing of objects.", "anchors": ["switchyard/lib/testing.py:PacketInputEvent.__init__", "switchyard/lib/testing.py:_PacketMatcher.__init__", "switchyard/lib/testing.py:PacketOutputEvent.match"]}
{"id": "C153", "title": "A packet received in a test belongs to the program", "statement": "The packet received is a new one: changing it changes no packet of the author, no packet received before, and nothing that is received later.", "quantifier": "all histories, packets and changes", "why_tests_cant": "All histories of statements and all sharing of objects.", "anchors": ["switchyard/lib/testing.py:PacketInputEvent.generate_packet", "switchyard/llnettest.py:LLNetTest.recv_packet"]}
{"id": "C154", "title": "An event can be expected again", "statement": "Expecting an event object a second time means the same as expecting it the first time.", "quantifier": "all histories between the first and the second time", "why_tests_cant": "All histories of statements.", "anchors": ["switchyard/lib/testing.py:TestScenario.expect", "switchyard/lib/testing.py:PacketOutputEvent.match", "switchyard/lib/testing.py:PacketInputEvent.generate_packet"]}
{"id": "C155", "title": "A copied value is the value that was sent", "statement": "The value that copyfromlastout copies is the one the packet had when it was sent.", "quantifier": "all histories between sending and receiving", "why_tests_cant": "All histories of statements and all sharing of objects.", "anchors": ["switchyard/lib/testing.py:TestScenario.lastout", "switchyard/lib/testing.py:PacketOutputEvent.match"]}
{"id": "C156", "title": "An OpenFlow 1.3 message is read back", "statement": "Reading the bytes of a serialised OpenFlow 1.3 message gives a message with the same type, transaction and body, and reading the bytes of a body with from_bytes of its class gives the same body.", "quantifier": "all byte strings; all messages and bodies with values in range", "why_tests_cant": "All messages and all byte strings.", "anchors": ["switchyard/lib/openflow/openflow13.py:OpenflowHeader.from_bytes", "switchyard/lib/openflow/openflow13.py:OpenflowSwitchFeaturesReply.from_bytes", "switchyard/lib/openflow/openflow13.py:OpenflowFlowMod.from_bytes"]}
{"id": "C157", "title": "An OpenFlow 1.3 message can be serialised", "statement": "Every message made with OpenflowHeader.build of the OpenFlow 1.3 module and filled through the attributes of its body with values in range can be serialised.", "quantifier": "all message types, all histories of assignments to the body, all values", "why_tests_cant": "All histories of assignments.", "anchors": ["switchyard/lib/openflow/openflow13.py:OpenflowHeader.build", "switchyard/lib/openflow/openflow13.py:OpenflowHeader.to_bytes", "switchyard/lib/openflow/openflow13.py:OpenflowPacketOut.to_bytes", "switchyard/lib/openflow/openflow13.py:OpenflowFlowMod.to_bytes"]}
{"id": "C158", "title": "OpenFlow 1.3 messages have the layout of the specification", "statement": "A serialised OpenFlow 1.3 message consists of version, type, total length, transaction and the body with the fields and sizes of the specification.", "quantifier": "all messages and values", "why_tests_cant": "All values.", "anchors": ["switchyard/lib/openflow/openflow13.py:OpenflowHeader.to_bytes", "switchyard/lib/openflow/openflow13.py:OpenflowHeader.pre_serialize", "switchyard/lib/openflow/openflow13.py:OpenflowQueueGetConfigRequest.to_bytes"]}
{"id": "C159", "title": "OpenFlow 1.3 actions can name the reserved ports", "statement": "Output and enqueue actions of the OpenFlow 1.3 module can be serialised for every port of its enumeration, and for every physical port.", "quantifier": "all ports, queues and lists of actions", "why_tests_cant": "All ports and lists of actions.", "anchors": ["switchyard/lib/openflow/openflow13.py:ActionOutput.to_bytes", "switchyard/lib/openflow/openflow13.py:ActionEnqueue.to_bytes", "switchyard/lib/openflow/openflow13.py:OpenflowPort"]}
{"id": "C160", "title": "Assigning an attribute changes only this attribute", "statement": "A successful assignment to an attribute of a header changes no other attribute of the header, except those that are documented as views of the same field (tos and its parts, ttl and hoplimit, nextheader and protocol, the TCP flags) or as following it (code and data of an ICMP message when its type is assigned).", "quantifier": "all headers, attributes and values", "why_tests_cant": "All combinations of headers, attributes and values.", "anchors": ["switchyard/lib/packet/ipv4.py:IPv4.ecn", "switchyard/lib/packet/tcp.py:TCP._setflag", "switchyard/lib/packet/icmp.py:ICMP.icmptype", "switchyard/lib/packet/ethernet.py:Vlan.pcp"]}
{"id": "C161", "title": "Assigning an attribute that a header does not have is refused", "statement": "Assigning an attribute that a header class does not have raises AttributeError and changes nothing.", "quantifier": "all headers, attribute names and values", "why_tests_cant": "All combinations of headers, attributes and values.", "anchors": ["switchyard/lib/packet/packet.py:PacketHeaderBase", "switchyard/lib/packet/ipv6.py:IPv6DestinationOption", "switchyard/lib/packet/packet.py:NullPacketHeader"]}
{"id": "C162", "title": "Every packet can be printed", "statement": "str of a packet never raises: it gives the texts of its headers, in order, separated by bars. Serialising a packet does not change its text.", "quantifier": "all packets made of the library's headers with any attribute values", "why_tests_cant": "All combinations of header classes, options and values.", "anchors": ["switchyard/lib/packet/packet.py:Packet.__str__", "switchyard/lib/packet/icmpv6.py:ICMPv6RouterAdvertisement.__str__", "switchyard/lib/packet/ipv6.py:HomeAddress.__str__"]}
{"id": "C163", "title": "The text of a packet shows what identifies it", "statement": "Packets have the same text only if they have the same sequence of header classes and agree in addresses, ports, the type of what follows, VLAN identifiers, ARP operation, TCP flags and sequence numbers, ICMPv6 redirect destination and payload.", "quantifier": "all pairs of packets", "why_tests_cant": "All pairs of packets of any length.", "anchors": ["switchyard/lib/packet/packet.py:Packet.__str__", "switchyard/lib/packet/arp.py:Arp.__str__", "switchyard/lib/packet/tcp.py:TCP.__str__", "switchyard/lib/packet/icmpv6.py:ICMPv6RedirectMessage.__str__"]}
{"id": "C164", "title": "Attributes of OpenFlow 1.3 messages are what was assigned last", "statement": "After any sequence of assignments to the attributes of an OpenFlow 1.3 message body, each attribute reads as the value assigned to it last (lists have the new elements at their end), all other attributes are unchanged, and an assignment that raises changes nothing. Exactly the values outside an attribute's enumeration are refused. The type of a message is what was assigned last.", "quantifier": "all message bodies, all sequences of assignments, all values", "why_tests_cant": "All histories of assignments to all kinds of bodies.", "anchors": ["switchyard/lib/openflow/openflow13.py:OpenflowPacketIn.in_port", "switchyard/lib/openflow/openflow13.py:OpenflowError.errorcode", "switchyard/lib/openflow/openflow13.py:OpenflowHeader.type"]}
{"id": "C165", "title": "A packet that does not match is a test failure with a reason", "statement": "If the program sends a packet that is not the one expected on that port, send_packet raises a test failure (never another exception), whose message names the port and the reason: the differences, or the outcome of every predicate in order. Another port, another call, or a receive instead of a send is reported likewise, with the event that was expected.", "quantifier": "all scenarios, all packets sent, all wildcards and predicates, verbose or not", "why_tests_cant": "All packets against all expectations with all wildcards; the message is only built when something differs.", "anchors": ["switchyard/lib/testing.py:PacketOutputEvent.match", "switchyard/lib/testing.py:_PacketMatcher.fail_reason", "switchyard/llnettest.py:LLNetTest.send_packet"]}
{"id": "C166", "title": "The diagnosis names exactly what differs", "statement": "The reason given for a mismatch names the first position at which the header classes differ, or else every compared attribute that differs, with the value it has and the value it should have, and nothing else; there is a diagnosis exactly if the packet does not match. Wildcarded attributes are not shown. The verbose message shows the packet sent and the packet expected.", "quantifier": "all expected packets, all packets sent, all wildcards", "why_tests_cant": "All pairs of packets and all sets of wildcards.", "anchors": ["switchyard/lib/testing.py:_PacketMatcher.fail_reason", "switchyard/lib/testing.py:_PacketMatcher._showpkt"]}
{"id": "C167", "title": "Writing messages does not change what a scenario reports", "statement": "Whatever a program does, the messages made by the test harness (for logs and failures) do not influence which expectations are met: met and pending expectations together are always those of the scenario in their order, and each packet of a met input expectation is delivered.", "quantifier": "all scenarios, all sequences of receive and send calls, verbose or not", "why_tests_cant": "All histories of calls with all packets.", "anchors": ["switchyard/lib/testing.py:TestScenario.testpass", "switchyard/llnettest.py:LLNetTest.recv_packet", "switchyard/llnettest.py:LLNetTest.send_packet"]}
{"id": "C168", "title": "The summary lists every expectation once, in order", "statement": "The summary printed after a test run lists the expectations met under Passed, the first pending one under Failed and the rest under Pending, each once, in the order of the scenario, numbered from 1; the number stands before the description.", "quantifier": "all scenarios after all runs, all descriptions", "why_tests_cant": "All scenarios in all states, any number of expectations.", "anchors": ["switchyard/lib/testing.py:TestScenario.print_summary"]}
{"id": "C169", "title": "Comparing events and scenarios is an equivalence", "statement": "Comparing test events or scenarios with == is reflexive, symmetric and transitive, and equal ones expect the same: the same packets on the same ports compared in the same way, on the same interfaces with the same timeout.", "quantifier": "all pairs of events, all pairs of scenarios", "why_tests_cant": "All pairs of events and scenarios.", "anchors": ["switchyard/lib/testing.py:PacketInputEvent.__eq__", "switchyard/lib/testing.py:PacketOutputEvent.__eq__", "switchyard/lib/testing.py:TestScenario.__eq__"]}
{"id": "C170", "title": "The sanity check of a scenario finds what cannot be met", "statement": "The sanity check of a scenario warns exactly if a pending event is about an interface the scenario does not have, or an output event is about no port at all; it never raises.", "quantifier": "all scenarios", "why_tests_cant": "All scenarios with any number of events and ports.", "anchors": ["switchyard/lib/testing.py:TestScenario.scenario_sanity_check"]}
{"id": "C171", "title": "The message at the end names the ports without packets", "statement": "If the program ends while packets are expected, the message lists exactly the ports on which nothing was sent yet, as they are named in the scenario, in order, and those on which packets were sent.", "quantifier": "all output events in all states of fulfilment, all port names", "why_tests_cant": "All events with any number of ports in every state of fulfilment.", "anchors": ["switchyard/lib/testing.py:PacketOutputEvent.fail_reason", "switchyard/lib/testing.py:PacketOutputEvent.__str__"]}
{"id": "C172", "title": "The display option shows the header asked for", "statement": "If an expectation names a header class to display, messages show the first header of that class in full and of the others only the class; if the packet has no such header, or messages are verbose, the whole packet is shown.", "quantifier": "all packets, all header classes", "why_tests_cant": "All packets of any length and all classes.", "anchors": ["switchyard/lib/testing.py:SwitchyardTestEvent.format_pkt", "switchyard/lib/testing.py:PacketInputEvent.__str__"]}
{"id": "C173", "title": "The UDP stack sends each message as one packet for its flow", "statement": "The UDP stack example sends a message of an application as one IPv4 packet on the loopback device, with the flow's protocol, addresses and ports, correct lengths and the message's bytes as payload.", "quantifier": "all messages, addresses and ports, all sets of interface addresses", "why_tests_cant": "All messages of all lengths, all addresses, ports and interfaces.", "anchors": ["examples/udpstack.py:handle_app_data", "switchyard/llnetreal.py:LLNetReal.send_packet"]}
{"id": "C174", "title": "What one application sends another receives", "statement": "A message sent with one emulated socket to the address of another, carried by the stack and the loopback device, is delivered to that socket, or to the one bound to that port on all addresses, with the same data and the address it was sent from, and to no other; with no such socket it is dropped and nothing changes.", "quantifier": "all messages, all states of the socket emulation, all frames that carry the packet", "why_tests_cant": "All messages in all reachable states of any number of sockets.", "anchors": ["examples/udpstack.py:handle_network_data", "examples/udpstack.py:handle_app_data", "switchyard/lib/socket/socketemu.py:ApplicationLayer.send_to_app"]}
{"id": "C175", "title": "A socket bound to an address gets the answers to what it sends", "statement": "What is sent from a socket bound to an address comes from that address, so that an answer to it reaches the socket.", "quantifier": "all addresses a socket can be bound to, all answers", "why_tests_cant": "All addresses and messages.", "anchors": ["examples/udpstack.py:handle_app_data", "switchyard/lib/socket/socketemu.py:socket.bind"]}
{"id": "C176", "title": "The UDP stack goes on whatever arrives", "statement": "The UDP stack example handles every packet that arrives and every message applications send; it ends only when the network is shut down.", "quantifier": "all packets, all messages", "why_tests_cant": "All packets of any structure and all messages.", "anchors": ["examples/udpstack.py:main", "examples/udpstack.py:handle_network_data", "switchyard/lib/packet/packet.py:Packet.__getitem__"]}
{"id": "C177", "title": "The UDP stack sends every message once and in order", "statement": "Over every run of the UDP stack example, whatever applications and the network do in between, the messages applications send are sent to the network once each, in the order in which they were sent; those not sent yet are still queued.", "quantifier": "all interleavings of application calls, polls and received packets", "why_tests_cant": "All interleavings of any length.", "anchors": ["examples/udpstack.py:main", "switchyard/lib/socket/socketemu.py:ApplicationLayer.recv_from_app"]}
{"id": "C178", "title": "Routing options a program has made can be sent", "statement": "A source-route or record-route option made with any number of addresses and changed by any assignments of its pointer and addresses and any deletions (those that raise changing nothing) is written in as many bytes as it says and is read back as the same option.", "quantifier": "the three option classes, all numbers of addresses, all sequences of operations, all following bytes", "why_tests_cant": "All sequences of operations of any length, with any values.", "anchors": ["switchyard/lib/packet/ipv4.py:IPOptionXRouting", "switchyard/lib/packet/ipv4.py:IPOptionXRouting.__delitem__", "switchyard/lib/packet/ipv4.py:IPOptionXRouting.pointer"]}
{"id": "C179", "title": "Every legal routing option that arrives is understood", "statement": "Every source-route or record-route option of the form RFC 791 describes, including those whose route is complete, is parsed to an option with the pointer and the addresses sent.", "quantifier": "all type octets with the option's number, all numbers of slots, all pointers and addresses, all following bytes", "why_tests_cant": "All addresses, and all stages of a route.", "anchors": ["switchyard/lib/packet/ipv4.py:IPOptionXRouting.from_bytes", "switchyard/lib/packet/ipv4.py:IPOptionXRouting.pointer"]}
{"id": "C180", "title": "IPv4 options are written with their assigned type octets", "statement": "Every IPv4 option is written with the type octet (copy flag, class and number) the standards assign to it, and an option that is forwarded keeps the one it came with.", "quantifier": "all options of all classes in any state", "why_tests_cant": "All options with all contents, and all histories of operations on them.", "anchors": ["switchyard/lib/packet/ipv4.py:IPOptionXRouting.to_bytes", "switchyard/lib/packet/ipv4.py:IPOption4Bytes.to_bytes", "switchyard/lib/packet/ipv4.py:IPOptionTimestamp.to_bytes"]}
{"id": "C181", "title": "Lists of options behave like lists", "statement": "Reading, assigning, deleting and appending options in the lists of IPv4 and ICMPv6 options, and reading those of IPv6 extension headers, act on exactly the element that the position, from the front or the back, or the class names, and raise the documented errors otherwise, changing nothing; a list of IPv4 options made this way is written in raw_length() bytes and read back.", "quantifier": "all lists, all positions and classes, all sequences of operations", "why_tests_cant": "All lists of any length and all sequences of operations.", "anchors": ["switchyard/lib/packet/ipv4.py:IPOptionList", "switchyard/lib/packet/icmpv6.py:ICMPv6OptionList", "switchyard/lib/packet/ipv6.py:IPv6HopOption.__getitem__"]}
{"id": "C182", "title": "Timestamp options survive", "statement": "A timestamp option a program makes, with any flag set, and one that was received and is sent on, is written and read back as the same option.", "quantifier": "all flags, pointers and entries, all following bytes", "why_tests_cant": "All values of the flag and all entries.", "anchors": ["switchyard/lib/packet/ipv4.py:IPOptionTimestamp"]}
{"id": "C183", "title": "Configuring one header class concerns that class only", "statement": "After any calls of set_next_header_class_key, add_next_header_class and set_next_header_map on any header classes, what follows a header is determined by the calls made on its own class: the attribute is the one named last, the class for a value the one registered last for it since the table was last replaced.", "quantifier": "all sequences of calls on all classes, library and user-defined, all headers", "why_tests_cant": "All histories of configuration calls, interleaved over all classes, and all header values.", "anchors": ["switchyard/lib/packet/packet.py:PacketHeaderBase.add_next_header_class", "switchyard/lib/packet/packet.py:PacketHeaderBase.set_next_header_map", "switchyard/lib/packet/packet.py:PacketHeaderBase.set_next_header_class_key", "switchyard/lib/packet/packet.py:PacketHeaderBase.next_header_class"]}
{"id": "C184", "title": "Registering a header class leaves other packets alone", "statement": "Registering a class for a value of a header class changes nothing about how a packet is parsed in which no header of that class has that value.", "quantifier": "all earlier configurations, all registrations, all packets and first headers, all user-defined classes", "why_tests_cant": "All byte strings and all configurations.", "anchors": ["switchyard/lib/packet/packet.py:PacketHeaderBase.add_next_header_class", "switchyard/lib/packet/packet.py:Packet._parse"]}
{"id": "C185", "title": "User-defined headers are parsed back", "statement": "A packet that ends with a header of a user-defined class, registered (for a value the library has no class for) with the header before it, is written and parsed into the same headers, the user-defined one included, and written again as the same bytes; in particular for the two classes of the documentation.", "quantifier": "all registrations that only add, all user-defined classes that read back what they write, all packets of library headers before it", "why_tests_cant": "All user-defined classes, all header values and all packets.", "anchors": ["switchyard/lib/packet/packet.py:Packet._parse", "switchyard/lib/packet/packet.py:Packet.to_bytes", "documentation/code/udpappheader.py", "documentation/code/newheader.py"]}
{"id": "C186", "title": "Parsing ends under every configuration", "statement": "Whatever header classes were registered, parsing any byte string ends.", "quantifier": "all configurations, all user-defined classes, all byte strings and first headers", "why_tests_cant": "All byte strings and all configurations; non-termination cannot be observed by a test.", "anchors": ["switchyard/lib/packet/packet.py:Packet._parse", "switchyard/lib/packet/ipv4.py:IPv4.from_bytes"]}
{"id": "C187", "title": "Registering a header class makes no packet unparseable", "statement": "Registering user-defined classes for values the library has no class for never makes a packet raise that was parsed before, and leaves the headers the library finds in it as they were.", "quantifier": "all registrations that only add, all user-defined classes, all byte strings", "why_tests_cant": "All packets any sender may send to a program that has registered a class.", "anchors": ["switchyard/lib/packet/packet.py:Packet._parse", "documentation/code/udpappheader.py:UDPPing.from_bytes"]}
{"id": "C188", "title": "Every header class can be configured", "statement": "What follows a header can be configured for every header class that has the methods for it.", "quantifier": "all header classes, all sequences of configuration calls", "why_tests_cant": "All sequences of calls on all classes.", "anchors": ["switchyard/lib/packet/packet.py:PacketHeaderBase.next_header_class", "switchyard/lib/packet/ipv6.py:IPv6ExtensionHeader.next_header_class", "switchyard/lib/packet/arp.py:Arp.next_header_class", "switchyard/lib/packet/icmp.py:ICMP.next_header_class", "switchyard/lib/packet/ripv2.py:RIPv2.next_header_class", "switchyard/lib/packet/null.py:Null.next_header_class"]}
{"id": "C189", "title": "The host is left as it was, however the program ends", "statement": "After a program has run, whether it ended normally or by an exception, the packet filter and the ARP settings of the host are what they were before it started, and a firewall that could not be set up leaves nothing behind.", "quantifier": "all hosts, devices, rule lists, rules added by sockets, outcomes of the program, and environments in which commands may fail to start", "why_tests_cant": "Every point at which a command or the program may fail.", "anchors": ["switchyard/hostfirewall.py:Firewall", "switchyard/hostfirewall.py:_runcmd", "switchyard/syinit.py"]}
{"id": "C190", "title": "One firewall at a time", "statement": "While a firewall is in force another one is refused without touching the host; when there is none, because an attempt failed or the last one was left, a new one can be made.", "quantifier": "all platforms, hosts, rule lists and histories of attempts", "why_tests_cant": "All histories of attempts, failed ones included.", "anchors": ["switchyard/hostfirewall.py:Firewall"]}
{"id": "C191", "title": "Coloured text is shown in its colour and no other text is", "statement": "Text printed in a coloured block is shown in the colour of the innermost block around it, and all other text in the normal colour.", "quantifier": "all programs of printing, coloured blocks and exceptions, with all nestings", "why_tests_cant": "All programs and all places where an exception can be raised.", "anchors": ["switchyard/textcolor.py:TextColor", "switchyard/textcolor.py:red", "switchyard/textcolor.py:green"]}
{"id": "C192", "title": "Output without colours is plain text", "statement": "With colours switched off the output of a program contains no control sequences.", "quantifier": "all programs of printing, coloured blocks and exceptions", "why_tests_cant": "All programs.", "anchors": ["switchyard/textcolor.py:TextColor", "switchyard/syinit.py"]}
{"id": "C193", "title": "Socket names can be used as addresses", "statement": "The address recvfrom returns, and the names getsockname and getpeername return, can be passed to sendto, connect and bind, and mean the socket they were obtained from; names are the same exactly for the same address and port; the peer of a socket that is not connected raises the error send raises.", "quantifier": "all states of the sockets, all messages, addresses (IPv4 and IPv6) and ports, all later states", "why_tests_cant": "All addresses, and all times at which an answer may be sent.", "anchors": ["switchyard/lib/socket/socketemu.py:socket.getsockname", "switchyard/lib/socket/socketemu.py:socket.getpeername", "switchyard/lib/socket/socketemu.py:socket.recvfrom", "switchyard/lib/socket/socketemu.py:_stringify_addrs", "switchyard/lib/socket/socketemu.py:_normalize_addrs"]}
{"id": "C194", "title": "Addresses that do not exist are refused", "statement": "connect, sendto and bind accept exactly the texts that are IPv4 addresses or IPv6 addresses in a form of RFC 4291, with a port from 0 to 65535, and otherwise raise without changing anything.", "quantifier": "all texts, all port numbers, all states of the sockets", "why_tests_cant": "All texts.", "anchors": ["switchyard/lib/socket/socketemu.py:socket.connect", "switchyard/lib/socket/socketemu.py:socket.sendto", "switchyard/lib/socket/socketemu.py:socket.bind", "switchyard/lib/socket/socketemu.py:_normalize_addrs"]}
{"id": "C195", "title": "The parts of a datapath id are set independently", "statement": "In a switch-features reply the datapath id, its upper 16 and its lower 48 bits and the numbers of buffers and tables read as they were assigned, assigning one part leaves the others as they were, values that do not fit raise ValueError, and after any assignments the reply is written and parsed back as it is; the lower 48 bits can be given as a link address or as six bytes.", "quantifier": "all replies, all values of all types, all sequences of assignments, failed ones included", "why_tests_cant": "All sequences of assignments and all values.", "anchors": ["switchyard/lib/openflow/openflow10.py:OpenflowSwitchFeaturesReply.dpid", "switchyard/lib/openflow/openflow10.py:OpenflowSwitchFeaturesReply.dpid_low48", "switchyard/lib/openflow/openflow10.py:OpenflowSwitchFeaturesReply.dpid_high16", "switchyard/lib/openflow/openflow10.py:OpenflowSwitchFeaturesReply.nbuffers", "switchyard/lib/openflow/openflow10.py:OpenflowSwitchFeaturesReply.ntables"]}
{"id": "C196", "title": "A set of flags holds what was added since it was cleared", "statement": "The flags of a port, a flow modification, a port modification and a features reply are those added since they were last cleared; the number read for them has exactly their bits; writing and parsing keeps them; and an attribute that is assigned reads as the value assigned.", "quantifier": "all enumerations of flags, all sequences of calls, failed ones included, all values", "why_tests_cant": "All sequences of calls.", "anchors": ["switchyard/lib/openflow/openflow10.py:OpenflowPhysicalPort", "switchyard/lib/openflow/openflow10.py:OpenflowFlowMod.set_flag", "switchyard/lib/openflow/openflow10.py:OpenflowPortMod", "switchyard/lib/openflow/openflow10.py:OpenflowSwitchFeaturesReply.capabilities", "switchyard/lib/openflow/openflow10.py:_make_bitmap", "switchyard/lib/openflow/openflow10.py:_unpack_bitmap"]}
{"id": "C197", "title": "A test passes exactly for programs that do what it expects", "statement": "A program that receives packets in a loop and reacts to each passes a test scenario exactly if it lets no exception escape and, for every packet the scenario lets arrive, sends packets that the scenario expects, on the ports it expects them on, before the next packet arrives; and its run always ends.", "quantifier": "all programs that react to packets with a state of their own, all scenarios of usable expectations", "why_tests_cant": "All programs and all scenarios.", "anchors": ["switchyard/lib/testing.py:TestScenario", "switchyard/llnettest.py:LLNetTest.recv_packet", "switchyard/llnettest.py:LLNetTest.send_packet", "switchyard/llnettest.py:run_tests", "examples/myhub.py:main"]}
{"id": "C198", "title": "Tests of a hub accept hubs and nothing else", "statement": "A scenario that lets frames arrive and expects each to be flooded is passed by a program exactly if it sends each frame not addressed to it on all ports but the one it arrived on, once each, and nothing else; so the example hub passes, the hub that ignores its own addresses fails unless no frame is addressed to it, and the hub that rewrites the source address fails.", "quantifier": "all sets of interfaces, all lists of frames, exact and field-wise comparison, all programs", "why_tests_cant": "All programs and all lists of frames.", "anchors": ["examples/myhub.py:main", "examples/hubtests.py:hub_tests", "documentation/code/fullhub.py:main", "documentation/code/baaadhub.py:main", "switchyard/lib/testing.py:PacketOutputEvent"]}
{"id": "C199", "title": "What the simulator shows is the network as it is", "statement": "show nodes prints the names of all nodes; with a name, the kind of the node and each of its interfaces, ordered by name; show links prints each link exactly once, or those of the named node, with its capacity and its delay; show monitor prints exactly the monitored interfaces with the kinds of their monitors; an unknown name is complained about; and no show command changes anything or ends the simulator.", "quantifier": "all networks that can be built, all sets of monitors, all lines", "why_tests_cant": "All networks and all lines.", "anchors": ["switchyard/sim/cli.py:Cli.do_show", "switchyard/sim/cli.py:Cli.__show_nodes", "switchyard/sim/cli.py:Cli.__show_links", "switchyard/sim/cli.py:Cli.__show_monitors", "switchyard/lib/topo/util.py:humanize_bandwidth", "switchyard/lib/topo/util.py:humanize_delay", "switchyard/lib/topo/topobuild.py:Topology.setLinkCharacteristics"]}
{"id": "C200", "title": "Completion offers exactly the words that fit", "statement": "When a command line of the simulator is completed, exactly those next words are offered that can follow what precedes and that begin with what has been typed: the kinds of things, the nodes, the links, the monitored nodes, the ways to monitor; and a line completed this way does what it says.", "quantifier": "all networks, all sets of monitors, all beginnings of lines", "why_tests_cant": "All networks and all beginnings of lines.", "anchors": ["switchyard/sim/cli.py:Cli.__do_completion", "switchyard/sim/cli.py:Cli.complete_remove", "switchyard/sim/cli.py:Cli.complete_monitor", "switchyard/sim/cli.py:Cli.complete_unmonitor", "switchyard/sim/cli.py:Cli.complete_set", "switchyard/sim/cli.py:Cli.complete_add", "switchyard/sim/cli.py:Cli.complete_show"]}
{"id": "C201", "title": "A capture is read back as it was taken", "statement": "The capture program of the examples writes every packet it receives, in order, with the time it was captured, and prints each; the reading program, given that file, prints the same packets in the same order, and both count them.", "quantifier": "all sequences of captured packets, whatever their bytes, and all files read afterwards", "why_tests_cant": "All byte strings a network can carry, in all orders.", "anchors": ["examples/sydump.py", "examples/readpkt.py", "switchyard/pcapffi.py:PcapDumper.write_packet", "switchyard/pcapffi.py:PcapReader.recv_packet"]}
{"id": "C202", "title": "The sniffer logs every packet and says how many there were", "statement": "The sniffer of the examples logs the device and the text of every packet received, in order, passes over times without packets, and at its end prints how many packets it got.", "quantifier": "all sequences of packets, timeouts and shutdowns", "why_tests_cant": "All sequences of what receiving can give.", "anchors": ["examples/sniff.py:main"]}
{"id": "C203", "title": "The sending example sends one packet on every interface", "statement": "The sending program of the examples sends exactly one packet on each interface, in order, with the Ethernet address and an IPv4 address of that interface as sources.", "quantifier": "all lists of interfaces with their addresses", "why_tests_cant": "All sets of interfaces and addresses.", "anchors": ["examples/sendpkt.py:main"]}
{"id": "C204", "title": "A union and its parts are independent", "statement": "After two topologies have been united without renaming, nothing done to the union changes either of the two, and nothing done to them changes the union: each shows the nodes, interfaces, addresses and links that its own operations gave it.", "quantifier": "all histories of building, changing and uniting topologies, of any number of them", "why_tests_cant": "All histories on several topologies.", "anchors": ["switchyard/lib/topo/topobuild.py:Topology.union", "switchyard/lib/topo/topobuild.py:Topology.addLink", "switchyard/lib/topo/topobuild.py:Topology.setInterfaceAddresses", "switchyard/lib/topo/topobuild.py:Topology.removeNode", "switchyard/lib/topo/topobuild.py:Node.addInterface"]}
{"id": "C205", "title": "A simulated packet arrives as it was sent", "statement": "A packet that one simulated node sends is received by the other one with the headers and values it had when it was sent, whatever any node does with its packets meanwhile; and what a receiver does with a packet it has received is seen by nobody else.", "quantifier": "all networks, packets and histories of sending, delivering, receiving, changing and copying packets, at all nodes", "why_tests_cant": "All interleavings of what the nodes do with what travels.", "anchors": ["switchyard/sim/nodeexec.py:NodeExecutor.send_packet", "switchyard/sim/nodeexec.py:NodeExecutor.recv_packet", "switchyard/sim/linkem.py:LinkEmulator.run"]}
{"id": "C206", "title": "Monitors only watch", "statement": "Attaching a monitor that writes the packets of an interface to a file, or removing it, changes nothing that programs running in the simulator can see: they receive the same packets with the same contents, and the same exceptions.", "quantifier": "all networks, packets and histories with monitors attached and removed at any time", "why_tests_cant": "All histories with and without monitors.", "anchors": ["switchyard/sim/nodeexec.py:NodeExecutor.recv_packet", "switchyard/sim/monitor.py:PcapMonitor.__call__"]}
{"id": "C207", "title": "An interrupted compilation leaves no wrong scenario", "statement": "If compiling a scenario to a file is interrupted at any point, the file afterwards is what it was before, or is refused when it is opened, or is complete and opens to the scenario that was compiled; it never opens to anything else.", "quantifier": "all scenarios, all former contents of the file, all points of interruption", "why_tests_cant": "The interruption can come after any character that has been written.", "anchors": ["switchyard/lib/testing.py:compile_scenario", "switchyard/lib/testing.py:uncompile_scenario"]}
{"id": "C208", "title": "An interrupted save leaves no wrong topology", "statement": "If saving a topology to a file is interrupted at any point, the file afterwards is what it was before, or is refused when it is loaded, or is complete; it never loads as anything else. What is written is read back as it was, whatever characters the names contain, and does not depend on the encoding of the file.", "quantifier": "all topologies built by any history, all names, all former contents of the file, all points of interruption", "why_tests_cant": "The interruption can come after any character, and names can contain any characters.", "anchors": ["switchyard/lib/topo/topobuild.py:save_to_file", "switchyard/lib/topo/topobuild.py:Topology.serialize", "switchyard/lib/topo/topobuild.py:Topology.unserialize"]}
{"id": "C209", "title": "Parsing a malformed packet raises only the documented errors", "statement": "Constructing a packet from any bytes gives a packet or raises NotEnoughDataError or ValueError (or a subclass); no other exception comes out of it, so a program that handles these two handles every malformed frame.", "quantifier": "all byte strings, all classes of first headers", "why_tests_cant": "There are infinitely many malformed packets; which exceptions occur at all is a statement about all of them.", "anchors": ["switchyard/lib/packet/packet.py:Packet._parse", "switchyard/lib/packet/icmpv6.py", "switchyard/lib/packet/ipv4.py:IPOptionList.from_bytes", "switchyard/lib/packet/ipv6.py:IPv6HopOption.from_bytes", "switchyard/lib/packet/arp.py:Arp.from_bytes"]}
{"id": "C210", "title": "Ethernet addresses work as keys and in lists", "statement": "A dictionary with EthAddr objects as keys is a map from six-byte addresses: after any sequence of assignments and deletions, looking up an address, however the object was made, gives what was stored last for it, and deleting raises KeyError exactly if it is not there. Objects that compare equal to an address can be used in its place, and asking whether something equals an address or is in a list of addresses gives an answer for every object.", "quantifier": "all histories of assignments and deletions, all addresses, all hash functions of bytes and str", "why_tests_cant": "Depends on hash values and on every history.", "anchors": ["switchyard/lib/address/__init__.py:EthAddr.__eq__", "switchyard/lib/address/__init__.py:EthAddr.__hash__", "switchyard/lib/openflow/ofswitch.py:TableEntry.__hash__"]}
{"id": "C211", "title": "A simulated node answers like any other network object", "statement": "A program gets the same answers from a simulated node as from a live or test network with the same interfaces: all interfaces, interfaces by name, IP address and Ethernet address (KeyError if there is none), testmode; the callback it sets is told of interfaces going up and down; and interfaces to send on can be named by name, number or object.", "quantifier": "all sets of interfaces, questions and histories", "why_tests_cant": "All sets of interfaces and histories of changes.", "anchors": ["switchyard/sim/nodeexec.py:NodeExecutor", "switchyard/llnetbase.py:LLNetBase"]}
{"id": "C212", "title": "The command line means what its options say", "statement": "swyard accepts a command line exactly if it is written as its options allow (long options by an unambiguous beginning of their name, letters singly or in groups, values in the next word if that does not look like an option, behind '=' or joined to the letter, and at most one word of user code in any place or behind '--'). What it then starts is determined by what was given, in whatever spelling and order: every value of -i, -x, -c, -t and -f in the order given, the last value of -g, -l, -a and --topology, how often -v was given, and whether each flag was. Any other command line ends the program with status 2, or 0 for the help, before anything is started. Any text can be given to the user's code as --codearg=TEXT.", "quantifier": "all lists of words", "why_tests_cant": "There are infinitely many command lines; which are accepted and that no spelling is taken for another option is a statement about all of them.", "anchors": ["switchyard/swyard.py:main"]}
{"id": "C213", "title": "OpenFlow 1.3 statistics can be written and read", "statement": "Every statistics request and reply of the OpenFlow 1.3 module, after any assignments to its attributes, is serialised if its values fit into their fields (otherwise struct.error is raised), and its class reads the bytes back to an object with the same attributes.", "quantifier": "all statistics classes, all histories of assignments, all byte strings", "why_tests_cant": "All histories of assignments and all values.", "anchors": ["switchyard/lib/openflow/openflow13.py:PortStatsRequest", "switchyard/lib/openflow/openflow13.py:IndividualFlowStatsRequest", "switchyard/lib/openflow/openflow13.py:TableStatsReply", "switchyard/lib/openflow/openflow13.py:QueueStatsReply"]}
{"id": "C214", "title": "An ICMP message has its own data", "statement": "Changing the data of an ICMP or ICMPv6 message (through its icmpdata attribute), its type or its code changes no other message: neither one made before or after it, nor one made from it by deepcopy, nor one that was given its data.", "quantifier": "all programs that make, copy and change any number of messages, in any order", "why_tests_cant": "Whether a message is affected depends on the whole history of assignments between messages.", "anchors": ["switchyard/lib/packet/icmp.py:ICMP.icmpdata", "switchyard/lib/packet/icmp.py:ICMP.icmptype", "switchyard/lib/packet/icmpv6.py:ICMPv6"]}
{"id": "C215", "title": "Keyword arguments of a header constructor", "statement": "Constructing a header with keyword arguments, Cls(name=value, ...), gives a header on which each name given has the value that assigning it would give it and every other attribute has its default, in whatever order the arguments are written; an argument that is no attribute of the header raises. The constructors of ICMP messages also take the type, the code and the attributes of the data of a message of that type. Numbers and addresses can be given as text.", "quantifier": "all header classes, all lists of keyword arguments with any values, all orders", "why_tests_cant": "All combinations and orders of arguments.", "anchors": ["switchyard/lib/packet/packet.py:PacketHeaderBase.__init__", "switchyard/lib/packet/icmp.py:ICMP.__init__", "switchyard/lib/packet/icmpv6.py:ICMPv6.__init__", "switchyard/lib/packet/ipv4.py:IPv4.__init__", "switchyard/lib/packet/ethernet.py:Ethernet.__init__", "switchyard/lib/packet/null.py:Null.__init__"]}
{"id": "C216", "title": "Data and options of ICMP messages hold what they are given", "statement": "An attribute of the data of an ICMP or ICMPv6 message takes every value of its kind (numbers, addresses as objects or text, truth values, bytes) and then has that value, while its other attributes and its options stay as they are; times are never negative. The data classes and the prefix information option can be constructed with keyword arguments: what is made has the attributes and, in order, the options given and otherwise defaults, in whatever order the arguments are written, and a name that is no attribute raises.", "quantifier": "all data classes, all values, all lists of keyword arguments and options, all orders", "why_tests_cant": "All combinations of classes, values and orders.", "anchors": ["switchyard/lib/packet/icmpv6.py:ICMPv6Data", "switchyard/lib/packet/icmpv6.py:ICMPv6RouterAdvertisement", "switchyard/lib/packet/icmpv6.py:ICMPv6NeighborAdvertisement", "switchyard/lib/packet/icmpv6.py:ICMPv6RedirectMessage", "switchyard/lib/packet/icmpv6.py:ICMPv6OptionPrefixInformation", "switchyard/lib/packet/icmp.py:ICMPData", "switchyard/lib/packet/packet.py:PacketHeaderBase.__init__"]}
{"id": "C217", "title": "Scenarios run together do not affect each other", "statement": "When several test scenarios are run with one command, each of them is reported as it would be if it were run alone with the same program behaving in the same way: whether it passes, what is done before and after it, and that it is run at all do not depend on how the scenarios before it went.", "quantifier": "all lists of scenarios, all programs as strategies, all times at which the alarm arrives", "why_tests_cant": "The time limit of an output is one alarm for the whole process; whether it reaches a later scenario depends on the schedule.", "anchors": ["switchyard/llnettest.py:run_tests", "switchyard/lib/testing.py:TestScenario.testpass", "switchyard/lib/testing.py:TestScenario._timer_expiry", "switchyard/lib/testing.py:TestScenario.cancel_timer"]}
{"id": "C218", "title": "Support files, setup and teardown surround the program", "statement": "For every scenario that is run, its support files are written with their text, then its setup is called, then the program is run, and then, however the program ended, its teardown is called and the verdict is reported, each exactly once; other files stay as they are.", "quantifier": "all scenarios, programs, endings of the program, and times of the alarm", "why_tests_cant": "The program can end in any way, and the alarm arrive at any time.", "anchors": ["switchyard/llnettest.py:run_tests", "switchyard/lib/testing.py:TestScenario.add_file", "switchyard/lib/testing.py:TestScenario.write_files", "switchyard/lib/testing.py:TestScenario.do_setup", "switchyard/lib/testing.py:TestScenario.do_teardown"]}
{"id": "C219", "title": "Receiver threads never lose, reorder or misuse", "statement": "On a live network the frames each device captures reach the program's queue in the order captured, and none is lost between device and queue; no device is closed while its receiver is at work or closed twice; once the network is stopped each receiver ends after a bounded number of steps with at most one more frame queued.", "quantifier": "every interleaving of receiver threads, calls of shutdown by any threads, signals, sends, and creation of networks with any number of devices", "why_tests_cant": "The outcome depends on how threads interleave; tests run one schedule with fake devices.", "anchors": ["switchyard/llnetreal.py: LLNetReal._low_level_dispatch, LLNetReal.shutdown, LLNetReal._spawn_threads, LLNetReal._sig_handler", "switchyard/pcapffi.py: PcapLiveDevice.close, PcapLiveDevice.stats, PcapLiveDevice.send_packet"]}
{"id": "C220", "title": "Shutting down a live network closes its devices", "statement": "After a call of shutdown on a live network has returned, its receivers have ended and all of its devices are closed, however the network was stopped and whatever else the process does; calling it again does nothing.", "quantifier": "every history of networks, calls of shutdown, and signals in any interleaving", "why_tests_cant": "Whether shutdown cleans up depends on whether a signal or another thread or network cleared the flag first.", "anchors": ["switchyard/llnetreal.py: LLNetReal.shutdown, LLNetReal._sig_handler, LLNetReal.__init__, main_real", "switchyard/pcapffi.py: PcapLiveDevice.close"]}
{"id": "C221", "title": "debugger() suspends the time limit of expected outputs", "statement": "While a program under test is in the debugger it opened by calling debugger(), or that was opened for it because a test failed, no time limit of an expected output interrupts it, however long the user stays there; once the debugger has been left, the limits work as before, in this scenario and in later ones.", "quantifier": "all programs as strategies, all times at which alarms arrive, all sequences of scenarios", "why_tests_cant": "The alarm arrives at any moment; its handler looks at a flag that earlier calls of debugger(), also in other scenarios, have set.", "anchors": ["switchyard/lib/debugging.py: debugger, setup_debugger, disable_timer", "switchyard/lib/testing.py: TestScenario._timer_expiry", "switchyard/llnettest.py: run_tests"]}
{"id": "C222", "title": "Tests of forwarding accept exactly the programs that forward as wanted", "statement": "Whatever rule determines on which ports a frame is wanted, given the frames before it: a program passes a scenario that sends it frames and expects each unchanged on these ports exactly if it sends each frame once on every one of these ports and on no other. So the program the switch exercise begins with passes every test of a hub and fails every test of a learning switch in which a frame goes to a host that has been heard of and there is a third port; the one the router exercise begins with passes exactly the tests that expect nothing to be sent; the documentation's program that sends packets back passes exactly if frames are wanted where they came from; and the one the firewall exercise begins with, which pairs the first port with the last and so on, passes with two ports exactly if frames are wanted on the other port.", "quantifier": "all rules, frames, interfaces, wildcards, scenarios of any length and programs with any memory", "why_tests_cant": "There are infinitely many rules, scenarios and programs; tests run a few.", "anchors": ["examples/exercises/learning_switch/myswitch.py: main", "examples/exercises/router/myrouter.py: Router.router_main", "examples/exercises/firewall/firewall.py: main", "documentation/code/inoutloop.py: main", "switchyard/llnettest.py: LLNetTest.send_packet, LLNetTest.recv_packet, run_tests", "switchyard/lib/testing.py: PacketOutputEvent.match"]}
{"id": "C223", "title": "After a failure the debugger opens in the user's program", "statement": "When a test fails or the program under test raises an exception and the debugger is opened, it is at the newest frame of the user's own code, the one that called into the library or raised the exception, however deep the calls are.", "quantifier": "all tracebacks: any number of frames of the harness, the library and the program in any order", "why_tests_cant": "Where an exception is raised, and through how many library frames it came, differs from failure to failure; tests do not enter the debugger.", "anchors": ["switchyard/llnettest.py: _prepare_debugger, run_tests"]}
{"id": "C224", "title": "A live network has an interface of the right type for each of its devices", "statement": "A live network has exactly one interface for each device chosen whose addresses the system knows, with the device's name, number and addresses; its type is Loopback, Wireless or Wired exactly if the device is.", "quantifier": "all hosts: any devices, addresses and choice of devices, with and without the tool that knows about wireless devices", "why_tests_cant": "Tests run with faked devices; what kinds of devices a host has, and which tools, differs from host to host.", "anchors": ["switchyard/llnetreal.py: LLNetReal._assemble_devinfo"]}
{"id": "C225", "title": "Output expectations are what their author wrote", "statement": "An output expectation of a test is made from its arguments exactly if they are pairs of a device and a packet, each predicate is the text of a function and each wildcard is a pair of a header class and an attribute of it; it then accepts exactly the packets that look like the one expected on the device, but for the fields named by a wildcard, and satisfy every predicate, whether given by predicate or predicates. Anything else is refused with an exception that says what is wrong.", "quantifier": "all devices, packets, predicates, wildcards and keyword arguments, all packets sent", "why_tests_cant": "Any combination of good and bad arguments, and all packets.", "anchors": ["switchyard/lib/testing.py: PacketOutputEvent.__init__, _PacketMatcher.__init__, _check_predicates, _check_wildcards"]}
{"id": "C226", "title": "The test of the firewall exercise accepts the firewall that follows its rules", "statement": "Whatever addresses, ports and other numbers are drawn when the test is made: the firewall that forwards a frame to the other port exactly if the rules of the exercise permit it, or if it is not an IPv4 packet, passes the test; with the rate limits of the rules it passes too, whether its buckets are full or empty at the start and however much time passes between frames, since the test pauses to let them fill; a program passes only if it treats every frame of the test as the rules say; the program handed out with the exercise, which applies no rules, does not pass.", "quantifier": "all numbers that may be drawn, all programs with any memory, all times that pass between frames", "why_tests_cant": "The numbers are drawn anew each time the test is loaded; some are drawn once in many millions of runs.", "anchors": ["examples/exercises/firewall/firewalltests.py: firewall_tests, swap, mketh, firewall_rules", "examples/exercises/firewall/firewall.rst", "examples/exercises/firewall/firewall.py: main"]}
{"id": "C227", "title": "The rate limit test tells a firewall that enforces its limits from one that does not", "statement": "Whatever addresses, ports and other numbers are drawn when the test is made and however much time passes between frames: a firewall that follows the rules of the exercise and enforces their rate limits with token buckets passes the rate limit test, whether its buckets are full or empty at the start, since the test pauses to let them fill; a firewall that follows the rules but leaves out any of the limits does not pass.", "quantifier": "all numbers that may be drawn, all sets of limits that are left out, all bucket levels and times that pass between frames", "why_tests_cant": "The numbers are drawn anew each time the test is loaded, and how much time passes is not under the test's control.", "anchors": ["examples/exercises/firewall/ratelimittest.py: firewall_tests, swap, mketh, firewall_rules", "examples/exercises/firewall/firewall.rst"]}
{"id": "C228", "title": "The test of the UDP stack tells a stack that carries messages from one that does not", "statement": "Whatever port the application's socket has: when an application sends a message to port 10000 of 127.0.0.1, the stack of the example passes the test, and the application is given the test's reply, as coming from there, at its own port. A stack passes the test only if the packet it sends has the addresses, the protocol, the destination port and the data of the message.", "quantifier": "all source ports, addresses, protocols, destination ports and data of any length that fits", "why_tests_cant": "The port is chosen when the program runs; the test runs with one message.", "anchors": ["examples/udpstack_tests.py: udp_stack_tests", "examples/udpstack.py: handle_app_data, handle_network_data", "switchyard/lib/testing.py: PacketOutputEvent.match, PacketInputEvent.generate_packet"]}
