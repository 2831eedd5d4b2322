{
 "claims": [
  {
   "property": "C01",
   "status": "proved",
   "theorems": [
    "SY.Props.checksum_self_verifies"
   ],
   "note": ""
  },
  {
   "property": "C02",
   "status": "partial",
   "theorems": [
    "SY.Props.checksum_eq_rfc1071_partial",
    "SY.Props.checksum_eq_rfc1071_violated"
   ],
   "note": "Equality for all messages up to 131074 bytes; false beyond (two carry folds)."
  },
  {
   "property": "C03",
   "status": "proved",
   "theorems": [
    "SY.Props.checksum_skip_word",
    "SY.Props.checksum_skip_word_outside"
   ],
   "note": ""
  },
  {
   "property": "C04",
   "status": "proved",
   "theorems": [
    "SY.Props.ethaddr_text_roundtrip",
    "SY.Props.ethaddr_text_injective",
    "SY.Props.ethaddr_text_case"
   ],
   "note": ""
  },
  {
   "property": "C05",
   "status": "partial",
   "theorems": [
    "SY.Props.ethaddr_six_bytes_partial",
    "SY.Props.ethaddr_six_bytes_violated"
   ],
   "note": "False of the code: byte strings of 1-5 bytes are accepted as is."
  },
  {
   "property": "C06",
   "status": "proved",
   "theorems": [
    "SY.Props.ethaddr_eq_iff",
    "SY.Props.ethaddr_eq_text",
    "SY.Props.ethaddr_lt_iff",
    "SY.Props.ethaddr_order_total"
   ],
   "note": ""
  },
  {
   "property": "C07",
   "status": "proved",
   "theorems": [
    "SY.Props.ethaddr_multicast_iff",
    "SY.Props.ethaddr_bridge_filtered_iff"
   ],
   "note": ""
  },
  {
   "property": "C08",
   "status": "proved",
   "theorems": [
    "SY.Props.ethernet_roundtrip",
    "SY.Props.ethernet_bytes_roundtrip",
    "SY.Props.ethernet_parse_errors",
    "SY.Props.ethernet_roundtrip_iff"
   ],
   "note": "Exactly the storable headers of a type other than IEEE8023 come back (ethernet_roundtrip_iff)."
  },
  {
   "property": "C09",
   "status": "partial",
   "theorems": [
    "SY.Props.ethernet_length_frame_partial",
    "SY.Props.ethernet_length_frame_violated"
   ],
   "note": "False of the code: every length is rewritten to 0xFFFF; everything else is preserved."
  },
  {
   "property": "C10",
   "status": "partial",
   "theorems": [
    "SY.Props.vlan_roundtrip",
    "SY.Props.vlan_setters_wf",
    "SY.Props.vlan_setVlanid",
    "SY.Props.vlan_bytes_roundtrip_partial",
    "SY.Props.vlan_bytes_roundtrip_violated"
   ],
   "note": "Object round-trip and setters proved; bytes round-trip false for TCI high nibble above 3."
  },
  {
   "property": "C11",
   "status": "proved",
   "theorems": [
    "SY.Props.arp_roundtrip",
    "SY.Props.arp_layout",
    "SY.Props.arp_bytes_roundtrip",
    "SY.Props.arp_parse_errors"
   ],
   "note": ""
  },
  {
   "property": "C12",
   "status": "proved",
   "theorems": [
    "SY.Props.arp_request_fields",
    "SY.Props.arp_reply_fields",
    "SY.Props.arp_helpers_wf"
   ],
   "note": ""
  },
  {
   "property": "C13",
   "status": "proved",
   "theorems": [
    "SY.Props.ipv4_roundtrip",
    "SY.Props.ipv4_roundtrip_options",
    "SY.Props.ipv4_setters_keep_serialisable"
   ],
   "note": ""
  },
  {
   "property": "C14",
   "status": "partial",
   "theorems": [
    "SY.Props.ipv4_wire_consistent_partial",
    "SY.Props.ipv4_wire_consistent_violated",
    "SY.Props.ipv4_oversize_raises"
   ],
   "note": "Holds for headers of at most 60 bytes; false for 40 bytes of options."
  },
  {
   "property": "C15",
   "status": "partial",
   "theorems": [
    "SY.Props.ipv4_option_padding_partial",
    "SY.Props.ipv4_option_padding_violated"
   ],
   "note": "False of the code: aligned options get four extra pad bytes."
  },
  {
   "property": "C16",
   "status": "proved",
   "theorems": [
    "SY.Props.ipv4_options_roundtrip"
   ],
   "note": ""
  },
  {
   "property": "C17",
   "status": "partial",
   "theorems": [
    "SY.Props.ipv4_option_parse_terminates_partial",
    "SY.Props.ipv4_option_parse_terminates_violated",
    "SY.Props.ipv4_from_bytes_hangs"
   ],
   "note": "False of the code: a zero-length timestamp option loops forever."
  },
  {
   "property": "C18",
   "status": "proved",
   "theorems": [
    "SY.Props.ipv4_setters_keep_serialisable",
    "SY.Props.ipv4_setters_raise_iff",
    "SY.Props.ipv4_setters_error"
   ],
   "note": ""
  },
  {
   "property": "C19",
   "status": "partial",
   "theorems": [
    "SY.Props.ipv4_dscp_independent",
    "SY.Props.ipv4_ecn_independent_partial",
    "SY.Props.ipv4_ecn_independent_violated"
   ],
   "note": "DSCP proved; ECN false of the code (mask 0xfa)."
  },
  {
   "property": "C20",
   "status": "partial",
   "theorems": [
    "SY.Props.ipv4_fragment_flags_partial",
    "SY.Props.ipv4_fragment_flags_violated",
    "SY.Props.ipv4_more_fragments_unparseable"
   ],
   "note": "False of the code for MF."
  },
  {
   "property": "C21",
   "status": "partial",
   "theorems": [
    "SY.Props.ipv4_payload_after_header_partial",
    "SY.Props.ipv4_payload_after_header_violated"
   ],
   "note": "False of the code for IHL below 5."
  },
  {
   "property": "C22",
   "status": "proved",
   "theorems": [
    "SY.Props.udp_length_checksum",
    "SY.Props.udp_serialises_iff"
   ],
   "note": ""
  },
  {
   "property": "C23",
   "status": "proved",
   "theorems": [
    "SY.Props.udp_roundtrip",
    "SY.Props.udp_bytes_roundtrip"
   ],
   "note": ""
  },
  {
   "property": "C24",
   "status": "proved",
   "theorems": [
    "SY.Props.tcp_roundtrip",
    "SY.Props.tcp_parse_offset"
   ],
   "note": ""
  },
  {
   "property": "C25",
   "status": "proved",
   "theorems": [
    "SY.Props.tcp_flag_independent",
    "SY.Props.tcp_flag_range",
    "SY.Props.tcp_flag_history",
    "SY.Props.tcp_flag_wire",
    "SY.Props.tcp_flagstr"
   ],
   "note": ""
  },
  {
   "property": "C26",
   "status": "proved",
   "theorems": [
    "SY.Props.tcp_checksum",
    "SY.Props.tcp_serialises"
   ],
   "note": ""
  },
  {
   "property": "C27",
   "status": "partial",
   "theorems": [
    "SY.Props.tcp_payload_partial",
    "SY.Props.tcp_payload_violated",
    "SY.Props.tcp_truncated_options_accepted"
   ],
   "note": "False of the code: data offsets below 5 redeliver header bytes."
  },
  {
   "property": "C28",
   "status": "partial",
   "theorems": [
    "SY.Props.icmp_coherent_partial",
    "SY.Props.icmp_coherent_violated",
    "SY.Props.icmp_set_type"
   ],
   "note": "Holds for all histories except assignment of a data object of an unregistered class, where the code is incoherent."
  },
  {
   "property": "C29",
   "status": "partial",
   "theorems": [
    "SY.Props.icmp_roundtrip_partial",
    "SY.Props.icmp_roundtrip_violated"
   ],
   "note": "Holds for all messages but address-mask messages with a payload, where it is false of the code."
  },
  {
   "property": "C30",
   "status": "proved",
   "theorems": [
    "SY.Props.icmp_checksum"
   ],
   "note": "For messages up to 128 KiB (twice the IP limit); see C02 for the checksum beyond that."
  },
  {
   "property": "C31",
   "status": "proved",
   "theorems": [
    "SY.Props.ipv6_roundtrip",
    "SY.Props.ipv6_reserialise",
    "SY.Props.ipv6_wire_fields",
    "SY.Props.ipv6_payload_length"
   ],
   "note": "Fixed header; extension headers are C32."
  },
  {
   "property": "C32",
   "status": "partial",
   "theorems": [
    "SY.Props.fragment_roundtrip",
    "SY.Props.route_roundtrip",
    "SY.Props.hop_roundtrip_partial",
    "SY.Props.hop_consumes_declared_partial",
    "SY.Props.hop_options_terminate",
    "SY.Props.route_length_octet_violated",
    "SY.Props.hop_unpadded_violated",
    "SY.Props.hop_short_violated",
    "SY.Props.hop_truncated_violated",
    "SY.Props.fragment_reserved_violated",
    "SY.Props.hop_padded",
    "SY.Props.hop_fill"
   ],
   "note": "Fragment and routing headers round-trip; hop-by-hop headers only when the options happen to fill a multiple of 8 octets. Also proved: PadN(k) takes k bytes, and every list of options that leaves room can be padded by at most one option so that it survives."
  },
  {
   "property": "C33",
   "status": "proved",
   "theorems": [
    "SY.Props.icmp6_checksum"
   ],
   "note": "For messages up to 128 KiB (twice the IPv6 limit); see C02 for the checksum beyond that."
  },
  {
   "property": "C34",
   "status": "partial",
   "theorems": [
    "SY.Props.nd_option_roundtrip",
    "SY.Props.nd_options_roundtrip_partial",
    "SY.Props.nd_redirected_length_violated",
    "SY.Props.nd_options_roundtrip_violated",
    "SY.Props.nd_ethaddr_wire"
   ],
   "note": "False of the code for redirected headers that do not fill a multiple of 8 bytes."
  },
  {
   "property": "C35",
   "status": "partial",
   "theorems": [
    "SY.Props.nd_parse_diverges_iff",
    "SY.Props.nd_parse_terminates_partial",
    "SY.Props.nd_parse_terminates_violated"
   ],
   "note": "False of the code: an unknown option with length octet 0 loops forever; that is the only way."
  },
  {
   "property": "C36",
   "status": "partial",
   "theorems": [
    "SY.Props.na_flags_partial",
    "SY.Props.ra_flags_violated",
    "SY.Props.ra_flags_wire"
   ],
   "note": "Neighbor advertisement flags survive; router advertisement flags are sent but always parse as clear."
  },
  {
   "property": "C37",
   "status": "partial",
   "theorems": [
    "SY.Props.rip_route_roundtrip",
    "SY.Props.rip_roundtrip",
    "SY.Props.rip_new_wf_partial",
    "SY.Props.rip_unvalidated_violated",
    "SY.Props.rip_eq_iff"
   ],
   "note": "Every message whose fields are in range round-trips; the constructor and setters let out-of-range fields in, which then fail to serialise. Equality of messages is equality of command and routes."
  },
  {
   "property": "C38",
   "status": "partial",
   "theorems": [
    "SY.Props.packet_length_partial",
    "SY.Props.packet_length_violated",
    "SY.Props.hop_len_violated",
    "SY.Props.ext_len_violated",
    "SY.Props.rip_len_violated"
   ],
   "note": "False of the code for IPv6 extension headers and RIPv2."
  },
  {
   "property": "C39",
   "status": "proved",
   "theorems": [
    "SY.Props.packet_compositional",
    "SY.Props.packet_serialises"
   ],
   "note": ""
  },
  {
   "property": "C40",
   "status": "proved",
   "theorems": [
    "SY.Props.packet_idempotent"
   ],
   "note": "Header objects shared between packets: see Verif/Packet.lean."
  },
  {
   "property": "C41",
   "status": "partial",
   "theorems": [
    "SY.Props.packet_roundtrip_partial",
    "SY.Props.packet_roundtrip_options_partial",
    "SY.Props.packet_options_violated",
    "SY.Props.empty_payload_violated",
    "SY.Props.ieee8023_violated"
   ],
   "note": "Proved for every stack of storable headers over all modelled classes (Ethernet, VLAN, ARP, IPv4, IPv6, extension headers, UDP, TCP, ICMP, ICMPv6, RIPv2, Null) with optional payload: same headers, equal, re-serialises identically. With IPv4 options the same headers come back and compare equal, the padding read as end-of-list options (packet_roundtrip_options_partial), but they re-serialise to more bytes (negation proved). An Ethernet header of type IEEE8023 (1500, the only storable type not above 1500) comes back as NoType, for every address and payload (ieee8023_violated), and an empty payload object is lost (both negations proved); VLAN priorities above 3 cannot be stored (C10)."
  },
  {
   "property": "C42",
   "status": "partial",
   "theorems": [
    "SY.Props.parse_terminates",
    "SY.Props.parse_accounts_partial",
    "SY.Props.accounts_payload_suffix",
    "SY.Props.parse_returns_partial",
    "SY.Props.parse_loses_bytes_violated",
    "SY.Props.parse_terminates_violated"
   ],
   "note": "The header loop terminates for every input and start class and the result accounts for all bytes, except RIPv2 (drops up to 19 bytes; negation proved). Parsing hangs only where IPv4 or ICMPv6 option parsing itself hangs; a 38-byte frame that hangs is exhibited."
  },
  {
   "property": "C43",
   "status": "proved",
   "theorems": [
    "SY.Props.packet_step_iff",
    "SY.Props.packet_history_iff",
    "SY.Props.packet_error_unchanged",
    "SY.Props.packet_getItem",
    "SY.Props.packet_add_append"
   ],
   "note": ""
  },
  {
   "property": "C44",
   "status": "partial",
   "theorems": [
    "SY.Props.lookup_first",
    "SY.Props.index_from_partial",
    "SY.Props.index_negative_violated",
    "SY.Props.lookup_name",
    "SY.Props.lookup_name_class_violated",
    "SY.Props.header_isa"
   ],
   "note": "All lookups by class agree; false of the code for negative start indices, and names ignore subclasses while classes do not."
  },
  {
   "property": "C45",
   "status": "partial",
   "theorems": [
    "SY.Props.header_eq_partial",
    "SY.Props.packet_eq_partial",
    "SY.Props.packet_eq_equivalence_partial",
    "SY.Props.packet_eq_length",
    "SY.Props.packet_eq_classes_partial",
    "SY.Props.packet_eq_subclass_violated",
    "SY.Props.packet_eq_raises_violated"
   ],
   "note": "An equivalence over packets of the same classes whose headers can be compared; false of the code otherwise."
  },
  {
   "property": "C46",
   "status": "partial",
   "theorems": [
    "SY.Props.socket_ports_distinct_partial",
    "SY.Props.socket_bind_in_use",
    "SY.Props.socket_bind_free",
    "SY.Props.socket_new_port",
    "SY.Props.reach_sockHist",
    "SY.Props.socket_text_port_violated",
    "SY.Props.socket_firewall_failure_violated",
    "SY.Props.socket_concurrent_new_violated"
   ],
   "note": "Holds over all sequential histories except binds with a textual port in use, with failing firewall rules, or of a closed socket whose address was taken over; false of the code in those cases and for concurrent creation."
  },
  {
   "property": "C47",
   "status": "partial",
   "theorems": [
    "SY.Props.socket_delivery_partial",
    "SY.Props.socket_delivery_violated"
   ],
   "note": "Same histories as C46; false of the code after a bind that failed in the firewall."
  },
  {
   "property": "C48",
   "status": "proved",
   "theorems": [
    "SY.Props.socket_fifo_up",
    "SY.Props.socket_fifo_down",
    "SY.Props.socket_delivered_somewhere"
   ],
   "note": "All histories, without exception."
  },
  {
   "property": "C49",
   "status": "partial",
   "theorems": [
    "SY.Props.socket_close_partial",
    "SY.Props.socket_open_not_shadowed",
    "SY.Props.socket_double_close_violated",
    "SY.Props.socket_bind_closed_violated"
   ],
   "note": "False of the code: a second close after port reuse unregisters the new owner."
  },
  {
   "property": "C50",
   "status": "partial",
   "theorems": [
    "SY.Props.scenario_in_order",
    "SY.Props.scenario_one_at_a_time",
    "SY.Props.scenario_summary",
    "SY.Props.scenario_reports_partial",
    "SY.Props.scenario_next",
    "SY.Props.scenario_delivers",
    "SY.Props.scenario_delivers_same_partial",
    "SY.Props.scenario_shutdown_violated",
    "SY.Props.scenario_swallowed_violated",
    "SY.Props.expect_all"
   ],
   "note": "The order of expectations is proved for every history, with exceptions and alarms. The verdict is proved for programs that let exceptions escape; a program that raises Shutdown itself, or that catches a failure and goes on, is reported to have passed. Shared event objects and copyfromlastout are modelled elsewhere (HeapNet, CopyOut). Expectations are those given to expect, in that order."
  },
  {
   "property": "C51",
   "status": "partial",
   "theorems": [
    "SY.Props.output_any_order",
    "SY.Props.output_refuses_port",
    "SY.Props.output_refuses_packet",
    "SY.Props.output_new_partial",
    "SY.Props.output_new_refuses",
    "SY.Props.output_same_port_violated"
   ],
   "note": "Proved for different ports; two packets for one port keep only the second."
  },
  {
   "property": "C52",
   "status": "partial",
   "theorems": [
    "SY.Props.scenario_restore_partial",
    "SY.Props.input_savable",
    "SY.Props.scenario_restore_reports_partial",
    "SY.Props.scenario_restore_violated",
    "SY.Props.scenario_save_damage_violated"
   ],
   "note": "Proved for scenarios of which nothing has been completed and packets that round-trip (C41). Saving in the middle of a run reorders the expectations; saving a half-met output expectation damages it."
  },
  {
   "property": "C53",
   "status": "proved",
   "theorems": [
    "SY.Props.matcher_accepts",
    "SY.Props.matcher_monotone"
   ],
   "note": "For every reference packet, wildcard list and predicate list (predicates as functions without side effects). What happens to packets that are not accepted is C104."
  },
  {
   "property": "C54",
   "status": "proved",
   "theorems": [
    "SY.Props.firewall_restores",
    "SY.Props.firewall_new_raises",
    "SY.Props.firewall_duplicate_violated",
    "SY.Props.firewall_unsaved_violated"
   ],
   "note": "Linux. Assumes saving and restoring the tables succeed (their status is ignored by the code; firewall_unsaved_violated shows the consequence)."
  },
  {
   "property": "C55",
   "status": "partial",
   "theorems": [
    "SY.Props.firewall_covers_partial",
    "SY.Props.firewall_add_rule_partial",
    "SY.Props.firewall_malformed_partial",
    "SY.Props.firewall_malformed_violated",
    "SY.Props.firewall_icmp_port_violated",
    "SY.Props.firewall_later_rule_violated",
    "SY.Props.firewall_all_space_violated",
    "SY.Props.mac_covers_partial",
    "SY.Props.mac_port_violated",
    "SY.Props.mac_add_rule_violated",
    "SY.Props.test_mode_rules",
    "SY.Props.mac_rule_loaded"
   ],
   "note": "Well-formed rules expressible in iptables cover exactly the right packets; false of the code for trailing text, ICMP ports, rules added later for some interfaces, and on macOS."
  },
  {
   "property": "C56",
   "status": "partial",
   "theorems": [
    "SY.Props.lookup_highest_partial",
    "SY.Props.lookup_lowest",
    "SY.Props.priority_violated",
    "SY.Props.port_wildcard_violated",
    "SY.Props.add_violated",
    "SY.Props.modify_violated",
    "SY.Props.delete_violated",
    "SY.Props.lookup_port_violated",
    "SY.Props.add_overlap",
    "SY.Props.add_position"
   ],
   "note": "The module uses names it never imports, so tables cannot hold more than one entry and lookups that name a port raise; with those names bound (the parameter of the model) the entry of LOWEST priority is used, for every history."
  },
  {
   "property": "C57",
   "status": "partial",
   "theorems": [
    "SY.Props.buffer_capacity",
    "SY.Props.buffer_frame",
    "SY.Props.buffer_stack_partial",
    "SY.Props.buffer_lost_violated"
   ],
   "note": "Capacity, distinct numbers and framing are proved for all histories; that a number designates its packet until it is removed holds if packets are removed in stack order, and fails otherwise because numbers in use are given out again."
  },
  {
   "property": "C58",
   "status": "partial",
   "theorems": [
    "SY.Props.send_prefix",
    "SY.Props.send_completes",
    "SY.Props.send_stalls_violated",
    "SY.Props.send_shared_partial",
    "SY.Props.send_shared_violated",
    "SY.Props.recv_frames_partial",
    "SY.Props.recv_message_partial",
    "SY.Props.recv_stream_partial",
    "SY.Props.recv_short_header_violated",
    "SY.Props.recv_eof_violated",
    "SY.Props.recv_timeout_violated"
   ],
   "note": "Proved for every way the stream is cut once each header arrives whole; a short read of the header, end of file or a timeout in the middle of a message break the framing, and threads that share a connection can interleave messages."
  },
  {
   "property": "C59",
   "status": "partial",
   "theorems": [
    "SY.Props.lookup_counts",
    "SY.Props.lookup_raises",
    "SY.Props.expired_matched_partial",
    "SY.Props.expired_hard_partial",
    "SY.Props.idle_unmatched_violated",
    "SY.Props.expire_exact",
    "SY.Props.expire_silent_violated",
    "SY.Props.expire_violated"
   ],
   "note": "As it is, expiry raises NameError; with names bound, exactly the expired entries that ask for a notification are removed, others stay in use, and unmatched entries with an idle timeout expire at once."
  },
  {
   "property": "C60",
   "status": "partial",
   "theorems": [
    "SY.Props.of_match_roundtrip_partial",
    "SY.Props.of_match_all_roundtrip_partial",
    "SY.Props.of_match_prefix_lost",
    "SY.Props.of_match_prefix_violated",
    "SY.Props.of_match_equality_violated",
    "SY.Props.nwdst_wildcard_violated",
    "SY.Props.of_match_wire_wildcards"
   ],
   "note": "Proved for matches without address-prefix wildcards and for the all-wildcard match; prefix lengths are never written."
  },
  {
   "property": "C61",
   "status": "partial",
   "theorems": [
    "SY.Props.actions_roundtrip_partial",
    "SY.Props.action_constructors",
    "SY.Props.actions_terminate",
    "SY.Props.action_layout",
    "SY.Props.strip_vlan_violated",
    "SY.Props.actions_forward_violated",
    "SY.Props.vendor_padding_violated"
   ],
   "note": "Termination is proved for all byte strings. Round trip for all lists of actions as the constructors make them; vendor data of other lengths come back padded, and a conforming strip-VLAN action is written back four bytes short."
  },
  {
   "property": "C62",
   "status": "partial",
   "theorems": [
    "SY.Props.topology_interfaces_partial",
    "SY.Props.topology_interfaces_kept",
    "SY.Props.topology_macs_unique",
    "SY.Props.topology_reserved_names_violated"
   ],
   "note": "MAC uniqueness for topologies whose interfaces all come from links; false of the code for nodes named capacity, delay or label."
  },
  {
   "property": "C63",
   "status": "partial",
   "theorems": [
    "SY.Props.topology_link_interfaces_partial",
    "SY.Props.topology_link_interfaces_violated"
   ],
   "note": "False of the code: the first node's interface is returned twice."
  },
  {
   "property": "C64",
   "status": "proved",
   "theorems": [
    "SY.Props.topology_auto_name",
    "SY.Props.topology_named_add",
    "SY.Props.topology_remove_node",
    "SY.Props.topology_links"
   ],
   "note": ""
  },
  {
   "property": "C65",
   "status": "proved",
   "theorems": [
    "SY.Props.topology_numbering",
    "SY.Props.topology_numbering_succeeds_iff",
    "SY.Props.topology_renumbering_violated"
   ],
   "note": "For one call, on a subnet with prefix length below 32 and no node with a reserved name; a second call after a change of the topology can repeat an address (topology_renumbering_violated)."
  },
  {
   "property": "C66",
   "status": "partial",
   "theorems": [
    "SY.Props.bandwidth_roundtrip_partial",
    "SY.Props.bandwidth_near_partial",
    "SY.Props.bandwidth_roundtrip_violated",
    "SY.Props.bandwidth_too_large"
   ],
   "note": "Exact for whole multiples of the unit, otherwise at most one bit per second less; false of the code from 1001 on (int() truncates a double product)."
  },
  {
   "property": "C67",
   "status": "partial",
   "theorems": [
    "SY.Props.delay_roundtrip_iff",
    "SY.Props.delay_roundtrip_partial",
    "SY.Props.delay_roundtrip_violated"
   ],
   "note": "Exactly whole seconds and one millisecond come back; every other delay comes back as None."
  },
  {
   "property": "C68",
   "status": "partial",
   "theorems": [
    "SY.Props.link_exactly_once",
    "SY.Props.link_not_early",
    "SY.Props.link_in_order",
    "SY.Props.link_waits_until",
    "SY.Props.link_delivers",
    "SY.Props.link_type_error_only_ties",
    "SY.Props.link_dead_forever",
    "SY.Props.link_clock_violated",
    "SY.Props.link_tie_violated"
   ],
   "note": "False of the code in that the thread can die: when the clock passes an expiry time between two readings, and when two packets for a device expire at the same time."
  },
  {
   "property": "C69",
   "status": "proved",
   "theorems": [
    "SY.Props.interface_by_name_iff",
    "SY.Props.interface_by_ipaddr_iff",
    "SY.Props.interface_by_macaddr_iff",
    "SY.Props.interface_registered_once",
    "SY.Props.interface_notifications"
   ],
   "note": ""
  },
  {
   "property": "C70",
   "status": "proved",
   "theorems": [
    "SY.Props.auto_ifnums_distinct",
    "SY.Props.iface_new_number",
    "SY.Props.lookup_ifnum",
    "SY.Props.ifnum_mixed_violated",
    "SY.Props.set_ifnum"
   ],
   "note": "Among automatically numbered interfaces; an explicit number can coincide with an automatic one (ifnum_mixed_violated). Also for numbers assigned later."
  },
  {
   "property": "C71",
   "status": "proved",
   "theorems": [
    "SY.Props.device_list_iff",
    "SY.Props.device_list_missing_violated"
   ],
   "note": "Naming only missing devices selects all (device_list_missing_violated)."
  },
  {
   "property": "C72",
   "status": "partial",
   "theorems": [
    "SY.Props.recv_in_order",
    "SY.Props.recv_skips_iff",
    "SY.Props.recv_result_packet",
    "SY.Props.recv_returns_next",
    "SY.Props.recv_shutdown_only",
    "SY.Props.no_packets_only_if_empty",
    "SY.Props.sigint_unblocks",
    "SY.Props.recv_after_shutdown_violated",
    "SY.Props.stop_unblocks_violated"
   ],
   "note": "Order, skipping, NoPackets and never a packet after the stop are proved for all interleavings; false of the code: only the first call after SIGINT is woken, and shutdown() wakes none."
  },
  {
   "property": "C73",
   "status": "partial",
   "theorems": [
    "SY.Props.splitWords_spaced",
    "SY.Props.codeargs_partial",
    "SY.Props.codeargs_violated",
    "SY.Props.usercode_call_partial",
    "SY.Props.usercode_no_params",
    "SY.Props.usercode_call_violated",
    "SY.Props.usercode_starts_iff"
   ],
   "note": "Exactly when user code is called in a way it accepts is proved. False of the code for values containing '=' and for entry functions with further parameters."
  },
  {
   "property": "C74",
   "status": "partial",
   "theorems": [
    "SY.Props.hub_targets",
    "SY.Props.hub_run",
    "SY.Props.flood_exact",
    "SY.Props.flood_loopback_violated",
    "SY.Props.hub_advertisement_violated"
   ],
   "note": "False of the code if one of the interfaces is a loopback device on a live network, and for packets that cannot be printed (router advertisements), which end the hub."
  },
  {
   "property": "C75",
   "status": "proved",
   "theorems": [
    "SY.Props.checksum_detects_byte_error"
   ],
   "note": ""
  },
  {
   "property": "C76",
   "status": "partial",
   "theorems": [
    "SY.Props.udp_checksum_value_partial",
    "SY.Props.udp_nonzero_checksum_violated",
    "SY.Props.udp_no_checksum_without_ipv4"
   ],
   "note": "False of the code: a computed 0 is sent as 0, and without an IPv4 header 0 is always sent."
  },
  {
   "property": "C77",
   "status": "partial",
   "theorems": [
    "SY.Props.vlan_tag_layout_partial",
    "SY.Props.vlan_priority_position_violated"
   ],
   "note": "False of the code: the priority is placed one bit too low."
  },
  {
   "property": "C78",
   "status": "partial",
   "theorems": [
    "SY.Props.ipv4_rejects_ipv6_partial",
    "SY.Props.ipv4_rejects_ipv6_violated"
   ],
   "note": "False of the code: IPv6 addresses are accepted and truncated."
  },
  {
   "property": "C79",
   "status": "partial",
   "theorems": [
    "SY.Props.ipv4_options_grow_partial",
    "SY.Props.ipv4_options_grow_violated"
   ],
   "note": "False of the code: four bytes are added on every pass."
  },
  {
   "property": "C80",
   "status": "partial",
   "theorems": [
    "SY.Props.udp_reports_checksum_partial",
    "SY.Props.tcp_reports_checksum_violated",
    "SY.Props.ipv4_reports_checksum_violated"
   ],
   "note": "UDP keeps the value; TCP reports 0 and IPv4 a recomputed value."
  },
  {
   "property": "C81",
   "status": "partial",
   "theorems": [
    "SY.Props.tcp_reserialise_partial",
    "SY.Props.tcp_options_lost_violated"
   ],
   "note": "False of the code: options are dropped."
  },
  {
   "property": "C82",
   "status": "partial",
   "theorems": [
    "SY.Props.ethernet_parse_errors",
    "SY.Props.arp_parse_errors",
    "SY.Props.udp_bytes_roundtrip",
    "SY.Props.tcp_parse_offset",
    "SY.Props.icmp_truncated_partial",
    "SY.Props.icmp_truncated_violated",
    "SY.Props.ipv6_short_raises",
    "SY.Props.ext_truncated_violated",
    "SY.Props.icmp6_truncated_violated",
    "SY.Props.ipv4_truncated",
    "SY.Props.ipv4_timestamp_truncated",
    "SY.Props.ipv4_option_truncated_violated"
   ],
   "note": "False of the code for ICMP echo (IndexError) and address-mask (AddressValueError) messages, and for IPv6 extension headers."
  },
  {
   "property": "C83",
   "status": "partial",
   "theorems": [
    "SY.Props.ipv6_serialises_iff_partial",
    "SY.Props.ipv6_out_of_range_violated",
    "SY.Props.ipv6_flow_label_violated",
    "SY.Props.ipv6_address_int",
    "SY.Props.ipv6_address_int_refused"
   ],
   "note": "False of the code for out-of-range traffic class and flow label."
  },
  {
   "property": "C84",
   "status": "partial",
   "theorems": [
    "SY.Props.source_option_address_partial",
    "SY.Props.target_option_address_violated"
   ],
   "note": "False of the code for the target option, which drops its argument."
  },
  {
   "property": "C85",
   "status": "partial",
   "theorems": [
    "SY.Props.icmp6_coherent_partial",
    "SY.Props.icmp6_coherent_violated",
    "SY.Props.icmp6_roundtrip_partial",
    "SY.Props.icmp6_options_dropped_violated"
   ],
   "note": "Coherent except after assigning data of an unregistered class; round-trips except for multicast-listener options, router-advertisement flags and misaligned redirected headers."
  },
  {
   "property": "C86",
   "status": "partial",
   "theorems": [
    "SY.Props.icmp6_consumes_partial",
    "SY.Props.icmp6_leftover_violated"
   ],
   "note": "False of the code for messages with an unknown option."
  },
  {
   "property": "C87",
   "status": "partial",
   "theorems": [
    "SY.Props.icmp6_classless_set_partial",
    "SY.Props.icmp6_classless_violated"
   ],
   "note": "False of the code: types without a data class raise KeyError."
  },
  {
   "property": "C88",
   "status": "partial",
   "theorems": [
    "SY.Props.rip_reparse_violated",
    "SY.Props.rip_parse_count_partial"
   ],
   "note": "False of the code: RIPv2.from_bytes appends to the routes already there."
  },
  {
   "property": "C89",
   "status": "partial",
   "theorems": [
    "SY.Props.transport_uses_ip_partial",
    "SY.Props.transport_outer_header_violated",
    "SY.Props.transport_outer_header_visible_violated",
    "SY.Props.transport_checksum_ipv6_violated"
   ],
   "note": "Holds with a single IPv4 header; false for IP-in-IP and over IPv6."
  },
  {
   "property": "C90",
   "status": "partial",
   "theorems": [
    "SY.Props.equal_serialise_partial",
    "SY.Props.equal_serialise_violated"
   ],
   "note": "False of the code for VLAN, ARP, IPv4 and several ICMP data classes."
  },
  {
   "property": "C91",
   "status": "partial",
   "theorems": [
    "SY.Props.add_bytes_partial",
    "SY.Props.put_bytes_violated"
   ],
   "note": "False of the code for assignment, insertion and prepending."
  },
  {
   "property": "C92",
   "status": "partial",
   "theorems": [
    "SY.Props.settimeout_partial",
    "SY.Props.settimeout_none_partial",
    "SY.Props.settimeout_none_violated",
    "SY.Props.settimeout_zero_violated",
    "SY.Props.settimeout_negative_violated",
    "SY.Props.setblocking_spec"
   ],
   "note": "False of the code: settimeout(None) does not reset the timeout, gettimeout ignores 0."
  },
  {
   "property": "C93",
   "status": "partial",
   "theorems": [
    "SY.Props.delay_units",
    "SY.Props.bandwidth_units",
    "SY.Props.bandwidth_units_violated",
    "SY.Props.decimal_text",
    "SY.Props.decimal_text_error",
    "SY.Props.delay_text",
    "SY.Props.delay_no_number",
    "SY.Props.bandwidth_text"
   ],
   "note": "False of the code for unknown capacity units (0 instead of None)."
  },
  {
   "property": "C94",
   "status": "partial",
   "theorems": [
    "SY.Props.assign_ipaddr_mem",
    "SY.Props.iface_ips_nodup",
    "SY.Props.remove_ipaddr_spec",
    "SY.Props.remove_ipaddr_violated"
   ],
   "note": "remove_ipaddr ignores the prefix length."
  },
  {
   "property": "C95",
   "status": "partial",
   "theorems": [
    "SY.Props.send_naming",
    "SY.Props.send_exact",
    "SY.Props.send_again",
    "SY.Props.send_unknown",
    "SY.Props.send_mutates_violated",
    "SY.Props.send_unregistered_violated",
    "SY.Props.send_advertisement_violated",
    "SY.Props.loopback_sends",
    "SY.Props.loopback_destination",
    "SY.Props.loopback_mac"
   ],
   "note": "False of the code on loopback devices, where the first header is deleted from the caller's packet, for interface objects that were never registered (AttributeError), and for packets that cannot be printed, such as router advertisements, which are never sent (AttributeError). On loopback devices the address given to the socket is the packet's destination; on macOS the bytes differ in the order of two fields only, and its length is read right there."
  },
  {
   "property": "C96",
   "status": "partial",
   "theorems": [
    "SY.Props.assembled_addresses",
    "SY.Props.assembled_prefix_violated",
    "SY.Props.assemble_mac_default",
    "SY.Props.reported_addresses_partial",
    "SY.Props.address_without_mask_violated",
    "SY.Props.address6_without_mask_violated",
    "SY.Props.link_address_violated",
    "SY.Props.reported_addresses_exact"
   ],
   "note": "The addresses are right; the prefix length is always 32 or 128. From the texts the system reports: zones of IPv6 addresses are dropped; false for devices with an address without a mask or with a link-layer address that is not Ethernet, for which the network cannot be started. An interface is made exactly if every record can be read."
  },
  {
   "property": "C97",
   "status": "partial",
   "theorems": [
    "SY.Props.send_delay_violated"
   ],
   "note": "Bytes are divided by bits per second: an eighth of the transmission time is used. Nothing weaker than the formula itself is left to prove."
  },
  {
   "property": "C98",
   "status": "partial",
   "theorems": [
    "SY.Props.checksum_start_word",
    "SY.Props.checksum_start_offset_violated"
   ],
   "note": "start is a partial sum, not an offset into the data."
  },
  {
   "property": "C99",
   "status": "partial",
   "theorems": [
    "SY.Props.topology_addInterface_partial",
    "SY.Props.topology_addInterface_address_violated"
   ],
   "note": "The IP address argument is passed as the interface number and lost."
  },
  {
   "property": "C100",
   "status": "partial",
   "theorems": [
    "SY.Props.ethernet_layout",
    "SY.Props.vlan_layout_partial",
    "SY.Props.arp_wire_layout",
    "SY.Props.ipv4_layout",
    "SY.Props.ipv4_option_layout",
    "SY.Props.ipv6_layout",
    "SY.Props.fragment_layout",
    "SY.Props.route_layout",
    "SY.Props.hopopt_layout",
    "SY.Props.udp_layout",
    "SY.Props.tcp_layout",
    "SY.Props.tcp_flag_wire",
    "SY.Props.icmp_layout",
    "SY.Props.icmp6_layout_partial",
    "SY.Props.nd_option_layout_partial",
    "SY.Props.nd_redirected_reserved_violated",
    "SY.Props.rip_layout"
   ],
   "note": "Holds for all headers except the 802.1Q priority (C77), the proxy flag of router advertisements, and the reserved bits of redirected headers."
  },
  {
   "property": "C101",
   "status": "proved",
   "theorems": [
    "SY.Props.matcher_accepts_own",
    "SY.Props.match_repeatable"
   ],
   "note": "For packets of the library's header classes that serialise."
  },
  {
   "property": "C102",
   "status": "partial",
   "theorems": [
    "SY.Props.matcher_restore_partial",
    "SY.Props.matcher_first",
    "SY.Props.matcher_new_restore_partial",
    "SY.Props.matcher_restore_violated"
   ],
   "note": "Proved for reference packets that are stacks of storable headers (C41); with an empty payload the restored matcher refuses the original packet."
  },
  {
   "property": "C103",
   "status": "partial",
   "theorems": [
    "SY.Props.exact_same_bytes_partial",
    "SY.Props.option_equality",
    "SY.Props.exact_bytes_violated"
   ],
   "note": "Proved for headers whose contents are all public attributes; false for hop-by-hop and destination options, routing headers, RIP routes, timestamp pointers, several ICMP data fields and ARP address lengths."
  },
  {
   "property": "C104",
   "status": "partial",
   "theorems": [
    "SY.Props.matcher_answers_partial",
    "SY.Props.matcher_refuses_violated",
    "SY.Props.predicate_guard_violated",
    "SY.Props.advertisement_refused_violated"
   ],
   "note": "Proved for matchers without predicates whose reference has no ICMP echo message and where neither packet is a router advertisement; an echo reference raises AttributeError on other ICMP types, router advertisements raise it whenever the payloads differ, and predicates run on packets that already failed the comparison."
  },
  {
   "property": "C105",
   "status": "partial",
   "theorems": [
    "SY.Props.output_timer_partial",
    "SY.Props.output_alarm",
    "SY.Props.output_timer_violated",
    "SY.Props.timeout_set"
   ],
   "note": "True once an expectation has been met; a scenario that starts with an output has no time limit for it. The limit set on the scenario is the one used."
  },
  {
   "property": "C106",
   "status": "partial",
   "theorems": [
    "SY.Props.sealed_file",
    "SY.Props.compiled_name_partial",
    "SY.Props.compiled_name_violated",
    "SY.Props.b64_roundtrip",
    "SY.Props.b64_length",
    "SY.Props.uncompile_noise",
    "SY.Props.compiled_opens",
    "SY.Props.uncompile_iff",
    "SY.Props.compiled_reports_partial",
    "SY.Props.uncompile_not_ascii"
   ],
   "note": "Contents: proved for any digest function to 64 bytes; base64 is modelled and proved; compression and pickle are parameters that give back what they were given. Names: rstrip('.py') also removes final characters '.', 'p' and 'y' of the name itself."
  },
  {
   "property": "C107",
   "status": "partial",
   "theorems": [
    "SY.Props.scenario_numbers_partial",
    "SY.Props.scenario_numbers_violated"
   ],
   "note": "Proved for different names; a name added again leads to equal numbers."
  },
  {
   "property": "C108",
   "status": "proved",
   "theorems": [
    "SY.Props.parse_follows_numbers"
   ],
   "note": "For every byte string and every first class but RIPv2, against an independent table of assigned numbers."
  },
  {
   "property": "C109",
   "status": "proved",
   "theorems": [
    "SY.Props.rip_get",
    "SY.Props.rip_set",
    "SY.Props.rip_set_out",
    "SY.Props.rip_version",
    "SY.Props.rip_route_size"
   ],
   "note": ""
  },
  {
   "property": "C110",
   "status": "proved",
   "theorems": [
    "SY.Props.packet_contains",
    "SY.Props.packet_contains_payload"
   ],
   "note": "Comparison of single headers is the subject of C41 and C44."
  },
  {
   "property": "C111",
   "status": "proved",
   "theorems": [
    "SY.Props.nd_valid_lifetime",
    "SY.Props.nd_preferred_lifetime",
    "SY.Props.icmp6_fresh",
    "SY.Props.routing_header_type",
    "SY.Props.setPrefix_exact"
   ],
   "note": ""
  },
  {
   "property": "C112",
   "status": "proved",
   "theorems": [
    "SY.Props.ipv4_text_iff",
    "SY.Props.ipv4_iface_text_iff"
   ],
   "note": "The parsers are those of the Python library, modelled from its documentation and source; IPv6 texts are treated in C194."
  },
  {
   "property": "C113",
   "status": "proved",
   "theorems": [
    "SY.Props.assign_ipaddr_argument",
    "SY.Props.assembled_mac",
    "SY.Props.ipv6_text_iff",
    "SY.Props.iface_text_iff",
    "SY.Props.ifaceParse_text"
   ],
   "note": "IPv6 texts are parsed as well; zone names are not modelled."
  },
  {
   "property": "C114",
   "status": "proved",
   "theorems": [
    "SY.Props.socket_new_state"
   ],
   "note": ""
  },
  {
   "property": "C115",
   "status": "proved",
   "theorems": [
    "SY.Props.topology_remove_link",
    "SY.Props.topology_neighbors",
    "SY.Props.unknown_link",
    "SY.Props.unknown_interface"
   ],
   "note": ""
  },
  {
   "property": "C116",
   "status": "proved",
   "theorems": [
    "SY.Props.topology_capacity",
    "SY.Props.topology_delay",
    "SY.Props.topology_characteristics_local",
    "SY.Props.topology_characteristics_succeed",
    "SY.Props.topology_label",
    "SY.Props.topology_labels"
   ],
   "note": "Delays as fractions of finite floats."
  },
  {
   "property": "C117",
   "status": "partial",
   "theorems": [
    "SY.Props.match_semantics_partial",
    "SY.Props.match_vlan_violated",
    "SY.Props.match_ip6_violated",
    "SY.Props.match_udp_dst_violated"
   ],
   "note": "Proved for all packets without VLAN tags and IPv6 headers, except that UDP destination ports are not compared; VLAN and IPv6 packets raise AttributeError unless the VLAN or protocol field is wildcarded."
  },
  {
   "property": "C118",
   "status": "partial",
   "theorems": [
    "SY.Props.build_match_partial",
    "SY.Props.build_vlan_violated",
    "SY.Props.build_ip6_violated",
    "SY.Props.build_arp_violated"
   ],
   "note": "Proved for Ethernet/IPv4 with one of TCP, UDP, ICMP; VLAN, IPv6 and ARP packets always raise."
  },
  {
   "property": "C119",
   "status": "partial",
   "theorems": [
    "SY.Props.flags_written_again",
    "SY.Props.flags_roundtrip_partial",
    "SY.Props.flags_roundtrip_violated"
   ],
   "note": "Holds for enumerations whose members are distinct single bits; members with value zero, or overlapping ones, are added by reading."
  },
  {
   "property": "C120",
   "status": "partial",
   "theorems": [
    "SY.Props.match_entry_partial",
    "SY.Props.match_entry_violated",
    "SY.Props.match_entry_port",
    "SY.Props.match_entry_all_violated",
    "SY.Props.match_overlap_violated"
   ],
   "note": "Proved when the narrower match has no wildcard the wider one lacks, which the code does not check."
  },
  {
   "property": "C121",
   "status": "partial",
   "theorems": [
    "SY.Props.message_roundtrip_partial",
    "SY.Props.message_layout",
    "SY.Props.body_layout",
    "SY.Props.phyPort_roundtrip",
    "SY.Props.phyPort_name_padded",
    "SY.Props.message_parse_terminates",
    "SY.Props.queue_wire",
    "SY.Props.of_port_iff",
    "SY.Props.port_name_violated",
    "SY.Props.port_name_cut_violated",
    "SY.Props.features_actions_violated",
    "SY.Props.fresh_violated",
    "SY.Props.fresh_serialises",
    "SY.Props.fresh_iff",
    "SY.Props.port_states",
    "SY.Props.port_blocked_violated"
   ],
   "note": "Layout and termination are proved in full for the modelled messages. The round trip is proved for port names of 16 bytes and flag sets the wire can express; shorter port names come back with zero characters, the supported actions are not written as bits, and error and packet-out messages cannot be serialised as constructed. For statistics messages see C130."
  },
  {
   "property": "C122",
   "status": "partial",
   "theorems": [
    "SY.Props.packet_in_partial",
    "SY.Props.flow_mod_violated",
    "SY.Props.never_forwards_violated",
    "SY.Props.buffer_exhausted_violated",
    "SY.Props.v13_data_violated",
    "SY.Props.unprintable_data_violated"
   ],
   "note": "False of the code: every flow modification ends the controller thread, nothing is ever forwarded by a flow, and the data path stops when 100 packets are buffered or a packet cannot be printed (router advertisements). Proved: packets go to the controller while there is room."
  },
  {
   "property": "C123",
   "status": "partial",
   "theorems": [
    "SY.Props.replies_history_partial",
    "SY.Props.packet_in_partial",
    "SY.Props.packet_in_numbers",
    "SY.Props.port_numbers_partial",
    "SY.Props.echo_violated",
    "SY.Props.stats_violated",
    "SY.Props.hello_version_violated",
    "SY.Props.v13_silent_violated",
    "SY.Props.port_numbers_violated"
   ],
   "note": "Proved for version 1.0 and all histories of messages other than those that end the thread (echo, statistics, flow modification, hello of version 1.3). With version 1.3 nothing is ever answered."
  },
  {
   "property": "C124",
   "status": "partial",
   "theorems": [
    "SY.Props.never_connected_violated"
   ],
   "note": "False of the code: connect uses names that do not exist and ignores the error, so no connection is ever made and nothing is sent, for every history."
  },
  {
   "property": "C125",
   "status": "partial",
   "theorems": [
    "SY.Props.packet_out_partial",
    "SY.Props.packet_out_data_violated",
    "SY.Props.unsupported_action_violated"
   ],
   "note": "Proved for buffered packets and output actions to numbers, InPort and Flood; packets carried by the message are refused by the live network, and actions that modify packets raise."
  },
  {
   "property": "C126",
   "status": "partial",
   "theorems": [
    "SY.Props.topology_restore_partial",
    "SY.Props.topology_restore_ip6_violated",
    "SY.Props.topology_restore_zero_violated",
    "SY.Props.topology_restore_names_violated",
    "SY.Props.topology_restore_empty_violated",
    "SY.Props.topology_restore_continue_violated",
    "SY.Props.saved_link_keys",
    "SY.Props.topology_text_roundtrip",
    "SY.Props.topology_reload_partial"
   ],
   "note": "Proved for topologies with a node, IPv4 addresses other than 0.0.0.0 and linked nodes not named source, target, self, u_of_edge, v_of_edge. False with IPv6 addresses (cannot be read), 0.0.0.0 (dropped), those names, an empty topology (loses its name), and when links are added after restoring (interfaces overwritten, Ethernet addresses repeated). The text of the saved form is modelled too: json.loads gives back exactly the dictionary that json.dumps was given. topology_reload_partial goes through the text: serialize, json.dumps, json.loads, unserialize.  Labels come back as their texts and a delay as the number json reads from what it wrote."
  },
  {
   "property": "C127",
   "status": "partial",
   "theorems": [
    "SY.Props.topology_prefix_partial",
    "SY.Props.topology_prefix_default_violated",
    "SY.Props.topology_prefix_copy_violated",
    "SY.Props.topology_prefix_violated"
   ],
   "note": "Proved for an explicit prefix and no copy, without self links, clashing linked names or the reserved names. Without a prefix it raises TypeError, with copy=True always AttributeError, and clashing names lose interfaces."
  },
  {
   "property": "C128",
   "status": "partial",
   "theorems": [
    "SY.Props.topology_union_partial",
    "SY.Props.topology_union_rename_violated",
    "SY.Props.topology_union_macs_violated"
   ],
   "note": "Proved without renaming. With rename=True both topologies are modified; Ethernet addresses repeat in the union. For what happens to the parts of a union afterwards see C204."
  },
  {
   "property": "C129",
   "status": "partial",
   "theorems": [
    "SY.Props.match_field_history",
    "SY.Props.match_field_refused",
    "SY.Props.wildcard_history",
    "SY.Props.wildcard_set",
    "SY.Props.ignored_history_partial",
    "SY.Props.match_address_history",
    "SY.Props.nwdst_wildcard_violated"
   ],
   "note": "Fields, addresses and wildcards are proved in full. Reading nwdst_wildcard gives the number for the source address."
  },
  {
   "property": "C130",
   "status": "partial",
   "theorems": [
    "SY.Props.stats_roundtrip_partial",
    "SY.Props.stats_layout_partial",
    "SY.Props.flow_reply_layout",
    "SY.Props.flow_reply_read",
    "SY.Props.message_parse_terminates",
    "SY.Props.fresh_stats_type",
    "SY.Props.stats_short",
    "SY.Props.stats_too_short",
    "SY.Props.utf8_text",
    "SY.Props.stats_texts",
    "SY.Props.fresh_request_bytes",
    "SY.Props.flow_reply_length_violated",
    "SY.Props.aggregate_reply_violated",
    "SY.Props.flow_reply_several_violated",
    "SY.Props.aggregate_reply_read_violated",
    "SY.Props.port_stats_crc_violated",
    "SY.Props.port_crc_setter_violated",
    "SY.Props.stats_name_violated",
    "SY.Props.table_wildcards_violated",
    "SY.Props.table_fresh_violated",
    "SY.Props.aggregate_request_violated",
    "SY.Props.request_arguments_violated"
   ],
   "note": "Round trip and layout are proved for all objects in range, termination for all inputs. False: flow replies state a length that is 4 too large and hold one flow only, aggregate replies have another layout, CRC errors are stored as overrun errors, short names come back padded, wildcards of address bits are dropped from table replies, a new aggregate request asks for individual flows, and constructor arguments of requests are lost."
  },
  {
   "property": "C131",
   "status": "partial",
   "theorems": [
    "SY.Props.message_size_partial",
    "SY.Props.message_size_violated"
   ],
   "note": "Proved for every message except queue statistics replies (72 too large) and vendor statistics requests (4 too small), for which it is refuted for all values."
  },
  {
   "property": "C132",
   "status": "partial",
   "theorems": [
    "SY.Props.capture_roundtrip_partial",
    "SY.Props.capture_time_exact",
    "SY.Props.loop_calls",
    "SY.Props.loop_rest",
    "SY.Props.capture_refused",
    "SY.Props.capture_copy_violated",
    "SY.Props.capture_zero_violated",
    "SY.Props.capture_nano_violated",
    "SY.Props.file_close_violated"
   ],
   "note": "Proved for all sequences of packets with times other than 0 and all filters, times up to a microsecond (exact for those that are whole microseconds in binary). False: copying a file changes times (2.3 becomes 2.299999), time 0 is replaced by the current time, nanosecond times are misread, and closing a file twice frees it twice. Times from 2^31 on and packets longer than the snapshot length are not modelled."
  },
  {
   "property": "C133",
   "status": "partial",
   "theorems": [
    "SY.Props.recv_waits",
    "SY.Props.recv_selects",
    "SY.Props.recv_once",
    "SY.Props.recv_none_iff",
    "SY.Props.send_iff",
    "SY.Props.recv_forever_violated",
    "SY.Props.recv_early_violated",
    "SY.Props.recv_error_violated"
   ],
   "note": "Devices without select are proved to give the first packet in time or nothing. False: without a timeout they do not wait; with select a packet the filter drops ends the waiting; libpcap errors raise NameError or, for a device that is not activated, look like silence."
  },
  {
   "property": "C134",
   "status": "partial",
   "theorems": [
    "SY.Props.filter_all_partial",
    "SY.Props.filter_safe_partial",
    "SY.Props.filter_refused",
    "SY.Props.close_once",
    "SY.Props.close_device",
    "SY.Props.filter_half_violated",
    "SY.Props.filter_null_violated",
    "SY.Props.open_leak_violated"
   ],
   "note": "Proved over all histories: a call that returns has set the filter on every open device; no closed handle is used or closed again. False: a refusal by one device leaves the others half changed, a failed create makes the call crash, and a constructor that raises leaves the device open."
  },
  {
   "property": "C135",
   "status": "partial",
   "theorems": [
    "SY.Props.activate_iff",
    "SY.Props.tstamp_iff",
    "SY.Props.blocking_violated",
    "SY.Props.activate_violated",
    "SY.Props.created_recv_violated",
    "SY.Props.tstamp_violated"
   ],
   "note": "When activate and set_tstamp_type work is characterised. False, for all devices: blocking never reads the value assigned (and cannot be read before activation), activate raises for nonblocking devices although it activates them, and created devices cannot receive until fd is read."
  },
  {
   "property": "C136",
   "status": "partial",
   "theorems": [
    "SY.Props.sim_wiring_partial",
    "SY.Props.sim_wiring_violated",
    "SY.Props.sim_reserved_violated",
    "SY.Props.sim_interface_unwired_violated"
   ],
   "note": "Proved for every topology whose links have capacity and delay and whose nodes are not named capacity, delay or label. False: with a link without delay or a node named delay the simulator does not start; after adding a link twice the first interfaces cannot be sent on."
  },
  {
   "property": "C137",
   "status": "proved",
   "theorems": [
    "SY.Props.sim_flow"
   ],
   "note": "For all topologies that can be simulated (C136) and all interleavings."
  },
  {
   "property": "C138",
   "status": "partial",
   "theorems": [
    "SY.Props.node_recv_partial",
    "SY.Props.node_recv_tuple_violated",
    "SY.Props.node_recv_none_violated",
    "SY.Props.node_recv_available_violated"
   ],
   "note": "Which of packet, NoPackets and Shutdown ends the call is proved for all schedules. False: the result is never (time, port, packet), None as timeout raises TypeError, and a waiting packet is missed if the clock passes the limit before the first look."
  },
  {
   "property": "C139",
   "status": "partial",
   "theorems": [
    "SY.Props.cli_abbreviation_partial",
    "SY.Props.cli_unknown",
    "SY.Props.cli_abbreviation_violated"
   ],
   "note": "Proved for all lines and all commands but exit, help and EOF, whose abbreviations are not understood."
  },
  {
   "property": "C140",
   "status": "partial",
   "theorems": [
    "SY.Props.cli_changes_partial",
    "SY.Props.cli_set_link_partial",
    "SY.Props.cli_settings_violated",
    "SY.Props.cli_set_node_violated",
    "SY.Props.cli_set_link_one_violated",
    "SY.Props.cli_set_link_running_violated"
   ],
   "note": "add and remove are proved for all forms whose values contain no word that announces a value. False: a unit such as b is taken for a keyword; set node never changes anything; set link needs both values and does not reach the running simulation."
  },
  {
   "property": "C141",
   "status": "partial",
   "theorems": [
    "SY.Props.cli_refused_partial",
    "SY.Props.cli_malformed",
    "SY.Props.cli_add_node_violated",
    "SY.Props.cli_add_link_violated",
    "SY.Props.cli_add_link_kept_violated",
    "SY.Props.cli_set_link_violated",
    "SY.Props.remove_usage"
   ],
   "note": "Proved for malformed commands and for names that do not exist. False: adding a node under a taken name ends the simulator; a link refused because of its delay stays; set link with a bad delay has changed the capacity."
  },
  {
   "property": "C142",
   "status": "partial",
   "theorems": [
    "SY.Props.cli_load_partial",
    "SY.Props.cli_load_missing",
    "SY.Props.cli_leave_partial",
    "SY.Props.cli_exec_violated",
    "SY.Props.cli_exec_module_violated",
    "SY.Props.cli_load_violated",
    "SY.Props.cli_leave_violated"
   ],
   "note": "load works in an empty network and exit when all nodes run. False for every network with a node: load and exec end the simulator with AttributeError; exec ignores its module; exit fails before a node's thread has begun."
  },
  {
   "property": "C143",
   "status": "partial",
   "theorems": [
    "SY.Props.monitor_attached",
    "SY.Props.monitor_sees",
    "SY.Props.monitor_files_partial",
    "SY.Props.monitor_where_partial",
    "SY.Props.monitor_any",
    "SY.Props.unmonitor_spec",
    "SY.Props.monitor_files_violated",
    "SY.Props.monitor_prefix_violated",
    "SY.Props.monitor_code_violated",
    "SY.Props.monitor_debug_violated",
    "SY.Props.monitor_lost_violated",
    "SY.Props.monitor_where_violated",
    "SY.Props.unmonitor_command",
    "SY.Props.monitor_refused",
    "SY.Props.monitor_command"
   ],
   "note": "Capture monitors are proved over all interleavings. False: code monitors are never attached, debug monitors end the simulator at the next line, every change of the network removes all monitors, names ending in .pcap are one file for all interfaces, and file names do not begin with the prefix."
  },
  {
   "property": "C144",
   "status": "partial",
   "theorems": [
    "SY.Props.cli_asks",
    "SY.Props.getYn_spec",
    "SY.Props.cli_unsaved_partial",
    "SY.Props.cli_unsaved_violated"
   ],
   "note": "Proved for all histories without set commands; set link is not noted as a change."
  },
  {
   "property": "C145",
   "status": "partial",
   "theorems": [
    "SY.Props.cli_replay_partial",
    "SY.Props.cli_replay_refused",
    "SY.Props.cli_sendeth",
    "SY.Props.cli_replay_violated"
   ],
   "note": "Proved for interfaces that are wired; for one that leads nowhere replay ends the simulator with KeyError."
  },
  {
   "property": "C146",
   "status": "partial",
   "theorems": [
    "SY.Props.import_partial",
    "SY.Props.import_user_entry",
    "SY.Props.import_same_name_violated",
    "SY.Props.import_shadowed_violated",
    "SY.Props.import_stale_violated",
    "SY.Props.import_removed_violated",
    "SY.Props.import_dotted_violated",
    "SY.Props.load_scenarios_partial"
   ],
   "note": "Proved if no module of that name is loaded or found elsewhere on the path. False: a file whose name is that of a module on the path is never run, and of two files of the same name in different directories (for example two scenarios) only one is used, twice. Files with a dot in their name before the ending (lab.router.py) are never run (import_dotted_violated). Packages are not modelled. Also for any number of scenario files with different names."
  },
  {
   "property": "C147",
   "status": "partial",
   "theorems": [
    "SY.Props.swyard_live_partial",
    "SY.Props.swyard_tests",
    "SY.Props.swyard_compiles",
    "SY.Props.swyard_lists",
    "SY.Props.swyard_cli_partial",
    "SY.Props.swyard_runs",
    "SY.Props.swyard_restores",
    "SY.Props.swyard_app_rules_violated",
    "SY.Props.swyard_cli_violated",
    "SY.Props.swyard_topology_violated",
    "SY.Props.swyard_topology_raises_violated",
    "SY.Props.cmdline_starts"
   ],
   "note": "Proved for all option combinations and failures except: with -a the rules given with -f are ignored; --cli alone only prints the usage; with --topology the simulator never starts (NameError). From the words of the command line on: cmdline_starts (C212)."
  },
  {
   "property": "C148",
   "status": "partial",
   "theorems": [
    "SY.Props.app_started_partial",
    "SY.Props.app_after_setup",
    "SY.Props.app_hangs_violated"
   ],
   "note": "Proved that it starts exactly after a successful setup, over all interleavings. False: with -c, or if the firewall cannot be set up, its thread waits for ever."
  },
  {
   "property": "C149",
   "status": "partial",
   "theorems": [
    "SY.Props.live_ends_partial",
    "SY.Props.live_ends_violated",
    "SY.Props.app_ends_partial",
    "SY.Props.app_ends_violated"
   ],
   "note": "Proved if user code returns, and if the application ends after the network object was made. False: after an exception in user code the receiving threads go on; an application that ends early does not shut the network down."
  },
  {
   "property": "C150",
   "status": "partial",
   "theorems": [
    "SY.Props.copies_delivered_partial",
    "SY.Props.copy_delivered_partial",
    "SY.Props.setattr_reads_back_partial",
    "SY.Props.packet_setattr",
    "SY.Props.setattr_frame_partial",
    "SY.Props.copy_argument",
    "SY.Props.setattr_bool",
    "SY.Props.copy_forgotten_violated",
    "SY.Props.copy_crash_violated",
    "SY.Props.copy_ecn_violated",
    "SY.Props.copy_pcp_violated",
    "SY.Props.copy_empty_violated"
   ],
   "note": "Proved for every header class and attribute and any number of values, if the port was one of the last output expectation met, for attributes that are not computed lengths, values of the right kind and attributes that keep all values. False: after another output expectation without the port the value is forgotten and an Ethernet address becomes all zeros, an IPv4 address raises ValueError in the program; the congestion bits are mixed with the old ones, priorities above 3 become 3; an empty list raises IndexError."
  },
  {
   "property": "C151",
   "status": "partial",
   "theorems": [
    "SY.Props.packets_apart",
    "SY.Props.copy_independent",
    "SY.Props.packets_are_values_partial",
    "SY.Props.sum_changes_operand_violated",
    "SY.Props.sum_serialised_violated"
   ],
   "note": "Proved for packets that share no header object, for deep copies, and (refinement to packets as values) for every program that no longer uses a packet whose headers it gave to another one. False: p + q copies p but takes over the header objects of q, so changing or serialising the sum changes q. Objects inside headers (option lists, addresses) are the subject of C214."
  },
  {
   "property": "C152",
   "status": "partial",
   "theorems": [
    "SY.Props.output_as_given",
    "SY.Props.input_as_given_partial",
    "SY.Props.input_reads_late",
    "SY.Props.input_changed_violated"
   ],
   "note": "Output expectations: proved for all histories in which no packet was refused. Input expectations: proved if the packet is not touched until it is received; false otherwise, because the event keeps the author's packet object."
  },
  {
   "property": "C153",
   "status": "partial",
   "theorems": [
    "SY.Props.received_new",
    "SY.Props.recv_new",
    "SY.Props.input_twice_violated"
   ],
   "note": "Proved that the packet is new and that changing it changes no other packet. False if the same event is expected again: it keeps the packet delivered."
  },
  {
   "property": "C154",
   "status": "partial",
   "theorems": [
    "SY.Props.input_again_partial",
    "SY.Props.output_twice_violated",
    "SY.Props.met_waits_for_nothing",
    "SY.Props.input_twice_violated"
   ],
   "note": "Proved for input events whose packet was not touched. False: an output event that was met can never be met again, and an input event delivers the packet as the program changed it."
  },
  {
   "property": "C155",
   "status": "partial",
   "theorems": [
    "SY.Props.copied_as_sent_partial",
    "SY.Props.copied_later_violated"
   ],
   "note": "Proved if the packets sent are not touched before the value is copied; false otherwise."
  },
  {
   "property": "C156",
   "status": "partial",
   "theorems": [
    "SY.Props.of13_body_roundtrip_partial",
    "SY.Props.of13_parse_violated",
    "SY.Props.of13_flowmod_read_violated",
    "SY.Props.of13_port_name_refused"
   ],
   "note": "False of messages: no byte string is ever parsed (the enumeration lacks StatsRequest, to which the type is compared). Proved for error, echo, experimenter and configuration bodies; for the other bodies only under the assumption that the three names the module fails to import were bound."
  },
  {
   "property": "C157",
   "status": "partial",
   "theorems": [
    "SY.Props.of13_serialisable_partial",
    "SY.Props.of13_built_partial",
    "SY.Props.of13_unserialisable_violated",
    "SY.Props.of13_error_unset_violated",
    "SY.Props.of13_packetout_empty_violated"
   ],
   "note": "Exact characterisation over all histories of assignments, and exact bytes of messages as they are built. False: features, packet-in, flow-removed, port-status, packet-out, flow-modification and port-modification messages can never be serialised, nor can error messages without an assigned type."
  },
  {
   "property": "C158",
   "status": "partial",
   "theorems": [
    "SY.Props.of13_message_layout_partial",
    "SY.Props.of13_body_layout_partial",
    "SY.Props.of13_bound_layout_partial",
    "SY.Props.of13_plain_type_violated",
    "SY.Props.of13_queue_layout_violated"
   ],
   "note": "Header proved for all serialised messages, bodies for error, echo, experimenter and configuration; for the others only under the assumption that the missing names were bound. False: a message built with a plain number as type is never serialised; queue messages have a 16-bit port."
  },
  {
   "property": "C159",
   "status": "partial",
   "theorems": [
    "SY.Props.of13_action_port_partial",
    "SY.Props.of13_reserved_port_violated",
    "SY.Props.of13_reserved"
   ],
   "note": "Proved exactly for ports below 65536; false for every reserved port, the default of the constructors included."
  },
  {
   "property": "C160",
   "status": "partial",
   "theorems": [
    "SY.Props.setattr_frame_partial",
    "SY.Props.ecn_changes_dscp_violated"
   ],
   "note": "Proved for every header, attribute and value but one case, which is false: assigning ecn changes every odd DSCP."
  },
  {
   "property": "C161",
   "status": "partial",
   "theorems": [
    "SY.Props.unknown_attr_partial",
    "SY.Props.unknown_attr_violated"
   ],
   "note": "Proved for all headers but destination options and the null header, for which it is false for every name and value."
  },
  {
   "property": "C162",
   "status": "partial",
   "theorems": [
    "SY.Props.packet_str_partial",
    "SY.Props.str_after_bytes",
    "SY.Props.advertisement_str_violated",
    "SY.Props.home_address_str_violated"
   ],
   "note": "Proved exactly: a packet can be printed unless it holds a router advertisement or a Home Address option, for which printing always raises AttributeError."
  },
  {
   "property": "C163",
   "status": "partial",
   "theorems": [
    "SY.Props.packet_text_same_partial",
    "SY.Props.packet_str_same_partial",
    "SY.Props.hdr_str_same",
    "SY.Props.hdr_cut",
    "SY.Props.shown_str",
    "SY.Props.repr_cut",
    "SY.Props.rso_letters",
    "SY.Props.arp_operation_violated",
    "SY.Props.redirect_shown_violated",
    "SY.Props.raw_rest_violated",
    "SY.Props.intText_toString",
    "SY.Props.null_str_same",
    "SY.Props.bytes_repr_delimiter",
    "SY.Props.bool_words"
   ],
   "note": "Proved as an equivalence for packets of any number of headers of any class as the setters leave them, except those that cannot be printed at all (router advertisements, home address options): the text of a packet tells its headers and what is shown of each, even if payloads contain the separator. False for the ARP operation, the destination of a redirect, and raw contents beyond ten bytes."
  },
  {
   "property": "C164",
   "status": "partial",
   "theorems": [
    "SY.Props.of13_assigned",
    "SY.Props.of13_refused_partial",
    "SY.Props.of13_last_assigned_partial",
    "SY.Props.of13_type_assigned",
    "SY.Props.of13_defaults_allowed",
    "SY.Props.of13_port_assign_violated"
   ],
   "note": "Proved for all bodies and all programs of assignments. False for the ports of packet-in, packet-out and queue messages: assigning them raises NameError for every value."
  },
  {
   "property": "C165",
   "status": "partial",
   "theorems": [
    "SY.Props.mismatch_reported_partial",
    "SY.Props.reason_text",
    "SY.Props.reason_predicates",
    "SY.Props.predicates_listed",
    "SY.Props.other_failures_partial",
    "SY.Props.event_text",
    "SY.Props.unshowable_violated",
    "SY.Props.mismatch_reported_violated",
    "SY.Props.saved_event_violated"
   ],
   "note": "Proved for packets that can be printed and wildcards on attributes that are stored as they are named. False otherwise: with a wildcard on the protocol of IPv4, for example, a mismatch raises AttributeError when messages are verbose or a predicate fails."
  },
  {
   "property": "C166",
   "status": "partial",
   "theorems": [
    "SY.Props.diagnosis_exactly",
    "SY.Props.diagnosis_attributes",
    "SY.Props.diagnosis_classes",
    "SY.Props.classes_cases",
    "SY.Props.difference_identifies",
    "SY.Props.wildcards_hidden",
    "SY.Props.expected_shown_violated"
   ],
   "note": "The diagnosis is proved for all pairs of packets. False of the verbose message, which shows the packet sent as the one expected, always."
  },
  {
   "property": "C167",
   "status": "partial",
   "theorems": [
    "SY.Props.messages_harmless_partial",
    "SY.Props.met_counted_partial",
    "SY.Props.recvR_same",
    "SY.Props.sendR_same",
    "SY.Props.met_counted_violated",
    "SY.Props.next_unshowable_violated"
   ],
   "note": "Proved for all histories with packets that can be printed. False for every input expectation whose packet cannot be (a router advertisement): the packet is not delivered and the expectation is neither met nor pending afterwards. The same when the event after the one that is met cannot be printed."
  },
  {
   "property": "C168",
   "status": "partial",
   "theorems": [
    "SY.Props.summary_lists_partial",
    "SY.Props.summary_iff",
    "SY.Props.summary_number_partial",
    "SY.Props.summary_violated",
    "SY.Props.summary_number_violated"
   ],
   "note": "Proved exactly: there is a summary unless an event cannot be printed, and it lists all. False of the number from 10000 on, which overwrites the beginning of the description."
  },
  {
   "property": "C169",
   "status": "partial",
   "theorems": [
    "SY.Props.event_eq_refl_partial",
    "SY.Props.event_eq_symm",
    "SY.Props.event_eq_trans",
    "SY.Props.input_eq_iff",
    "SY.Props.output_eq_iff",
    "SY.Props.scenario_eq_partial",
    "SY.Props.scenario_eq_iff",
    "SY.Props.scenario_eq_violated",
    "SY.Props.output_eq_violated",
    "SY.Props.output_eq_order_violated"
   ],
   "note": "An equivalence for events that can be printed; exactly what is compared is proved. False that equal ones expect the same: interfaces, timeouts, exactness, wildcards and predicates are ignored, and the order of ports matters."
  },
  {
   "property": "C170",
   "status": "partial",
   "theorems": [
    "SY.Props.sane_iff",
    "SY.Props.sane_refused_partial",
    "SY.Props.sane_violated"
   ],
   "note": "Proved: nothing is found exactly if nothing is wrong. False that it never raises: a packet that cannot be printed, expected on an unknown interface, ends the check with AttributeError."
  },
  {
   "property": "C171",
   "status": "partial",
   "theorems": [
    "SY.Props.end_message_partial",
    "SY.Props.end_message_violated"
   ],
   "note": "Proved for port names without capitals; others are changed to small letters."
  },
  {
   "property": "C172",
   "status": "proved",
   "theorems": [
    "SY.Props.display_one",
    "SY.Props.display_all"
   ],
   "note": "For all packets, classes and headers."
  },
  {
   "property": "C173",
   "status": "partial",
   "theorems": [
    "SY.Props.stack_sends_partial",
    "SY.Props.stack_interface",
    "SY.Props.stack_source_violated",
    "SY.Props.stack_v6_violated"
   ],
   "note": "Proved for IPv4 destinations, ports in range and data that fits, for all of them. False of the source address, which is the first IPv4 address of the interface whatever the flow says, and of IPv6 destinations: a message for ::1 is sent to 0.0.0.0."
  },
  {
   "property": "C174",
   "status": "partial",
   "theorems": [
    "SY.Props.stack_delivers_partial",
    "SY.Props.stack_poll",
    "SY.Props.stack_empty_violated"
   ],
   "note": "Proved for all non-empty messages, over both link types, in all reachable states of the sockets. False for empty messages: the stack they reach ends with AttributeError."
  },
  {
   "property": "C175",
   "status": "partial",
   "theorems": [
    "SY.Props.stack_answer_violated",
    "SY.Props.stack_source_violated",
    "SY.Props.stack_delivers_partial"
   ],
   "note": "Proved for sockets bound to no address or to the first IPv4 address of the interface (stack_delivers_partial, applied to message and answer). False for every other address: the answer is dropped."
  },
  {
   "property": "C176",
   "status": "partial",
   "theorems": [
    "SY.Props.stack_survives_partial",
    "SY.Props.stack_protocol_violated",
    "SY.Props.stack_empty_violated",
    "SY.Props.stack_port_violated",
    "SY.Props.stack_silence",
    "SY.Props.stack_shutdown"
   ],
   "note": "Proved exactly which packets are handled. False for TCP and every other protocol (the slice of a packet raises IndexError), for empty datagrams and, for what applications send, for ports that are not ports."
  },
  {
   "property": "C177",
   "status": "proved",
   "theorems": [
    "SY.Props.stack_fifo"
   ],
   "note": "For every interleaving; a message on which the stack ends is the only one that is neither sent nor queued."
  },
  {
   "property": "C178",
   "status": "partial",
   "theorems": [
    "SY.Props.route_option_back",
    "SY.Props.route_option_back_partial",
    "SY.Props.route_option_back_violated",
    "SY.Props.route_option_empty_violated",
    "SY.Props.route_new",
    "SY.Props.route_pointer",
    "SY.Props.route_elements"
   ],
   "note": "Proved for every sequence of operations exactly when the option comes back. False after a deletion that leaves the pointer beyond the remaining addresses: nothing is raised, and the header written is refused with ValueError."
  },
  {
   "property": "C179",
   "status": "partial",
   "theorems": [
    "SY.Props.route_complete_partial",
    "SY.Props.route_complete_violated"
   ],
   "note": "Proved for all routes that are not complete. False for all that are: a packet with a full record route, or with a source route that has reached its destination, cannot be parsed."
  },
  {
   "property": "C180",
   "status": "partial",
   "theorems": [
    "SY.Props.option_type_partial",
    "SY.Props.option_type_violated",
    "SY.Props.option_type_changed_violated"
   ],
   "note": "Proved for all options but source routes. False for both source-route options, always: they are written, and forwarded, without the copy flag."
  },
  {
   "property": "C181",
   "status": "partial",
   "theorems": [
    "SY.Props.optlist_get",
    "SY.Props.optlist_set",
    "SY.Props.optlist_del",
    "SY.Props.optlist_append",
    "SY.Props.optlist_errors",
    "SY.Props.optlist_run_roundtrip",
    "SY.Props.optlist_raw_length",
    "SY.Props.nd_by_class",
    "SY.Props.nd_by_class_violated",
    "SY.Props.hop_get",
    "SY.Props.hop_get_violated",
    "SY.Props.route_set_exact",
    "SY.Props.new_ipopts_wire"
   ],
   "note": "Proved for lists of IPv4 and ICMPv6 options, for all positions and histories. False for classes options are derived from, under which no option is found, and for positions from the back in IPv6 extension headers."
  },
  {
   "property": "C182",
   "status": "partial",
   "theorems": [
    "SY.Props.timestamp_flag",
    "SY.Props.timestamp_partial",
    "SY.Props.timestamp_flag_violated",
    "SY.Props.timestamp_overflow_violated",
    "SY.Props.timestamp_no_address_violated"
   ],
   "note": "Proved exactly what becomes of every flag, and the round trip for flags up to 15 with entries that go with them. False for flags 0 and 16 to 255 on a new option, for the overflow count of received options, which is dropped, and for received options without addresses given another flag."
  },
  {
   "property": "C183",
   "status": "partial",
   "theorems": [
    "SY.Props.configured_next_partial",
    "SY.Props.user_class_configured",
    "SY.Props.inherited_table_violated"
   ],
   "note": "Proved for Ethernet, Vlan, IPv4, IPv6, UDP and TCP and for user-defined classes that were given a table and a name of their own, for all sequences of calls that do not hand one dictionary to two classes. False for user-defined classes without a table of their own: they all share that of the base class."
  },
  {
   "property": "C184",
   "status": "proved",
   "theorems": [
    "SY.Props.registering_affects_only",
    "SY.Props.unconfigured_parse"
   ],
   "note": "An equivalence, after any configuration. Extension headers count as IPv6 headers, whose dictionary they use."
  },
  {
   "property": "C185",
   "status": "proved",
   "theorems": [
    "SY.Props.registered_header_roundtrip",
    "SY.Props.udp_ping_roundtrip",
    "SY.Props.spanning_tree_roundtrip"
   ],
   "note": "For every user-defined class, packet and additive configuration; lengths are filled in by writing. The documentation's classes are instances."
  },
  {
   "property": "C186",
   "status": "partial",
   "theorems": [
    "SY.Props.registered_parse_terminates_partial",
    "SY.Props.ip_in_ip_diverges_violated",
    "SY.Props.idle_header_diverges_violated"
   ],
   "note": "Proved when only user-defined classes that consume bytes are registered. False when IPv4 is registered for IP in IP, and for user-defined classes that consume nothing and follow themselves."
  },
  {
   "property": "C187",
   "status": "partial",
   "theorems": [
    "SY.Props.registered_keeps_parsing_partial",
    "SY.Props.rejecting_header_violated"
   ],
   "note": "Proved for classes that accept what they are given. False for classes that raise, such as the documentation's UDPPing when the payload is short: the whole packet is lost."
  },
  {
   "property": "C188",
   "status": "partial",
   "theorems": [
    "SY.Props.configured_next_partial",
    "SY.Props.fixed_next_violated",
    "SY.Props.fixed_next_none",
    "SY.Props.extension_next_violated"
   ],
   "note": "True of six classes (C183). False of ARP, ICMP, ICMPv6, RIPv2, Null and the IPv6 extension headers, for all calls."
  },
  {
   "property": "C189",
   "status": "partial",
   "theorems": [
    "SY.Props.session_restores_partial",
    "SY.Props.mac_session",
    "SY.Props.test_session",
    "SY.Props.session_restores_violated",
    "SY.Props.mac_anchor_violated"
   ],
   "note": "Proved on Linux for all programs and outcomes when every command can be started. False when a command cannot be started while the rules are installed (AttributeError from the error handling, and the host is left without its rules), and on macOS for rules that were in the anchor before."
  },
  {
   "property": "C190",
   "status": "partial",
   "theorems": [
    "SY.Props.firewall_once",
    "SY.Props.firewall_platform",
    "SY.Props.add_rule_without",
    "SY.Props.firewall_retry_violated",
    "SY.Props.firewall_again_violated"
   ],
   "note": "A second firewall is always refused without touching the host. False that one can be made later: after any attempt, failed or ended, every further one is refused."
  },
  {
   "property": "C191",
   "status": "partial",
   "theorems": [
    "SY.Props.colors_shown_partial",
    "SY.Props.color_block_ends",
    "SY.Props.color_exception_violated",
    "SY.Props.color_nested_violated"
   ],
   "note": "Proved for programs without exceptions and without coloured blocks inside coloured blocks. False for every exception in a coloured block, which leaves the colour on, and for the rest of an outer block after an inner one."
  },
  {
   "property": "C192",
   "status": "partial",
   "theorems": [
    "SY.Props.nocolor_partial",
    "SY.Props.nocolor_violated",
    "SY.Props.setup_once"
   ],
   "note": "Proved that no text changes its colour. False that there are no control sequences: every coloured block writes one at its end."
  },
  {
   "property": "C193",
   "status": "partial",
   "theorems": [
    "SY.Props.reply_reaches_sender",
    "SY.Props.connect_to_name",
    "SY.Props.sockname_iff",
    "SY.Props.bind_name",
    "SY.Props.peername_violated"
   ],
   "note": "Proved for all addresses of both families and all ports. False of the peer of a socket that is not connected: TypeError instead of OSError."
  },
  {
   "property": "C194",
   "status": "partial",
   "theorems": [
    "SY.Props.bad_address_refused",
    "SY.Props.good_address_accepted",
    "SY.Props.any_port_violated",
    "SY.Props.ipv6_text_iff"
   ],
   "note": "Proved for addresses, against RFC 4291. False for ports: every integer is accepted."
  },
  {
   "property": "C195",
   "status": "partial",
   "theorems": [
    "SY.Props.dpid_parts_partial",
    "SY.Props.features_assigns_roundtrip",
    "SY.Props.feature_counts",
    "SY.Props.low48_bytes_violated"
   ],
   "note": "Proved for every other value. False for the lower 48 bits given as six bytes: always AttributeError."
  },
  {
   "property": "C196",
   "status": "partial",
   "theorems": [
    "SY.Props.flags_added",
    "SY.Props.flags_read_back",
    "SY.Props.single_bits",
    "SY.Props.flags_assign_violated",
    "SY.Props.flags_assign_number_violated"
   ],
   "note": "Proved for all sequences of calls, and for reading back all enumerations of single bits. False for assignments (capabilities, actions), which add to what is there and refuse combined values."
  },
  {
   "property": "C197",
   "status": "proved",
   "theorems": [
    "SY.Props.program_reports",
    "SY.Props.program_passes",
    "SY.Props.serve_ends",
    "SY.Props.serve_catches_shutdown"
   ],
   "note": "Programs are a receive loop that skips NoPackets, stops at Shutdown and lets other exceptions escape; packets expected to arrive are not copied from sent ones; the exact form is for matchers and programs that do not themselves raise Shutdown."
  },
  {
   "property": "C198",
   "status": "proved",
   "theorems": [
    "SY.Props.hub_tests_exact",
    "SY.Props.hub_passes_tests",
    "SY.Props.plain_hub_tests",
    "SY.Props.sheep_hub_fails"
   ],
   "note": "Frames are stacks of headers starting with Ethernet that can be serialised, and printed where the hub logs them."
  },
  {
   "property": "C199",
   "status": "partial",
   "theorems": [
    "SY.Props.show_links_partial",
    "SY.Props.show_links_node_partial",
    "SY.Props.show_links_once",
    "SY.Props.show_nodes",
    "SY.Props.show_node",
    "SY.Props.show_monitors",
    "SY.Props.show_keeps",
    "SY.Props.show_links_unlabelled",
    "SY.Props.show_links_violated",
    "SY.Props.show_links_stale_violated",
    "SY.Props.show_word_violated",
    "SY.Props.label_delay_exact",
    "SY.Props.label_capacity"
   ],
   "note": "Proved where every link has its label, as after every history in which no addition or change of a link raised. False after a refused add link (show links then raises KeyError, for every topology with such a link), after a refused set link (the old capacity is shown), and for the word monitors, which is refused. The drawing of show topology is not modelled; the texts of delays that are negative, from 2^33 seconds on or below half a microsecond are a parameter."
  },
  {
   "property": "C200",
   "status": "partial",
   "theorems": [
    "SY.Props.completion_exact_partial",
    "SY.Props.completion_prefix",
    "SY.Props.completion_remove_node",
    "SY.Props.completion_remove_link",
    "SY.Props.completion_runs",
    "SY.Props.completion_show_violated",
    "SY.Props.completion_second_violated",
    "SY.Props.completion_set_link_violated"
   ],
   "note": "Proved for all commands but show, against a list of the words that can follow each beginning. False for show (completion raises TypeError, for every network), for the second end of a link and for interfaces, after abbreviated or doubly spaced beginnings, and for the second ends of links in set link."
  },
  {
   "property": "C201",
   "status": "partial",
   "theorems": [
    "SY.Props.capture_tools_partial",
    "SY.Props.capture_tools_raise",
    "SY.Props.capture_tools_violated",
    "SY.Props.capture_hang_violated",
    "SY.Props.capture_times_violated"
   ],
   "note": "Proved for packets that can be parsed and printed, and exactly what happens at one that raises: it is captured, but ends the reading program before the rest of the file and all further files. False: a frame on which parsing never returns ends the capture; the time written is that of writing, not of capture."
  },
  {
   "property": "C202",
   "status": "partial",
   "theorems": [
    "SY.Props.sniff_logs_partial",
    "SY.Props.sniff_count_violated",
    "SY.Props.sniff_print_violated"
   ],
   "note": "Log and end are proved for packets that can be printed. False: the number is never printed, for every history; a packet that cannot be printed ends the sniffer. The text of the time is not modelled."
  },
  {
   "property": "C203",
   "status": "partial",
   "theorems": [
    "SY.Props.sendpkt_repaired_partial",
    "SY.Props.sendpkt_violated"
   ],
   "note": "False of the code for every network with an interface: nothing is sent, AttributeError or IndexError is raised. Proved only for the program with .ip in place of .src.ip."
  },
  {
   "property": "C204",
   "status": "partial",
   "theorems": [
    "SY.Props.topology_graph_kept_partial",
    "SY.Props.topology_alone",
    "SY.Props.topology_union_shows",
    "SY.Props.topology_separate",
    "SY.Props.topology_shared_violated",
    "SY.Props.topology_shared_link_violated"
   ],
   "note": "Proved for names, links and their characteristics, and entirely for topologies never given to union. False of interfaces and addresses: a node is one object in the union and in the topology it comes from, for all histories until it is removed from one of the two; so a link added to the union leaves interfaces without links in the parts. Renaming while uniting (C128) is not part of the histories."
  },
  {
   "property": "C205",
   "status": "partial",
   "theorems": [
    "SY.Props.sim_packet_kept_partial",
    "SY.Props.sim_sent_violated",
    "SY.Props.sim_flood_violated",
    "SY.Props.sim_send_unsized"
   ],
   "note": "Proved for a packet that shares no header with another one and that nobody changes or monitors after it was sent, whatever else happens. False otherwise: the object itself travels, so for every network and every operation of the sender between sending and receiving, the receiver sees the changed packet; and two hosts reached by a flood have one packet between them."
  },
  {
   "property": "C206",
   "status": "partial",
   "theorems": [
    "SY.Props.monitors_watch_partial",
    "SY.Props.monitor_serialises_violated",
    "SY.Props.monitor_changes_violated"
   ],
   "note": "Proved for histories in which a packet that is written to a file has been serialised since it was changed last. False otherwise, for every packet: the monitor leaves it as serialising does (lengths and checksums set), and if it cannot be serialised the program gets the exception and loses the packet. Monitors that stop the node (interactive ones) are outside the property."
  },
  {
   "property": "C207",
   "status": "proved",
   "theorems": [
    "SY.Props.compile_interrupted",
    "SY.Props.compiled_cut"
   ],
   "note": "bz2, sha512 and pickle are parameters; assumed: they give back what they were given, digests have 64 bytes, and a compressed text that ends early is refused."
  },
  {
   "property": "C208",
   "status": "proved",
   "theorems": [
    "SY.Props.json_roundtrip",
    "SY.Props.json_cut",
    "SY.Props.topology_save_interrupted",
    "SY.Props.topology_text_ascii"
   ],
   "note": "How json.dumps writes a delay is a parameter; assumed: as a number. load_from_file opens the file with mode 'rU', which Python 3.11 and later refuse; the theorem is about what json.loads makes of the contents."
  },
  {
   "property": "C209",
   "status": "partial",
   "theorems": [
    "SY.Props.parse_raises_partial",
    "SY.Props.header_raises_iff",
    "SY.Props.parse_raises_iff",
    "SY.Props.frame_raises_iff",
    "SY.Props.parse_raises_violated"
   ],
   "note": "False of the code: the exact set of exceptions is proved for every header class and every class of first header, and for Ethernet frames it also contains Exception, IndexError, struct.error, AssertionError, KeyError, NameError, AttributeError and never returning. The claim itself holds for packets starting with UDP, TCP or RIPv2 and for the Ethernet, VLAN, IPv6 and null headers themselves. AddressValueError is a subclass of ValueError."
  },
  {
   "property": "C210",
   "status": "partial",
   "theorems": [
    "SY.Props.addr_keys",
    "SY.Props.addr_key_missing",
    "SY.Props.addr_in_list",
    "SY.Props.addr_compare_iff",
    "SY.Props.text_key_violated",
    "SY.Props.addr_compare_violated",
    "SY.Props.entry_hash_violated"
   ],
   "note": "Proved for EthAddr keys, every history and every hash function. False: an address equals its own text but is not found under it (different hashes); comparing an address with anything that is not one raises RuntimeError, also inside 'in'; the address of zeros equals None. Entries of flow tables are equal by priority and hashed by cookie."
  },
  {
   "property": "C211",
   "status": "partial",
   "theorems": [
    "SY.Props.sim_by_name",
    "SY.Props.sim_answers_partial",
    "SY.Props.sim_answers_violated",
    "SY.Props.sim_lookup_violated",
    "SY.Props.sim_callback_violated",
    "SY.Props.sim_send_violated"
   ],
   "note": "Proved for interfaces() and lookups by name. False: lookups by address always give None, testmode raises NotImplementedError, callbacks are never called, and only names can be used to send."
  },
  {
   "property": "C212",
   "status": "proved",
   "theorems": [
    "SY.Props.cmdline_iff",
    "SY.Props.cmdline_accepts",
    "SY.Props.cmdline_starts",
    "SY.Props.codearg_equals",
    "SY.Props.codearg_next_iff",
    "SY.Props.code_behind_dashes",
    "SY.Props.codearg_violated"
   ],
   "note": "The reading of words is argparse's of CPython 3.11 for the shapes of options that swyard.py declares; digits of negative numbers are ASCII ones. Also proved: the help text's advice to quote the arguments behind -g fails exactly for texts that look like an option (codearg_next_iff, codearg_violated)."
  },
  {
   "property": "C213",
   "status": "partial",
   "theorems": [
    "SY.Props.stats13_unserialisable_violated",
    "SY.Props.stats13_serialised_partial",
    "SY.Props.stats13_roundtrip_partial",
    "SY.Props.stats13_requests_unread_violated"
   ],
   "note": "False for requests for flows, aggregate flows, ports and queues and for replies about flows and tables: they need names that the module does not import, so they can never be serialised, and the requests never be read. Proved for the other classes, and for all if the names were bound, within the limits of C130."
  },
  {
   "property": "C214",
   "status": "partial",
   "theorems": [
    "SY.Props.own_data_partial",
    "SY.Props.own_data_violated",
    "SY.Props.messages_tied",
    "SY.Props.messages_tied4",
    "SY.Props.messages_tied6",
    "SY.Props.data_in_common",
    "SY.Props.message_copy_apart",
    "SY.Props.message_given_apart",
    "SY.Props.message_typed_apart"
   ],
   "note": "False after a.icmpdata = b.icmpdata, which stores b's object: from then on both show the same data until one of them is given other data or a type whose class differs (data_in_common, own_data_violated). Proved for all programs without such an assignment; messages_tied says for all programs exactly which messages a change is seen in. Refers to the messages themselves; the checksum that to_bytes stores is not part of it."
  },
  {
   "property": "C215",
   "status": "partial",
   "theorems": [
    "SY.Props.build_order",
    "SY.Props.build_value",
    "SY.Props.build_reads_partial",
    "SY.Props.build_default",
    "SY.Props.build_accepts",
    "SY.Props.setattr_text",
    "SY.Props.int_of_text",
    "SY.Props.int_of_int",
    "SY.Props.icmp_build_order",
    "SY.Props.icmp_build_message",
    "SY.Props.icmp6_build_message_partial",
    "SY.Props.icmp6_build_lost_violated",
    "SY.Props.icmp6_build_code_violated",
    "SY.Props.icmp_build_lost_violated",
    "SY.Props.icmp_build_code_violated",
    "SY.Props.build_dscp_violated",
    "SY.Props.int_of_address",
    "SY.Props.int_of_bytes",
    "SY.Props.int_of_bytes_iff",
    "SY.Props.enum_attr_typed"
   ],
   "note": "Proved for every list of arguments of which no two are views of the same thing, and for ICMP with type, code and attributes of its data. False in general: of an odd dscp given before ecn the lowest bit is lost; data given to ICMP replaces attributes given one by one and resets the code if it comes later; ICMPv6 with a type other than echo request loses the attributes of its data, takes none that only data of that type has, and refuses a code written before the type. Not modelled: raw=..., names of methods as arguments, ICMPv4 data given to ICMPv6. Also for addresses and bytes given as numbers. What is no number is no value of an enumeration."
  },
  {
   "property": "C216",
   "status": "partial",
   "theorems": [
    "SY.Props.icmp_data_reads",
    "SY.Props.icmp6_data_reads",
    "SY.Props.icmp_data_has",
    "SY.Props.icmp6_data_has",
    "SY.Props.icmp6_data_frame",
    "SY.Props.icmp_data_frame",
    "SY.Props.icmp6_data_text",
    "SY.Props.ra_times_refused",
    "SY.Props.ra_flag_number",
    "SY.Props.na_flag_violated",
    "SY.Props.make6_order",
    "SY.Props.make6_object",
    "SY.Props.make6_accepts",
    "SY.Props.make4_object",
    "SY.Props.make_fixed_violated",
    "SY.Props.make_unknown_violated",
    "SY.Props.mkPrefix_order_partial",
    "SY.Props.mkPrefix_object",
    "SY.Props.mkPrefix_order_violated",
    "SY.Props.icmp_payload_other",
    "SY.Props.icmp_data_address",
    "SY.Props.pfx_net_given",
    "SY.Props.pfx_length_given",
    "SY.Props.pfx_unknown"
   ],
   "note": "Proved: values are kept, nothing else changes, constructors give what they were given in any order. False: flags of a neighbour advertisement refuse numbers with AssertionError although those of a router advertisement take them; the classes of echo, unreachable, redirect and other messages with fields of their own take no arguments at all (TypeError); a misspelt name is accepted silently by the other data classes; a prefix length given before a prefix is lost. Also proved: what values of other kinds give (text as payload, numbers as addresses, text as prefix and length) and which error others raise."
  },
  {
   "property": "C217",
   "status": "partial",
   "theorems": [
    "SY.Props.suite_alone_partial",
    "SY.Props.suite_alarm_violated",
    "SY.Props.suite_abort_violated",
    "SY.Props.suite_files_violated",
    "SY.Props.proc_handler"
   ],
   "note": "Proved for every scenario before which no other was left waiting for an output after something had been met, for all programs and schedules. False otherwise: the alarm of a scenario that failed while an output was expected is never withdrawn; it makes the next scenario fail although its program does what is expected, or ends the harness between two scenarios. Files of one scenario are found by the next."
  },
  {
   "property": "C218",
   "status": "partial",
   "theorems": [
    "SY.Props.test_whole_partial",
    "SY.Props.suite_exit_violated",
    "SY.Props.suite_teardown_violated",
    "SY.Props.suite_nohandle"
   ],
   "note": "Proved for every test that is not cut short. False: a program that calls sys.exit() skips teardown, summary, verdict and all remaining scenarios, always; so does the alarm if it arrives after the program has ended. With --nohandle the first failure ends the run. A compiled scenario has no setup and teardown (they are not saved)."
  },
  {
   "property": "C219",
   "status": "partial",
   "theorems": [
    "SY.Props.receivers_safe",
    "SY.Props.captured_queued",
    "SY.Props.receivers_end",
    "SY.Props.send_closed_violated"
   ],
   "note": "Proved for every history of any number of networks, threads and signals: no device closed twice or before its receiver ended, receivers never use a closed device, frames of a device reach the queue in the order captured and none is lost; after a stop each receiver takes at most four steps and queues at most one more frame. False: nothing keeps user code from sending on a device that shutdown has closed. The receiver waits at most 0.2 seconds for a frame, so that its steps are taken to return."
  },
  {
   "property": "C220",
   "status": "partial",
   "theorems": [
    "SY.Props.shutdown_closes_partial",
    "SY.Props.shutdown_after_sigint_violated",
    "SY.Props.shutdown_race_violated",
    "SY.Props.shutdown_other_violated",
    "SY.Props.networks_restart_violated",
    "SY.Props.other_signals_ignored"
   ],
   "note": "Proved for one network stopped by one thread without SIGINT, however often. False: after SIGINT, the usual way to end a live program, shutdown returns at once, closes nothing and waits for nobody, in every continuation; two threads that stop a network at once: one gets a KeyError; stopping one network stops the receivers of all networks and leaves the devices of the others open; making a network restarts one that is being stopped."
  },
  {
   "property": "C221",
   "status": "partial",
   "theorems": [
    "SY.Props.debugger_undisturbed_partial",
    "SY.Props.debugger_no_timeouts",
    "SY.Props.debugger_all_run",
    "SY.Props.debugger_forever_violated",
    "SY.Props.pdb_interrupted_violated"
   ],
   "note": "Proved: after a call of debugger() no time limit interrupts the program or, in the same process, any later program or the harness. False: nothing ever clears the flag, so limits do not work again: a later program that never sends what is expected is never ended, for all times and schedules; and the debugger the harness opens after a failure does not set the flag, so a pending alarm ends the session and the run."
  },
  {
   "property": "C222",
   "status": "proved",
   "theorems": [
    "SY.Props.forward_tests_exact",
    "SY.Props.switch_tests",
    "SY.Props.switch_passes_hub",
    "SY.Props.switch_not_learning",
    "SY.Props.switch_other_first",
    "SY.Props.switch_empty",
    "SY.Props.echo_tests",
    "SY.Props.router_tests",
    "SY.Props.firewall_tests",
    "SY.Props.firewall_pairs",
    "SY.Props.resends_tests_at"
   ],
   "note": "The rule is an arbitrary function of the frames so far. Frames must be valid and printable and the test's events usable, as in C197. Also proved: the switch skeleton ends with an exception on packets that begin with an IP, TCP or UDP header and on empty ones. The ports may depend on anything in the frame that does not change on the way."
  },
  {
   "property": "C223",
   "status": "partial",
   "theorems": [
    "SY.Props.debugger_in_program_partial",
    "SY.Props.debugger_opens",
    "SY.Props.debugger_opens_oldest",
    "SY.Props.debugger_in_library_violated"
   ],
   "note": "Proved for failures of tests and exceptions the program raises itself: only frames of llnettest.py and testing.py are passed over. False for exceptions raised in any other file of the library, such as those of the packet classes: the debugger opens there."
  },
  {
   "property": "C224",
   "status": "partial",
   "theorems": [
    "SY.Props.devinfo_exact",
    "SY.Props.device_type_partial",
    "SY.Props.device_types_same_violated",
    "SY.Props.wireless_violated",
    "SY.Props.wired_violated",
    "SY.Props.other_platform_violated"
   ],
   "note": "Proved which interfaces there are, that loopback devices are told apart, and that types are right on hosts that have iwconfig and no wireless device. False otherwise: iwconfig is run by a shell that does not pass it the name of the device, so all devices get the same type: Wired if any device of the host, such as lo, is not wireless, and Wireless if iwconfig is not installed; on systems other than Linux and macOS the exception to be raised does not exist (NameError). Prefix lengths: see C96."
  },
  {
   "property": "C225",
   "status": "partial",
   "theorems": [
    "SY.Props.output_event_iff",
    "SY.Props.output_event_accepts",
    "SY.Props.wildcard_refused_partial",
    "SY.Props.predicate_refused_partial",
    "SY.Props.predicate_refused_violated",
    "SY.Props.wildcard_refused_violated",
    "SY.Props.predicates_text_violated"
   ],
   "note": "Which expectations are made and what they accept is exact (Python's eval is any function). Refusals: a predicate that is no lambda raises NameError (an unbound name in the code making the message), a wildcard whose first member is no class raises TypeError, and one text given as predicates is taken apart into characters."
  },
  {
   "property": "C226",
   "status": "partial",
   "theorems": [
    "SY.Props.firewall_exercise_exact",
    "SY.Props.firewall_exercise_partial",
    "SY.Props.firewall_rules_tests",
    "SY.Props.firewall_exercise_tests",
    "SY.Props.firewall_skeleton_fails",
    "SY.Props.firewall_exercise_violated",
    "SY.Props.firewall_limits_tests",
    "SY.Props.firewall_limits_full_partial",
    "SY.Props.firewall_limits_empty_violated",
    "SY.Props.limits_steps_tests",
    "SY.Props.firewall_limits_waited_partial"
   ],
   "note": "The firewall that follows the rules passes exactly if no address drawn for a frame that is expected to pass is in 192.168.42.0/24 (rules 1 and 2 deny it), and the frame that is expected to be dropped is not drawn as a DNS packet of 192.168.0.0/16; so the full claim is false for some draws. With rate limits the same holds if the buckets hold enough at the start, for all times between frames; with empty buckets the test is never passed if no half second passes before the ICMP frames: the pauses are made when the test is loaded, before the program starts. Impairments of rules are not modelled. If half a second passes before the first frame, whatever the buckets hold is enough."
  },
  {
   "property": "C227",
   "status": "partial",
   "theorems": [
    "SY.Props.rate_test_exact",
    "SY.Props.rate_test_partial",
    "SY.Props.rate_unlimited_fails",
    "SY.Props.rate_tcp_violated",
    "SY.Props.rate_empty_violated",
    "SY.Props.rate_waited_partial",
    "SY.Props.rate_program_tests",
    "SY.Props.rate_counter_violated"
   ],
   "note": "With full buckets the firewall that enforces all limits passes exactly if no address drawn before the last frame is in 192.168.42.0/24, and one that does not limit ICMP fails unless an address of the last frame is there; but the limits on TCP (rules 7 and 8) are not tested: a firewall without them passes whenever one with them does, since the frames sent never exceed a full bucket. With empty buckets the test is never passed if no half second passes before the frames: the pauses are made when the test is loaded. A program passes exactly if it forwards all frames but the last two, so one that only counts frames passes. If two seconds pass before the first frame, whatever the buckets hold is enough."
  },
  {
   "property": "C228",
   "status": "partial",
   "theorems": [
    "SY.Props.stack_test_partial",
    "SY.Props.stack_test_exact",
    "SY.Props.stack_test_data_violated",
    "SY.Props.stack_test_reports",
    "SY.Props.stack_test_answer"
   ],
   "note": "For every port the stack's packet is accepted and the reply is delivered to that port. Of the packets the stack makes, exactly those from 127.0.0.1 to port 10000 of 127.0.0.1 with protocol UDP are accepted, whatever their data: the comparison is not exact and leaves out the data, so a stack that sends something else instead passes. The stack's turns in between (C173) are taken as done: its packet is sent by name to the test network. A program that sends the packet and receives passes the test exactly for these packets. The reply goes to the socket the message came from. The client in the examples sends other data than the test has, and passes."
  }
 ]
}