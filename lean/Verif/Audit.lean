import Verif.Props.AddrKey
import Verif.Props.AddrText
import Verif.Props.Arp
import Verif.Props.AttrFrame
import Verif.Props.Build
import Verif.Props.Checksum
import Verif.Props.CmdArgs
import Verif.Props.Compiled
import Verif.Props.CopyOut
import Verif.Props.DataMake
import Verif.Props.Debugger
import Verif.Props.DevAddr
import Verif.Props.DevInfo
import Verif.Props.Dispatch
import Verif.Props.EthAddr
import Verif.Props.Ethernet
import Verif.Props.Exact
import Verif.Props.Exact2
import Verif.Props.Exact3
import Verif.Props.Exact4
import Verif.Props.Exact5
import Verif.Props.Exact6
import Verif.Props.Exact7
import Verif.Props.Extras
import Verif.Props.Firewall
import Verif.Props.Forward
import Verif.Props.FwExercise
import Verif.Props.FwLimit
import Verif.Props.FwRate
import Verif.Props.Heap
import Verif.Props.HeapNet
import Verif.Props.Host
import Verif.Props.IPv4
import Verif.Props.IPv6
import Verif.Props.IPv6Text
import Verif.Props.Icmp
import Verif.Props.IcmpShare
import Verif.Props.Icmpv6
import Verif.Props.IntText
import Verif.Props.Json
import Verif.Props.Linkem
import Verif.Props.Live
import Verif.Props.LiveStop
import Verif.Props.LoopSend
import Verif.Props.Matcher
import Verif.Props.MoreParts
import Verif.Props.NetBase
import Verif.Props.Of13
import Verif.Props.Of13Attr
import Verif.Props.Of13Stats
import Verif.Props.OfConn
import Verif.Props.OfFeat
import Verif.Props.OfMatch
import Verif.Props.OfMatchSet
import Verif.Props.OfMsg
import Verif.Props.OfStats
import Verif.Props.OfStatsText
import Verif.Props.OfStatsWire
import Verif.Props.OfSwitch
import Verif.Props.OfTable
import Verif.Props.OfWire
import Verif.Props.OpenFlow
import Verif.Props.OptApi
import Verif.Props.OutEvent
import Verif.Props.Packet
import Verif.Props.PacketPad
import Verif.Props.PacketParse
import Verif.Props.PacketRT
import Verif.Props.PacketSeq
import Verif.Props.ParseErr
import Verif.Props.Pcap
import Verif.Props.PcapDev
import Verif.Props.PdbFrame
import Verif.Props.Registry
import Verif.Props.Report
import Verif.Props.Rip
import Verif.Props.Scenario
import Verif.Props.Serve
import Verif.Props.Show
import Verif.Props.Sim
import Verif.Props.SimApi
import Verif.Props.SimCli
import Verif.Props.SimShare
import Verif.Props.Socket
import Verif.Props.StackTest
import Verif.Props.Start
import Verif.Props.Str
import Verif.Props.StrAll
import Verif.Props.StrPacket
import Verif.Props.Suite
import Verif.Props.Tcp
import Verif.Props.Tools
import Verif.Props.Topo
import Verif.Props.TopoFile
import Verif.Props.TopoLoad
import Verif.Props.TopoSave
import Verif.Props.TopoShare
import Verif.Props.Udp
import Verif.Props.UdpStack
import Verif.Props.Units
import Verif.Props.Wire

/-! Prints the axioms every property theorem depends on. -/

#print axioms SY.Props.checksum_self_verifies
#print axioms SY.Props.checksum_eq_rfc1071_partial
#print axioms SY.Props.checksum_eq_rfc1071_violated
#print axioms SY.Props.checksum_skip_word
#print axioms SY.Props.checksum_skip_word_outside
#print axioms SY.Props.ethaddr_text_roundtrip
#print axioms SY.Props.ethaddr_text_injective
#print axioms SY.Props.ethaddr_text_case
#print axioms SY.Props.ethaddr_six_bytes_partial
#print axioms SY.Props.ethaddr_six_bytes_violated
#print axioms SY.Props.ethaddr_eq_iff
#print axioms SY.Props.ethaddr_eq_text
#print axioms SY.Props.ethaddr_lt_iff
#print axioms SY.Props.ethaddr_order_total
#print axioms SY.Props.ethaddr_multicast_iff
#print axioms SY.Props.ethaddr_bridge_filtered_iff
#print axioms SY.Props.ethernet_roundtrip
#print axioms SY.Props.ethernet_bytes_roundtrip
#print axioms SY.Props.ethernet_parse_errors
#print axioms SY.Props.ethernet_roundtrip_iff
#print axioms SY.Props.ethernet_length_frame_partial
#print axioms SY.Props.ethernet_length_frame_violated
#print axioms SY.Props.vlan_roundtrip
#print axioms SY.Props.vlan_setters_wf
#print axioms SY.Props.vlan_setVlanid
#print axioms SY.Props.vlan_bytes_roundtrip_partial
#print axioms SY.Props.vlan_bytes_roundtrip_violated
#print axioms SY.Props.arp_roundtrip
#print axioms SY.Props.arp_layout
#print axioms SY.Props.arp_bytes_roundtrip
#print axioms SY.Props.arp_parse_errors
#print axioms SY.Props.arp_request_fields
#print axioms SY.Props.arp_reply_fields
#print axioms SY.Props.arp_helpers_wf
#print axioms SY.Props.ipv4_roundtrip
#print axioms SY.Props.ipv4_roundtrip_options
#print axioms SY.Props.ipv4_setters_keep_serialisable
#print axioms SY.Props.ipv4_wire_consistent_partial
#print axioms SY.Props.ipv4_wire_consistent_violated
#print axioms SY.Props.ipv4_oversize_raises
#print axioms SY.Props.ipv4_option_padding_partial
#print axioms SY.Props.ipv4_option_padding_violated
#print axioms SY.Props.ipv4_options_roundtrip
#print axioms SY.Props.ipv4_option_parse_terminates_partial
#print axioms SY.Props.ipv4_option_parse_terminates_violated
#print axioms SY.Props.ipv4_from_bytes_hangs
#print axioms SY.Props.ipv4_setters_raise_iff
#print axioms SY.Props.ipv4_setters_error
#print axioms SY.Props.ipv4_dscp_independent
#print axioms SY.Props.ipv4_ecn_independent_partial
#print axioms SY.Props.ipv4_ecn_independent_violated
#print axioms SY.Props.ipv4_fragment_flags_partial
#print axioms SY.Props.ipv4_fragment_flags_violated
#print axioms SY.Props.ipv4_more_fragments_unparseable
#print axioms SY.Props.ipv4_payload_after_header_partial
#print axioms SY.Props.ipv4_payload_after_header_violated
#print axioms SY.Props.udp_length_checksum
#print axioms SY.Props.udp_serialises_iff
#print axioms SY.Props.udp_roundtrip
#print axioms SY.Props.udp_bytes_roundtrip
#print axioms SY.Props.tcp_roundtrip
#print axioms SY.Props.tcp_parse_offset
#print axioms SY.Props.tcp_flag_independent
#print axioms SY.Props.tcp_flag_range
#print axioms SY.Props.tcp_flag_history
#print axioms SY.Props.tcp_flag_wire
#print axioms SY.Props.tcp_flagstr
#print axioms SY.Props.tcp_checksum
#print axioms SY.Props.tcp_serialises
#print axioms SY.Props.tcp_payload_partial
#print axioms SY.Props.tcp_payload_violated
#print axioms SY.Props.tcp_truncated_options_accepted
#print axioms SY.Props.icmp_coherent_partial
#print axioms SY.Props.icmp_coherent_violated
#print axioms SY.Props.icmp_set_type
#print axioms SY.Props.icmp_roundtrip_partial
#print axioms SY.Props.icmp_roundtrip_violated
#print axioms SY.Props.icmp_checksum
#print axioms SY.Props.ipv6_roundtrip
#print axioms SY.Props.ipv6_reserialise
#print axioms SY.Props.ipv6_wire_fields
#print axioms SY.Props.ipv6_payload_length
#print axioms SY.Props.fragment_roundtrip
#print axioms SY.Props.route_roundtrip
#print axioms SY.Props.hop_roundtrip_partial
#print axioms SY.Props.hop_consumes_declared_partial
#print axioms SY.Props.hop_options_terminate
#print axioms SY.Props.route_length_octet_violated
#print axioms SY.Props.hop_unpadded_violated
#print axioms SY.Props.hop_short_violated
#print axioms SY.Props.hop_truncated_violated
#print axioms SY.Props.fragment_reserved_violated
#print axioms SY.Props.hop_padded
#print axioms SY.Props.hop_fill
#print axioms SY.Props.icmp6_checksum
#print axioms SY.Props.nd_option_roundtrip
#print axioms SY.Props.nd_options_roundtrip_partial
#print axioms SY.Props.nd_redirected_length_violated
#print axioms SY.Props.nd_options_roundtrip_violated
#print axioms SY.Props.nd_ethaddr_wire
#print axioms SY.Props.nd_parse_diverges_iff
#print axioms SY.Props.nd_parse_terminates_partial
#print axioms SY.Props.nd_parse_terminates_violated
#print axioms SY.Props.na_flags_partial
#print axioms SY.Props.ra_flags_violated
#print axioms SY.Props.ra_flags_wire
#print axioms SY.Props.rip_route_roundtrip
#print axioms SY.Props.rip_roundtrip
#print axioms SY.Props.rip_new_wf_partial
#print axioms SY.Props.rip_unvalidated_violated
#print axioms SY.Props.rip_eq_iff
#print axioms SY.Props.packet_length_partial
#print axioms SY.Props.packet_length_violated
#print axioms SY.Props.hop_len_violated
#print axioms SY.Props.ext_len_violated
#print axioms SY.Props.rip_len_violated
#print axioms SY.Props.packet_compositional
#print axioms SY.Props.packet_serialises
#print axioms SY.Props.packet_idempotent
#print axioms SY.Props.packet_roundtrip_partial
#print axioms SY.Props.packet_roundtrip_options_partial
#print axioms SY.Props.packet_options_violated
#print axioms SY.Props.empty_payload_violated
#print axioms SY.Props.ieee8023_violated
#print axioms SY.Props.parse_terminates
#print axioms SY.Props.parse_accounts_partial
#print axioms SY.Props.accounts_payload_suffix
#print axioms SY.Props.parse_returns_partial
#print axioms SY.Props.parse_loses_bytes_violated
#print axioms SY.Props.parse_terminates_violated
#print axioms SY.Props.packet_step_iff
#print axioms SY.Props.packet_history_iff
#print axioms SY.Props.packet_error_unchanged
#print axioms SY.Props.packet_getItem
#print axioms SY.Props.packet_add_append
#print axioms SY.Props.lookup_first
#print axioms SY.Props.index_from_partial
#print axioms SY.Props.index_negative_violated
#print axioms SY.Props.lookup_name
#print axioms SY.Props.lookup_name_class_violated
#print axioms SY.Props.header_isa
#print axioms SY.Props.header_eq_partial
#print axioms SY.Props.packet_eq_partial
#print axioms SY.Props.packet_eq_equivalence_partial
#print axioms SY.Props.packet_eq_length
#print axioms SY.Props.packet_eq_classes_partial
#print axioms SY.Props.packet_eq_subclass_violated
#print axioms SY.Props.packet_eq_raises_violated
#print axioms SY.Props.socket_ports_distinct_partial
#print axioms SY.Props.socket_bind_in_use
#print axioms SY.Props.socket_bind_free
#print axioms SY.Props.socket_new_port
#print axioms SY.Props.reach_sockHist
#print axioms SY.Props.socket_text_port_violated
#print axioms SY.Props.socket_firewall_failure_violated
#print axioms SY.Props.socket_concurrent_new_violated
#print axioms SY.Props.socket_delivery_partial
#print axioms SY.Props.socket_delivery_violated
#print axioms SY.Props.socket_fifo_up
#print axioms SY.Props.socket_fifo_down
#print axioms SY.Props.socket_delivered_somewhere
#print axioms SY.Props.socket_close_partial
#print axioms SY.Props.socket_open_not_shadowed
#print axioms SY.Props.socket_double_close_violated
#print axioms SY.Props.socket_bind_closed_violated
#print axioms SY.Props.scenario_in_order
#print axioms SY.Props.scenario_one_at_a_time
#print axioms SY.Props.scenario_summary
#print axioms SY.Props.scenario_reports_partial
#print axioms SY.Props.scenario_next
#print axioms SY.Props.scenario_delivers
#print axioms SY.Props.scenario_delivers_same_partial
#print axioms SY.Props.scenario_shutdown_violated
#print axioms SY.Props.scenario_swallowed_violated
#print axioms SY.Props.expect_all
#print axioms SY.Props.output_any_order
#print axioms SY.Props.output_refuses_port
#print axioms SY.Props.output_refuses_packet
#print axioms SY.Props.output_new_partial
#print axioms SY.Props.output_new_refuses
#print axioms SY.Props.output_same_port_violated
#print axioms SY.Props.scenario_restore_partial
#print axioms SY.Props.input_savable
#print axioms SY.Props.scenario_restore_reports_partial
#print axioms SY.Props.scenario_restore_violated
#print axioms SY.Props.scenario_save_damage_violated
#print axioms SY.Props.matcher_accepts
#print axioms SY.Props.matcher_monotone
#print axioms SY.Props.firewall_restores
#print axioms SY.Props.firewall_new_raises
#print axioms SY.Props.firewall_duplicate_violated
#print axioms SY.Props.firewall_unsaved_violated
#print axioms SY.Props.firewall_covers_partial
#print axioms SY.Props.firewall_add_rule_partial
#print axioms SY.Props.firewall_malformed_partial
#print axioms SY.Props.firewall_malformed_violated
#print axioms SY.Props.firewall_icmp_port_violated
#print axioms SY.Props.firewall_later_rule_violated
#print axioms SY.Props.firewall_all_space_violated
#print axioms SY.Props.mac_covers_partial
#print axioms SY.Props.mac_port_violated
#print axioms SY.Props.mac_add_rule_violated
#print axioms SY.Props.test_mode_rules
#print axioms SY.Props.mac_rule_loaded
#print axioms SY.Props.lookup_highest_partial
#print axioms SY.Props.lookup_lowest
#print axioms SY.Props.priority_violated
#print axioms SY.Props.port_wildcard_violated
#print axioms SY.Props.add_violated
#print axioms SY.Props.modify_violated
#print axioms SY.Props.delete_violated
#print axioms SY.Props.lookup_port_violated
#print axioms SY.Props.add_overlap
#print axioms SY.Props.add_position
#print axioms SY.Props.buffer_capacity
#print axioms SY.Props.buffer_frame
#print axioms SY.Props.buffer_stack_partial
#print axioms SY.Props.buffer_lost_violated
#print axioms SY.Props.send_prefix
#print axioms SY.Props.send_completes
#print axioms SY.Props.send_stalls_violated
#print axioms SY.Props.send_shared_partial
#print axioms SY.Props.send_shared_violated
#print axioms SY.Props.recv_frames_partial
#print axioms SY.Props.recv_message_partial
#print axioms SY.Props.recv_stream_partial
#print axioms SY.Props.recv_short_header_violated
#print axioms SY.Props.recv_eof_violated
#print axioms SY.Props.recv_timeout_violated
#print axioms SY.Props.lookup_counts
#print axioms SY.Props.lookup_raises
#print axioms SY.Props.expired_matched_partial
#print axioms SY.Props.expired_hard_partial
#print axioms SY.Props.idle_unmatched_violated
#print axioms SY.Props.expire_exact
#print axioms SY.Props.expire_silent_violated
#print axioms SY.Props.expire_violated
#print axioms SY.Props.of_match_roundtrip_partial
#print axioms SY.Props.of_match_all_roundtrip_partial
#print axioms SY.Props.of_match_prefix_lost
#print axioms SY.Props.of_match_prefix_violated
#print axioms SY.Props.of_match_equality_violated
#print axioms SY.Props.nwdst_wildcard_violated
#print axioms SY.Props.of_match_wire_wildcards
#print axioms SY.Props.actions_roundtrip_partial
#print axioms SY.Props.action_constructors
#print axioms SY.Props.actions_terminate
#print axioms SY.Props.action_layout
#print axioms SY.Props.strip_vlan_violated
#print axioms SY.Props.actions_forward_violated
#print axioms SY.Props.vendor_padding_violated
#print axioms SY.Props.topology_interfaces_partial
#print axioms SY.Props.topology_interfaces_kept
#print axioms SY.Props.topology_macs_unique
#print axioms SY.Props.topology_reserved_names_violated
#print axioms SY.Props.topology_link_interfaces_partial
#print axioms SY.Props.topology_link_interfaces_violated
#print axioms SY.Props.topology_auto_name
#print axioms SY.Props.topology_named_add
#print axioms SY.Props.topology_remove_node
#print axioms SY.Props.topology_links
#print axioms SY.Props.topology_numbering
#print axioms SY.Props.topology_numbering_succeeds_iff
#print axioms SY.Props.topology_renumbering_violated
#print axioms SY.Props.bandwidth_roundtrip_partial
#print axioms SY.Props.bandwidth_near_partial
#print axioms SY.Props.bandwidth_roundtrip_violated
#print axioms SY.Props.bandwidth_too_large
#print axioms SY.Props.delay_roundtrip_iff
#print axioms SY.Props.delay_roundtrip_partial
#print axioms SY.Props.delay_roundtrip_violated
#print axioms SY.Props.link_exactly_once
#print axioms SY.Props.link_not_early
#print axioms SY.Props.link_in_order
#print axioms SY.Props.link_waits_until
#print axioms SY.Props.link_delivers
#print axioms SY.Props.link_type_error_only_ties
#print axioms SY.Props.link_dead_forever
#print axioms SY.Props.link_clock_violated
#print axioms SY.Props.link_tie_violated
#print axioms SY.Props.interface_by_name_iff
#print axioms SY.Props.interface_by_ipaddr_iff
#print axioms SY.Props.interface_by_macaddr_iff
#print axioms SY.Props.interface_registered_once
#print axioms SY.Props.interface_notifications
#print axioms SY.Props.auto_ifnums_distinct
#print axioms SY.Props.iface_new_number
#print axioms SY.Props.lookup_ifnum
#print axioms SY.Props.ifnum_mixed_violated
#print axioms SY.Props.set_ifnum
#print axioms SY.Props.device_list_iff
#print axioms SY.Props.device_list_missing_violated
#print axioms SY.Props.recv_in_order
#print axioms SY.Props.recv_skips_iff
#print axioms SY.Props.recv_result_packet
#print axioms SY.Props.recv_returns_next
#print axioms SY.Props.recv_shutdown_only
#print axioms SY.Props.no_packets_only_if_empty
#print axioms SY.Props.sigint_unblocks
#print axioms SY.Props.recv_after_shutdown_violated
#print axioms SY.Props.stop_unblocks_violated
#print axioms SY.Props.splitWords_spaced
#print axioms SY.Props.codeargs_partial
#print axioms SY.Props.codeargs_violated
#print axioms SY.Props.usercode_call_partial
#print axioms SY.Props.usercode_no_params
#print axioms SY.Props.usercode_call_violated
#print axioms SY.Props.usercode_starts_iff
#print axioms SY.Props.hub_targets
#print axioms SY.Props.hub_run
#print axioms SY.Props.flood_exact
#print axioms SY.Props.flood_loopback_violated
#print axioms SY.Props.hub_advertisement_violated
#print axioms SY.Props.checksum_detects_byte_error
#print axioms SY.Props.udp_checksum_value_partial
#print axioms SY.Props.udp_nonzero_checksum_violated
#print axioms SY.Props.udp_no_checksum_without_ipv4
#print axioms SY.Props.vlan_tag_layout_partial
#print axioms SY.Props.vlan_priority_position_violated
#print axioms SY.Props.ipv4_rejects_ipv6_partial
#print axioms SY.Props.ipv4_rejects_ipv6_violated
#print axioms SY.Props.ipv4_options_grow_partial
#print axioms SY.Props.ipv4_options_grow_violated
#print axioms SY.Props.udp_reports_checksum_partial
#print axioms SY.Props.tcp_reports_checksum_violated
#print axioms SY.Props.ipv4_reports_checksum_violated
#print axioms SY.Props.tcp_reserialise_partial
#print axioms SY.Props.tcp_options_lost_violated
#print axioms SY.Props.icmp_truncated_partial
#print axioms SY.Props.icmp_truncated_violated
#print axioms SY.Props.ipv6_short_raises
#print axioms SY.Props.ext_truncated_violated
#print axioms SY.Props.icmp6_truncated_violated
#print axioms SY.Props.ipv4_truncated
#print axioms SY.Props.ipv4_timestamp_truncated
#print axioms SY.Props.ipv4_option_truncated_violated
#print axioms SY.Props.ipv6_serialises_iff_partial
#print axioms SY.Props.ipv6_out_of_range_violated
#print axioms SY.Props.ipv6_flow_label_violated
#print axioms SY.Props.ipv6_address_int
#print axioms SY.Props.ipv6_address_int_refused
#print axioms SY.Props.source_option_address_partial
#print axioms SY.Props.target_option_address_violated
#print axioms SY.Props.icmp6_coherent_partial
#print axioms SY.Props.icmp6_coherent_violated
#print axioms SY.Props.icmp6_roundtrip_partial
#print axioms SY.Props.icmp6_options_dropped_violated
#print axioms SY.Props.icmp6_consumes_partial
#print axioms SY.Props.icmp6_leftover_violated
#print axioms SY.Props.icmp6_classless_set_partial
#print axioms SY.Props.icmp6_classless_violated
#print axioms SY.Props.rip_reparse_violated
#print axioms SY.Props.rip_parse_count_partial
#print axioms SY.Props.transport_uses_ip_partial
#print axioms SY.Props.transport_outer_header_violated
#print axioms SY.Props.transport_outer_header_visible_violated
#print axioms SY.Props.transport_checksum_ipv6_violated
#print axioms SY.Props.equal_serialise_partial
#print axioms SY.Props.equal_serialise_violated
#print axioms SY.Props.add_bytes_partial
#print axioms SY.Props.put_bytes_violated
#print axioms SY.Props.settimeout_partial
#print axioms SY.Props.settimeout_none_partial
#print axioms SY.Props.settimeout_none_violated
#print axioms SY.Props.settimeout_zero_violated
#print axioms SY.Props.settimeout_negative_violated
#print axioms SY.Props.setblocking_spec
#print axioms SY.Props.delay_units
#print axioms SY.Props.bandwidth_units
#print axioms SY.Props.bandwidth_units_violated
#print axioms SY.Props.decimal_text
#print axioms SY.Props.decimal_text_error
#print axioms SY.Props.delay_text
#print axioms SY.Props.delay_no_number
#print axioms SY.Props.bandwidth_text
#print axioms SY.Props.assign_ipaddr_mem
#print axioms SY.Props.iface_ips_nodup
#print axioms SY.Props.remove_ipaddr_spec
#print axioms SY.Props.remove_ipaddr_violated
#print axioms SY.Props.send_naming
#print axioms SY.Props.send_exact
#print axioms SY.Props.send_again
#print axioms SY.Props.send_unknown
#print axioms SY.Props.send_mutates_violated
#print axioms SY.Props.send_unregistered_violated
#print axioms SY.Props.send_advertisement_violated
#print axioms SY.Props.loopback_sends
#print axioms SY.Props.loopback_destination
#print axioms SY.Props.loopback_mac
#print axioms SY.Props.assembled_addresses
#print axioms SY.Props.assembled_prefix_violated
#print axioms SY.Props.assemble_mac_default
#print axioms SY.Props.reported_addresses_partial
#print axioms SY.Props.address_without_mask_violated
#print axioms SY.Props.address6_without_mask_violated
#print axioms SY.Props.link_address_violated
#print axioms SY.Props.reported_addresses_exact
#print axioms SY.Props.send_delay_violated
#print axioms SY.Props.checksum_start_word
#print axioms SY.Props.checksum_start_offset_violated
#print axioms SY.Props.topology_addInterface_partial
#print axioms SY.Props.topology_addInterface_address_violated
#print axioms SY.Props.ethernet_layout
#print axioms SY.Props.vlan_layout_partial
#print axioms SY.Props.arp_wire_layout
#print axioms SY.Props.ipv4_layout
#print axioms SY.Props.ipv4_option_layout
#print axioms SY.Props.ipv6_layout
#print axioms SY.Props.fragment_layout
#print axioms SY.Props.route_layout
#print axioms SY.Props.hopopt_layout
#print axioms SY.Props.udp_layout
#print axioms SY.Props.tcp_layout
#print axioms SY.Props.icmp_layout
#print axioms SY.Props.icmp6_layout_partial
#print axioms SY.Props.nd_option_layout_partial
#print axioms SY.Props.nd_redirected_reserved_violated
#print axioms SY.Props.rip_layout
#print axioms SY.Props.matcher_accepts_own
#print axioms SY.Props.match_repeatable
#print axioms SY.Props.matcher_restore_partial
#print axioms SY.Props.matcher_first
#print axioms SY.Props.matcher_new_restore_partial
#print axioms SY.Props.matcher_restore_violated
#print axioms SY.Props.exact_same_bytes_partial
#print axioms SY.Props.option_equality
#print axioms SY.Props.exact_bytes_violated
#print axioms SY.Props.matcher_answers_partial
#print axioms SY.Props.matcher_refuses_violated
#print axioms SY.Props.predicate_guard_violated
#print axioms SY.Props.advertisement_refused_violated
#print axioms SY.Props.output_timer_partial
#print axioms SY.Props.output_alarm
#print axioms SY.Props.output_timer_violated
#print axioms SY.Props.timeout_set
#print axioms SY.Props.sealed_file
#print axioms SY.Props.compiled_name_partial
#print axioms SY.Props.compiled_name_violated
#print axioms SY.Props.b64_roundtrip
#print axioms SY.Props.b64_length
#print axioms SY.Props.uncompile_noise
#print axioms SY.Props.compiled_opens
#print axioms SY.Props.uncompile_iff
#print axioms SY.Props.compiled_reports_partial
#print axioms SY.Props.uncompile_not_ascii
#print axioms SY.Props.scenario_numbers_partial
#print axioms SY.Props.scenario_numbers_violated
#print axioms SY.Props.parse_follows_numbers
#print axioms SY.Props.rip_get
#print axioms SY.Props.rip_set
#print axioms SY.Props.rip_set_out
#print axioms SY.Props.rip_version
#print axioms SY.Props.rip_route_size
#print axioms SY.Props.packet_contains
#print axioms SY.Props.packet_contains_payload
#print axioms SY.Props.nd_valid_lifetime
#print axioms SY.Props.nd_preferred_lifetime
#print axioms SY.Props.icmp6_fresh
#print axioms SY.Props.routing_header_type
#print axioms SY.Props.setPrefix_exact
#print axioms SY.Props.ipv4_text_iff
#print axioms SY.Props.ipv4_iface_text_iff
#print axioms SY.Props.assign_ipaddr_argument
#print axioms SY.Props.assembled_mac
#print axioms SY.Props.ipv6_text_iff
#print axioms SY.Props.iface_text_iff
#print axioms SY.Props.ifaceParse_text
#print axioms SY.Props.socket_new_state
#print axioms SY.Props.topology_remove_link
#print axioms SY.Props.topology_neighbors
#print axioms SY.Props.unknown_link
#print axioms SY.Props.unknown_interface
#print axioms SY.Props.topology_capacity
#print axioms SY.Props.topology_delay
#print axioms SY.Props.topology_characteristics_local
#print axioms SY.Props.topology_characteristics_succeed
#print axioms SY.Props.topology_label
#print axioms SY.Props.topology_labels
#print axioms SY.Props.match_semantics_partial
#print axioms SY.Props.match_vlan_violated
#print axioms SY.Props.match_ip6_violated
#print axioms SY.Props.match_udp_dst_violated
#print axioms SY.Props.build_match_partial
#print axioms SY.Props.build_vlan_violated
#print axioms SY.Props.build_ip6_violated
#print axioms SY.Props.build_arp_violated
#print axioms SY.Props.flags_written_again
#print axioms SY.Props.flags_roundtrip_partial
#print axioms SY.Props.flags_roundtrip_violated
#print axioms SY.Props.match_entry_partial
#print axioms SY.Props.match_entry_violated
#print axioms SY.Props.match_entry_port
#print axioms SY.Props.match_entry_all_violated
#print axioms SY.Props.match_overlap_violated
#print axioms SY.Props.message_roundtrip_partial
#print axioms SY.Props.message_layout
#print axioms SY.Props.body_layout
#print axioms SY.Props.phyPort_roundtrip
#print axioms SY.Props.phyPort_name_padded
#print axioms SY.Props.message_parse_terminates
#print axioms SY.Props.queue_wire
#print axioms SY.Props.of_port_iff
#print axioms SY.Props.port_name_violated
#print axioms SY.Props.port_name_cut_violated
#print axioms SY.Props.features_actions_violated
#print axioms SY.Props.fresh_violated
#print axioms SY.Props.fresh_serialises
#print axioms SY.Props.fresh_iff
#print axioms SY.Props.port_states
#print axioms SY.Props.port_blocked_violated
#print axioms SY.Props.packet_in_partial
#print axioms SY.Props.flow_mod_violated
#print axioms SY.Props.never_forwards_violated
#print axioms SY.Props.buffer_exhausted_violated
#print axioms SY.Props.v13_data_violated
#print axioms SY.Props.unprintable_data_violated
#print axioms SY.Props.replies_history_partial
#print axioms SY.Props.packet_in_numbers
#print axioms SY.Props.port_numbers_partial
#print axioms SY.Props.echo_violated
#print axioms SY.Props.stats_violated
#print axioms SY.Props.hello_version_violated
#print axioms SY.Props.v13_silent_violated
#print axioms SY.Props.port_numbers_violated
#print axioms SY.Props.never_connected_violated
#print axioms SY.Props.packet_out_partial
#print axioms SY.Props.packet_out_data_violated
#print axioms SY.Props.unsupported_action_violated
#print axioms SY.Props.topology_restore_partial
#print axioms SY.Props.topology_restore_ip6_violated
#print axioms SY.Props.topology_restore_zero_violated
#print axioms SY.Props.topology_restore_names_violated
#print axioms SY.Props.topology_restore_empty_violated
#print axioms SY.Props.topology_restore_continue_violated
#print axioms SY.Props.saved_link_keys
#print axioms SY.Props.topology_text_roundtrip
#print axioms SY.Props.topology_reload_partial
#print axioms SY.Props.topology_prefix_partial
#print axioms SY.Props.topology_prefix_default_violated
#print axioms SY.Props.topology_prefix_copy_violated
#print axioms SY.Props.topology_prefix_violated
#print axioms SY.Props.topology_union_partial
#print axioms SY.Props.topology_union_rename_violated
#print axioms SY.Props.topology_union_macs_violated
#print axioms SY.Props.match_field_history
#print axioms SY.Props.match_field_refused
#print axioms SY.Props.wildcard_history
#print axioms SY.Props.wildcard_set
#print axioms SY.Props.ignored_history_partial
#print axioms SY.Props.match_address_history
#print axioms SY.Props.stats_roundtrip_partial
#print axioms SY.Props.stats_layout_partial
#print axioms SY.Props.flow_reply_layout
#print axioms SY.Props.flow_reply_read
#print axioms SY.Props.fresh_stats_type
#print axioms SY.Props.stats_short
#print axioms SY.Props.stats_too_short
#print axioms SY.Props.utf8_text
#print axioms SY.Props.stats_texts
#print axioms SY.Props.fresh_request_bytes
#print axioms SY.Props.flow_reply_length_violated
#print axioms SY.Props.aggregate_reply_violated
#print axioms SY.Props.flow_reply_several_violated
#print axioms SY.Props.aggregate_reply_read_violated
#print axioms SY.Props.port_stats_crc_violated
#print axioms SY.Props.port_crc_setter_violated
#print axioms SY.Props.stats_name_violated
#print axioms SY.Props.table_wildcards_violated
#print axioms SY.Props.table_fresh_violated
#print axioms SY.Props.aggregate_request_violated
#print axioms SY.Props.request_arguments_violated
#print axioms SY.Props.message_size_partial
#print axioms SY.Props.message_size_violated
#print axioms SY.Props.capture_roundtrip_partial
#print axioms SY.Props.capture_time_exact
#print axioms SY.Props.loop_calls
#print axioms SY.Props.loop_rest
#print axioms SY.Props.capture_refused
#print axioms SY.Props.capture_copy_violated
#print axioms SY.Props.capture_zero_violated
#print axioms SY.Props.capture_nano_violated
#print axioms SY.Props.file_close_violated
#print axioms SY.Props.recv_waits
#print axioms SY.Props.recv_selects
#print axioms SY.Props.recv_once
#print axioms SY.Props.recv_none_iff
#print axioms SY.Props.send_iff
#print axioms SY.Props.recv_forever_violated
#print axioms SY.Props.recv_early_violated
#print axioms SY.Props.recv_error_violated
#print axioms SY.Props.filter_all_partial
#print axioms SY.Props.filter_safe_partial
#print axioms SY.Props.filter_refused
#print axioms SY.Props.close_once
#print axioms SY.Props.close_device
#print axioms SY.Props.filter_half_violated
#print axioms SY.Props.filter_null_violated
#print axioms SY.Props.open_leak_violated
#print axioms SY.Props.activate_iff
#print axioms SY.Props.tstamp_iff
#print axioms SY.Props.blocking_violated
#print axioms SY.Props.activate_violated
#print axioms SY.Props.created_recv_violated
#print axioms SY.Props.tstamp_violated
#print axioms SY.Props.sim_wiring_partial
#print axioms SY.Props.sim_wiring_violated
#print axioms SY.Props.sim_reserved_violated
#print axioms SY.Props.sim_interface_unwired_violated
#print axioms SY.Props.sim_flow
#print axioms SY.Props.node_recv_partial
#print axioms SY.Props.node_recv_tuple_violated
#print axioms SY.Props.node_recv_none_violated
#print axioms SY.Props.node_recv_available_violated
#print axioms SY.Props.cli_abbreviation_partial
#print axioms SY.Props.cli_unknown
#print axioms SY.Props.cli_abbreviation_violated
#print axioms SY.Props.cli_changes_partial
#print axioms SY.Props.cli_set_link_partial
#print axioms SY.Props.cli_settings_violated
#print axioms SY.Props.cli_set_node_violated
#print axioms SY.Props.cli_set_link_one_violated
#print axioms SY.Props.cli_set_link_running_violated
#print axioms SY.Props.cli_refused_partial
#print axioms SY.Props.cli_malformed
#print axioms SY.Props.cli_add_node_violated
#print axioms SY.Props.cli_add_link_violated
#print axioms SY.Props.cli_add_link_kept_violated
#print axioms SY.Props.cli_set_link_violated
#print axioms SY.Props.remove_usage
#print axioms SY.Props.cli_load_partial
#print axioms SY.Props.cli_load_missing
#print axioms SY.Props.cli_leave_partial
#print axioms SY.Props.cli_exec_violated
#print axioms SY.Props.cli_exec_module_violated
#print axioms SY.Props.cli_load_violated
#print axioms SY.Props.cli_leave_violated
#print axioms SY.Props.monitor_attached
#print axioms SY.Props.monitor_sees
#print axioms SY.Props.monitor_files_partial
#print axioms SY.Props.monitor_where_partial
#print axioms SY.Props.monitor_any
#print axioms SY.Props.unmonitor_spec
#print axioms SY.Props.monitor_files_violated
#print axioms SY.Props.monitor_prefix_violated
#print axioms SY.Props.monitor_code_violated
#print axioms SY.Props.monitor_debug_violated
#print axioms SY.Props.monitor_lost_violated
#print axioms SY.Props.monitor_where_violated
#print axioms SY.Props.unmonitor_command
#print axioms SY.Props.monitor_refused
#print axioms SY.Props.monitor_command
#print axioms SY.Props.cli_asks
#print axioms SY.Props.getYn_spec
#print axioms SY.Props.cli_unsaved_partial
#print axioms SY.Props.cli_unsaved_violated
#print axioms SY.Props.cli_replay_partial
#print axioms SY.Props.cli_replay_refused
#print axioms SY.Props.cli_sendeth
#print axioms SY.Props.cli_replay_violated
#print axioms SY.Props.import_partial
#print axioms SY.Props.import_user_entry
#print axioms SY.Props.import_same_name_violated
#print axioms SY.Props.import_shadowed_violated
#print axioms SY.Props.import_stale_violated
#print axioms SY.Props.import_removed_violated
#print axioms SY.Props.import_dotted_violated
#print axioms SY.Props.load_scenarios_partial
#print axioms SY.Props.swyard_live_partial
#print axioms SY.Props.swyard_tests
#print axioms SY.Props.swyard_compiles
#print axioms SY.Props.swyard_lists
#print axioms SY.Props.swyard_cli_partial
#print axioms SY.Props.swyard_runs
#print axioms SY.Props.swyard_restores
#print axioms SY.Props.swyard_app_rules_violated
#print axioms SY.Props.swyard_cli_violated
#print axioms SY.Props.swyard_topology_violated
#print axioms SY.Props.swyard_topology_raises_violated
#print axioms SY.Props.cmdline_starts
#print axioms SY.Props.app_started_partial
#print axioms SY.Props.app_after_setup
#print axioms SY.Props.app_hangs_violated
#print axioms SY.Props.live_ends_partial
#print axioms SY.Props.live_ends_violated
#print axioms SY.Props.app_ends_partial
#print axioms SY.Props.app_ends_violated
#print axioms SY.Props.copies_delivered_partial
#print axioms SY.Props.copy_delivered_partial
#print axioms SY.Props.setattr_reads_back_partial
#print axioms SY.Props.packet_setattr
#print axioms SY.Props.setattr_frame_partial
#print axioms SY.Props.copy_argument
#print axioms SY.Props.setattr_bool
#print axioms SY.Props.copy_forgotten_violated
#print axioms SY.Props.copy_crash_violated
#print axioms SY.Props.copy_ecn_violated
#print axioms SY.Props.copy_pcp_violated
#print axioms SY.Props.copy_empty_violated
#print axioms SY.Props.packets_apart
#print axioms SY.Props.copy_independent
#print axioms SY.Props.packets_are_values_partial
#print axioms SY.Props.sum_changes_operand_violated
#print axioms SY.Props.sum_serialised_violated
#print axioms SY.Props.output_as_given
#print axioms SY.Props.input_as_given_partial
#print axioms SY.Props.input_reads_late
#print axioms SY.Props.input_changed_violated
#print axioms SY.Props.received_new
#print axioms SY.Props.recv_new
#print axioms SY.Props.input_twice_violated
#print axioms SY.Props.input_again_partial
#print axioms SY.Props.output_twice_violated
#print axioms SY.Props.met_waits_for_nothing
#print axioms SY.Props.copied_as_sent_partial
#print axioms SY.Props.copied_later_violated
#print axioms SY.Props.of13_body_roundtrip_partial
#print axioms SY.Props.of13_parse_violated
#print axioms SY.Props.of13_flowmod_read_violated
#print axioms SY.Props.of13_port_name_refused
#print axioms SY.Props.of13_serialisable_partial
#print axioms SY.Props.of13_built_partial
#print axioms SY.Props.of13_unserialisable_violated
#print axioms SY.Props.of13_error_unset_violated
#print axioms SY.Props.of13_packetout_empty_violated
#print axioms SY.Props.of13_message_layout_partial
#print axioms SY.Props.of13_body_layout_partial
#print axioms SY.Props.of13_bound_layout_partial
#print axioms SY.Props.of13_plain_type_violated
#print axioms SY.Props.of13_queue_layout_violated
#print axioms SY.Props.of13_action_port_partial
#print axioms SY.Props.of13_reserved_port_violated
#print axioms SY.Props.of13_reserved
#print axioms SY.Props.ecn_changes_dscp_violated
#print axioms SY.Props.unknown_attr_partial
#print axioms SY.Props.unknown_attr_violated
#print axioms SY.Props.packet_str_partial
#print axioms SY.Props.str_after_bytes
#print axioms SY.Props.advertisement_str_violated
#print axioms SY.Props.home_address_str_violated
#print axioms SY.Props.packet_text_same_partial
#print axioms SY.Props.packet_str_same_partial
#print axioms SY.Props.hdr_str_same
#print axioms SY.Props.hdr_cut
#print axioms SY.Props.shown_str
#print axioms SY.Props.repr_cut
#print axioms SY.Props.rso_letters
#print axioms SY.Props.arp_operation_violated
#print axioms SY.Props.redirect_shown_violated
#print axioms SY.Props.raw_rest_violated
#print axioms SY.Props.intText_toString
#print axioms SY.Props.null_str_same
#print axioms SY.Props.bytes_repr_delimiter
#print axioms SY.Props.bool_words
#print axioms SY.Props.of13_assigned
#print axioms SY.Props.of13_refused_partial
#print axioms SY.Props.of13_last_assigned_partial
#print axioms SY.Props.of13_type_assigned
#print axioms SY.Props.of13_defaults_allowed
#print axioms SY.Props.of13_port_assign_violated
#print axioms SY.Props.mismatch_reported_partial
#print axioms SY.Props.reason_text
#print axioms SY.Props.reason_predicates
#print axioms SY.Props.predicates_listed
#print axioms SY.Props.other_failures_partial
#print axioms SY.Props.event_text
#print axioms SY.Props.unshowable_violated
#print axioms SY.Props.mismatch_reported_violated
#print axioms SY.Props.saved_event_violated
#print axioms SY.Props.diagnosis_exactly
#print axioms SY.Props.diagnosis_attributes
#print axioms SY.Props.diagnosis_classes
#print axioms SY.Props.classes_cases
#print axioms SY.Props.difference_identifies
#print axioms SY.Props.wildcards_hidden
#print axioms SY.Props.expected_shown_violated
#print axioms SY.Props.messages_harmless_partial
#print axioms SY.Props.met_counted_partial
#print axioms SY.Props.recvR_same
#print axioms SY.Props.sendR_same
#print axioms SY.Props.met_counted_violated
#print axioms SY.Props.next_unshowable_violated
#print axioms SY.Props.summary_lists_partial
#print axioms SY.Props.summary_iff
#print axioms SY.Props.summary_number_partial
#print axioms SY.Props.summary_violated
#print axioms SY.Props.summary_number_violated
#print axioms SY.Props.event_eq_refl_partial
#print axioms SY.Props.event_eq_symm
#print axioms SY.Props.event_eq_trans
#print axioms SY.Props.input_eq_iff
#print axioms SY.Props.output_eq_iff
#print axioms SY.Props.scenario_eq_partial
#print axioms SY.Props.scenario_eq_iff
#print axioms SY.Props.scenario_eq_violated
#print axioms SY.Props.output_eq_violated
#print axioms SY.Props.output_eq_order_violated
#print axioms SY.Props.sane_iff
#print axioms SY.Props.sane_refused_partial
#print axioms SY.Props.sane_violated
#print axioms SY.Props.end_message_partial
#print axioms SY.Props.end_message_violated
#print axioms SY.Props.display_one
#print axioms SY.Props.display_all
#print axioms SY.Props.stack_sends_partial
#print axioms SY.Props.stack_interface
#print axioms SY.Props.stack_source_violated
#print axioms SY.Props.stack_v6_violated
#print axioms SY.Props.stack_delivers_partial
#print axioms SY.Props.stack_poll
#print axioms SY.Props.stack_empty_violated
#print axioms SY.Props.stack_answer_violated
#print axioms SY.Props.stack_survives_partial
#print axioms SY.Props.stack_protocol_violated
#print axioms SY.Props.stack_port_violated
#print axioms SY.Props.stack_silence
#print axioms SY.Props.stack_shutdown
#print axioms SY.Props.stack_fifo
#print axioms SY.Props.route_option_back
#print axioms SY.Props.route_option_back_partial
#print axioms SY.Props.route_option_back_violated
#print axioms SY.Props.route_option_empty_violated
#print axioms SY.Props.route_new
#print axioms SY.Props.route_pointer
#print axioms SY.Props.route_elements
#print axioms SY.Props.route_complete_partial
#print axioms SY.Props.route_complete_violated
#print axioms SY.Props.option_type_partial
#print axioms SY.Props.option_type_violated
#print axioms SY.Props.option_type_changed_violated
#print axioms SY.Props.optlist_get
#print axioms SY.Props.optlist_set
#print axioms SY.Props.optlist_del
#print axioms SY.Props.optlist_append
#print axioms SY.Props.optlist_errors
#print axioms SY.Props.optlist_run_roundtrip
#print axioms SY.Props.optlist_raw_length
#print axioms SY.Props.nd_by_class
#print axioms SY.Props.nd_by_class_violated
#print axioms SY.Props.hop_get
#print axioms SY.Props.hop_get_violated
#print axioms SY.Props.route_set_exact
#print axioms SY.Props.new_ipopts_wire
#print axioms SY.Props.timestamp_flag
#print axioms SY.Props.timestamp_partial
#print axioms SY.Props.timestamp_flag_violated
#print axioms SY.Props.timestamp_overflow_violated
#print axioms SY.Props.timestamp_no_address_violated
#print axioms SY.Props.configured_next_partial
#print axioms SY.Props.user_class_configured
#print axioms SY.Props.inherited_table_violated
#print axioms SY.Props.registering_affects_only
#print axioms SY.Props.unconfigured_parse
#print axioms SY.Props.registered_header_roundtrip
#print axioms SY.Props.udp_ping_roundtrip
#print axioms SY.Props.spanning_tree_roundtrip
#print axioms SY.Props.registered_parse_terminates_partial
#print axioms SY.Props.ip_in_ip_diverges_violated
#print axioms SY.Props.idle_header_diverges_violated
#print axioms SY.Props.registered_keeps_parsing_partial
#print axioms SY.Props.rejecting_header_violated
#print axioms SY.Props.fixed_next_violated
#print axioms SY.Props.fixed_next_none
#print axioms SY.Props.extension_next_violated
#print axioms SY.Props.session_restores_partial
#print axioms SY.Props.mac_session
#print axioms SY.Props.test_session
#print axioms SY.Props.session_restores_violated
#print axioms SY.Props.mac_anchor_violated
#print axioms SY.Props.firewall_once
#print axioms SY.Props.firewall_platform
#print axioms SY.Props.add_rule_without
#print axioms SY.Props.firewall_retry_violated
#print axioms SY.Props.firewall_again_violated
#print axioms SY.Props.colors_shown_partial
#print axioms SY.Props.color_block_ends
#print axioms SY.Props.color_exception_violated
#print axioms SY.Props.color_nested_violated
#print axioms SY.Props.nocolor_partial
#print axioms SY.Props.nocolor_violated
#print axioms SY.Props.setup_once
#print axioms SY.Props.reply_reaches_sender
#print axioms SY.Props.connect_to_name
#print axioms SY.Props.sockname_iff
#print axioms SY.Props.bind_name
#print axioms SY.Props.peername_violated
#print axioms SY.Props.bad_address_refused
#print axioms SY.Props.good_address_accepted
#print axioms SY.Props.any_port_violated
#print axioms SY.Props.dpid_parts_partial
#print axioms SY.Props.features_assigns_roundtrip
#print axioms SY.Props.feature_counts
#print axioms SY.Props.low48_bytes_violated
#print axioms SY.Props.flags_added
#print axioms SY.Props.flags_read_back
#print axioms SY.Props.single_bits
#print axioms SY.Props.flags_assign_violated
#print axioms SY.Props.flags_assign_number_violated
#print axioms SY.Props.program_reports
#print axioms SY.Props.program_passes
#print axioms SY.Props.serve_ends
#print axioms SY.Props.serve_catches_shutdown
#print axioms SY.Props.hub_tests_exact
#print axioms SY.Props.hub_passes_tests
#print axioms SY.Props.plain_hub_tests
#print axioms SY.Props.sheep_hub_fails
#print axioms SY.Props.show_links_partial
#print axioms SY.Props.show_links_node_partial
#print axioms SY.Props.show_links_once
#print axioms SY.Props.show_nodes
#print axioms SY.Props.show_node
#print axioms SY.Props.show_monitors
#print axioms SY.Props.show_keeps
#print axioms SY.Props.show_links_unlabelled
#print axioms SY.Props.show_links_violated
#print axioms SY.Props.show_links_stale_violated
#print axioms SY.Props.show_word_violated
#print axioms SY.Props.label_delay_exact
#print axioms SY.Props.label_capacity
#print axioms SY.Props.completion_exact_partial
#print axioms SY.Props.completion_prefix
#print axioms SY.Props.completion_remove_node
#print axioms SY.Props.completion_remove_link
#print axioms SY.Props.completion_runs
#print axioms SY.Props.completion_show_violated
#print axioms SY.Props.completion_second_violated
#print axioms SY.Props.completion_set_link_violated
#print axioms SY.Props.capture_tools_partial
#print axioms SY.Props.capture_tools_raise
#print axioms SY.Props.capture_tools_violated
#print axioms SY.Props.capture_hang_violated
#print axioms SY.Props.capture_times_violated
#print axioms SY.Props.sniff_logs_partial
#print axioms SY.Props.sniff_count_violated
#print axioms SY.Props.sniff_print_violated
#print axioms SY.Props.sendpkt_repaired_partial
#print axioms SY.Props.sendpkt_violated
#print axioms SY.Props.topology_graph_kept_partial
#print axioms SY.Props.topology_alone
#print axioms SY.Props.topology_union_shows
#print axioms SY.Props.topology_separate
#print axioms SY.Props.topology_shared_violated
#print axioms SY.Props.topology_shared_link_violated
#print axioms SY.Props.sim_packet_kept_partial
#print axioms SY.Props.sim_sent_violated
#print axioms SY.Props.sim_flood_violated
#print axioms SY.Props.sim_send_unsized
#print axioms SY.Props.monitors_watch_partial
#print axioms SY.Props.monitor_serialises_violated
#print axioms SY.Props.monitor_changes_violated
#print axioms SY.Props.compile_interrupted
#print axioms SY.Props.compiled_cut
#print axioms SY.Props.json_roundtrip
#print axioms SY.Props.json_cut
#print axioms SY.Props.topology_save_interrupted
#print axioms SY.Props.topology_text_ascii
#print axioms SY.Props.parse_raises_partial
#print axioms SY.Props.header_raises_iff
#print axioms SY.Props.parse_raises_iff
#print axioms SY.Props.frame_raises_iff
#print axioms SY.Props.parse_raises_violated
#print axioms SY.Props.addr_keys
#print axioms SY.Props.addr_key_missing
#print axioms SY.Props.addr_in_list
#print axioms SY.Props.addr_compare_iff
#print axioms SY.Props.text_key_violated
#print axioms SY.Props.addr_compare_violated
#print axioms SY.Props.entry_hash_violated
#print axioms SY.Props.sim_by_name
#print axioms SY.Props.sim_answers_partial
#print axioms SY.Props.sim_answers_violated
#print axioms SY.Props.sim_lookup_violated
#print axioms SY.Props.sim_callback_violated
#print axioms SY.Props.sim_send_violated
#print axioms SY.Props.cmdline_iff
#print axioms SY.Props.cmdline_accepts
#print axioms SY.Props.codearg_equals
#print axioms SY.Props.codearg_next_iff
#print axioms SY.Props.code_behind_dashes
#print axioms SY.Props.codearg_violated
#print axioms SY.Props.stats13_unserialisable_violated
#print axioms SY.Props.stats13_serialised_partial
#print axioms SY.Props.stats13_roundtrip_partial
#print axioms SY.Props.stats13_requests_unread_violated
#print axioms SY.Props.own_data_partial
#print axioms SY.Props.own_data_violated
#print axioms SY.Props.messages_tied
#print axioms SY.Props.messages_tied4
#print axioms SY.Props.messages_tied6
#print axioms SY.Props.data_in_common
#print axioms SY.Props.message_copy_apart
#print axioms SY.Props.message_given_apart
#print axioms SY.Props.message_typed_apart
#print axioms SY.Props.build_order
#print axioms SY.Props.build_value
#print axioms SY.Props.build_reads_partial
#print axioms SY.Props.build_default
#print axioms SY.Props.build_accepts
#print axioms SY.Props.setattr_text
#print axioms SY.Props.int_of_text
#print axioms SY.Props.int_of_int
#print axioms SY.Props.icmp_build_order
#print axioms SY.Props.icmp_build_message
#print axioms SY.Props.icmp6_build_message_partial
#print axioms SY.Props.icmp6_build_lost_violated
#print axioms SY.Props.icmp6_build_code_violated
#print axioms SY.Props.icmp_build_lost_violated
#print axioms SY.Props.icmp_build_code_violated
#print axioms SY.Props.build_dscp_violated
#print axioms SY.Props.int_of_address
#print axioms SY.Props.int_of_bytes
#print axioms SY.Props.int_of_bytes_iff
#print axioms SY.Props.enum_attr_typed
#print axioms SY.Props.icmp_data_reads
#print axioms SY.Props.icmp6_data_reads
#print axioms SY.Props.icmp_data_has
#print axioms SY.Props.icmp6_data_has
#print axioms SY.Props.icmp6_data_frame
#print axioms SY.Props.icmp_data_frame
#print axioms SY.Props.icmp6_data_text
#print axioms SY.Props.ra_times_refused
#print axioms SY.Props.ra_flag_number
#print axioms SY.Props.na_flag_violated
#print axioms SY.Props.make6_order
#print axioms SY.Props.make6_object
#print axioms SY.Props.make6_accepts
#print axioms SY.Props.make4_object
#print axioms SY.Props.make_fixed_violated
#print axioms SY.Props.make_unknown_violated
#print axioms SY.Props.mkPrefix_order_partial
#print axioms SY.Props.mkPrefix_object
#print axioms SY.Props.mkPrefix_order_violated
#print axioms SY.Props.icmp_payload_other
#print axioms SY.Props.icmp_data_address
#print axioms SY.Props.pfx_net_given
#print axioms SY.Props.pfx_length_given
#print axioms SY.Props.pfx_unknown
#print axioms SY.Props.suite_alone_partial
#print axioms SY.Props.suite_alarm_violated
#print axioms SY.Props.suite_abort_violated
#print axioms SY.Props.suite_files_violated
#print axioms SY.Props.proc_handler
#print axioms SY.Props.test_whole_partial
#print axioms SY.Props.suite_exit_violated
#print axioms SY.Props.suite_teardown_violated
#print axioms SY.Props.suite_nohandle
#print axioms SY.Props.receivers_safe
#print axioms SY.Props.captured_queued
#print axioms SY.Props.receivers_end
#print axioms SY.Props.send_closed_violated
#print axioms SY.Props.shutdown_closes_partial
#print axioms SY.Props.shutdown_after_sigint_violated
#print axioms SY.Props.shutdown_race_violated
#print axioms SY.Props.shutdown_other_violated
#print axioms SY.Props.networks_restart_violated
#print axioms SY.Props.other_signals_ignored
#print axioms SY.Props.debugger_undisturbed_partial
#print axioms SY.Props.debugger_no_timeouts
#print axioms SY.Props.debugger_all_run
#print axioms SY.Props.debugger_forever_violated
#print axioms SY.Props.pdb_interrupted_violated
#print axioms SY.Props.forward_tests_exact
#print axioms SY.Props.switch_tests
#print axioms SY.Props.switch_passes_hub
#print axioms SY.Props.switch_not_learning
#print axioms SY.Props.switch_other_first
#print axioms SY.Props.switch_empty
#print axioms SY.Props.echo_tests
#print axioms SY.Props.router_tests
#print axioms SY.Props.firewall_tests
#print axioms SY.Props.firewall_pairs
#print axioms SY.Props.resends_tests_at
#print axioms SY.Props.debugger_in_program_partial
#print axioms SY.Props.debugger_opens
#print axioms SY.Props.debugger_opens_oldest
#print axioms SY.Props.debugger_in_library_violated
#print axioms SY.Props.devinfo_exact
#print axioms SY.Props.device_type_partial
#print axioms SY.Props.device_types_same_violated
#print axioms SY.Props.wireless_violated
#print axioms SY.Props.wired_violated
#print axioms SY.Props.other_platform_violated
#print axioms SY.Props.output_event_iff
#print axioms SY.Props.output_event_accepts
#print axioms SY.Props.wildcard_refused_partial
#print axioms SY.Props.predicate_refused_partial
#print axioms SY.Props.predicate_refused_violated
#print axioms SY.Props.wildcard_refused_violated
#print axioms SY.Props.predicates_text_violated
#print axioms SY.Props.firewall_exercise_exact
#print axioms SY.Props.firewall_exercise_partial
#print axioms SY.Props.firewall_rules_tests
#print axioms SY.Props.firewall_exercise_tests
#print axioms SY.Props.firewall_skeleton_fails
#print axioms SY.Props.firewall_exercise_violated
#print axioms SY.Props.firewall_limits_tests
#print axioms SY.Props.firewall_limits_full_partial
#print axioms SY.Props.firewall_limits_empty_violated
#print axioms SY.Props.limits_steps_tests
#print axioms SY.Props.firewall_limits_waited_partial
#print axioms SY.Props.rate_test_exact
#print axioms SY.Props.rate_test_partial
#print axioms SY.Props.rate_unlimited_fails
#print axioms SY.Props.rate_tcp_violated
#print axioms SY.Props.rate_empty_violated
#print axioms SY.Props.rate_waited_partial
#print axioms SY.Props.rate_program_tests
#print axioms SY.Props.rate_counter_violated
#print axioms SY.Props.stack_test_partial
#print axioms SY.Props.stack_test_exact
#print axioms SY.Props.stack_test_data_violated
#print axioms SY.Props.stack_test_reports
#print axioms SY.Props.stack_test_answer
