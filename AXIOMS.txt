Pyof.Props.C01_ubint_pack: Classical.choice, Quot.sound, propext
Pyof.Props.C01_ubint128: propext
Pyof.Props.C02_ubint_unpack: Classical.choice, Quot.sound, propext
Pyof.Props.C02_ubint_window: Quot.sound, propext
Pyof.Props.C02_ubint128: Classical.choice, Quot.sound, propext
Pyof.Props.C02_ubint128_counterexample: propext
Pyof.Props.C03_mac_unpack: Classical.choice, Quot.sound, propext
Pyof.Props.C03_mac_pack: Classical.choice, Quot.sound, propext
Pyof.Props.C03_mac_values: Classical.choice, Quot.sound, propext
Pyof.Props.C03_mac_broadcast: Classical.choice, Quot.sound, propext
Pyof.Props.C03_mac_broadcast_counterexample: Classical.choice, Quot.sound, propext
Pyof.Props.C04_ipv4_values: Classical.choice, Quot.sound, propext
Pyof.Props.C04_ipv4_unpack: Classical.choice, Quot.sound, propext
Pyof.Props.C04_ipv4_pack: Classical.choice, Quot.sound, propext
Pyof.Props.C04_ipv4_prefix: Classical.choice, Quot.sound, propext
Pyof.Props.C04_ipv4_text: Quot.sound, propext
Pyof.Props.C05_ipv6_values: Classical.choice, Quot.sound, propext
Pyof.Props.C05_ipv6_text: Classical.choice, Quot.sound, propext
Pyof.Props.C05_ipv6_unpack: Classical.choice, Quot.sound, propext
Pyof.Props.C05_ipv6_pack: Classical.choice, Quot.sound, propext
Pyof.Props.C05_ipv6_abbreviation: Classical.choice, Quot.sound, propext
Pyof.Props.C05_ipv6_abbreviation_bytes: Classical.choice, Quot.sound, propext
Pyof.Props.C06_dpid_values: Quot.sound, propext
Pyof.Props.C06_dpid_unpack: Classical.choice, Quot.sound, propext
Pyof.Props.C06_dpid_pack: Classical.choice, Quot.sound, propext
Pyof.Props.C07_char_pack: Quot.sound, propext
Pyof.Props.C07_char_refuse: propext
Pyof.Props.C07_char_round_trip: Classical.choice, Quot.sound, propext
Pyof.Props.C07_char_unchanged: Classical.choice, Quot.sound, propext
Pyof.Props.C07_char_unpack: Classical.choice, Quot.sound, propext
Pyof.Props.C08_vlan_counterexample: Quot.sound, propext
Pyof.Props.C08_messages: Classical.choice, Quot.sound, propext
Pyof.Props.C08_bodies: Classical.choice, Quot.sound, propext
Pyof.Props.C08_variants: Classical.choice, Quot.sound, propext
Pyof.Props.C08_library_counterexamples: Classical.choice, Quot.sound, propext
Pyof.Props.C08_plain_list_counterexample: Classical.choice, Quot.sound, propext
Pyof.Props.C08_frames: Classical.choice, Quot.sound, propext
Pyof.Props.C08_packets: Classical.choice, Quot.sound, propext
Pyof.Props.C08_basic_types: Classical.choice, Quot.sound, propext
Pyof.Props.C08_struct: propext
Pyof.Props.C08_list: Quot.sound, propext
Pyof.Props.C08_counterexamples: Quot.sound, propext
Pyof.Props.C09_concat: Quot.sound, propext
Pyof.Props.C09_first_error: Classical.choice, Quot.sound, propext
Pyof.Props.C09_slot: propext
Pyof.Props.C10_assignment_order: Classical.choice, Quot.sound, propext
Pyof.Props.C11_round_trip: Quot.sound, propext
Pyof.Props.C11_nesting: Quot.sound, propext
Pyof.Props.C12_truncated: Quot.sound, propext
Pyof.Props.C12_basic_types: Classical.choice, Quot.sound, propext
Pyof.Props.C12_nested: Quot.sound, propext
Pyof.Props.C12_empty_buffer: propext
Pyof.Props.C13_lists: Classical.choice, Quot.sound, propext
Pyof.Props.C13_any: Quot.sound, propext
Pyof.Props.C13_counterexample: Quot.sound, propext
Pyof.Props.C13_unpack: Classical.choice, Quot.sound, propext
Pyof.Props.C14_round_trip: Quot.sound, propext
Pyof.Props.C15_append_extend: Classical.choice, Quot.sound, propext
Pyof.Props.C15_only_instances: Classical.choice, Quot.sound, propext
Pyof.Props.C15_constructor: Classical.choice, Quot.sound, propext
Pyof.Props.C15_offender_raises: Classical.choice, Quot.sound, propext
Pyof.Props.C15_container_agrees: Classical.choice, Quot.sound, propext
Pyof.Props.C15_setitem_counterexample: Quot.sound, propext
Pyof.Props.C15_insert: Quot.sound, propext
Pyof.Props.C15_keeps_items: Classical.choice, Quot.sound, propext
Pyof.Props.C15_pack_foreign: Classical.choice, Quot.sound, propext
Pyof.Props.C16_homogeneous: Quot.sound, propext
Pyof.Props.C16_keeps_elements: Quot.sound, propext
Pyof.Props.C16_offender_raises: Quot.sound, propext
Pyof.Props.C16_append_extend: Classical.choice, Quot.sound, propext
Pyof.Props.C16_insert: Quot.sound, propext
Pyof.Props.C16_keeps_items: Classical.choice, Quot.sound, propext
Pyof.Props.C17_header: Classical.choice, Quot.sound, propext
Pyof.Props.C17_too_long: Classical.choice, Quot.sound, propext
Pyof.Props.C17_old_length: Classical.choice, Quot.sound, propext
Pyof.Props.C17_any_class: Classical.choice, Quot.sound, propext
Pyof.Props.C17_stored: Classical.choice, Quot.sound, propext
Pyof.Props.C17_meter_mod_counterexample: Classical.choice, Quot.sound, propext
Pyof.Props.C17_any_object: Classical.choice, Quot.sound, propext
Pyof.Props.C17_packed_bodies: Classical.choice, Quot.sound, propext
Pyof.Props.C17_wrong_length_counterexamples: Classical.choice, Quot.sound, propext
Pyof.Props.C18_validate: Classical.choice, Quot.sound, propext
Pyof.Props.C19_round_trip: Classical.choice, Quot.sound, propext
Pyof.Props.C19_out_port_counterexample: Classical.choice, Quot.sound, propext
Pyof.Props.C19_queue_port_counterexample: Classical.choice, Quot.sound, propext
Pyof.Props.C20_round_trip: Classical.choice, Quot.sound, propext
Pyof.Props.C20_async_counterexample: Classical.choice, Quot.sound, propext
Pyof.Props.C20_queue_config_counterexample: Classical.choice, Quot.sound, propext
Pyof.Props.C20_queue_messages_pack: Classical.choice, Quot.sound, propext
Pyof.Props.C20_queue_messages_unpack: Classical.choice, Quot.sound, propext
Pyof.Props.C20_queue_port_counterexample: Classical.choice, Quot.sound, propext
Pyof.Props.C21_class_of_packet: Classical.choice, Quot.sound, propext
Pyof.Props.C21_unknown: Classical.choice, Quot.sound, propext
Pyof.Props.C21_total: Classical.choice, Quot.sound, propext
Pyof.Props.C21_own_class: Classical.choice, Quot.sound, propext
Pyof.Props.C21_table: Classical.choice, Quot.sound, propext
Pyof.Props.C22_exceptions: Classical.choice, Quot.sound, propext
Pyof.Props.C22_other_types: Classical.choice, Quot.sound, propext
Pyof.Props.C22_counterexamples: Classical.choice, Quot.sound, propext
Pyof.Props.C23_pack_twice: Classical.choice, Quot.sound, propext
Pyof.Props.C23_pack_again: Classical.choice, Quot.sound, propext
Pyof.Props.C23_structures: Classical.choice, Quot.sound, propext
Pyof.Props.C23_ipv4: Classical.choice, Quot.sound, propext
Pyof.Props.C23_ipv4_counterexample: Classical.choice, Quot.sound, propext
Pyof.Props.C23_ipv4_options: Classical.choice, Quot.sound, propext
Pyof.Props.C23_ipv6: Classical.choice, Quot.sound, propext
Pyof.Props.C24_history: Classical.choice, Quot.sound, propext
Pyof.Props.C24_match: Classical.choice, Quot.sound, propext
Pyof.Props.C24_rejected: Classical.choice, Quot.sound, propext
Pyof.Props.C24_bad_text: Classical.choice, Quot.sound, propext
Pyof.Props.C24_no_wildcards: Classical.choice, Quot.sound, propext
Pyof.Props.C24_counterexamples: Classical.choice, Quot.sound, propext
Pyof.Props.C25_steps: Classical.choice, Quot.sound, propext
Pyof.Props.C25_decode: Classical.choice, Quot.sound, propext
Pyof.Props.C26_pack: Classical.choice, Quot.sound, propext
Pyof.Props.C26_no_mask: Quot.sound, propext
Pyof.Props.C26_empty: Quot.sound, propext
Pyof.Props.C26_unpack: Classical.choice, Quot.sound, propext
Pyof.Props.C27_pack: Classical.choice, Quot.sound, propext
Pyof.Props.C27_round_trip: Classical.choice, Quot.sound, propext
Pyof.Props.C28_first: Classical.choice, Quot.sound, propext
Pyof.Props.C28_none: Classical.choice, Quot.sound, propext
Pyof.Props.C28_content: Quot.sound, propext
Pyof.Props.C28_decoded: Classical.choice, Quot.sound, propext
Pyof.Props.C28_class_ignored: propext
Pyof.Props.C28_in_port: propext
Pyof.Props.C28_in_port_counterexample: propext
Pyof.Props.C29_concat: Classical.choice, Quot.sound, propext
Pyof.Props.C29_round_trip: Classical.choice, Quot.sound, propext
Pyof.Props.C29_class: propext
Pyof.Props.C30_size: Classical.choice, Quot.sound, propext
Pyof.Props.C30_length_field: Classical.choice, Quot.sound, propext
Pyof.Props.C30_round_trip: Classical.choice, Quot.sound, propext
Pyof.Props.C30_acceptable: Classical.choice, Quot.sound, propext
Pyof.Props.C31_length: Classical.choice, Quot.sound, propext
Pyof.Props.C31_round_trip: Classical.choice, Quot.sound, propext
Pyof.Props.C32_element: Classical.choice, Quot.sound, propext
Pyof.Props.C32_round_trip: Classical.choice, Quot.sound, propext
Pyof.Props.C32_message: Classical.choice, Quot.sound, propext
Pyof.Props.C33_v01_pack: Classical.choice, Quot.sound, propext
Pyof.Props.C33_v01_unpack: Classical.choice, Quot.sound, propext
Pyof.Props.C33_v01_refused: Classical.choice, Quot.sound, propext
Pyof.Props.C33_v04_pack: Classical.choice, Quot.sound, propext
Pyof.Props.C33_v04_unpack: Classical.choice, Quot.sound, propext
Pyof.Props.C33_v04_refused: Classical.choice, Quot.sound, propext
Pyof.Props.C33_v01_no_port: Classical.choice, Quot.sound, propext
Pyof.Props.C33_v04_no_port: Classical.choice, Quot.sound, propext
Pyof.Props.C34_v01_accept: Classical.choice, Quot.sound, propext
Pyof.Props.C34_v01_reject: Classical.choice, Quot.sound, propext
Pyof.Props.C34_v01_repack: Classical.choice, Quot.sound, propext
Pyof.Props.C34_v01: Classical.choice, Quot.sound, propext
Pyof.Props.C34_v04_accept: Classical.choice, Quot.sound, propext
Pyof.Props.C34_v04_reject: Classical.choice, Quot.sound, propext
Pyof.Props.C34_v04_repack: Classical.choice, Quot.sound, propext
Pyof.Props.C34_v04: Classical.choice, Quot.sound, propext
Pyof.Props.C35_pack: Classical.choice, Quot.sound, propext
Pyof.Props.C35_pack_none: Quot.sound, propext
Pyof.Props.C35_decode: Classical.choice, Quot.sound, propext
Pyof.Props.C35_roundtrip: Classical.choice, Quot.sound, propext
Pyof.Props.C35_counterexamples: Quot.sound, propext
Pyof.Props.C36_pack: Classical.choice, Quot.sound, propext
Pyof.Props.C36_roundtrip: Classical.choice, Quot.sound, propext
Pyof.Props.C36_decode: Classical.choice, Quot.sound, propext
Pyof.Props.C36_short: Classical.choice, Quot.sound, propext
Pyof.Props.C36_counterexamples: Classical.choice, Quot.sound, propext
Pyof.Props.C37_pack: Classical.choice, Quot.sound, propext
Pyof.Props.C37_unpack: Classical.choice, Quot.sound, propext
Pyof.Props.C37_roundtrip: Classical.choice, Quot.sound, propext
Pyof.Props.C37_short: Classical.choice, Quot.sound, propext
Pyof.Props.C37_counterexample: Classical.choice, Quot.sound, propext
Pyof.Props.C37_reencode: Classical.choice, Quot.sound, propext
Pyof.Props.C38_pack: Classical.choice, Quot.sound, propext
Pyof.Props.C38_unpack: Classical.choice, Quot.sound, propext
Pyof.Props.C38_roundtrip: Classical.choice, Quot.sound, propext
Pyof.Props.C38_short: Classical.choice, Quot.sound, propext
Pyof.Props.C39_pack: Classical.choice, Quot.sound, propext
Pyof.Props.C39_pack_sub: Classical.choice, Quot.sound, propext
Pyof.Props.C39_decode: Classical.choice, Quot.sound, propext
Pyof.Props.C39_decode_sub: Classical.choice, Quot.sound, propext
Pyof.Props.C39_roundtrip: Classical.choice, Quot.sound, propext
Pyof.Props.C39_roundtrip_sub: Classical.choice, Quot.sound, propext
Pyof.Props.C39_long: Classical.choice, Quot.sound, propext
Pyof.Props.C39_lldp: Classical.choice, Quot.sound, propext
Pyof.Props.C39_refused: Classical.choice, Quot.sound, propext
Pyof.Props.C39_counterexamples: propext
Pyof.Props.C40_roundtrip: Classical.choice, Quot.sound, propext
Pyof.Props.C40_decode: Classical.choice, Quot.sound, propext
Pyof.Props.C41_request_pack: Classical.choice, Quot.sound, propext
Pyof.Props.C41_request_round_trip: Classical.choice, Quot.sound, propext
Pyof.Props.C41_request_unchanged: Classical.choice, Quot.sound, propext
Pyof.Props.C41_reply_pack: Classical.choice, Quot.sound, propext
Pyof.Props.C41_reply_round_trip: Classical.choice, Quot.sound, propext
Pyof.Props.C41_reply_unchanged: Classical.choice, Quot.sound, propext
Pyof.Props.C41_failed_pack_counterexample: Classical.choice, Quot.sound, propext
Pyof.Props.C42_request_pack: Classical.choice, Quot.sound, propext
Pyof.Props.C42_request_round_trip: Classical.choice, Quot.sound, propext
Pyof.Props.C42_request_unchanged: Classical.choice, Quot.sound, propext
Pyof.Props.C42_reply_pack: Classical.choice, Quot.sound, propext
Pyof.Props.C42_reply_round_trip: Classical.choice, Quot.sound, propext
Pyof.Props.C42_reply_unchanged: Classical.choice, Quot.sound, propext
Pyof.Props.C42_failed_pack_counterexample: Classical.choice, Quot.sound, propext
Pyof.Props.C42_bytes_body_fails: Classical.choice, Quot.sound, propext
Pyof.Props.C42_scalar_body_fails: Classical.choice, Quot.sound, propext
Pyof.Props.C42_list_body_counterexample: Classical.choice, Quot.sound, propext
Pyof.Props.C42_list_type_fails: Classical.choice, Quot.sound, propext
Pyof.Props.C43_eq: Classical.choice, Quot.sound, propext
Pyof.Props.C43_ne: Quot.sound, propext
Pyof.Props.C43_order: propext
Pyof.Props.C43_arith: Classical.choice, Quot.sound, propext
Pyof.Props.C43_sub_swapped: propext
Pyof.Props.C43_shift: Quot.sound, propext
Pyof.Props.C43_counterexamples: Classical.choice, Quot.sound, propext
Pyof.Props.C44_fields: Classical.choice, Quot.sound, propext
Pyof.Props.C44_no_parent: Classical.choice, Quot.sound, propext
Pyof.Props.C44_keys: Classical.choice, Quot.sound, propext
Pyof.Props.C44_version: Classical.choice, Quot.sound, propext
Pyof.Props.C44_replace: Classical.choice, Quot.sound, propext
Pyof.Props.C44_retarget: Classical.choice, Quot.sound, propext
Pyof.Props.C44_header: Classical.choice, Quot.sound, propext
Pyof.Props.C44_counterexamples: Classical.choice, Quot.sound, propext
Pyof.Props.C45_messages: Classical.choice, Quot.sound, propext
Pyof.Props.C45_equality: Classical.choice, Quot.sound, propext
Pyof.Props.C45_again: Classical.choice, Quot.sound, propext
Pyof.Props.C45_other_types: Classical.choice, Quot.sound, propext
Pyof.Props.C45_eq_iff_same_content: none
Pyof.Props.C45_unambiguous: Quot.sound, propext
Pyof.Props.C45_structures: Classical.choice, Quot.sound, propext
Pyof.Props.C46_stable_partial: Classical.choice, Quot.sound, propext
Pyof.Props.C46_violated_header_only: Classical.choice, Quot.sound, propext
Pyof.Props.C46_violated_in_port: Classical.choice, Quot.sound, propext
Pyof.Props.C46_violated_hello_length: Classical.choice, Quot.sound, propext
Pyof.Props.C46_violated_experimenter: Classical.choice, Quot.sound, propext
Pyof.Props.C46_violated_meter_bands: Classical.choice, Quot.sound, propext
Pyof.Props.C46_violated_bucket_length: Classical.choice, Quot.sound, propext
Pyof.Props.C46_violated_empty_desc: Classical.choice, Quot.sound, propext
Pyof.Props.C46_violated_empty_request: Classical.choice, Quot.sound, propext
Pyof.Props.C47_before: Classical.choice, Quot.sound, propext
Pyof.Props.C47_before_all: Classical.choice, Quot.sound, propext
Pyof.Props.C47_before_counterexample: Quot.sound, propext
Pyof.Props.C47_after: Classical.choice, Quot.sound, propext
Pyof.Props.C47_after_counterexample: Quot.sound, propext
Pyof.Props.C47_window: Classical.choice, Quot.sound, propext
Pyof.Props.C47_basic_types: Classical.choice, Quot.sound, propext
Pyof.Props.C47_struct: Quot.sound, propext
Pyof.Props.C48_xid: Classical.choice, Quot.sound, propext
Pyof.Props.C48_refused: Classical.choice, Quot.sound, propext
Pyof.Props.C49_never_false: Classical.choice, Quot.sound, propext
Pyof.Props.C49_counterexample: Classical.choice, Quot.sound, propext
Pyof.Props.C50_classes: Classical.choice, Quot.sound, propext
Pyof.Props.C50_construct: Classical.choice, Quot.sound, propext
Pyof.Props.C50_content: Classical.choice, Quot.sound, propext
Pyof.Props.C50_disjoint: Classical.choice, Quot.sound, propext
Pyof.Props.C50_apart: Classical.choice, Quot.sound, propext
Pyof.Props.C50_operation: Classical.choice, Quot.sound, propext
Pyof.Props.C50_without: Classical.choice, Quot.sound, propext
Pyof.Props.C50_counterexample: propext
Pyof.Props.C51_v01_flow_stats: Classical.choice, Quot.sound, propext
Pyof.Props.C51_flow_stats: Classical.choice, Quot.sound, propext
Pyof.Props.C51_meter_stats: Classical.choice, Quot.sound, propext
Pyof.Props.C51_table_features: Classical.choice, Quot.sound, propext
Pyof.Props.C51_property: Classical.choice, Quot.sound, propext
Pyof.Props.C51_bucket: Classical.choice, Quot.sound, propext
Pyof.Props.C51_hello_element: Classical.choice, Quot.sound, propext
Pyof.Props.C51_instruction: Classical.choice, Quot.sound, propext
Pyof.Props.C51_action: Classical.choice, Quot.sound, propext
Pyof.Props.C51_sequence: Quot.sound, propext
Pyof.Props.C51_overlong_counterexample: Quot.sound, propext
Pyof.Props.C52_v01_queues: Classical.choice, Quot.sound, propext
Pyof.Props.C52_v04_queues: Classical.choice, Quot.sound, propext
Pyof.Props.C52_groups_meters: Classical.choice, Quot.sound, propext
Pyof.Props.C52_group_descriptions: Classical.choice, Quot.sound, propext
Pyof.Props.C52_counterexamples: Classical.choice, Quot.sound, propext
Pyof.Props.C52_last_entry_partial: Classical.choice, Quot.sound, propext
Pyof.Props.C53_content_kept: Classical.choice, Quot.sound, propext
Pyof.Props.C54_round_trip: Classical.choice, Quot.sound, propext
Pyof.Props.C55_v01_pack: Classical.choice, Quot.sound, propext
Pyof.Props.C55_v04_pack: Classical.choice, Quot.sound, propext
Pyof.Props.C55_v01_decode: Classical.choice, Quot.sound, propext
Pyof.Props.C55_v04_decode: Classical.choice, Quot.sound, propext
Pyof.Props.C55_v01_headers_partial: Classical.choice, Quot.sound, propext
Pyof.Props.C55_v04_headers_partial: Classical.choice, Quot.sound, propext
Pyof.Props.C55_misread: Classical.choice, Quot.sound, propext
Pyof.Props.C56_pack: Classical.choice, Quot.sound, propext
Pyof.Props.C56_rejected: Classical.choice, Quot.sound, propext
Pyof.Props.C56_type_zero_partial: Classical.choice, Quot.sound, propext
Pyof.Props.C56_own_unpack: Quot.sound, propext
Pyof.Props.C57_members: Classical.choice, Quot.sound, propext
Pyof.Props.C57_kept: Classical.choice, Quot.sound, propext
Pyof.Props.C57_unknown: Classical.choice, Quot.sound, propext
Pyof.Props.C57_names_empty: Classical.choice, Quot.sound, propext
Pyof.Props.C57_names_partial: Classical.choice, Quot.sound, propext
Pyof.Props.C57_names_no_value: Classical.choice, Quot.sound, propext
Pyof.Props.C58_from_header: Classical.choice, Quot.sound, propext
Pyof.Props.C58_from_type: Classical.choice, Quot.sound, propext
Pyof.Props.C58_unknown_number: Classical.choice, Quot.sound, propext
Pyof.Props.C58_unknown_name: Classical.choice, Quot.sound, propext
Pyof.Props.C58_wrapped_number: Classical.choice, Quot.sound, propext
Pyof.Props.C58_unpack: Classical.choice, Quot.sound, propext
Pyof.Props.C59_decoded: Quot.sound, propext
Pyof.Props.C59_type_error: Quot.sound, propext
Pyof.Props.C59_packed: Classical.choice, Quot.sound, propext
Pyof.Props.C60_message: Classical.choice, Quot.sound, propext
Pyof.Props.C60_xid: Classical.choice, Quot.sound, propext
Pyof.Props.C60_structure: Classical.choice, Quot.sound, propext
Pyof.Props.C60_accepted: Classical.choice, Quot.sound, propext
Pyof.Props.C60_sent: Classical.choice, Quot.sound, propext
Pyof.Props.C60_nested: Classical.choice, Quot.sound, propext
Pyof.Props.C60_variants: Classical.choice, Quot.sound, propext
Pyof.Props.C60_classes: Classical.choice, Quot.sound, propext
Pyof.Props.C60_packed: Classical.choice, Quot.sound, propext
Pyof.Props.C60_order: Classical.choice, Quot.sound, propext
Pyof.Props.C60_rest: Classical.choice, Quot.sound, propext
Pyof.Props.C60_omitted: Classical.choice, Quot.sound, propext
Pyof.Props.C60_emptied: Classical.choice, Quot.sound, propext
Pyof.Props.C60_emptied_all: Classical.choice, Quot.sound, propext
Pyof.Props.C60_omitted_all: Classical.choice, Quot.sound, propext
Pyof.Props.C60_variants_rest: Classical.choice, Quot.sound, propext
Pyof.Props.C60_bare: Classical.choice, Quot.sound, propext
Pyof.Props.C61_actions_partial: Classical.choice, Quot.sound, propext
Pyof.Props.C61_bands: Classical.choice, Quot.sound, propext
Pyof.Props.C61_instructions: Classical.choice, Quot.sound, propext
Pyof.Props.C61_properties: Classical.choice, Quot.sound, propext
Pyof.Props.C61_set_field: Classical.choice, Quot.sound, propext
Pyof.Props.C61_pop_mpls: Quot.sound, propext
Pyof.Props.C61_goto_table: Quot.sound, propext
Pyof.Props.C61_experimenter: Classical.choice, Quot.sound, propext
Pyof.Props.C62_deepcopy: Classical.choice, Quot.sound, propext
Pyof.Props.C62_total: Classical.choice, Quot.sound, propext
Pyof.Props.C62_independent: Classical.choice, Quot.sound, propext
Pyof.Props.C62_counterexample: propext
Pyof.Props.C63_pieces: Quot.sound, propext
Pyof.Props.C63_stream: Classical.choice, Quot.sound, propext
Pyof.Props.C63_decoded: Classical.choice, Quot.sound, propext
Pyof.Props.C64_own: Classical.choice, Quot.sound, propext
Pyof.Props.C64_decoded: Classical.choice, Quot.sound, propext
Pyof.Props.C64_property: Classical.choice, Quot.sound, propext
Pyof.Props.C65_attributes: Classical.choice, Quot.sound, propext
Pyof.Props.C65_defaults: Classical.choice, Quot.sound, propext
Pyof.Props.C65_fixed: Classical.choice, Quot.sound, propext
Pyof.Props.C65_arp: Classical.choice, Quot.sound, propext
Pyof.Props.C65_probe: Classical.choice, Quot.sound, propext
Pyof.Props.C65_carried: Classical.choice, Quot.sound, propext
Pyof.Props.C65_discovery: Classical.choice, Quot.sound, propext
Pyof.Props.C65_hash: Classical.choice, Quot.sound, propext
Pyof.Props.C65_hash_received: Classical.choice, Quot.sound, propext
Pyof.Props.C66_messages: Classical.choice, Quot.sound, propext
Pyof.Props.C66_packetOut: Classical.choice, Quot.sound, propext
Pyof.Props.C66_structures: Classical.choice, Quot.sound, propext
Pyof.Props.C66_no_structure: Classical.choice, Quot.sound, propext
Pyof.Props.C66_no_structure_size: Classical.choice, Quot.sound, propext
Pyof.Props.C66_oxm_size: Quot.sound, propext
Pyof.Props.C66_other_class: Classical.choice, Quot.sound, propext
Pyof.Props.C66_other_structure: Classical.choice, Quot.sound, propext
Pyof.Props.C66_match_counterexample: Classical.choice, Quot.sound, propext
Pyof.Props.C66_error_data_counterexample: Classical.choice, Quot.sound, propext
Pyof.Props.C66_oxm_counterexample: Quot.sound, propext
Pyof.Props.C67_messages: Classical.choice, Quot.sound, propext
Pyof.Props.C67_no_trace: Classical.choice, Quot.sound, propext
Pyof.Props.C67_failed_counterexample: Classical.choice, Quot.sound, propext
Pyof.Props.C67_offset_counterexample: Classical.choice, Quot.sound, propext
Pyof.Props.C67_structs: Classical.choice, Quot.sound, propext
Pyof.Props.C67_cut: Classical.choice, Quot.sound, propext
Pyof.Props.C67_own_class_partial: Classical.choice, Quot.sound, propext
Pyof.Props.C67_base_object_partial: Classical.choice, Quot.sound, propext
Pyof.Props.C67_other_class_counterexample: Classical.choice, Quot.sound, propext
Pyof.Props.C67_unknown_type_counterexample: Classical.choice, Quot.sound, propext
Pyof.Props.C67_failed_class: Classical.choice, Quot.sound, propext
Pyof.Props.C67_lists: Classical.choice, Quot.sound, propext
Pyof.Props.C67_address: none
Pyof.Props.C67_oxm: Classical.choice, Quot.sound, propext
Pyof.Props.C67_match: Classical.choice, Quot.sound, propext
Pyof.Props.C67_frames: Classical.choice, Quot.sound, propext
Pyof.Props.C67_tlvs: Classical.choice, Quot.sound, propext
Pyof.Props.C67_ipv4: Classical.choice, Quot.sound, propext
Pyof.Props.C67_ipv6: Classical.choice, Quot.sound, propext
Pyof.Props.C68_classes: Classical.choice, Quot.sound, propext
Pyof.Props.C68_alone: Classical.choice, Quot.sound, propext
Pyof.Props.C68_replacing_alone: Classical.choice, Quot.sound, propext
Pyof.Props.C68_error_alone: Classical.choice, Quot.sound, propext
Pyof.Props.C68_interrupted_partial: Classical.choice, Quot.sound, propext
Pyof.Props.C68_threads_partial: Classical.choice, Quot.sound, propext
Pyof.Props.C68_ends: propext
Pyof.Props.C68_padding_counterexample: Classical.choice, Quot.sound, propext
Pyof.Props.C68_multipart_counterexample: Classical.choice, Quot.sound, propext
Pyof.Props.C68_error_counterexample: Classical.choice, Quot.sound, propext
Pyof.Props.C68_body_lost_counterexample: Classical.choice, Quot.sound, propext
Pyof.Props.C68_interrupted_counterexample: Classical.choice, Quot.sound, propext
Pyof.Props.C69_packed_partial: Classical.choice, Quot.sound, propext
Pyof.Props.C69_refused_partial: Classical.choice, Quot.sound, propext
Pyof.Props.C69_packet_out: Classical.choice, Quot.sound, propext
Pyof.Props.C69_others: Classical.choice, Quot.sound, propext
Pyof.Props.C69_counterexample: Classical.choice, Quot.sound, propext
Pyof.Props.C70_messages_partial: Classical.choice, Quot.sound, propext
Pyof.Props.C70_swallowed_counterexample: Classical.choice, Quot.sound, propext
Pyof.Props.C70_body: Classical.choice, Quot.sound, propext
Pyof.Props.C71_threads_partial: Classical.choice, Quot.sound, propext
Pyof.Props.C71_one_by_one: Classical.choice, Quot.sound, propext
Pyof.Props.C71_ends: propext
Pyof.Props.C71_padding_counterexample: Classical.choice, Quot.sound, propext
Pyof.Props.C72_linear: Classical.choice, Quot.sound, propext
Pyof.Props.C72_structures: Classical.choice, Quot.sound, propext
Pyof.Props.C72_structures_counterexample: Quot.sound, propext
Pyof.Props.C73_history_partial: Classical.choice, Quot.sound, propext
Pyof.Props.C73_threads_partial: Classical.choice, Quot.sound, propext
Pyof.Props.C73_returning: Classical.choice, Quot.sound, propext
Pyof.Props.C73_replaced_counterexample: Classical.choice, Quot.sound, propext
Pyof.Props.C74_ipv4_partial: Classical.choice, Quot.sound, propext
Pyof.Props.C74_ipv4_unchanged_partial: Classical.choice, Quot.sound, propext
Pyof.Props.C74_ipv4_routed: Classical.choice, Quot.sound, propext
Pyof.Props.C74_ipv6_partial: Classical.choice, Quot.sound, propext
Pyof.Props.C74_arp: Classical.choice, Quot.sound, propext
Pyof.Props.C74_controller: Classical.choice, Quot.sound, propext
Pyof.Props.C74_padding_counterexample: Classical.choice, Quot.sound, propext
Pyof.Props.C75_threads_partial: Classical.choice, Quot.sound, propext
Pyof.Props.C75_history_partial: Classical.choice, Quot.sound, propext
Pyof.Props.C75_history_threads_partial: Classical.choice, Quot.sound, propext
Pyof.Props.C75_tag_counterexample: Classical.choice, Quot.sound, propext
Pyof.Props.C75_options_counterexample: Classical.choice, Quot.sound, propext
Pyof.Props.C75_options_twice_counterexample: Classical.choice, Quot.sound, propext
Pyof.Props.C76_messages_partial: Classical.choice, Quot.sound, propext
Pyof.Props.C76_structures_partial: Classical.choice, Quot.sound, propext
Pyof.Props.C77_addresses: Classical.choice, Quot.sound, propext
Pyof.Props.C77_written_counterexample: Classical.choice, Quot.sound, propext
Pyof.Props.C77_numbers: Classical.choice, Quot.sound, propext
Pyof.Props.C77_given_numbers: Classical.choice, Quot.sound, propext
Pyof.Props.C77_enumerated: Classical.choice, Quot.sound, propext
Pyof.Props.C77_data: propext
Pyof.Props.C77_header_partial: Classical.choice, Quot.sound, propext
Pyof.Props.C77_new_header_partial: Classical.choice, Quot.sound, propext
Pyof.Props.C77_header_counterexample: Classical.choice, Quot.sound, propext
Pyof.Props.C78_packet_partial: Classical.choice, Quot.sound, propext
Pyof.Props.C78_length_partial: Classical.choice, Quot.sound, propext
Pyof.Props.C78_one_attribute: Classical.choice, Quot.sound, propext
Pyof.Props.C78_returns: Classical.choice, Quot.sound, propext
Pyof.Props.C78_size: Classical.choice, Quot.sound, propext
Pyof.Props.C78_two_attributes_counterexample: Classical.choice, Quot.sound, propext
Pyof.Props.C78_size_counterexample: Classical.choice, Quot.sound, propext
Pyof.Props.C78_validated_counterexample: Classical.choice, Quot.sound, propext
Pyof.Props.C78_checksum_counterexample: Classical.choice, Quot.sound, propext
Pyof.Props.C79_result: Classical.choice, Quot.sound, propext
Pyof.Props.C79_own_object: Classical.choice, Quot.sound, propext
Pyof.Props.C79_shared_partial: Classical.choice, Quot.sound, propext
Pyof.Props.C79_others: Classical.choice, Quot.sound, propext
Pyof.Props.C79_returns: Classical.choice, Quot.sound, propext
Pyof.Props.C79_messages: Classical.choice, Quot.sound, propext
Pyof.Props.C79_ip_packets: Classical.choice, Quot.sound, propext
Pyof.Props.C79_frames: Classical.choice, Quot.sound, propext
Pyof.Props.C79_structures: Classical.choice, Quot.sound, propext
Pyof.Props.C79_mixed_counterexample: Classical.choice, Quot.sound, propext
Pyof.Props.C79_error_counterexample: Classical.choice, Quot.sound, propext
Pyof.Props.C80_complete_partial: Classical.choice, Quot.sound, propext
Pyof.Props.C80_passing_partial: Classical.choice, Quot.sound, propext
Pyof.Props.C80_moments_partial: Classical.choice, Quot.sound, propext
Pyof.Props.C80_default_counterexample: Classical.choice, Quot.sound, propext
Pyof.Props.C80_torn_counterexample: Classical.choice, Quot.sound, propext
Pyof.Props.C80_pack_partial: Classical.choice, Quot.sound, propext
Pyof.Props.C80_size_partial: Classical.choice, Quot.sound, propext
Pyof.Props.C80_pack_message_partial: Classical.choice, Quot.sound, propext
Pyof.Props.C80_pack_arp_partial: Classical.choice, Quot.sound, propext
Pyof.Props.C80_pack_complete_partial: Classical.choice, Quot.sound, propext
Pyof.Props.C80_pack_passing_partial: Classical.choice, Quot.sound, propext
Pyof.Props.C80_message_passing_partial: Classical.choice, Quot.sound, propext
Pyof.Props.C80_pack_counterexample: Classical.choice, Quot.sound, propext
Pyof.Props.C80_pack_torn_counterexample: Classical.choice, Quot.sound, propext
Pyof.Props.C80_length_counterexample: Classical.choice, Quot.sound, propext
Pyof.Props.C80_pack_undisturbed: Classical.choice, Quot.sound, propext
Pyof.Props.C80_size_undisturbed: Classical.choice, Quot.sound, propext
Pyof.Props.C80_message_undisturbed: Classical.choice, Quot.sound, propext
Pyof.Props.C80_arp_undisturbed: Classical.choice, Quot.sound, propext
Pyof.Props.C80_arp_counterexample: Classical.choice, Quot.sound, propext
