{
 "claims": [
  {
   "property": "C01",
   "status": "proved",
   "theorems": [
    "Pyof.Props.C01_ubint_pack",
    "Pyof.Props.C01_ubint128"
   ],
   "note": ""
  },
  {
   "property": "C02",
   "status": "proved",
   "theorems": [
    "Pyof.Props.C02_ubint_unpack",
    "Pyof.Props.C02_ubint_window",
    "Pyof.Props.C02_ubint128",
    "Pyof.Props.C02_ubint128_counterexample"
   ],
   "note": ""
  },
  {
   "property": "C03",
   "status": "proved",
   "theorems": [
    "Pyof.Props.C03_mac_unpack",
    "Pyof.Props.C03_mac_pack",
    "Pyof.Props.C03_mac_values",
    "Pyof.Props.C03_mac_broadcast",
    "Pyof.Props.C03_mac_broadcast_counterexample"
   ],
   "note": ""
  },
  {
   "property": "C04",
   "status": "proved",
   "theorems": [
    "Pyof.Props.C04_ipv4_values",
    "Pyof.Props.C04_ipv4_unpack",
    "Pyof.Props.C04_ipv4_pack",
    "Pyof.Props.C04_ipv4_prefix",
    "Pyof.Props.C04_ipv4_text"
   ],
   "note": ""
  },
  {
   "property": "C05",
   "status": "proved",
   "theorems": [
    "Pyof.Props.C05_ipv6_values",
    "Pyof.Props.C05_ipv6_text",
    "Pyof.Props.C05_ipv6_unpack",
    "Pyof.Props.C05_ipv6_pack",
    "Pyof.Props.C05_ipv6_abbreviation",
    "Pyof.Props.C05_ipv6_abbreviation_bytes"
   ],
   "note": ""
  },
  {
   "property": "C06",
   "status": "proved",
   "theorems": [
    "Pyof.Props.C06_dpid_values",
    "Pyof.Props.C06_dpid_unpack",
    "Pyof.Props.C06_dpid_pack"
   ],
   "note": ""
  },
  {
   "property": "C07",
   "status": "proved",
   "theorems": [
    "Pyof.Props.C07_char_pack",
    "Pyof.Props.C07_char_refuse",
    "Pyof.Props.C07_char_round_trip",
    "Pyof.Props.C07_char_unchanged",
    "Pyof.Props.C07_char_unpack"
   ],
   "note": ""
  },
  {
   "property": "C08",
   "status": "proved",
   "theorems": [
    "Pyof.Props.C08_vlan_counterexample",
    "Pyof.Props.C08_messages",
    "Pyof.Props.C08_bodies",
    "Pyof.Props.C08_variants",
    "Pyof.Props.C08_library_counterexamples",
    "Pyof.Props.C08_plain_list_counterexample",
    "Pyof.Props.C08_frames",
    "Pyof.Props.C08_packets",
    "Pyof.Props.C08_basic_types",
    "Pyof.Props.C08_struct",
    "Pyof.Props.C08_list",
    "Pyof.Props.C08_counterexamples"
   ],
   "note": "Basic types, structs and lists in general (C08_struct, C08_list); every object of every message class (C08_messages), body class, action, instruction, band, property (C08_bodies, C08_variants) and network packet (C08_frames, C08_packets), whatever its attributes hold, except for the exceptions spelled out in Spec/Size.lean, each with a counterexample."
  },
  {
   "property": "C09",
   "status": "proved",
   "theorems": [
    "Pyof.Props.C09_concat",
    "Pyof.Props.C09_first_error",
    "Pyof.Props.C09_slot"
   ],
   "note": ""
  },
  {
   "property": "C10",
   "status": "proved",
   "theorems": [
    "Pyof.Props.C10_assignment_order"
   ],
   "note": ""
  },
  {
   "property": "C11",
   "status": "proved",
   "theorems": [
    "Pyof.Props.C11_round_trip",
    "Pyof.Props.C11_nesting"
   ],
   "note": ""
  },
  {
   "property": "C12",
   "status": "proved",
   "theorems": [
    "Pyof.Props.C12_truncated",
    "Pyof.Props.C12_basic_types",
    "Pyof.Props.C12_nested",
    "Pyof.Props.C12_empty_buffer"
   ],
   "note": ""
  },
  {
   "property": "C13",
   "status": "proved",
   "theorems": [
    "Pyof.Props.C13_lists",
    "Pyof.Props.C13_any",
    "Pyof.Props.C13_counterexample",
    "Pyof.Props.C13_unpack"
   ],
   "note": "All item classes at every buffer and offset; the whole of unpack; any item class that never decodes to size 0 (C13_any)."
  },
  {
   "property": "C14",
   "status": "proved",
   "theorems": [
    "Pyof.Props.C14_round_trip"
   ],
   "note": ""
  },
  {
   "property": "C15",
   "status": "proved",
   "theorems": [
    "Pyof.Props.C15_append_extend",
    "Pyof.Props.C15_only_instances",
    "Pyof.Props.C15_constructor",
    "Pyof.Props.C15_offender_raises",
    "Pyof.Props.C15_container_agrees",
    "Pyof.Props.C15_setitem_counterexample",
    "Pyof.Props.C15_insert",
    "Pyof.Props.C15_keeps_items",
    "Pyof.Props.C15_pack_foreign"
   ],
   "note": "Unchecked list mutators shown by C15_setitem_counterexample."
  },
  {
   "property": "C16",
   "status": "proved",
   "theorems": [
    "Pyof.Props.C16_homogeneous",
    "Pyof.Props.C16_keeps_elements",
    "Pyof.Props.C16_offender_raises",
    "Pyof.Props.C16_append_extend",
    "Pyof.Props.C16_insert",
    "Pyof.Props.C16_keeps_items"
   ],
   "note": ""
  },
  {
   "property": "C17",
   "status": "proved",
   "theorems": [
    "Pyof.Props.C17_header",
    "Pyof.Props.C17_too_long",
    "Pyof.Props.C17_old_length",
    "Pyof.Props.C17_any_class",
    "Pyof.Props.C17_stored",
    "Pyof.Props.C17_meter_mod_counterexample",
    "Pyof.Props.C17_any_object",
    "Pyof.Props.C17_packed_bodies",
    "Pyof.Props.C17_wrong_length_counterexamples"
   ],
   "note": ""
  },
  {
   "property": "C18",
   "status": "proved",
   "theorems": [
    "Pyof.Props.C18_validate"
   ],
   "note": ""
  },
  {
   "property": "C19",
   "status": "proved",
   "theorems": [
    "Pyof.Props.C19_round_trip",
    "Pyof.Props.C19_out_port_counterexample",
    "Pyof.Props.C19_queue_port_counterexample"
   ],
   "note": ""
  },
  {
   "property": "C20",
   "status": "proved",
   "theorems": [
    "Pyof.Props.C20_round_trip",
    "Pyof.Props.C20_async_counterexample",
    "Pyof.Props.C20_queue_config_counterexample",
    "Pyof.Props.C20_queue_messages_pack",
    "Pyof.Props.C20_queue_messages_unpack",
    "Pyof.Props.C20_queue_port_counterexample"
   ],
   "note": ""
  },
  {
   "property": "C21",
   "status": "proved",
   "theorems": [
    "Pyof.Props.C21_class_of_packet",
    "Pyof.Props.C21_unknown",
    "Pyof.Props.C21_total",
    "Pyof.Props.C21_own_class",
    "Pyof.Props.C21_table"
   ],
   "note": ""
  },
  {
   "property": "C22",
   "status": "proved",
   "theorems": [
    "Pyof.Props.C22_exceptions",
    "Pyof.Props.C22_other_types",
    "Pyof.Props.C22_counterexamples"
   ],
   "note": "Exact: every argument, and a witness for every listed exception. The intended contract (only UnpackException) is violated by ten message types."
  },
  {
   "property": "C23",
   "status": "proved",
   "theorems": [
    "Pyof.Props.C23_pack_twice",
    "Pyof.Props.C23_pack_again",
    "Pyof.Props.C23_structures",
    "Pyof.Props.C23_ipv4",
    "Pyof.Props.C23_ipv4_counterexample",
    "Pyof.Props.C23_ipv4_options",
    "Pyof.Props.C23_ipv6"
   ],
   "note": ""
  },
  {
   "property": "C24",
   "status": "proved",
   "theorems": [
    "Pyof.Props.C24_history",
    "Pyof.Props.C24_match",
    "Pyof.Props.C24_rejected",
    "Pyof.Props.C24_bad_text",
    "Pyof.Props.C24_no_wildcards",
    "Pyof.Props.C24_counterexamples"
   ],
   "note": "C24_counterexamples: other spellings of the zero MAC, None and negative netmasks break the agreement."
  },
  {
   "property": "C25",
   "status": "proved",
   "theorems": [
    "Pyof.Props.C25_steps",
    "Pyof.Props.C25_decode"
   ],
   "note": ""
  },
  {
   "property": "C26",
   "status": "proved",
   "theorems": [
    "Pyof.Props.C26_pack",
    "Pyof.Props.C26_no_mask",
    "Pyof.Props.C26_empty",
    "Pyof.Props.C26_unpack"
   ],
   "note": ""
  },
  {
   "property": "C27",
   "status": "proved",
   "theorems": [
    "Pyof.Props.C27_pack",
    "Pyof.Props.C27_round_trip"
   ],
   "note": ""
  },
  {
   "property": "C28",
   "status": "proved",
   "theorems": [
    "Pyof.Props.C28_first",
    "Pyof.Props.C28_none",
    "Pyof.Props.C28_content",
    "Pyof.Props.C28_decoded",
    "Pyof.Props.C28_class_ignored",
    "Pyof.Props.C28_in_port",
    "Pyof.Props.C28_in_port_counterexample"
   ],
   "note": ""
  },
  {
   "property": "C29",
   "status": "proved",
   "theorems": [
    "Pyof.Props.C29_concat",
    "Pyof.Props.C29_round_trip",
    "Pyof.Props.C29_class"
   ],
   "note": ""
  },
  {
   "property": "C30",
   "status": "proved",
   "theorems": [
    "Pyof.Props.C30_size",
    "Pyof.Props.C30_length_field",
    "Pyof.Props.C30_round_trip",
    "Pyof.Props.C30_acceptable"
   ],
   "note": ""
  },
  {
   "property": "C31",
   "status": "proved",
   "theorems": [
    "Pyof.Props.C31_length",
    "Pyof.Props.C31_round_trip"
   ],
   "note": ""
  },
  {
   "property": "C32",
   "status": "proved",
   "theorems": [
    "Pyof.Props.C32_element",
    "Pyof.Props.C32_round_trip",
    "Pyof.Props.C32_message"
   ],
   "note": ""
  },
  {
   "property": "C33",
   "status": "proved",
   "theorems": [
    "Pyof.Props.C33_v01_pack",
    "Pyof.Props.C33_v01_unpack",
    "Pyof.Props.C33_v01_refused",
    "Pyof.Props.C33_v04_pack",
    "Pyof.Props.C33_v04_unpack",
    "Pyof.Props.C33_v04_refused",
    "Pyof.Props.C33_v01_no_port",
    "Pyof.Props.C33_v04_no_port"
   ],
   "note": ""
  },
  {
   "property": "C34",
   "status": "proved",
   "theorems": [
    "Pyof.Props.C34_v01_accept",
    "Pyof.Props.C34_v01_reject",
    "Pyof.Props.C34_v01_repack",
    "Pyof.Props.C34_v01",
    "Pyof.Props.C34_v04_accept",
    "Pyof.Props.C34_v04_reject",
    "Pyof.Props.C34_v04_repack",
    "Pyof.Props.C34_v04"
   ],
   "note": ""
  },
  {
   "property": "C35",
   "status": "proved",
   "theorems": [
    "Pyof.Props.C35_pack",
    "Pyof.Props.C35_pack_none",
    "Pyof.Props.C35_decode",
    "Pyof.Props.C35_roundtrip",
    "Pyof.Props.C35_counterexamples"
   ],
   "note": "Packing in range, decoding of every buffer, round trip in any context; counterexamples outside the ranges."
  },
  {
   "property": "C36",
   "status": "proved",
   "theorems": [
    "Pyof.Props.C36_pack",
    "Pyof.Props.C36_roundtrip",
    "Pyof.Props.C36_decode",
    "Pyof.Props.C36_short",
    "Pyof.Props.C36_counterexamples"
   ],
   "note": "Any number of tags, any payload, offset 0; every buffer either re-encodes to itself or raises UnpackException. Counterexamples: non-zero offset, VLAN ether type."
  },
  {
   "property": "C37",
   "status": "proved",
   "theorems": [
    "Pyof.Props.C37_pack",
    "Pyof.Props.C37_unpack",
    "Pyof.Props.C37_roundtrip",
    "Pyof.Props.C37_short",
    "Pyof.Props.C37_counterexample",
    "Pyof.Props.C37_reencode"
   ],
   "note": "Header, lengths, checksum over the first 20 bytes, round trip, short buffers; counterexample for options. The fields of IPv4 are ints/str/bytes as its constructor documents."
  },
  {
   "property": "C38",
   "status": "proved",
   "theorems": [
    "Pyof.Props.C38_pack",
    "Pyof.Props.C38_unpack",
    "Pyof.Props.C38_roundtrip",
    "Pyof.Props.C38_short"
   ],
   "note": "Header, round trip, short buffers."
  },
  {
   "property": "C39",
   "status": "proved",
   "theorems": [
    "Pyof.Props.C39_pack",
    "Pyof.Props.C39_pack_sub",
    "Pyof.Props.C39_decode",
    "Pyof.Props.C39_decode_sub",
    "Pyof.Props.C39_roundtrip",
    "Pyof.Props.C39_roundtrip_sub",
    "Pyof.Props.C39_long",
    "Pyof.Props.C39_lldp",
    "Pyof.Props.C39_refused",
    "Pyof.Props.C39_counterexamples"
   ],
   "note": "GenericTLV, TLVWithSubType and LLDP; long values and unchecked truncation shown."
  },
  {
   "property": "C40",
   "status": "proved",
   "theorems": [
    "Pyof.Props.C40_roundtrip",
    "Pyof.Props.C40_decode"
   ],
   "note": "Every object that packs; every buffer."
  },
  {
   "property": "C41",
   "status": "proved",
   "theorems": [
    "Pyof.Props.C41_request_pack",
    "Pyof.Props.C41_request_round_trip",
    "Pyof.Props.C41_request_unchanged",
    "Pyof.Props.C41_reply_pack",
    "Pyof.Props.C41_reply_round_trip",
    "Pyof.Props.C41_reply_unchanged",
    "Pyof.Props.C41_failed_pack_counterexample"
   ],
   "note": ""
  },
  {
   "property": "C42",
   "status": "proved",
   "theorems": [
    "Pyof.Props.C42_request_pack",
    "Pyof.Props.C42_request_round_trip",
    "Pyof.Props.C42_request_unchanged",
    "Pyof.Props.C42_reply_pack",
    "Pyof.Props.C42_reply_round_trip",
    "Pyof.Props.C42_reply_unchanged",
    "Pyof.Props.C42_failed_pack_counterexample",
    "Pyof.Props.C42_bytes_body_fails",
    "Pyof.Props.C42_scalar_body_fails",
    "Pyof.Props.C42_list_body_counterexample",
    "Pyof.Props.C42_list_type_fails"
   ],
   "note": ""
  },
  {
   "property": "C43",
   "status": "proved",
   "theorems": [
    "Pyof.Props.C43_eq",
    "Pyof.Props.C43_ne",
    "Pyof.Props.C43_order",
    "Pyof.Props.C43_arith",
    "Pyof.Props.C43_sub_swapped",
    "Pyof.Props.C43_shift",
    "Pyof.Props.C43_counterexamples"
   ],
   "note": "C43_counterexamples records the operators that disagree with the integers."
  },
  {
   "property": "C44",
   "status": "proved",
   "theorems": [
    "Pyof.Props.C44_fields",
    "Pyof.Props.C44_no_parent",
    "Pyof.Props.C44_keys",
    "Pyof.Props.C44_version",
    "Pyof.Props.C44_replace",
    "Pyof.Props.C44_retarget",
    "Pyof.Props.C44_header",
    "Pyof.Props.C44_counterexamples"
   ],
   "note": "Field order, retargeting, version strings and header types proved for every class dictionary; C44_counterexamples: a message type of value 0 (HELLO) is not carried over, and a version string that occurs twice in a module name is replaced twice."
  },
  {
   "property": "C45",
   "status": "proved",
   "theorems": [
    "Pyof.Props.C45_messages",
    "Pyof.Props.C45_equality",
    "Pyof.Props.C45_again",
    "Pyof.Props.C45_other_types",
    "Pyof.Props.C45_eq_iff_same_content",
    "Pyof.Props.C45_unambiguous",
    "Pyof.Props.C45_structures"
   ],
   "note": ""
  },
  {
   "property": "C46",
   "status": "partial",
   "theorems": [
    "Pyof.Props.C46_stable_partial",
    "Pyof.Props.C46_violated_header_only",
    "Pyof.Props.C46_violated_in_port",
    "Pyof.Props.C46_violated_hello_length",
    "Pyof.Props.C46_violated_experimenter",
    "Pyof.Props.C46_violated_meter_bands",
    "Pyof.Props.C46_violated_bucket_length",
    "Pyof.Props.C46_violated_empty_desc",
    "Pyof.Props.C46_violated_empty_request"
   ],
   "note": "Any bytes the library accepts: the decoded message has a content unless one of its attributes is unset or its class cannot encode it (Spec.complete), and whenever it has a content that pack accepts, packing succeeds, decodes to the same content and packs to the same bytes again. Partial because the code violates the property in the excluded cases, witnessed by C46_violated_*."
  },
  {
   "property": "C47",
   "status": "proved",
   "theorems": [
    "Pyof.Props.C47_before",
    "Pyof.Props.C47_before_all",
    "Pyof.Props.C47_before_counterexample",
    "Pyof.Props.C47_after",
    "Pyof.Props.C47_after_counterexample",
    "Pyof.Props.C47_window",
    "Pyof.Props.C47_basic_types",
    "Pyof.Props.C47_struct"
   ],
   "note": "All structure and list classes; the two exceptions (length 0 at offset 0, GroupDescStats) are proved as counterexamples and stated in the property."
  },
  {
   "property": "C48",
   "status": "proved",
   "theorems": [
    "Pyof.Props.C48_xid",
    "Pyof.Props.C48_refused"
   ],
   "note": ""
  },
  {
   "property": "C49",
   "status": "proved",
   "theorems": [
    "Pyof.Props.C49_never_false",
    "Pyof.Props.C49_counterexample"
   ],
   "note": "C49_counterexample: packing errors escape as exceptions instead of False."
  },
  {
   "property": "C50",
   "status": "proved",
   "theorems": [
    "Pyof.Props.C50_classes",
    "Pyof.Props.C50_construct",
    "Pyof.Props.C50_content",
    "Pyof.Props.C50_disjoint",
    "Pyof.Props.C50_apart",
    "Pyof.Props.C50_operation",
    "Pyof.Props.C50_without",
    "Pyof.Props.C50_counterexample"
   ],
   "note": "Heap model with object identities; the sharing through the parameter default of AggregateStatsRequest is proved as C50_counterexample."
  },
  {
   "property": "C51",
   "status": "proved",
   "theorems": [
    "Pyof.Props.C51_v01_flow_stats",
    "Pyof.Props.C51_flow_stats",
    "Pyof.Props.C51_meter_stats",
    "Pyof.Props.C51_table_features",
    "Pyof.Props.C51_property",
    "Pyof.Props.C51_bucket",
    "Pyof.Props.C51_hello_element",
    "Pyof.Props.C51_instruction",
    "Pyof.Props.C51_action",
    "Pyof.Props.C51_sequence",
    "Pyof.Props.C51_overlong_counterexample"
   ],
   "note": ""
  },
  {
   "property": "C52",
   "status": "partial",
   "theorems": [
    "Pyof.Props.C52_v01_queues",
    "Pyof.Props.C52_v04_queues",
    "Pyof.Props.C52_groups_meters",
    "Pyof.Props.C52_group_descriptions",
    "Pyof.Props.C52_counterexamples",
    "Pyof.Props.C52_last_entry_partial"
   ],
   "note": "The library violates the property: at most one entry is ever decoded (proved for every packet), witnesses in C52_counterexamples. The last entry is decoded correctly. C52_group_descriptions: group descriptions with a bucket are never decoded."
  },
  {
   "property": "C53",
   "status": "proved",
   "theorems": [
    "Pyof.Props.C53_content_kept"
   ],
   "note": ""
  },
  {
   "property": "C54",
   "status": "proved",
   "theorems": [
    "Pyof.Props.C54_round_trip"
   ],
   "note": "Seventy classes in one table; the contents are read and written by independent formats (Spec/)."
  },
  {
   "property": "C55",
   "status": "partial",
   "theorems": [
    "Pyof.Props.C55_v01_pack",
    "Pyof.Props.C55_v04_pack",
    "Pyof.Props.C55_v01_decode",
    "Pyof.Props.C55_v04_decode",
    "Pyof.Props.C55_v01_headers_partial",
    "Pyof.Props.C55_v04_headers_partial",
    "Pyof.Props.C55_misread"
   ],
   "note": "The library violates the property: the classes are not subclasses of QueuePropHeader, so such a queue cannot be packed (C55_v01_pack, C55_v04_pack) and a reply with a rate is rejected (C55_v01_decode, C55_v04_decode) or misread (C55_misread). Proved: properties without a body."
  },
  {
   "property": "C56",
   "status": "partial",
   "theorems": [
    "Pyof.Props.C56_pack",
    "Pyof.Props.C56_rejected",
    "Pyof.Props.C56_type_zero_partial",
    "Pyof.Props.C56_own_unpack"
   ],
   "note": "The library violates the property: packing is right (C56_pack), but unpack rejects every type except 0 (C56_rejected), and its own unpack is not implemented. Proved: type 0 decodes as ErrorMsg."
  },
  {
   "property": "C57",
   "status": "partial",
   "theorems": [
    "Pyof.Props.C57_members",
    "Pyof.Props.C57_kept",
    "Pyof.Props.C57_unknown",
    "Pyof.Props.C57_names_empty",
    "Pyof.Props.C57_names_partial",
    "Pyof.Props.C57_names_no_value"
   ],
   "note": "The library violates the property: names is empty for every mask (C57_names_empty) and unknown names are KeyError (C57_unknown). Proved: Class.NAME, and names without the instance's own _enum."
  },
  {
   "property": "C58",
   "status": "partial",
   "theorems": [
    "Pyof.Props.C58_from_header",
    "Pyof.Props.C58_from_type",
    "Pyof.Props.C58_unknown_number",
    "Pyof.Props.C58_unknown_name",
    "Pyof.Props.C58_wrapped_number",
    "Pyof.Props.C58_unpack"
   ],
   "note": "The library violates the property in two cases: an unknown name is a KeyError (C58_unknown_name) and a number inside a UBInt8 is refused (C58_wrapped_number). Everything else is proved for both versions."
  },
  {
   "property": "C59",
   "status": "partial",
   "theorems": [
    "Pyof.Props.C59_decoded",
    "Pyof.Props.C59_type_error",
    "Pyof.Props.C59_packed"
   ],
   "note": "The library violates the property for fields with bit masks or plain Enum flags (C59_type_error: TypeError for every value). Proved for all other fields."
  },
  {
   "property": "C60",
   "status": "proved",
   "theorems": [
    "Pyof.Props.C60_message",
    "Pyof.Props.C60_xid",
    "Pyof.Props.C60_structure",
    "Pyof.Props.C60_accepted",
    "Pyof.Props.C60_sent",
    "Pyof.Props.C60_nested",
    "Pyof.Props.C60_variants",
    "Pyof.Props.C60_classes",
    "Pyof.Props.C60_packed",
    "Pyof.Props.C60_order",
    "Pyof.Props.C60_rest",
    "Pyof.Props.C60_omitted",
    "Pyof.Props.C60_emptied",
    "Pyof.Props.C60_emptied_all",
    "Pyof.Props.C60_omitted_all",
    "Pyof.Props.C60_variants_rest",
    "Pyof.Props.C60_bare"
   ],
   "note": "Constructors are tables generated from the source text (Model/Ctor); C60_nested checks them against the class attributes used when decoding. v0x01 Match(**kwargs) is covered by C24/C25."
  },
  {
   "property": "C61",
   "status": "partial",
   "theorems": [
    "Pyof.Props.C61_actions_partial",
    "Pyof.Props.C61_bands",
    "Pyof.Props.C61_instructions",
    "Pyof.Props.C61_properties",
    "Pyof.Props.C61_set_field",
    "Pyof.Props.C61_pop_mpls",
    "Pyof.Props.C61_goto_table",
    "Pyof.Props.C61_experimenter"
   ],
   "note": "Violated by ActionPopMPLS (no length: C61_pop_mpls) and by the default table of InstructionGotoTable (C61_goto_table). For the rest the announced length is proved; that packing succeeds when the arguments fit is C29-C31. ActionExperimenter and ActionVendorHeader announce whatever length the user gives (C61_experimenter)."
  },
  {
   "property": "C62",
   "status": "proved",
   "theorems": [
    "Pyof.Props.C62_deepcopy",
    "Pyof.Props.C62_total",
    "Pyof.Props.C62_independent",
    "Pyof.Props.C62_counterexample"
   ],
   "note": "Heap model with the memo of copy.deepcopy; hypothesis Plain (basic objects hold immutable values), without which C62_counterexample."
  },
  {
   "property": "C63",
   "status": "proved",
   "theorems": [
    "Pyof.Props.C63_pieces",
    "Pyof.Props.C63_stream",
    "Pyof.Props.C63_decoded"
   ],
   "note": "C63_pieces: any way of cutting the stream into pieces gives the same packets. C63_stream: exactly the packed messages are found, an incomplete last one is kept. C63_decoded: each decodes to the same class, xid and content."
  },
  {
   "property": "C64",
   "status": "proved",
   "theorems": [
    "Pyof.Props.C64_own",
    "Pyof.Props.C64_decoded",
    "Pyof.Props.C64_property"
   ],
   "note": "C64_own: the content of what a constructor makes is a content of the family under the name of its class. C64_decoded: it is decoded as an object of its class with the same content. C64_property: the same for table properties if no type is passed. ActionPopMPLS cannot be packed (C61), the length of experimenter actions and the type of ActionPush and of four 1.0 actions is the caller's."
  },
  {
   "property": "C65",
   "status": "proved",
   "theorems": [
    "Pyof.Props.C65_attributes",
    "Pyof.Props.C65_defaults",
    "Pyof.Props.C65_fixed",
    "Pyof.Props.C65_arp",
    "Pyof.Props.C65_probe",
    "Pyof.Props.C65_carried",
    "Pyof.Props.C65_discovery",
    "Pyof.Props.C65_hash",
    "Pyof.Props.C65_hash_received"
   ],
   "note": "Constructors of network packets as tables (Model/NetNew); two user programs (buildProbe, readProbe) composed with PacketIn/PacketOut of both versions; get_hash for an arbitrary hash function."
  },
  {
   "property": "C66",
   "status": "proved",
   "theorems": [
    "Pyof.Props.C66_messages",
    "Pyof.Props.C66_packetOut",
    "Pyof.Props.C66_structures",
    "Pyof.Props.C66_no_structure",
    "Pyof.Props.C66_no_structure_size",
    "Pyof.Props.C66_oxm_size",
    "Pyof.Props.C66_other_class",
    "Pyof.Props.C66_other_structure",
    "Pyof.Props.C66_match_counterexample",
    "Pyof.Props.C66_error_data_counterexample",
    "Pyof.Props.C66_oxm_counterexample"
   ],
   "note": "All messages, 70 structure and list classes; pack equals a specified outcome for values of the documented kinds of any size. The ValueError of a v0x04 FlowMod with a wrong match is proved as C66_match_counterexample."
  },
  {
   "property": "C67",
   "status": "partial",
   "theorems": [
    "Pyof.Props.C67_messages",
    "Pyof.Props.C67_no_trace",
    "Pyof.Props.C67_failed_counterexample",
    "Pyof.Props.C67_offset_counterexample",
    "Pyof.Props.C67_structs",
    "Pyof.Props.C67_cut",
    "Pyof.Props.C67_own_class_partial",
    "Pyof.Props.C67_base_object_partial",
    "Pyof.Props.C67_other_class_counterexample",
    "Pyof.Props.C67_unknown_type_counterexample",
    "Pyof.Props.C67_failed_class",
    "Pyof.Props.C67_lists",
    "Pyof.Props.C67_address",
    "Pyof.Props.C67_oxm",
    "Pyof.Props.C67_match",
    "Pyof.Props.C67_frames",
    "Pyof.Props.C67_tlvs",
    "Pyof.Props.C67_ipv4",
    "Pyof.Props.C67_ipv6"
   ],
   "note": "Messages, structures, OXM TLVs, matches and network packets: proved for all histories. Objects that change their class: only if constructed as the class found, or of the base class and decoded for the first time; counterexamples for other orders, unknown types and failed decodings."
  },
  {
   "property": "C68",
   "status": "partial",
   "theorems": [
    "Pyof.Props.C68_classes",
    "Pyof.Props.C68_alone",
    "Pyof.Props.C68_replacing_alone",
    "Pyof.Props.C68_error_alone",
    "Pyof.Props.C68_interrupted_partial",
    "Pyof.Props.C68_threads_partial",
    "Pyof.Props.C68_ends",
    "Pyof.Props.C68_padding_counterexample",
    "Pyof.Props.C68_multipart_counterexample",
    "Pyof.Props.C68_error_counterexample",
    "Pyof.Props.C68_body_lost_counterexample",
    "Pyof.Props.C68_interrupted_counterexample"
   ],
   "note": "partial because the code violates it: counterexamples for padded ActionSetField with several threads and for the five classes that replace their body; everything else proved for any number of threads and all interleavings"
  },
  {
   "property": "C69",
   "status": "partial",
   "theorems": [
    "Pyof.Props.C69_packed_partial",
    "Pyof.Props.C69_refused_partial",
    "Pyof.Props.C69_packet_out",
    "Pyof.Props.C69_others",
    "Pyof.Props.C69_counterexample"
   ],
   "note": "Only one direction holds in the code: a packed message is valid (C69_packed_partial, C69_refused_partial); is_valid() is True for messages that pack() refuses (C69_counterexample)."
  },
  {
   "property": "C70",
   "status": "partial",
   "theorems": [
    "Pyof.Props.C70_messages_partial",
    "Pyof.Props.C70_swallowed_counterexample",
    "Pyof.Props.C70_body"
   ],
   "note": "Fails in the code for StatsRequest, StatsReply, MultipartRequest and MultipartReply (C70_swallowed_counterexample); proved for all other classes."
  },
  {
   "property": "C71",
   "status": "partial",
   "theorems": [
    "Pyof.Props.C71_threads_partial",
    "Pyof.Props.C71_one_by_one",
    "Pyof.Props.C71_ends",
    "Pyof.Props.C71_padding_counterexample"
   ],
   "note": "Threads: no ActionSetField that needs padding may be in the messages of two threads (counterexample C71_padding_counterexample). One thread (C71_one_by_one): no restriction on padding or on how objects are shared. Messages that replace their body while packing are not covered. Places are those of attributes, list items, TLVs of matches and set-field actions, attributes of instructions and buckets."
  },
  {
   "property": "C72",
   "status": "proved",
   "theorems": [
    "Pyof.Props.C72_linear",
    "Pyof.Props.C72_structures",
    "Pyof.Props.C72_structures_counterexample"
   ],
   "note": "C72_linear: every packet. C72_structures: every structure and list class but GroupDescStats, whose size leaves its buckets out (C72_structures_counterexample)."
  },
  {
   "property": "C73",
   "status": "partial",
   "theorems": [
    "Pyof.Props.C73_history_partial",
    "Pyof.Props.C73_threads_partial",
    "Pyof.Props.C73_returning",
    "Pyof.Props.C73_replaced_counterexample"
   ],
   "note": "Fails for the messages that replace their body once a pack() has raised (counterexample). Proved for all 47 classes that keep their attributes, with interruptions and threads (C73_history_partial, C73_threads_partial), and for every message class while each pack() returns (C73_returning)."
  },
  {
   "property": "C74",
   "status": "partial",
   "theorems": [
    "Pyof.Props.C74_ipv4_partial",
    "Pyof.Props.C74_ipv4_unchanged_partial",
    "Pyof.Props.C74_ipv4_routed",
    "Pyof.Props.C74_ipv6_partial",
    "Pyof.Props.C74_arp",
    "Pyof.Props.C74_controller",
    "Pyof.Props.C74_padding_counterexample"
   ],
   "note": "Fails for IPv4 with options (C37_reencode) and for packets followed by Ethernet padding (counterexample). Proved for IPv4 without options, IPv6 and ARP replies, in frames with any tags, and through PacketIn/PacketOut of either version."
  },
  {
   "property": "C75",
   "status": "partial",
   "theorems": [
    "Pyof.Props.C75_threads_partial",
    "Pyof.Props.C75_history_partial",
    "Pyof.Props.C75_history_threads_partial",
    "Pyof.Props.C75_tag_counterexample",
    "Pyof.Props.C75_options_counterexample",
    "Pyof.Props.C75_options_twice_counterexample"
   ],
   "note": "Fails for IPv4 with options and for VLAN tags with only some of pcp, cfi, vid (counterexamples). Threads: proved for all eight classes given no IPv4 options; histories: also given whole tags."
  },
  {
   "property": "C76",
   "status": "partial",
   "theorems": [
    "Pyof.Props.C76_messages_partial",
    "Pyof.Props.C76_structures_partial"
   ],
   "note": "Partial because the code does not allow more: several packing threads only while no ActionSetField needs padding (C68_padding_counterexample), and not for the five messages that replace their body while packing. get_size() threads beside one packing thread are right with padding too."
  },
  {
   "property": "C77",
   "status": "partial",
   "theorems": [
    "Pyof.Props.C77_addresses",
    "Pyof.Props.C77_written_counterexample",
    "Pyof.Props.C77_numbers",
    "Pyof.Props.C77_given_numbers",
    "Pyof.Props.C77_enumerated",
    "Pyof.Props.C77_data",
    "Pyof.Props.C77_header_partial",
    "Pyof.Props.C77_new_header_partial",
    "Pyof.Props.C77_header_counterexample"
   ],
   "note": "Partial because the code violates it: str() of a 1.0 Header decoded on its own raises (C77_header_counterexample), and texts written by the user need not be canonical (C77_written_counterexample). Everything decoded inside messages is covered."
  },
  {
   "property": "C78",
   "status": "partial",
   "theorems": [
    "Pyof.Props.C78_packet_partial",
    "Pyof.Props.C78_length_partial",
    "Pyof.Props.C78_one_attribute",
    "Pyof.Props.C78_returns",
    "Pyof.Props.C78_size",
    "Pyof.Props.C78_two_attributes_counterexample",
    "Pyof.Props.C78_size_counterexample",
    "Pyof.Props.C78_validated_counterexample",
    "Pyof.Props.C78_checksum_counterexample"
   ],
   "note": "Partial because the code violates more (C78_two_attributes_counterexample, C78_size_counterexample, C78_validated_counterexample, C78_checksum_counterexample), and attributes inside the structures that pack() itself changes are not assigned by others."
  },
  {
   "property": "C79",
   "status": "partial",
   "theorems": [
    "Pyof.Props.C79_result",
    "Pyof.Props.C79_own_object",
    "Pyof.Props.C79_shared_partial",
    "Pyof.Props.C79_others",
    "Pyof.Props.C79_returns",
    "Pyof.Props.C79_messages",
    "Pyof.Props.C79_ip_packets",
    "Pyof.Props.C79_frames",
    "Pyof.Props.C79_structures",
    "Pyof.Props.C79_mixed_counterexample",
    "Pyof.Props.C79_error_counterexample"
   ],
   "note": "Partial because the code violates more: calls on the same object may leave a mixture (C79_mixed_counterexample) or refuse a valid packet (C79_error_counterexample). Everything about objects of their own is proved, for all message classes, structures that inherit unpack or are cut at their own length, OXM TLVs, matches and network packets. Not covered: objects that change their class, decoded on their own."
  },
  {
   "property": "C80",
   "status": "partial",
   "theorems": [
    "Pyof.Props.C80_complete_partial",
    "Pyof.Props.C80_passing_partial",
    "Pyof.Props.C80_moments_partial",
    "Pyof.Props.C80_default_counterexample",
    "Pyof.Props.C80_torn_counterexample",
    "Pyof.Props.C80_pack_partial",
    "Pyof.Props.C80_size_partial",
    "Pyof.Props.C80_pack_message_partial",
    "Pyof.Props.C80_pack_arp_partial",
    "Pyof.Props.C80_pack_complete_partial",
    "Pyof.Props.C80_pack_passing_partial",
    "Pyof.Props.C80_message_passing_partial",
    "Pyof.Props.C80_pack_counterexample",
    "Pyof.Props.C80_pack_torn_counterexample",
    "Pyof.Props.C80_length_counterexample",
    "Pyof.Props.C80_pack_undisturbed",
    "Pyof.Props.C80_size_undisturbed",
    "Pyof.Props.C80_message_undisturbed",
    "Pyof.Props.C80_arp_undisturbed",
    "Pyof.Props.C80_arp_counterexample"
   ],
   "note": "proved for the classes that store an attribute when it is complete (PacketOut, Ethernet, LLDP TLVs); for all classes that only store, with several decoding and assigning threads: what is read is old, of one of the calls, or in passing a copy of the class attribute being decoded; for all classes with one decoding thread: the reads are those of somebody who looks at each attribute in one go, in order, while the call goes on alone; the same for pack() and get_size() by other threads; missing, because the code violates it: no attribute in passing, and several attributes read as one (counterexamples proved, also for pack)"
  }
 ]
}