{
 "claims": [
  {
   "property": "C01",
   "status": "proved",
   "theorems": [
    "Uecho.C01_from_int"
   ],
   "note": "all ints and sizes, negative sizes raise ValueError"
  },
  {
   "property": "C02",
   "status": "proved",
   "theorems": [
    "Uecho.C02_to_int"
   ],
   "note": "all byte strings"
  },
  {
   "property": "C03",
   "status": "proved",
   "theorems": [
    "Uecho.C03_round_trip",
    "Uecho.C03_round_trip_identity"
   ],
   "note": "all messages whose to_bytes succeeds; identity form for messages that fit"
  },
  {
   "property": "C04",
   "status": "proved",
   "theorems": [
    "Uecho.C04_to_bytes_total"
   ],
   "note": "success exactly on encodable messages, ValueError otherwise"
  },
  {
   "property": "C05",
   "status": "proved",
   "theorems": [
    "Uecho.C05_parser_sound",
    "Uecho.C05_parser_complete"
   ],
   "note": "soundness and completeness of the parser against the canonical encoding"
  },
  {
   "property": "C06",
   "status": "partial",
   "theorems": [
    "Uecho.C06_only_parser_error_false",
    "Uecho.C06_outcomes_partial"
   ],
   "note": "false of the code (IndexError escapes): negation proved; exact characterisation of the three outcomes for every byte string"
  },
  {
   "property": "C07",
   "status": "proved",
   "theorems": [
    "Uecho.C07_no_prefix"
   ],
   "note": "every encodable message and cut point"
  },
  {
   "property": "C08",
   "status": "partial",
   "theorems": [
    "Uecho.C08_depends_on_bytes_false",
    "Uecho.C08_depends_on_bytes_partial"
   ],
   "note": "false for a reused Message object: negation proved; header, ESV and selected sections depend on the bytes only"
  },
  {
   "property": "C09",
   "status": "proved",
   "theorems": [
    "Uecho.C09_hex"
   ],
   "note": "all strings and messages"
  },
  {
   "property": "C10",
   "status": "proved",
   "theorems": [
    "Uecho.C10_eq",
    "Uecho.C10_equivalence",
    "Uecho.C10_copy"
   ],
   "note": "equality is wire equality, equivalence relation; copy"
  },
  {
   "property": "C11",
   "status": "proved",
   "theorems": [
    "Uecho.C11_builder"
   ],
   "note": "all call sequences"
  },
  {
   "property": "C12",
   "status": "proved",
   "theorems": [
    "Uecho.C12_classification",
    "Uecho.C12_relations",
    "Uecho.C12_named",
    "Uecho.C12_fresh"
   ],
   "note": "all integers"
  },
  {
   "property": "C13",
   "status": "proved",
   "theorems": [
    "Uecho.C13_addressing"
   ],
   "note": "every object, handler (also user supplied), observers and request"
  },
  {
   "property": "C14",
   "status": "proved",
   "theorems": [
    "Uecho.C14_mirror"
   ],
   "note": "every object, handler and request"
  },
  {
   "property": "C15",
   "status": "proved",
   "theorems": [
    "Uecho.C15_read_policy",
    "Uecho.C15_read"
   ],
   "note": "default handler and any handler following a policy"
  },
  {
   "property": "C16",
   "status": "proved",
   "theorems": [
    "Uecho.C16_write"
   ],
   "note": "every request; last item naming a property wins"
  },
  {
   "property": "C17",
   "status": "partial",
   "theorems": [
    "Uecho.C17_write_esv_false",
    "Uecho.C17_write_esv_partial"
   ],
   "note": "false of the code (a rejected 0x61 is answered 0x50): negation proved; all other answers characterised for any handler following a policy"
  },
  {
   "property": "C18",
   "status": "proved",
   "theorems": [
    "Uecho.C18_write_read"
   ],
   "note": "all write-read requests whose Get codes are known"
  },
  {
   "property": "C19",
   "status": "partial",
   "theorems": [
    "Uecho.C19_never_raises_false",
    "Uecho.C19_never_raises_partial"
   ],
   "note": "false of the code: negation proved; the only raising case characterised exactly"
  },
  {
   "property": "C20",
   "status": "partial",
   "theorems": [
    "Uecho.C20_notification_request_false",
    "Uecho.C20_notification_request_partial"
   ],
   "note": "false of the code: negation proved; the actual answer characterised for every object"
  },
  {
   "property": "C21",
   "status": "partial",
   "theorems": [
    "Uecho.C21_acknowledge_false",
    "Uecho.C21_acknowledge_partial"
   ],
   "note": "false of the code: negation proved; the actual answer characterised for every object"
  },
  {
   "property": "C22",
   "status": "proved",
   "theorems": [
    "Uecho.C22_only_requests"
   ],
   "note": "every object and observers, raising ones included"
  },
  {
   "property": "C23",
   "status": "proved",
   "theorems": [
    "Uecho.C23_write_protection"
   ],
   "note": "induction over arbitrary histories"
  },
  {
   "property": "C24",
   "status": "proved",
   "theorems": [
    "Uecho.C24_refines_map"
   ],
   "note": "refinement of a map by induction over arbitrary histories"
  },
  {
   "property": "C25",
   "status": "proved",
   "theorems": [
    "Uecho.C25_predicates",
    "Uecho.C25_set_get",
    "Uecho.C25_named"
   ],
   "note": "all attribute values and indices"
  },
  {
   "property": "C31",
   "status": "proved",
   "theorems": [
    "Uecho.C31_refines",
    "Uecho.C31_readers"
   ],
   "note": "refinement of a map with insertion order, all call sequences"
  },
  {
   "property": "C32",
   "status": "proved",
   "theorems": [
    "Uecho.C32_set_code",
    "Uecho.C32_components",
    "Uecho.C32_is_code",
    "Uecho.C32_refused"
   ],
   "note": "all ints and byte triples"
  },
  {
   "property": "C34",
   "status": "partial",
   "theorems": [
    "Uecho.C34_setters_false",
    "Uecho.C34_setters_partial",
    "Uecho.C34_setters_iff_partial"
   ],
   "note": "false of the code: negation proved; exact result of every setter and exactly when it assigns"
  },
  {
   "property": "C35",
   "status": "partial",
   "theorems": [
    "Uecho.C35_built_message",
    "Uecho.C35_datagram_false",
    "Uecho.C35_datagram_partial"
   ],
   "note": "false for write-read services: negation proved; characterised for all arguments"
  },
  {
   "property": "C58",
   "status": "proved",
   "theorems": [
    "Uecho.C58_notify",
    "Uecho.C58_add_observer"
   ],
   "note": "all registration sequences, raising observers included"
  },
  {
   "property": "C26",
   "status": "proved",
   "theorems": [
    "Uecho.C26_total"
   ],
   "note": "all byte strings"
  },
  {
   "property": "C27",
   "status": "proved",
   "theorems": [
    "Uecho.C27_short_maps"
   ],
   "note": "all objects with byte codes, every set iteration order"
  },
  {
   "property": "C28",
   "status": "partial",
   "theorems": [
    "Uecho.C28_long_maps_false",
    "Uecho.C28_long_maps_partial"
   ],
   "note": "false of the code: negation proved; exactly when a long map decodes correctly, and its exact contents otherwise"
  },
  {
   "property": "C29",
   "status": "partial",
   "theorems": [
    "Uecho.C29_peer_maps_false",
    "Uecho.C29_peer_maps_partial"
   ],
   "note": "false of the code: negation proved; exactly which conforming maps are read correctly, and the exact result otherwise"
  },
  {
   "property": "C30",
   "status": "proved",
   "theorems": [
    "Uecho.C30_maps_follow",
    "Uecho.C30_maps_survive_requests"
   ],
   "note": "all add_property sequences (codes 0x80-0xFF) and every set iteration order; maps survive every message history"
  },
  {
   "property": "C33",
   "status": "partial",
   "theorems": [
    "Uecho.C33_get_object_false",
    "Uecho.C33_device_of_object_false",
    "Uecho.C33_set_code_false",
    "Uecho.C33_set_code_object_false",
    "Uecho.C33_set_code_object_partial"
   ],
   "note": "set_code(obj) copies the code but returns False; Database.get_object(obj) is None for every object and Device(obj) has no properties (both shown). Missing: the documented True and the lookup."
  },
  {
   "property": "C36",
   "status": "proved",
   "theorems": [
    "Uecho.C36_get_object"
   ],
   "note": ""
  },
  {
   "property": "C37",
   "status": "proved",
   "theorems": [
    "Uecho.C37_manufacturers"
   ],
   "note": ""
  },
  {
   "property": "C38",
   "status": "proved",
   "theorems": [
    "Uecho.C38_tables"
   ],
   "note": "Tables are generated from the source text by tools/gen_std.py; the whole tables are checked by kernel evaluation and lifted to all codes."
  },
  {
   "property": "C39",
   "status": "proved",
   "theorems": [
    "Uecho.C39_device_properties"
   ],
   "note": ""
  },
  {
   "property": "C40",
   "status": "partial",
   "theorems": [
    "Uecho.C40_get_map_false",
    "Uecho.C40_get_map_partial"
   ],
   "note": "False for every object code (shown). What holds: 16 decoded entries, each 0 or readable, and short Set/announcement maps are right."
  },
  {
   "property": "C41",
   "status": "partial",
   "theorems": [
    "Uecho.C41_rules_partial",
    "Uecho.C41_conditional_rules_false"
   ],
   "note": "Conditional rules (required_c, required_o) become prohibited (shown). The rest holds for all strings."
  },
  {
   "property": "C51",
   "status": "proved",
   "theorems": [
    "Uecho.C51_kth_tid",
    "Uecho.C51_range",
    "Uecho.C51_distinct",
    "Uecho.C51_every_message",
    "Uecho.C51_kept"
   ],
   "note": "all sequences of manager calls, any behaviour of the network"
  },
  {
   "property": "C53",
   "status": "proved",
   "theorems": [
    "Uecho.C53_stop",
    "Uecho.C53_stop_outside",
    "Uecho.C53_start_true",
    "Uecho.C53_start_false",
    "Uecho.C53_start_false_servers",
    "Uecho.C53_start_works",
    "Uecho.C53_no_accumulation",
    "Uecho.C53_stopped",
    "Uecho.C53_history"
   ],
   "note": "all states, interface lists and failures; calls from outside the receiving threads (inside: C72)"
  },
  {
   "property": "C54",
   "status": "proved",
   "theorems": [
    "Uecho.C54_send",
    "Uecho.C54_send_unfit",
    "Uecho.C54_send_nowhere",
    "Uecho.C54_announce",
    "Uecho.C54_announce_unfit",
    "Uecho.C54_works"
   ],
   "note": "all server lists, messages, destinations and results of sendto"
  },
  {
   "property": "C55",
   "status": "partial",
   "theorems": [
    "Uecho.C55_receiver_survives_partial",
    "Uecho.C55_dead_partial",
    "Uecho.C55_in_order_partial",
    "Uecho.C55_receiver_survives_false",
    "Uecho.C55_long_message_false",
    "Uecho.C55_observer_false"
   ],
   "note": "False: a one-byte datagram, a message longer than 1024 bytes, or an exception in an observer ends the receiver. Exactly when it survives, and in-order delivery until then, are shown."
  },
  {
   "property": "C56",
   "status": "proved",
   "theorems": [
    "Uecho.C56_delivered",
    "Uecho.C56_every_observer",
    "Uecho.C56_long_not_delivered",
    "Uecho.C56_one_meaning"
   ],
   "note": "all encodable messages and any number of observers"
  },
  {
   "property": "C57",
   "status": "proved",
   "theorems": [
    "Uecho.C57_all_addresses",
    "Uecho.C57_reported"
   ],
   "note": "all interface configurations"
  },
  {
   "property": "C71",
   "status": "partial",
   "theorems": [
    "Uecho.C71_start_cleans_up_false",
    "Uecho.C71_start_cleans_up_partial"
   ],
   "note": "False: servers launched before the failure stay. They are a proper prefix of the intended ones; stop() removes them."
  },
  {
   "property": "C72",
   "status": "partial",
   "theorems": [
    "Uecho.C72_stop_in_callback_false",
    "Uecho.C72_stop_in_callback_partial"
   ],
   "note": "False for every server list and position. A second stop() from outside finishes the job."
  },
  {
   "property": "C73",
   "status": "partial",
   "theorems": [
    "Uecho.C73_announce_result_false",
    "Uecho.C73_announce_result_refused_false",
    "Uecho.C73_announce_result_partial"
   ],
   "note": "False with no server or when all refuse. With an open socket, True means all were tried."
  },
  {
   "property": "C74",
   "status": "partial",
   "theorems": [
    "Uecho.C74_other_interfaces_false",
    "Uecho.C74_other_interfaces_partial"
   ],
   "note": "False when sendto raises. Holds when it returns a number."
  },
  {
   "property": "C42",
   "status": "proved",
   "theorems": [
    "Uecho.C42_get_object",
    "Uecho.C42_int_tuple",
    "Uecho.C42_has_object",
    "Uecho.C42_objects",
    "Uecho.C42_address",
    "Uecho.C42_local"
   ],
   "note": "all add_object sequences on a node, and all histories of a local node"
  },
  {
   "property": "C43",
   "status": "partial",
   "theorems": [
    "Uecho.C43_instances_partial",
    "Uecho.C43_any_number_partial",
    "Uecho.C43_instances_false"
   ],
   "note": "False with 256 or more instances (shown; such nodes exist): the count byte wraps. With fewer it is proved for all histories of a local node, including received messages."
  },
  {
   "property": "C44",
   "status": "partial",
   "theorems": [
    "Uecho.C44_classes_partial",
    "Uecho.C44_class_list_false",
    "Uecho.C44_class_number_false"
   ],
   "note": "The counts are wrong (shown for every node with a profile); the listed classes are right for all histories."
  },
  {
   "property": "C45",
   "status": "proved",
   "theorems": [
    "Uecho.C45_discovery"
   ],
   "note": "all reachable nodes with up to 84 devices, all requesters; sending works"
  },
  {
   "property": "C46",
   "status": "partial",
   "theorems": [
    "Uecho.C46_answered_partial",
    "Uecho.C46_answered_false"
   ],
   "note": "False of every node with 85 or more devices (shown; such nodes exist). Up to 84 it is answered."
  },
  {
   "property": "C47",
   "status": "partial",
   "theorems": [
    "Uecho.C47_parse_partial",
    "Uecho.C47_parse_false"
   ],
   "note": "False for instance lists with empty data (IndexError). Exact result for every other message."
  },
  {
   "property": "C48",
   "status": "proved",
   "theorems": [
    "Uecho.C48_unknown",
    "Uecho.C48_dispatch",
    "Uecho.C48_sent"
   ],
   "note": "all reachable nodes and messages, any behaviour of the network"
  },
  {
   "property": "C49",
   "status": "partial",
   "theorems": [
    "Uecho.C49_no_effect",
    "Uecho.C49_no_effect_partial",
    "Uecho.C49_self_message_false"
   ],
   "note": "False in every reachable node: the option plays no role at all (shown)."
  },
  {
   "property": "C50",
   "status": "proved",
   "theorems": [
    "Uecho.C50_is_enabled",
    "Uecho.C50_last",
    "Uecho.C50_only"
   ],
   "note": "all call sequences, with any ints"
  },
  {
   "property": "C75",
   "status": "partial",
   "theorems": [
    "Uecho.C75_same_tid_partial",
    "Uecho.C75_same_tid_false"
   ],
   "note": "False for TID 0 (shown for every reachable node); proved for all other TIDs."
  },
  {
   "property": "C76",
   "status": "partial",
   "theorems": [
    "Uecho.C76_interfaces_false",
    "Uecho.C76_interfaces_partial"
   ],
   "note": "False (shown). What holds: all interfaces are used."
  },
  {
   "property": "C59",
   "status": "proved",
   "theorems": [
    "Uecho.C59_nodes",
    "Uecho.C59_get_node",
    "Uecho.C59_by_address",
    "Uecho.C59_by_name"
   ],
   "note": "all histories of a controller in which no listener raises (raising ones: C80) and request handlers leave object codes alone; name lookups: C78"
  },
  {
   "property": "C60",
   "status": "partial",
   "theorems": [
    "Uecho.C60_addition_partial",
    "Uecho.C60_updates_false",
    "Uecho.C60_twice_false"
   ],
   "note": "False: nobody is ever told of an updated node, and every list is told twice as an addition (both shown). That each list is told as an addition holds."
  },
  {
   "property": "C61",
   "status": "partial",
   "theorems": [
    "Uecho.C61_profile_partial",
    "Uecho.C61_device_false"
   ],
   "note": "False of every device (shown): values go to the copy of the node profile. Holds for reports of the profile itself."
  },
  {
   "property": "C62",
   "status": "partial",
   "theorems": [
    "Uecho.C62_raises_partial",
    "Uecho.C62_raises_false"
   ],
   "note": "False (shown). Exactly the cases in which it raises are given, for all messages."
  },
  {
   "property": "C63",
   "status": "partial",
   "theorems": [
    "Uecho.C63_answers_partial",
    "Uecho.C63_answers_false"
   ],
   "note": "False in every controller (shown): SEOJ is always 0x0EF001. The rest of the answer is right."
  },
  {
   "property": "C67",
   "status": "proved",
   "theorems": [
    "Uecho.C67_builders",
    "Uecho.C67_search"
   ],
   "note": "all DEOJ; search for every reachable controller on a machine that can send"
  },
  {
   "property": "C77",
   "status": "proved",
   "theorems": [
    "Uecho.C77_told"
   ],
   "note": "all reachable controllers; no listener raises"
  },
  {
   "property": "C78",
   "status": "partial",
   "theorems": [
    "Uecho.C78_get_node_partial",
    "Uecho.C78_get_node_false"
   ],
   "note": "False (shown). Holds where the name resolves, for pairs, and when nothing is known."
  },
  {
   "property": "C79",
   "status": "partial",
   "theorems": [
    "Uecho.C79_not_yet_false",
    "Uecho.C79_afterwards_partial"
   ],
   "note": "False of every controller (shown). Afterwards the node is known and linked."
  },
  {
   "property": "C80",
   "status": "partial",
   "theorems": [
    "Uecho.C80_before_partial",
    "Uecho.C80_raising_false"
   ],
   "note": "False of every controller with a raising first listener (shown). The listeners registered before have been told."
  },
  {
   "property": "C81",
   "status": "partial",
   "theorems": [
    "Uecho.C81_rediscovery_false",
    "Uecho.C81_kept_partial"
   ],
   "note": "False of every instance list (shown, with a history in which a known value is gone). Kept by all other messages."
  },
  {
   "property": "C82",
   "status": "partial",
   "theorems": [
    "Uecho.C82_lists_partial",
    "Uecho.C82_source_false"
   ],
   "note": "False (shown): SEOJ plays no role. Nothing but a complete list to the profile changes which objects are known."
  },
  {
   "property": "C83",
   "status": "proved",
   "theorems": [
    "Uecho.C83_registered",
    "Uecho.C83_remove",
    "Uecho.C83_silent"
   ],
   "note": "all states, messages and listeners, raising ones included"
  },
  {
   "property": "C84",
   "status": "proved",
   "theorems": [
    "Uecho.C84_isolated",
    "Uecho.C84_calls"
   ],
   "note": "all reachable controllers; no listener raises"
  },
  {
   "property": "C52",
   "status": "partial",
   "theorems": [
    "Uecho.Conc.C52_sequence_partial",
    "Uecho.Conc.C52_exclusive_partial",
    "Uecho.Conc.C52_same_false",
    "Uecho.Conc.C52_overflow_false"
   ],
   "note": "False (shown), also of the range of TIDs. Holds when no two threads are within the counter update at the same time."
  },
  {
   "property": "C64",
   "status": "partial",
   "theorems": [
    "Uecho.Conc.C64_own_partial",
    "Uecho.Conc.C64_two_posters_false",
    "Uecho.Conc.C64_late_false",
    "Uecho.Conc.C64_zero_false"
   ],
   "note": "False (shown in three ways). Holds for a post that begins while no message is being handled and no other thread posts."
  },
  {
   "property": "C65",
   "status": "proved",
   "theorems": [
    "Uecho.Conc.C65_returns"
   ],
   "note": "all schedules of a post that begins while no message is being handled and no other thread posts"
  },
  {
   "property": "C66",
   "status": "partial",
   "theorems": [
    "Uecho.Conc.C66_survive_partial",
    "Uecho.Conc.C66_crash_false"
   ],
   "note": "False (shown). Holds for a post that begins while no message is being handled and no other thread posts."
  },
  {
   "property": "C85",
   "status": "partial",
   "theorems": [
    "Uecho.Conc.C85_first_partial",
    "Uecho.Conc.C85_overwritten_false"
   ],
   "note": "False with two receiving threads (shown). Holds with one."
  },
  {
   "property": "C86",
   "status": "partial",
   "theorems": [
    "Uecho.Conc.C86_lost_false",
    "Uecho.Conc.C86_woken_partial",
    "Uecho.Conc.C86_notified_partial"
   ],
   "note": "False (shown). Holds if the response is stored while the posting thread waits."
  },
  {
   "property": "C68",
   "status": "proved",
   "theorems": [
    "Uecho.C68_read",
    "Uecho.C68_write",
    "Uecho.C68_write_then_read"
   ],
   "note": "all reachable controllers that have found the node, all reachable devices, default handler; a network that delivers"
  },
  {
   "property": "C69",
   "status": "partial",
   "theorems": [
    "Uecho.C69_one_byte_false",
    "Uecho.C69_write_read_false",
    "Uecho.C69_exactly_partial",
    "Uecho.C69_goes_on_partial"
   ],
   "note": "False (shown): one byte, or a well-formed write-read request to the node profile of any node. Exactly which datagrams end a thread is shown; any number of others is survived."
  },
  {
   "property": "C87",
   "status": "partial",
   "theorems": [
    "Uecho.C87_write_partial",
    "Uecho.C87_read_false"
   ],
   "note": "False for reads (shown). Holds for writes."
  },
  {
   "property": "C70",
   "status": "partial",
   "theorems": [
    "Uecho.C70_answers",
    "Uecho.C70_uninterrupted",
    "Uecho.C70_protected",
    "Uecho.C70_ends_only",
    "Uecho.C70_reads_own_writes_partial",
    "Uecho.C70_reads_own_writes_false",
    "Uecho.C70_atomic_false"
   ],
   "note": "Write protection holds, and so does that every answer is the one given alone but for the data read, each of which was current at some moment after the request's own writes. Reading back own writes and atomicity are false (shown); own writes are read back if nobody else writes the property meanwhile."
  },
  {
   "property": "C88",
   "status": "proved",
   "theorems": [
    "Uecho.C88_search"
   ],
   "note": "all reachable controllers and nodes, default handlers; answers may be lost, repeated and reordered"
  },
  {
   "property": "C89",
   "status": "proved",
   "theorems": [
    "Uecho.C89_send",
    "Uecho.C89_send_property",
    "Uecho.C89_malformed",
    "Uecho.C89_post_read",
    "Uecho.C89_post_write"
   ],
   "note": "services with one property list (for 0x6E see C35); a network that delivers"
  },
  {
   "property": "C90",
   "status": "partial",
   "theorems": [
    "Uecho.C90_result_partial",
    "Uecho.C90_property_partial",
    "Uecho.C90_result_false"
   ],
   "note": "False (shown). Holds for objects of found nodes, data that fits, and a network that does not raise."
  },
  {
   "property": "C91",
   "status": "partial",
   "theorems": [
    "Uecho.C91_copy_partial",
    "Uecho.C91_found_false",
    "Uecho.C91_handler_false"
   ],
   "note": "False (shown). Code, properties, attributes and data are copied where nothing raises."
  },
  {
   "property": "C92",
   "status": "partial",
   "theorems": [
    "Uecho.C92_properties_partial",
    "Uecho.C92_reported_false"
   ],
   "note": "False (shown): the properties are those of the standard's tables, whatever is received."
  },
  {
   "property": "C93",
   "status": "partial",
   "theorems": [
    "Uecho.C93_called_partial",
    "Uecho.C93_lost_false",
    "Uecho.C93_forgotten_false"
   ],
   "note": "False (shown): observers added before a start are lost. Holds for those added after the last one."
  },
  {
   "property": "C94",
   "status": "partial",
   "theorems": [
    "Uecho.Conc.C94_own_thread_false",
    "Uecho.Conc.C94_other_thread_partial"
   ],
   "note": "False (shown) in the thread that receives. Holds if another thread receives the response."
  },
  {
   "property": "C95",
   "status": "partial",
   "theorems": [
    "Uecho.Iter.C95_alone_partial",
    "Uecho.Iter.C95_nodes_false",
    "Uecho.Iter.C95_get_node_false",
    "Uecho.Iter.C95_nodes_partial",
    "Uecho.Iter.C95_get_node_partial"
   ],
   "note": "False (shown): a node found meanwhile makes both raise. Holds if only known addresses are stored."
  },
  {
   "property": "C96",
   "status": "partial",
   "theorems": [
    "Uecho.Listen.C96_called_partial",
    "Uecho.Listen.C96_alone_partial",
    "Uecho.Listen.C96_skipped_false",
    "Uecho.Listen.C96_endless_false"
   ],
   "note": "False (shown): removing oneself skips the next; adding at each call never ends. Holds if no listener called before is removed."
  },
  {
   "property": "C97",
   "status": "partial",
   "theorems": [
    "Uecho.Shared.C97_copied_partial",
    "Uecho.Shared.C97_data_false",
    "Uecho.Shared.C97_raises_false"
   ],
   "note": "False (shown): data written to database objects is inherited, and adding one to a node makes construction raise. Writing to devices is harmless."
  },
  {
   "property": "C98",
   "status": "partial",
   "theorems": [
    "Uecho.C98_taken_partial",
    "Uecho.C98_first_partial",
    "Uecho.C98_anyone_false"
   ],
   "note": "False (shown): anyone's message with the TID is taken. It is always one received with the TID that is no request."
  },
  {
   "property": "C99",
   "status": "partial",
   "theorems": [
    "Uecho.C99_confirmed_false",
    "Uecho.C99_plain_partial"
   ],
   "note": "False (shown): 0x74 is treated as a request only. Holds for 0x73."
  },
  {
   "property": "C100",
   "status": "proved",
   "theorems": [
    "Uecho.C100_reports"
   ],
   "note": "The sample light of examples/device, with its own handler."
  },
  {
   "property": "C101",
   "status": "partial",
   "theorems": [
    "Uecho.C101_obeys_partial",
    "Uecho.C101_stuck_false"
   ],
   "note": "False (shown): stuck for ever after a write of several bytes. Holds for single bytes."
  },
  {
   "property": "C102",
   "status": "partial",
   "theorems": [
    "Uecho.C102_refuses_false",
    "Uecho.C102_set_partial",
    "Uecho.C102_others_partial"
   ],
   "note": "False (shown): the documented handler refuses every write. Holds if the status has been set (C102_set_partial); other properties refuse writes in every state (C102_others_partial)."
  },
  {
   "property": "C103",
   "status": "partial",
   "theorems": [
    "Uecho.C103_empty_false",
    "Uecho.C103_unknown_false",
    "Uecho.C103_survives_partial"
   ],
   "note": "False (shown): an empty write raises. Nor does it survive a write-read request naming a property it does not have (C103_unknown_false). Holds for other requests."
  },
  {
   "property": "C104",
   "status": "partial",
   "theorems": [
    "Uecho.C104_sends_partial",
    "Uecho.C104_checked",
    "Uecho.C104_object_false",
    "Uecho.C104_sections_false"
   ],
   "note": "False (shown): long objects are cut, properties of 6E, 7E, 5E are dropped. Holds otherwise; texts that are not hexadecimal are never sent."
  },
  {
   "property": "C105",
   "status": "partial",
   "theorems": [
    "Uecho.C105_numbers_partial",
    "Uecho.C105_odd_false"
   ],
   "note": "False (shown): numbers with an odd number of digits raise. Holds for an even number."
  },
  {
   "property": "C106",
   "status": "partial",
   "theorems": [
    "Uecho.C106_line_partial",
    "Uecho.C106_sections_false"
   ],
   "note": "False (shown) of responses with two lists. Holds for all others."
  },
  {
   "property": "C107",
   "status": "proved",
   "theorems": [
    "Uecho.C107_reads"
   ],
   "note": "ast.literal_eval is a parameter; the answer is taken to arrive."
  },
  {
   "property": "C108",
   "status": "proved",
   "theorems": [
    "Uecho.C108_lists",
    "Uecho.C108_search"
   ],
   "note": "Composed with C59 and C88."
  },
  {
   "property": "C109",
   "status": "proved",
   "theorems": [
    "Uecho.C109_session",
    "Uecho.C109_only",
    "Uecho.C109_last_write"
   ],
   "note": "Objects with the handler of the library; requests and responses fit datagrams; the codes a write-read request reads exist (C19)."
  },
  {
   "property": "C110",
   "status": "partial",
   "theorems": [
    "Uecho.C110_own_partial",
    "Uecho.C110_wrap_false"
   ],
   "note": "False (shown): TIDs repeat after 65535 messages. Holds for all responses that are not that late; messages are sent from one thread, see C64 for more."
  },
  {
   "property": "C111",
   "status": "partial",
   "theorems": [
    "Uecho.C111_again_false",
    "Uecho.C111_reset_partial"
   ],
   "note": "False (shown): the object keeps its TID. Holds if the TID is reset."
  },
  {
   "property": "C112",
   "status": "partial",
   "theorems": [
    "Uecho.C112_names_partial",
    "Uecho.C112_unknown_false",
    "Uecho.C112_user_false",
    "Uecho.C112_profile",
    "Uecho.C112_copy"
   ],
   "note": "False (shown) for classes outside the tables and for properties made by users. Holds for everything from the tables."
  },
  {
   "property": "C113",
   "status": "partial",
   "theorems": [
    "Uecho.C113_new_code_partial",
    "Uecho.C113_rest_false"
   ],
   "note": "False (shown): properties of the old class stay. The properties of the new class are as new; the three maps are set aside (C40)."
  },
  {
   "property": "C114",
   "status": "proved",
   "theorems": [
    "Uecho.C114_search",
    "Uecho.C114_bench"
   ],
   "note": "For machines that answer; the answers to the messages sent, not posted, arrive between the steps of the program, not during a wait (for that see C98, C110)."
  },
  {
   "property": "C115",
   "status": "partial",
   "theorems": [
    "Uecho.C115_object_partial",
    "Uecho.C115_late_partial",
    "Uecho.C115_late_false",
    "Uecho.C115_node_partial",
    "Uecho.C115_controller_partial",
    "Uecho.C115_told_partial"
   ],
   "note": "Violated when the duplicate comes late: a doubled write that arrives after a newer write of the same property brings the old value back, the TID is not looked at (C115_late_false). Proved: immediate duplicates at objects, nodes and controllers; late ones if nothing in between wrote what they write; listeners are told nothing if the message lists no instances and names no property twice. Responses of devices to a request with TID 0 get a fresh TID each time."
  },
  {
   "property": "C116",
   "status": "proved",
   "theorems": [
    "Uecho.C116_state",
    "Uecho.C116_order",
    "Uecho.C116_answer",
    "Uecho.C116_answered"
   ],
   "note": "The answer theorem is for requests with a TID other than 0: for TID 0 the node takes the next TID of its counter, which messages for other objects move on."
  },
  {
   "property": "C117",
   "status": "proved",
   "theorems": [
    "Uecho.C117_silent",
    "Uecho.C117_answers",
    "Uecho.C117_dies_out",
    "Uecho.C117_no_new_requests",
    "Uecho.C117_rest"
   ],
   "note": "Handlers and listeners of the user are taken to send nothing themselves. C117_dies_out bounds every execution; C117_no_new_requests and C117_rest say that requests never multiply."
  },
  {
   "property": "C118",
   "status": "proved",
   "theorems": [
    "Uecho.C118_shared",
    "Uecho.C118_only",
    "Uecho.C118_data",
    "Uecho.C118_last"
   ],
   "note": "Deliveries succeed and answers arrive while their request is waited for (lost and late answers: C98, C110); the requests fit the device (properties known and permitted), as FitsAll says."
  },
  {
   "property": "C119",
   "status": "partial",
   "theorems": [
    "Uecho.C119_maps_false",
    "Uecho.C119_status_partial",
    "Uecho.C119_rest_partial"
   ],
   "note": "False: the documented handler accepts reads of 0x80 only and the maps are refused (C119_maps_false). Proved: 0x80 is answered (C119_status_partial) and exactly the properties other than 0x80 are refused (C119_rest_partial)."
  },
  {
   "property": "C120",
   "status": "partial",
   "theorems": [
    "Uecho.C120_identity_partial",
    "Uecho.C120_manufacturer_false",
    "Uecho.C120_distinct_partial"
   ],
   "note": "False for the manufacturer code 0x8A, which is answered as readable with no data in every history (C120_manufacturer_false). Proved for status, version and identification number. The program that owns the node is taken not to change the profile object itself."
  },
  {
   "property": "C121",
   "status": "partial",
   "theorems": [
    "Uecho.C121_all_false",
    "Uecho.C121_each_partial"
   ],
   "note": "False: such a message finds no object and is dropped in every node that has no object with instance code 0 itself (C121_all_false). Proved: sent to one instance after the other it is performed by each and by nothing else."
  },
  {
   "property": "C122",
   "status": "partial",
   "theorems": [
    "Uecho.C122_never_false",
    "Uecho.C122_quiet_false",
    "Uecho.C122_program_partial",
    "Uecho.C122_heard_partial"
   ],
   "note": "False: a node whose program does not call announce_message sends no notification with a property in it, ever, and nothing at all without being asked (C122_never_false, C122_quiet_false). Proved: a program that announces the instance list itself is heard and found with exactly its objects."
  },
  {
   "property": "C123",
   "status": "partial",
   "theorems": [
    "Uecho.Closing.C123_send_partial",
    "Uecho.Closing.C123_undisturbed_partial",
    "Uecho.Closing.C123_after_partial",
    "Uecho.Closing.C123_stop_partial",
    "Uecho.Closing.C123_one_wins_partial",
    "Uecho.Closing.C123_finishes_partial",
    "Uecho.Closing.C123_uninterrupted_partial",
    "Uecho.Closing.C123_send_false",
    "Uecho.Closing.C123_stop_false"
   ],
   "note": "False: a send_message interrupted by stop can raise AttributeError or OSError, and so can a second stop (C123_send_false, C123_stop_false). Proved: what is sent is sent once and reported as it went, anything else only once a stop has closed the socket; nothing is sent after stop has returned True; a single stop returns True and does not deadlock."
  },
  {
   "property": "C124",
   "status": "partial",
   "theorems": [
    "Uecho.Adding.C124_lists_partial",
    "Uecho.Adding.C124_alone_partial",
    "Uecho.Adding.C124_table_partial",
    "Uecho.Adding.C124_lost_false",
    "Uecho.Adding.C124_raises_false",
    "Uecho.Adding.C124_torn_false"
   ],
   "note": "False: two concurrent add_object can both return True and leave one object out of the instance list for good (C124_lost_false), add_object can raise RuntimeError (C124_raises_false), and a reader can see number and list disagree (C124_torn_false). Proved: no object is lost from the table, every list is one of objects the node had at some moment, an uninterrupted add_object leaves everything right."
  },
  {
   "property": "C125",
   "status": "proved",
   "theorems": [
    "Uecho.C125_invariant",
    "Uecho.C125_shape",
    "Uecho.C125_profile",
    "Uecho.C125_rest"
   ],
   "note": "C125_invariant is for any invariant the owner's handlers respect; C125_shape and C125_profile for objects with the default handler; C125_rest for the remainder of the node."
  },
  {
   "property": "C126",
   "status": "proved",
   "theorems": [
    "Uecho.C126_kept",
    "Uecho.C126_as_new",
    "Uecho.C126_address",
    "Uecho.C126_address_kept",
    "Uecho.C126_again",
    "Uecho.C126_controller"
   ],
   "note": "\"As new\" is equality of the whole node but for the count of calls made to the operating system; the announcement of a started controller is part of C67."
  },
  {
   "property": "C127",
   "status": "partial",
   "theorems": [
    "Uecho.C127_itself_false",
    "Uecho.C127_unheard_partial"
   ],
   "note": "False: a controller gets its own search, answers it and lists itself (C127_itself_false). Proved: an address from which no list of instances was heard is never listed (C127_unheard_partial)."
  },
  {
   "property": "C128",
   "status": "partial",
   "theorems": [
    "Uecho.Finding.C128_table_partial",
    "Uecho.Finding.C128_stored_partial",
    "Uecho.Finding.C128_known_partial",
    "Uecho.Finding.C128_alone_partial",
    "Uecho.Finding.C128_raises_false"
   ],
   "note": "False: a thread that looks for its node while another thread stores a new one is ended by RuntimeError (C128_raises_false). Proved for every interleaving: the table is that of the last lists stored (C128_table_partial), every list is stored (C128_stored_partial), no thread is ended and every message is dealt with as long as the messages come from known addresses (C128_known_partial), and a thread left alone does what the model of one thread says (C128_alone_partial)."
  },
  {
   "property": "C129",
   "status": "partial",
   "theorems": [
    "Uecho.C129_empty_false",
    "Uecho.C129_map_false",
    "Uecho.C129_unchanged_partial",
    "Uecho.C129_node_partial",
    "Uecho.C129_refused_partial",
    "Uecho.C129_read_partial"
   ],
   "note": "False: setting the code after the data were filled in replaces the properties, so that status, version, identification and lists are empty (C129_empty_false), and its Set map names properties that are never accepted (C129_map_false). Proved: no message changes it (C129_unchanged_partial), nor do any datagrams to its node (C129_node_partial); writes are refused (C129_refused_partial) and reads answered (C129_read_partial)."
  },
  {
   "property": "C130",
   "status": "partial",
   "theorems": [
    "Uecho.C130_apart_partial",
    "Uecho.C130_shared_false",
    "Uecho.C130_owner_false"
   ],
   "note": "False: add_property stores the Property itself, so that what is written to one of two objects with the same Property is read from the other (C130_shared_false), and its object is the second (C130_owner_false). Proved for all programs that add no property twice: each object ends as if alone, with all answers (C130_apart_partial)."
  },
  {
   "property": "C131",
   "status": "proved",
   "theorems": [
    "Uecho.C131_mail",
    "Uecho.C131_fresh",
    "Uecho.C131_source",
    "Uecho.C131_answered",
    "Uecho.C131_again"
   ],
   "note": "An answer that comes 65535 orders late is taken for the one waited for (C110_wrap_false), which the hypotheses exclude; a datagram that arrives twice is obeyed twice (C131_again), which the property does not exclude. As in C118, orders are for objects the device has, with the handler of the library, and fit a datagram."
  },
  {
   "property": "C132",
   "status": "proved",
   "theorems": [
    "Uecho.C132_device",
    "Uecho.C132_network"
   ],
   "note": "Numbers are unsigned: what does not fit is stored modulo 256 to the power of the size, as C132_device says."
  },
  {
   "property": "C133",
   "status": "proved",
   "theorems": [
    "Uecho.C133_device",
    "Uecho.C133_controller",
    "Uecho.C133_never_forgets",
    "Uecho.C133_grows"
   ],
   "note": "The bounds follow from the one-byte length fields and from the node table being keyed by address. Not counted: what listeners and handlers of the program keep."
  },
  {
   "property": "C134",
   "status": "partial",
   "theorems": [
    "Uecho.C134_asked_partial",
    "Uecho.C134_transcript",
    "Uecho.C134_asked_all",
    "Uecho.C134_unknown_false",
    "Uecho.C134_not_asked"
   ],
   "note": "Handlers that keep notes, answer and do not raise; other effects of a handler on the object are covered by C125. Missing: write-and-read requests whose second part names a property the object does not have. There the handler is called with None (C134_unknown_false); C134_asked_all gives the complete account."
  },
  {
   "property": "C135",
   "status": "partial",
   "theorems": [
    "Uecho.Mapping.C135_maps_partial",
    "Uecho.Mapping.C135_alone",
    "Uecho.Mapping.C135_few",
    "Uecho.Mapping.C135_kept_partial",
    "Uecho.Mapping.C135_lost_false",
    "Uecho.Mapping.C135_raises_false"
   ],
   "note": "The last part is false: a thread that gathered the codes earlier writes them over those of a later one (C135_lost_false), and add_property may raise RuntimeError with the property added and not listed (C135_raises_false). Proved: what the maps list at every moment, that the property is there, that a call which is not interrupted leaves all maps right."
  },
  {
   "property": "C136",
   "status": "proved",
   "theorems": [
    "Uecho.C136_node",
    "Uecho.C136_controller"
   ],
   "note": "Holds of every history without assumptions on handlers, listeners, peers and network. A request with TID 0 gets an answer with another TID (the condition in AnswerTo.tid; see C13, C51)."
  },
  {
   "property": "C137",
   "status": "partial",
   "theorems": [
    "Uecho.C137_received_partial",
    "Uecho.C137_port_partial",
    "Uecho.C137_port_false",
    "Uecho.C137_long_false"
   ],
   "note": "False: an answer goes to the port the request came from instead of 3610 (C137_port_false), and a message of more than 1024 bytes is sent although it ends the receiving thread of the library (C137_long_false). Proved: all goes to port 3610 if the requests come from there and the program names no other port; what is at most 1024 bytes long is received as sent."
  },
  {
   "property": "C138",
   "status": "partial",
   "theorems": [
    "Uecho.C138_calls_partial",
    "Uecho.C138_unfit",
    "Uecho.C138_none",
    "Uecho.C138_sends",
    "Uecho.C138_others",
    "Uecho.C138_answered",
    "Uecho.C138_announce_false"
   ],
   "note": "False: the data of a write is stored after the handler has returned, so a handler that announces the property it is asked about announces the old value although it permits the write (C138_announce_false, for every object, property and value). Proved, for arbitrary calls: the request is performed and answered as without them (C138_calls_partial), what goes out and in which order (C138_sends), the answer goes out once unless the handler stops or restarts the node (C138_answered), other objects are untouched (C138_others); the model of Model/Calling agrees with that of the other theorems for handlers that make no calls (C138_none)."
  },
  {
   "property": "C139",
   "status": "proved",
   "theorems": [
    "Uecho.C139_calls",
    "Uecho.C139_state",
    "Uecho.C139_life",
    "Uecho.C139_nodes"
   ],
   "note": "For arbitrary calls other than receiving, posting, and adding or removing listeners (C94, C96 are about these): one message (C139_calls, C139_state), whole lives (C139_life), and as an instance the nodes known (C139_nodes)."
  },
  {
   "property": "C140",
   "status": "partial",
   "theorems": [
    "Uecho.C140_counted_partial",
    "Uecho.C140_again_false",
    "Uecho.C140_storm_false"
   ],
   "note": "False: node_add is called for every valid instance list, and twice, also when nothing is new, so that each answer makes every such listener search at least twice through each interface (C140_again_false), and with one host that answers the searches on their way at least double with every exchange, for ever (C140_storm_false). Proved: exactly how many searches go out, one through each interface for each call of node_add (C140_counted_partial)."
  },
  {
   "property": "C141",
   "status": "proved",
   "theorems": [
    "Uecho.C141_calls",
    "Uecho.C141_both",
    "Uecho.C141_reachable"
   ],
   "note": "For arbitrary calls other than replacing the object observed, changing who observes, and delivering a message: C141_calls, with handlers that make calls (C141_both, then C138), histories (C141_reachable)."
  },
  {
   "property": "C142",
   "status": "proved",
   "theorems": [
    "Uecho.C142_silent",
    "Uecho.C142_life",
    "Uecho.C142_secret",
    "Uecho.C142_outcome",
    "Uecho.C142_handler",
    "Uecho.C142_handler_false"
   ],
   "note": "Pairs of histories with objects that differ in unreadable data: the same log of datagrams and the same node but for that data (C142_silent, C142_life, C142_secret), the same outcome of each message (C142_outcome). Handlers going by the access rules satisfy the assumption (C142_handler); one that permits everything does leak (C142_handler_false)."
  },
  {
   "property": "C143",
   "status": "proved",
   "theorems": [
    "Uecho.C143_state",
    "Uecho.C143_answer"
   ],
   "note": "For all histories (C143_state) and for the answer to each request (C143_answer). Observers may raise, if whether they do does not depend on who asks."
  },
  {
   "property": "C144",
   "status": "partial",
   "theorems": [
    "Uecho.C144_bound_partial",
    "Uecho.C144_three_partial",
    "Uecho.C144_version_false"
   ],
   "note": "False (shown for every node and every such request): asked often enough for its version in one request a node answers with more than a receiver takes, which ends it (C144_version_false). Bounds that hold: C144_bound_partial, C144_three_partial."
  },
  {
   "property": "C145",
   "status": "partial",
   "theorems": [
    "Uecho.C145_alone_partial",
    "Uecho.C145_others_partial",
    "Uecho.C145_outcome_partial",
    "Uecho.C145_reachable_partial",
    "Uecho.C145_shared_false",
    "Uecho.C145_lamp_false",
    "Uecho.C145_moved_false"
   ],
   "note": "False for objects added twice (C145_shared_false for every program, C145_lamp_false, C145_moved_false). With every object added at most once each node equals the node alone (C145_alone_partial, C145_others_partial, C145_outcome_partial), and is one of the nodes the other theorems are about (C145_reachable_partial)."
  },
  {
   "property": "C146",
   "status": "partial",
   "theorems": [
    "Uecho.C146_forgotten_false",
    "Uecho.C146_exit_false",
    "Uecho.C146_started",
    "Uecho.C146_collected_partial",
    "Uecho.C146_failed_partial",
    "Uecho.C146_gone_partial",
    "Uecho.C146_stopped_partial"
   ],
   "note": "False of every node that has been started, whatever the program does short of start/stop (C146_forgotten_false, C146_exit_false, with C146_started). Nodes not kept by their threads are collected and their sockets closed (C146_collected_partial), among them those whose start failed (C146_failed_partial); they never come back (C146_gone_partial); after stop of all nodes the process ends (C146_stopped_partial)."
  },
  {
   "property": "C147",
   "status": "partial",
   "theorems": [
    "Uecho.C147_machine_partial",
    "Uecho.C147_standard_partial",
    "Uecho.C147_same_partial",
    "Uecho.C147_standard_false",
    "Uecho.C147_controller_false"
   ],
   "note": "A device is exactly the machine `RefDevice.actual` (C147_machine_partial); nothing else of it can be observed (C147_same_partial). On all datagrams outside the list `RefDevice.Differs` that is the machine of the standard (C147_standard_partial); in the list it is not (C147_standard_false, C147_controller_false)."
  },
  {
   "property": "C148",
   "status": "partial",
   "theorems": [
    "Uecho.C148_machine_partial",
    "Uecho.C148_intended_partial",
    "Uecho.C148_value_false",
    "Uecho.C148_forgets_false"
   ],
   "note": "A controller is exactly the machine `RefController.actual` from datagrams to what it knows, tells and sends (C148_machine_partial). On all datagrams outside the list `RefController.Differs` that is the machine one may expect, but for additions and updates of nodes, which listeners cannot tell apart (C148_intended_partial). In the list it is not: a value of a device is never stored, and its announcement ends the thread unless it is for the node profile (C148_value_false); a repeated instance list erases what is known (C148_forgets_false)."
  },
  {
   "property": "C149",
   "status": "partial",
   "theorems": [
    "Uecho.C149_exists_partial",
    "Uecho.C149_reading_false",
    "Uecho.C149_phantom_false",
    "Uecho.C149_erased_false"
   ],
   "note": "Holds on every network of machines running the library whose programs add objects with proper codes, send no false lists themselves and read properties 0xD5 and 0xD6 first of node profiles only (C149_exists_partial). Without the last it is false: reading such a property of any object makes its value the controller's list of the node's objects (C149_reading_false), so that a storage battery made by the library becomes a light (C149_phantom_false) or vanishes (C149_erased_false)."
  },
  {
   "property": "C150",
   "status": "proved",
   "theorems": [
    "Uecho.C150_network",
    "Uecho.C150_device",
    "Uecho.C150_same"
   ],
   "note": ""
  },
  {
   "property": "C151",
   "status": "partial",
   "theorems": [
    "Uecho.C151_standard_partial",
    "Uecho.C151_standard_false"
   ],
   "note": "Holds as long as no datagram arrives that C147 or C148 lists as treated differently, except that listeners are told of updates as additions (C151_standard_partial). Without that it is false even in a network in which only what was sent arrives: a light asked to announce its state refuses (C151_standard_false)."
  },
  {
   "property": "C152",
   "status": "proved",
   "theorems": [
    "Uecho.C152_only_writers",
    "Uecho.C152_sent"
   ],
   "note": ""
  },
  {
   "property": "C153",
   "status": "proved",
   "theorems": [
    "Uecho.C153_no_invention"
   ],
   "note": ""
  },
  {
   "property": "C154",
   "status": "partial",
   "theorems": [
    "Uecho.C154_polite_partial",
    "Uecho.C154_use_false"
   ],
   "note": "False: an announcement of a device ends a thread of each controller that has not found it, so does the answer to a question to a node not found, and a request that writes and reads ends a thread of a device that lacks what is read. Proved for networks in which devices speak when spoken to and controllers search and send requests to read or write at most three properties, other than instance lists, to nodes they know."
  },
  {
   "property": "C155",
   "status": "proved",
   "theorems": [
    "Uecho.C155_fresh"
   ],
   "note": ""
  },
  {
   "property": "C156",
   "status": "partial",
   "theorems": [
    "Uecho.C156_was_so_partial",
    "Uecho.C156_nothing_learned_false",
    "Uecho.C156_wrong_object_false"
   ],
   "note": "False: values are stored in the object of the node that has the code the response is for, so the state of a light is shown as that of its node profile, and never anything of any other object is learned, whatever arrives. Proved: what is shown and told was held in this property by some object of this node that programs talk with; if they talk with node profiles only, by the one it is shown for."
  },
  {
   "property": "C157",
   "status": "partial",
   "theorems": [
    "Uecho.C157_answered_partial",
    "Uecho.C157_unheard_false"
   ],
   "note": "False: a light that was not found before answers, and its answer ends the thread that receives it before it is taken. Proved for networks of programs that ask node profiles, and objects of nodes they have found, and announce nothing."
  },
  {
   "property": "C158",
   "status": "partial",
   "theorems": [
    "Uecho.C158_found_partial",
    "Uecho.C158_not_found_false"
   ],
   "note": "False: a controller that heard a device announce a property has lost its receiving thread and finds nothing any more. Proved for networks of programs that ask node profiles, and objects of nodes they have found, and announce nothing."
  },
  {
   "property": "C159",
   "status": "partial",
   "theorems": [
    "Uecho.C159_torn_false",
    "Uecho.C159_done_partial",
    "Uecho.C159_request_partial"
   ],
   "note": "For closed networks (`Built`): devices and controllers with standard handlers, whose programs make calls the model has. If the request has a number of its own the confirmation is one of that request (`C159_request_partial`); else of some request of the same node to the node that confirms. What is missing are nodes whose receiving threads handle requests at the same time: then another write can come between two writes of one request (C159_torn_false). For requests with at most one property that may change it makes no difference (C164, C166), and the claim holds with busy devices too (C167)."
  },
  {
   "property": "C160",
   "status": "partial",
   "theorems": [
    "Uecho.C160_kept",
    "Uecho.C160_others_partial",
    "Uecho.C160_own_writes_partial",
    "Uecho.C160_repeated_false"
   ],
   "note": "False: nodes do not notice datagrams they have got before, so an old write that arrives once more undoes a confirmed one. Proved if all messages ever sent that write the property write the same value; then it stays, and is what is read."
  },
  {
   "property": "C161",
   "status": "partial",
   "theorems": [
    "Uecho.C161_torn_false",
    "Uecho.C161_step_partial",
    "Uecho.C161_snapshot_partial"
   ],
   "note": "In a network in which only nodes of the library take part and no program makes up answers. C161_step_partial: any answer, also a refusal, is one step of the object asked. What is missing are nodes whose receiving threads handle requests at the same time: then the values of one answer can be of different moments (C161_torn_false). For requests with at most one property that may change it makes no difference (C164, C166), and the claim holds with busy devices too (C167)."
  },
  {
   "property": "C162",
   "status": "partial",
   "theorems": [
    "Uecho.C162_torn_false",
    "Uecho.C162_refused_partial"
   ],
   "note": "As C161. Also says that a refused write is done in part. What is missing are nodes whose receiving threads handle requests at the same time: then the values given with a refusal can be of different moments (C162_torn_false). For requests with at most one property that may change it makes no difference (C164, C166), and the claim holds with busy devices too (C167)."
  },
  {
   "property": "C163",
   "status": "partial",
   "theorems": [
    "Uecho.C163_torn_false",
    "Uecho.C163_order_partial"
   ],
   "note": "In a network in which only nodes of the library take part and no program makes up answers; a request that is repeated by the network may take effect again later (C160). What is missing are nodes whose receiving threads handle requests at the same time: then a request about several properties need not take effect at one moment (C163_torn_false). For requests with at most one property that may change it makes no difference (C164, C166), and the claim holds with busy devices too (C167)."
  },
  {
   "property": "C164",
   "status": "proved",
   "theorems": [
    "Uecho.C164_one_changing",
    "Uecho.C164_one_property"
   ],
   "note": "Linearizability. C164_one_property: requests about one property, of any kind. A message that ends its thread (C19) has an effect, which is what it did before. For requests with several properties that may change it is false: C70_atomic_false, C163_torn_false."
  },
  {
   "property": "C165",
   "status": "proved",
   "theorems": [
    "Uecho.C165_undisturbed",
    "Uecho.C165_object"
   ],
   "note": "The condition cannot be dropped: C70_atomic_false, C161_torn_false."
  },
  {
   "property": "C166",
   "status": "proved",
   "theorems": [
    "Uecho.C166_one_at_a_time",
    "Uecho.C166_numbers_needed",
    "Uecho.C166_one_needed"
   ],
   "note": "Linearizability of a device (`Model/Crowd`). The answer is sent in one step, and so is what the program announces or sends. Neither condition on the datagrams can be dropped: with transaction number 0 the device makes up a number (C117) when the answer is sent, not when the request takes effect (C166_numbers_needed); of two properties that change, values of different moments can be read (C166_one_needed)."
  },
  {
   "property": "C167",
   "status": "proved",
   "theorems": [
    "Uecho.C167_one_at_a_time",
    "Uecho.C167_step",
    "Uecho.C167_snapshot",
    "Uecho.C167_refused",
    "Uecho.C167_done",
    "Uecho.C167_order"
   ],
   "note": "C167_one_at_a_time is the simulation; C167_snapshot, C167_refused, C167_done, C167_order are C161, C162, C159 and C163 with busy devices. The conditions on requests cannot be dropped (C161_torn_false). The threads of controllers do not overlap in this model."
  },
  {
   "property": "C168",
   "status": "proved",
   "theorems": [
    "Uecho.C168_goes_on",
    "Uecho.C168_done"
   ],
   "note": "Wait-freedom, in the model of C166: observers and handlers of programs are not in it, nor are controllers, whose threads take a lock when an answer arrives (C65, C86). A thread may end because of a datagram (C19, C55); it is then done with it."
  },
  {
   "property": "C169",
   "status": "proved",
   "theorems": [
    "Uecho.C169_answer",
    "Uecho.C169_read",
    "Uecho.C169_steady"
   ],
   "note": "C169_answer: datagrams of any kind. C169_read: reads. C169_steady: reads of what nobody changes. In the model of C166. The number of steps is that of C168, and cannot be smaller (an example)."
  },
  {
   "property": "C170",
   "status": "proved",
   "theorems": [
    "Uecho.C170_read_back",
    "Uecho.C170_open_needed"
   ],
   "note": "In the model of C166. Writes that are done before the one in question may differ; the example has one."
  },
  {
   "property": "C171",
   "status": "proved",
   "theorems": [
    "Uecho.C171_program_sets",
    "Uecho.C171_open_needed"
   ],
   "note": "In the model of C166. C171_open_needed and C170_open_needed: executions in which a request not finished before changes what is read."
  },
  {
   "property": "C172",
   "status": "proved",
   "theorems": [
    "Uecho.C172_alone",
    "Uecho.C172_confirmed"
   ],
   "note": "In the model of C166. C172_alone: any such datagram. C172_confirmed: writes with confirmation; if some property cannot be written the library answers 0x50 (C17)."
  },
  {
   "property": "C173",
   "status": "proved",
   "theorems": [
    "Uecho.C173_same_again",
    "Uecho.C173_open_needed"
   ],
   "note": "In the model of C166. C173_open_needed: an execution in which a request not finished before changes what is read."
  }
 ]
}