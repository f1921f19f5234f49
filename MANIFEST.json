{
 "claims": [
  {
   "property": "C01",
   "status": "proved",
   "theorems": [
    "Asn1.Props.C01_emit_parse",
    "Asn1.Props.C01_emit_injective",
    "Asn1.Props.C01_emit_range"
   ],
   "note": "Arguments are integers/bytes by typing; contents shorter than 256^127 octets (BER limit)."
  },
  {
   "property": "C02",
   "status": "proved",
   "theorems": [
    "Asn1.Props.C02_slices",
    "Asn1.Props.C02_peek_iff",
    "Asn1.Props.C02_strict"
   ],
   "note": ""
  },
  {
   "property": "C03",
   "status": "proved",
   "theorems": [
    "Asn1.Props.C03_prefix_stable",
    "Asn1.Props.C03_truncated"
   ],
   "note": ""
  },
  {
   "property": "C04",
   "status": "proved",
   "theorems": [
    "Asn1.Props.C04_shortest",
    "Asn1.Props.C04_no_leading_zero",
    "Asn1.Props.C04_reject_leading_zero_tag",
    "Asn1.Props.C04_reject_small_high_tag",
    "Asn1.Props.C04_reemit"
   ],
   "note": "Contents shorter than 256^127 octets."
  },
  {
   "property": "C05",
   "status": "proved",
   "theorems": [
    "Asn1.Props.C05_total",
    "Asn1.Props.C05_exact",
    "Asn1.Props.C05_indefinite",
    "Asn1.Props.C05_depth_limit"
   ],
   "note": "Python recursion limit not modelled; the depth budget bounds recursion to 11 frames."
  },
  {
   "property": "C06",
   "status": "proved",
   "theorems": [
    "Asn1.Props.C06_from_bytes_value",
    "Asn1.Props.C06_signed_roundtrip_minimal",
    "Asn1.Props.C06_unsigned_roundtrip_minimal",
    "Asn1.Props.C06_unsigned_negative",
    "Asn1.Props.C06_unsigned_width",
    "Asn1.Props.C06_signed_width",
    "Asn1.Props.C06_width_overflow",
    "Asn1.Props.C06_bytes_roundtrip",
    "Asn1.Props.C06_fill_width"
   ],
   "note": ""
  },
  {
   "property": "C07",
   "status": "proved",
   "theorems": [
    "Asn1.Props.C07_set_native",
    "Asn1.Props.C07_dump_load",
    "Asn1.Props.C07_dump_total",
    "Asn1.Props.C07_named",
    "Asn1.Props.C07_unknown_name",
    "Asn1.Props.C07_unmapped_number",
    "Asn1.Props.C07_enumerated_loaded"
   ],
   "note": "Values with a name map: map given as a list of distinct (number, name) pairs. Loading an ENUMERATED whose number is not in the map raises KeyError on native, as in the code."
  },
  {
   "property": "C08",
   "status": "proved",
   "theorems": [
    "Asn1.Props.C08_dump_load",
    "Asn1.Props.C08_loaded_native",
    "Asn1.Props.C08_force"
   ],
   "note": "Empty contents read as True, as in the code."
  },
  {
   "property": "C09",
   "status": "partial",
   "theorems": [
    "Asn1.Props.C09_encode",
    "Asn1.Props.C09_canonical",
    "Asn1.Props.C09_minimal",
    "Asn1.Props.C09_dotted",
    "Asn1.Props.C09_dump_load",
    "Asn1.Props.C09_accepts_iff",
    "Asn1.Props.C09_refused_partial",
    "Asn1.Props.C09_refusal_fails",
    "Asn1.Props.C09_history_partial",
    "Asn1.Props.C09_history_fails"
   ],
   "note": "Refusal is proved for two or more non-negative arcs (exact acceptance condition in C09_accepts_iff); the code accepts single-arc and negative-arc strings (C09_refusal_fails). New value after set is proved for native always and for dotted when it was not read before; the code keeps a stale dotted otherwise (C09_history_fails)."
  },
  {
   "property": "C10",
   "status": "proved",
   "theorems": [
    "Asn1.Props.C10_fresh",
    "Asn1.Props.C10_setup",
    "Asn1.Props.C10_inverse",
    "Asn1.Props.C10_unknown",
    "Asn1.Props.C10_dotted_form",
    "Asn1.Props.C10_set",
    "Asn1.Props.C10_loaded",
    "Asn1.Props.C10_register"
   ],
   "note": "Names are distinct and no name is also an OID key of the same map. \\d in the dotted-form regex is modelled for ASCII digits."
  },
  {
   "property": "C11",
   "status": "proved",
   "theorems": [
    "Asn1.Props.C11_set_native",
    "Asn1.Props.C11_unused_count",
    "Asn1.Props.C11_dump_load",
    "Asn1.Props.C11_dump_total",
    "Asn1.Props.C11_read",
    "Asn1.Props.C11_refuse",
    "Asn1.Props.C11_getitem",
    "Asn1.Props.C11_setitem",
    "Asn1.Props.C11_no_octets"
   ],
   "note": "Also position reads/writes; contents without any octet raise IndexError (C11_no_octets)."
  },
  {
   "property": "C12",
   "status": "proved",
   "theorems": [
    "Asn1.Props.C12_set_native",
    "Asn1.Props.C12_dump_load",
    "Asn1.Props.C12_getitem",
    "Asn1.Props.C12_setitem",
    "Asn1.Props.C12_updates",
    "Asn1.Props.C12_tuple",
    "Asn1.Props.C12_unnamed_bit_dropped",
    "Asn1.Props.C12_unknown_name_accepted"
   ],
   "note": "Sets of names of the map. Also shown: unnamed bits are dropped from the encoding by a later update, and names outside the map are silently accepted."
  },
  {
   "property": "C13",
   "status": "partial",
   "theorems": [
    "Asn1.Props.C13_octets",
    "Asn1.Props.C13_chars",
    "Asn1.Props.C13_bits",
    "Asn1.Props.C13_int_bits",
    "Asn1.Props.C13_int_octets",
    "Asn1.Props.C13_octet_bits_partial",
    "Asn1.Props.C13_octet_bits_fails",
    "Asn1.Props.C13_split_independent",
    "Asn1.Props.C13_every_split",
    "Asn1.Props.C13_unused_inside",
    "Asn1.Props.C13_octets_error",
    "Asn1.Props.C13_definite_fails",
    "Asn1.Props.C13_definite_refused",
    "Asn1.Props.C13_reassign",
    "Asn1.Props.C13_reassign_dump"
   ],
   "note": "Complete characterisation for indefinite-length constructed strings. The definite-length clause is false of the code (C13_definite_fails, C13_definite_refused); OctetBitString raises IndexError when a constructed piece is empty (C13_octet_bits_fails)."
  },
  {
   "property": "C14",
   "status": "proved",
   "theorems": [
    "Asn1.Props.C14_octet_set",
    "Asn1.Props.C14_octet_dump_load",
    "Asn1.Props.C14_width_fits",
    "Asn1.Props.C14_width_overflow",
    "Asn1.Props.C14_width_kept",
    "Asn1.Props.C14_int_bits",
    "Asn1.Props.C14_octet_bits",
    "Asn1.Props.C14_negative"
   ],
   "note": "set_encoded_width is stated for primitive-form values."
  },
  {
   "property": "C15",
   "status": "partial",
   "theorems": [
    "Asn1.Props.C15_undisturbed_partial",
    "Asn1.Props.C15_load_dump_partial",
    "Asn1.Props.C15_tagged_partial",
    "Asn1.Props.C15_length_128_fails",
    "Asn1.Props.C15_wrapper_junk_fails",
    "Asn1.Props.C15_choice_wrappers_fails",
    "Asn1.Props.C15_default_sequence_fails",
    "Asn1.Props.C15_any_dump_fails",
    "Asn1.Props.C15_package_partial",
    "Asn1.Props.C15_package_tagged_partial",
    "Asn1.Props.C15_pss_fails"
   ],
   "note": "Proved for every class environment without a DEFAULT on fields of constructed type, every element whose own length octets do not end in 0x80 and with nothing behind the value inside explicit wrappers, at most one wrapper around Choice, Any and values without a spec, and every history of read-only accesses, at any recursion depth; and for all 442 classes of the package (C15_package_partial, C15_package_tagged_partial), where the accesses must not come across one of the DEFAULTs of constructed type that four of them have. Without accesses (C15_undisturbed_partial) no condition on DEFAULTs is needed. The excluded cases are disproved by witnesses (for the package C15_pss_fails)."
  },
  {
   "property": "C16",
   "status": "partial",
   "theorems": [
    "Asn1.Props.C16_dump",
    "Asn1.Props.C16_load_iff",
    "Asn1.Props.C16_mismatch",
    "Asn1.Props.C16_round_trip_partial",
    "Asn1.Props.C16_dump_node",
    "Asn1.Props.C16_load_iff_node",
    "Asn1.Props.C16_mismatch_node",
    "Asn1.Props.C16_round_trip_node_partial",
    "Asn1.Props.C16_retag_untag",
    "Asn1.Props.C16_retag_untag_node",
    "Asn1.Props.C16_implicit_ignored",
    "Asn1.Props.C16_class_explicit_implicit",
    "Asn1.Props.C16_mismatch_prefix"
   ],
   "note": "Dump, acceptance, refusal, round trip and retag/untag proved for primitive and container classes with any tag lists. The round trip excludes class-level explicit tags combined with an implicit argument, where the code refuses its own encoding (C16_class_explicit_implicit). Choice tagging is covered under C22."
  },
  {
   "property": "C17",
   "status": "partial",
   "theorems": [
    "Asn1.Props.C17_round_trip_partial",
    "Asn1.Props.C17_from_dict_partial",
    "Asn1.Props.C17_dump_works",
    "Asn1.Props.C17_from_dict_works",
    "Asn1.Props.C17_missing",
    "Asn1.Props.C17_missing_in_dict",
    "Asn1.Props.C17_unexpected_partial",
    "Asn1.Props.C17_extra_accepted",
    "Asn1.Props.C17_missing_written"
   ],
   "note": "Proved for all schemas over the modelled primitive types, SEQUENCE, SEQUENCE OF and CHOICE: a complete assignment is built and dumped (the only possible error being 256^127 bytes or more), and what dump() writes loads back as the same assignment (fields present, absent, default), for values built from dicts, loaded, or changed by any history; missing required fields are refused; elements with unexpected tags are refused. For ANY fields, fields whose type another field selects and constructed defaults the round trip is proved for values built from dicts (C53), and loading for all encodings (C50), but not for histories of changes. The library violates two clauses: trailing extra elements are accepted (C17_extra_accepted), and an incomplete value inside an explicit tag is written (C17_missing_written)."
  },
  {
   "property": "C18",
   "status": "partial",
   "theorems": [
    "Asn1.Props.C18_written",
    "Asn1.Props.C18_from_dict",
    "Asn1.Props.C18_set",
    "Asn1.Props.C18_changed",
    "Asn1.Props.C18_absent",
    "Asn1.Props.C18_forced_partial",
    "Asn1.Props.C18_assignment_order_partial",
    "Asn1.Props.C18_dict_order"
   ],
   "note": "C18_written and C18_from_dict: every changed SEQUENCE of any field list is written as the concatenation, in declared order, of the encodings of its fields without those whose encoding is that of the DEFAULT; C18_set: a SET is written as its fields by ascending tag, without defaults; C18_absent: absent fields contribute nothing; C18_forced_partial: the same by values for forced encodings of Universe schemas without NULL; C18_assignment_order_partial, C18_dict_order: order of assignment is irrelevant. Forced encodings of other kinds of types are described by FieldsForced and proved in C24_kinds_partial. Missing: a field whose type another field selects has to be assigned after it."
  },
  {
   "property": "C19",
   "status": "partial",
   "theorems": [
    "Asn1.Props.C19_history_partial",
    "Asn1.Props.C19_fresh",
    "Asn1.Props.C19_out_of_range",
    "Asn1.Props.C19_set_out_of_range",
    "Asn1.Props.C19_set_end"
   ],
   "note": "Proved for SEQUENCE OF over all element types of the modelled schemas, loaded, constructed or fresh: every history of append, item assignment, deletion, indexing (negative indices too), len, iteration, and dumps, reads, copies and nested changes in between answers as the Python list does and succeeds; dump() then encodes exactly that list and loads back as it; IndexError outside. The library violates one clause: assigning at index len appends (C19_set_end)."
  },
  {
   "property": "C20",
   "status": "partial",
   "theorems": [
    "Asn1.Props.C20_sorted",
    "Asn1.Props.C20_canonical",
    "Asn1.Props.C20_order",
    "Asn1.Props.C20_load_partial",
    "Asn1.Props.C20_load_leaf"
   ],
   "note": "Sorting, canonicity, independence of insertion order and loss-freedom are proved for every element type; loading back is proved for leaf element types (C20_load_leaf) and, for other element types, under the hypothesis that each child encoding is one BER element (C20_load_partial). Native values after loading for element types that are containers are proved for values built from Python data (C53_native_partial). Missing: the same after changes of such elements."
  },
  {
   "property": "C21",
   "status": "partial",
   "theorems": [
    "Asn1.Props.C21_assign",
    "Asn1.Props.C21_order",
    "Asn1.Props.C21_unknown",
    "Asn1.Props.C21_missing",
    "Asn1.Props.C21_duplicate_fails",
    "Asn1.Props.C21_duplicate_witness",
    "Asn1.Props.C21_changed_dump_fails"
   ],
   "note": "Assignment, order independence, unknown and missing fields are proved in full. The last clause is violated by the code: a repeated field is accepted and the last occurrence wins (C21_duplicate_fails); a changed loaded SET cannot be dumped (C21_changed_dump_fails)."
  },
  {
   "property": "C22",
   "status": "partial",
   "theorems": [
    "Asn1.Props.C22_select",
    "Asn1.Props.C22_none",
    "Asn1.Props.C22_indefinite_fails",
    "Asn1.Props.C22_name",
    "Asn1.Props.C22_round_trip_partial",
    "Asn1.Props.C22_dump_partial",
    "Asn1.Props.C22_nested_fails",
    "Asn1.Props.C22_class_explicit_fails",
    "Asn1.Props.C22_indefinite_witness",
    "Asn1.Props.C22_instance_fails",
    "Asn1.Props.C22_instance_witness"
   ],
   "note": "Selection by tag and refusal are exact for definite lengths (C22_select, C22_none). Indefinite-length alternatives are refused (C22_indefinite_fails); an untagged CHOICE or a class-level explicit alternative is never selected and its mismatch is a KeyError (C22_nested_fails, C22_class_explicit_fails). Instances of alternatives are refused for a Choice with class-level explicit tags (C22_instance_fails). The round trip takes 'the alternative encodes to one definite element with its tag' as a hypothesis, which C50 and C53 discharge for loaded and built values; dump = input for tidy encodings."
  },
  {
   "property": "C23",
   "status": "partial",
   "theorems": [
    "Asn1.Props.C23_history_partial",
    "Asn1.Props.C23_set_partial",
    "Asn1.Props.C23_payload",
    "Asn1.Props.C23_field",
    "Asn1.Props.C23_indefinite_partial",
    "Asn1.Props.C23_unused_bits",
    "Asn1.Props.C23_stale_fails",
    "Asn1.Props.C23_in_place_fails",
    "Asn1.Props.C23_stale_witness"
   ],
   "note": "Proved for histories in which octets are only assigned while nothing has been parsed, and for definite tidy loads (C23_history_partial); for payloads put into a string in full (C23_payload, C23_field). Octets assigned after something was parsed leave .parsed/.native stale and dump(force=True) reverts them (C23_stale_fails); payloads changed in place are not written without force (C23_in_place_fails)."
  },
  {
   "property": "C24",
   "status": "partial",
   "theorems": [
    "Asn1.Props.C24_forced_partial",
    "Asn1.Props.C24_loaded_partial",
    "Asn1.Props.C24_canonical_partial",
    "Asn1.Props.C24_der_unchanged_partial",
    "Asn1.Props.C24_kinds_partial",
    "Asn1.Props.C24_kinds_any_partial",
    "Asn1.Props.C24_kinds_again_partial",
    "Asn1.Props.C24_kinds_bytes_partial",
    "Asn1.Props.C24_package_partial",
    "Asn1.Props.C24_null_kept",
    "Asn1.Props.C24_null_cut",
    "Asn1.Props.C24_named_lost",
    "Asn1.Props.C24_extra_dropped",
    "Asn1.Props.C24_set_fails",
    "Asn1.Props.C24_open_kept",
    "Asn1.Props.C24_inner_kept",
    "Asn1.Props.C24_bits_fails"
   ],
   "note": "C24_forced_partial, C24_loaded_partial: forced encodings are the DER encoding of the value, load as the same native value and are stable under forcing; C24_canonical_partial: they only depend on the value; C24_der_unchanged_partial; for the schemas of Universe without NULL. C24_kinds_partial, C24_kinds_any_partial, C24_kinds_again_partial, C24_kinds_bytes_partial, C24_package_partial: the same for all kinds of types (fields whose type another field selects, SET OF, ANY, parsable strings, constructed defaults) and all classes of the package, also after any reading in between. C24_null_kept, C24_null_cut, C24_named_lost, C24_extra_dropped, C24_set_fails, C24_open_kept, C24_inner_kept: negations with witnesses. Missing: SETs (the code fails), primitive values whose native value does not determine an encoding."
  },
  {
   "property": "C25",
   "status": "proved",
   "theorems": [
    "Asn1.Props.C25_format",
    "Asn1.Props.C25_round_trip",
    "Asn1.Props.C25_last_header",
    "Asn1.Props.C25_upper",
    "Asn1.Props.C25_colon_fails",
    "Asn1.Props.C25_empty_type_fails"
   ],
   "note": "for non-empty object types, ASCII headers with distinct names without colon; base64 and splitlines of the standard library are modelled"
  },
  {
   "property": "C26",
   "status": "proved",
   "theorems": [
    "Asn1.Props.C26_blocks",
    "Asn1.Props.C26_first",
    "Asn1.Props.C26_no_begin",
    "Asn1.Props.C26_refusal",
    "Asn1.Props.C26_refusal_multiple",
    "Asn1.Props.C26_no_end",
    "Asn1.Props.C26_crlf",
    "Asn1.Props.C26_cut_off_block",
    "Asn1.Props.C26_begin_closes"
   ],
   "note": "text around the blocks must not contain BEGIN lines; what happens otherwise is shown by C26_begin_closes and C26_cut_off_block"
  },
  {
   "property": "C27",
   "status": "proved",
   "theorems": [
    "Asn1.Props.C27_decode",
    "Asn1.Props.C27_instant",
    "Asn1.Props.C27_round_trip",
    "Asn1.Props.C27_refused",
    "Asn1.Props.C27_naive"
   ],
   "note": "C27_decode characterises exactly the accepted texts (including one final line feed). Texts and datetimes only; the VisibleString layer is C13's. Fixed-offset time zones."
  },
  {
   "property": "C28",
   "status": "partial",
   "theorems": [
    "Asn1.Props.C28_decode",
    "Asn1.Props.C28_instant",
    "Asn1.Props.C28_round_trip_partial",
    "Asn1.Props.C28_same_partial",
    "Asn1.Props.C28_fraction",
    "Asn1.Props.C28_naive",
    "Asn1.Props.C28_early_fails",
    "Asn1.Props.C28_glibc_fails",
    "Asn1.Props.C28_round_up_fails"
   ],
   "note": "The round trip is false with glibc for instants in years 1-999 (C28_glibc_fails) and for a datetime of year 1 whose instant is in year 0 (C28_early_fails); proved for all other aware times. C28_decode characterises exactly the accepted texts and their values."
  },
  {
   "property": "C29",
   "status": "partial",
   "theorems": [
    "Asn1.Props.C29_new",
    "Asn1.Props.C29_order",
    "Asn1.Props.C29_before",
    "Asn1.Props.C29_equal",
    "Asn1.Props.C29_sub",
    "Asn1.Props.C29_add_partial",
    "Asn1.Props.C29_add_total",
    "Asn1.Props.C29_add_sub",
    "Asn1.Props.C29_add_fails",
    "Asn1.Props.C29_astimezone",
    "Asn1.Props.C29_strftime",
    "Asn1.Props.C29_isoformat",
    "Asn1.Props.C29_date_new",
    "Asn1.Props.C29_date_order",
    "Asn1.Props.C29_replace",
    "Asn1.Props.C29_date_replace",
    "Asn1.Props.C29_timestamp"
   ],
   "note": "Addition to a year-0 time is false for results in 8000-9999 (C29_add_fails); everything else is proved. Order is by instant, so year 0 is before year 1 only in the same zone."
  },
  {
   "property": "C30",
   "status": "partial",
   "theorems": [
    "Asn1.Props.C30_v4",
    "Asn1.Props.C30_v6_text",
    "Asn1.Props.C30_v6_unique",
    "Asn1.Props.C30_v6_partial",
    "Asn1.Props.C30_v6_edge",
    "Asn1.Props.C30_v6_edge_all",
    "Asn1.Props.C30_v4_accepts",
    "Asn1.Props.C30_v6_error_partial",
    "Asn1.Props.C30_refusal_fails"
   ],
   "note": "IPv4 complete; IPv6 text form and acceptance complete; the IPv6 round trip fails in the code exactly for addresses whose compressed run is at an end (C30_v6_edge_all) and some malformed text raises struct.error or is accepted (C30_refusal_fails)."
  },
  {
   "property": "C31",
   "status": "partial",
   "theorems": [
    "Asn1.Props.C31_set",
    "Asn1.Props.C31_read",
    "Asn1.Props.C31_round_trip",
    "Asn1.Props.C31_too_long",
    "Asn1.Props.C31_shim_v4",
    "Asn1.Props.C31_shim_v6_partial",
    "Asn1.Props.C31_shim_loopback"
   ],
   "note": "Proved for every pair of network functions that map text and address to each other, and for those of _inet.py on all IPv4 addresses and the IPv6 addresses of C30; with _inet.py the text ::1 is refused (C31_shim_loopback). The functions of the socket module are not modelled."
  },
  {
   "property": "C32",
   "status": "partial",
   "theorems": [
    "Asn1.Props.C32_true_only_if_partial",
    "Asn1.Props.C32_domain_iff_partial",
    "Asn1.Props.C32_label_length",
    "Asn1.Props.C32_label_count",
    "Asn1.Props.C32_line_feed_fails",
    "Asn1.Props.C32_metacharacter_fails"
   ],
   "note": "soundness for hosts without line feed and names without regular expression metacharacters (for the others it is false, see the _fails theorems); idna for non-ASCII text, re for labels with metacharacters and the platform inet functions are parameters"
  },
  {
   "property": "C33",
   "status": "partial",
   "theorems": [
    "Asn1.Props.C33_issued",
    "Asn1.Props.C33_identifiers",
    "Asn1.Props.C33_signed_partial",
    "Asn1.Props.C33_raise_fails"
   ],
   "note": "Certificates whose names or identifiers cannot be read are excluded: there self_signed raises once and then answers 'no' (C33_raise_fails)."
  },
  {
   "property": "C34",
   "status": "proved",
   "theorems": [
    "Asn1.Props.C34_value",
    "Asn1.Props.C34_critical"
   ],
   "note": "For every class with an extension summary; when a read raises, every accessor raises the same exception every time. Attribute lookup by name is modelled for the attributes of the class named _<name>_value."
  },
  {
   "property": "C35",
   "status": "partial",
   "theorems": [
    "Asn1.Props.C35_refl",
    "Asn1.Props.C35_symm",
    "Asn1.Props.C35_trans",
    "Asn1.Props.C35_eq_partial",
    "Asn1.Props.C35_hashable_partial",
    "Asn1.Props.C35_text",
    "Asn1.Props.C35_repeated_fails",
    "Asn1.Props.C35_repeated_hash_fails",
    "Asn1.Props.C35_other_values",
    "Asn1.Props.C35_empty_fails",
    "Asn1.Props.C35_bytes_fails",
    "Asn1.Props.C35_bool_fails",
    "Asn1.Props.C35_letters_fails"
   ],
   "note": "Equivalence relation for all names; exact characterisation of equality for names without repeated types in an RDN, in terms of prepared texts, and in terms of words for printable ASCII; hashable agrees with equality for text values. Unicode tables are parameters. The remaining cases are violations, proved with witnesses."
  },
  {
   "property": "C36",
   "status": "proved",
   "theorems": [
    "Asn1.Props.C36_exact",
    "Asn1.Props.C36_order",
    "Asn1.Props.C36_native",
    "Asn1.Props.C36_native_build",
    "Asn1.Props.C36_dotted",
    "Asn1.Props.C36_types",
    "Asn1.Props.C36_native_raise_fails"
   ],
   "note": "Attributes, order, stability, independence of the order given, native form. Construction of the attribute values is a parameter. C36_types gives the string type of every attribute value."
  },
  {
   "property": "C37",
   "status": "proved",
   "theorems": [
    "Asn1.Props.C37_from",
    "Asn1.Props.C37_to",
    "Asn1.Props.C37_least",
    "Asn1.Props.C37_round_trip",
    "Asn1.Props.C37_data",
    "Asn1.Props.C37_empty",
    "Asn1.Props.C37_negative"
   ],
   "note": "Round trip, exact width, refusal of short widths, least width by default, identity on even-length data, negatives. The SEQUENCE encoding of r and s is not part of these theorems."
  },
  {
   "property": "C38",
   "status": "partial",
   "theorems": [
    "Asn1.Props.C38_to",
    "Asn1.Props.C38_refused",
    "Asn1.Props.C38_from",
    "Asn1.Props.C38_positive",
    "Asn1.Props.C38_round_trip_partial",
    "Asn1.Props.C38_exact",
    "Asn1.Props.C38_one_fails",
    "Asn1.Props.C38_byte_fails",
    "Asn1.Props.C38_exact_fails"
   ],
   "note": "Layout and round trip proved whenever both coordinates fit the computed width (any width function), refusal of points not starting with 04, and of coordinates <= 0. With the stated assumption on floating point logarithms the round trip holds away from powers of 256. Missing: the property is false at powers of 256 (C38_one_fails, C38_byte_fails: OverflowError; C38_exact_fails: exactly there without rounding errors)."
  },
  {
   "property": "C39",
   "status": "proved",
   "theorems": [
    "Asn1.Props.C39_names",
    "Asn1.Props.C39_composed",
    "Asn1.Props.C39_plain",
    "Asn1.Props.C39_agree",
    "Asn1.Props.C39_tables",
    "Asn1.Props.C39_name_round_trip",
    "Asn1.Props.C39_total",
    "Asn1.Props.C39_pss_absent",
    "Asn1.Props.C39_unknown"
   ],
   "note": "All table entries and all other OID texts. RSASSA-PSS without parameters raises TypeError (C39_pss_absent)."
  },
  {
   "property": "C40",
   "status": "partial",
   "theorems": [
    "Asn1.Props.C40_aes",
    "Asn1.Props.C40_aes_kdf",
    "Asn1.Props.C40_pbes1",
    "Asn1.Props.C40_pkcs12",
    "Asn1.Props.C40_des",
    "Asn1.Props.C40_salt",
    "Asn1.Props.C40_pbes2_salt",
    "Asn1.Props.C40_iv",
    "Asn1.Props.C40_octet_iv",
    "Asn1.Props.C40_rc2",
    "Asn1.Props.C40_rc5",
    "Asn1.Props.C40_pbes2",
    "Asn1.Props.C40_names",
    "Asn1.Props.C40_unknown",
    "Asn1.Props.C40_total_partial",
    "Asn1.Props.C40_cipher_kdf",
    "Asn1.Props.C40_key_error_fails",
    "Asn1.Props.C40_rc2_fails",
    "Asn1.Props.C40_wrap_pad_fails",
    "Asn1.Props.C40_scrypt_salt_fails"
   ],
   "note": "All names and parameters; PBES2 nested to any depth. Missing: the property is false for RC4, RC5 and RSA names (KeyError), RC2 without version (TypeError) or with a version of 256 or more, the PRF of aes*_wrap_pad, and the salt of scrypt (see the _fails theorems)."
  },
  {
   "property": "C41",
   "status": "proved",
   "theorems": [
    "Asn1.Props.C41_distinct",
    "Asn1.Props.C41_decode",
    "Asn1.Props.C41_encode",
    "Asn1.Props.C41_round_trip",
    "Asn1.Props.C41_refused",
    "Asn1.Props.C41_ascii"
   ],
   "note": "All byte strings and all lists of code points. Error handlers other than 'strict' and the incremental interfaces are not modelled."
  },
  {
   "property": "C42",
   "status": "proved",
   "theorems": [
    "Asn1.Props.C42_required",
    "Asn1.Props.C42_required_error",
    "Asn1.Props.C42_other",
    "Asn1.Props.C42_refused",
    "Asn1.Props.C42_kept",
    "Asn1.Props.C42_absent",
    "Asn1.Props.C42_present",
    "Asn1.Props.C42_create",
    "Asn1.Props.C42_create_refused",
    "Asn1.Props.C42_algorithms",
    "Asn1.Props.C42_index_fails",
    "Asn1.Props.C42_order"
   ],
   "note": "Any history of assignments, deletions and reads by field name. Assignment by index 0 does not force NULL (C42_index_fails)."
  },
  {
   "property": "C43",
   "status": "partial",
   "theorems": [
    "Asn1.Props.C43_shape",
    "Asn1.Props.C43_empty",
    "Asn1.Props.C43_meaning_partial",
    "Asn1.Props.C43_plain_meaning",
    "Asn1.Props.C43_unquote",
    "Asn1.Props.C43_fragment_partial",
    "Asn1.Props.C43_path_partial",
    "Asn1.Props.C43_query_partial",
    "Asn1.Props.C43_user_partial",
    "Asn1.Props.C43_escaped_percent_fails",
    "Asn1.Props.C43_stray_percent_fails",
    "Asn1.Props.C43_nul_fails",
    "Asn1.Props.C43_nul_order_fails",
    "Asn1.Props.C43_placeholder_fails"
   ],
   "note": "The percent-encoding layer: for all texts the result is ASCII and consists of unreserved characters, delimiters of the component and escapes; round trip for all texts without %XX (without the place-holder control characters in path and query; ':' and '@' of the user name come back as escapes); same bytes and same delimiters for all texts with escapes other than %00 and %25 in which every % begins an escape. The excluded cases are disproved by witnesses. Whole IRIs: see C57."
  },
  {
   "property": "C44",
   "status": "partial",
   "theorems": [
    "Asn1.Props.C44_history_partial",
    "Asn1.Props.C44_made",
    "Asn1.Props.C44_copy",
    "Asn1.Props.C44_nested_dump",
    "Asn1.Props.C44_nested_native",
    "Asn1.Props.C44_in_choice",
    "Asn1.Props.C44_tagged_choice_fails"
   ],
   "note": "Proved for all values of the modelled schemas, loaded, constructed or fresh: after every history of assignments, deletions and appends, here or in containers reached by indexing, with dumps, reads and copies of the outermost container in between, every step succeeds, and dump() writes an encoding of the current values that loads as them; a copy has the same value and holds no child object of the original. The library violates the rest: a nested dump() or native in between, or a change inside a CHOICE, leaves the outer dump() stale (C44_nested_dump, C44_nested_native, C44_in_choice)."
  },
  {
   "property": "C45",
   "status": "partial",
   "theorems": [
    "Asn1.Props.C45_trusted_partial",
    "Asn1.Props.C45_split",
    "Asn1.Props.C45_surplus",
    "Asn1.Props.C45_missing",
    "Asn1.Props.C45_error",
    "Asn1.Props.C45_dump_partial",
    "Asn1.Props.C45_missing_dump_fails"
   ],
   "note": "Splitting, surplus, missing children and errors are proved for all specs and bytes. Dumping the same bytes is proved for tidy elements (C45_dump_partial; same restriction on the bytes as C15), for the trusted certificates of the package in C45_trusted_partial. A missing child is not absent on dump: TypeError (C45_missing_dump_fails)."
  },
  {
   "property": "C46",
   "status": "partial",
   "theorems": [
    "Asn1.Props.C46_ocsp",
    "Asn1.Props.C46_ocsp_absent",
    "Asn1.Props.C46_issuer",
    "Asn1.Props.C46_points_partial",
    "Asn1.Props.C46_crl_points_partial",
    "Asn1.Props.C46_repeated_fails",
    "Asn1.Props.C46_unnamed_fails",
    "Asn1.Props.C46_issuer_raise_fails"
   ],
   "note": "URL lists are exact. Distribution points are exact up to repetition; the scheme is not looked at and points repeat (C46_repeated_fails); unreadable entries leave truncated caches (C46_unnamed_fails, C46_issuer_raise_fails)."
  },
  {
   "property": "C47",
   "status": "proved",
   "theorems": [
    "Asn1.Props.C47_history",
    "Asn1.Props.C47_keys"
   ],
   "note": "Linked list and dict of _ordereddict.py as a heap of nodes; every history agrees with an insertion-ordered map, results included. __init__/update/copy/__eq__/__repr__ and the DictMixin wrappers other than pop are not modelled."
  },
  {
   "property": "C48",
   "status": "proved",
   "theorems": [
    "Asn1.Props.C48_offset",
    "Asn1.Props.C48_same",
    "Asn1.Props.C48_distinct",
    "Asn1.Props.C48_range",
    "Asn1.Props.C48_printed",
    "Asn1.Props.C48_read_back",
    "Asn1.Props.C48_seconds_dropped",
    "Asn1.Props.C48_naive"
   ],
   "note": ""
  },
  {
   "property": "C49",
   "status": "partial",
   "theorems": [
    "Asn1.Props.C49_width",
    "Asn1.Props.C49_dump_partial",
    "Asn1.Props.C49_assign",
    "Asn1.Props.C49_curves",
    "Asn1.Props.C49_register",
    "Asn1.Props.C49_no_width",
    "Asn1.Props.C49_loaded_ignored",
    "Asn1.Props.C49_index_bypasses",
    "Asn1.Props.C49_set_key_size_stale",
    "Asn1.Props.C49_first_fixes",
    "Asn1.Props.C49_refused_stays"
   ],
   "note": "C49_width holds for all histories; C49_dump_partial leaves out set_key_size, after which dump() can be stale (C49_set_key_size_stale). On loaded keys the curve already present asks for no width (C49_loaded_ignored); assignments by index bypass the width (C49_index_bypasses). The floating point width of specified curves is a parameter."
  },
  {
   "property": "C50",
   "status": "partial",
   "theorems": [
    "Asn1.Props.C50_load_partial",
    "Asn1.Props.C50_load_any_partial",
    "Asn1.Props.C50_native_partial",
    "Asn1.Props.C50_unique_partial"
   ],
   "note": "All kinds of types, BER encodings with definite or indefinite length. Not covered: an alternative of a CHOICE in indefinite-length form (refused by the code, C22_indefinite_fails), OCTET/BIT STRINGs that hold an encoding in segments, constructed strings of definite length (C13), SET inside ANY (native fails), and item access into a SEQUENCE that has constructed default values (reads through native are covered)."
  },
  {
   "property": "C51",
   "status": "partial",
   "theorems": [
    "Asn1.Props.C51_fields_partial",
    "Asn1.Props.C51_alternatives_partial",
    "Asn1.Props.C51_load_partial",
    "Asn1.Props.C51_native_partial",
    "Asn1.Props.C51_unique_partial",
    "Asn1.Props.C51_not_CountryName",
    "Asn1.Props.C51_not_AdministrationDomainName",
    "Asn1.Props.C51_not_EDIPartyName",
    "Asn1.Props.C51_not_ORAddress",
    "Asn1.Props.C51_not_ORAddress_native"
   ],
   "note": "Proved for 436 of the 442 classes; CountryName, AdministrationDomainName, BuiltInStandardAttributes, ORAddress and EDIPartyName are wrong in the code (negations proved), and v1_attr_cert of CertificateChoices is left out because CertificateChoices.validate is not modelled. Values are those of the base classes (Name.native, StatusGood.native and StatusUnknown.native are overridden in the code), text and times are what an arbitrary conversion gives, and __setitem__ overrides (which add a NULL to default algorithm parameters) are not modelled. Item access is claimed for classes whose default values are primitive. What is an encoding is as in C50."
  },
  {
   "property": "C52",
   "status": "partial",
   "theorems": [
    "Asn1.Props.C52_read",
    "Asn1.Props.C52_encode_partial",
    "Asn1.Props.C52_one_name",
    "Asn1.Props.C52_one_value_partial",
    "Asn1.Props.C52_again_partial",
    "Asn1.Props.C52_dotted_partial",
    "Asn1.Props.C52_unlisted",
    "Asn1.Props.C52_bits",
    "Asn1.Props.C52_specs_partial",
    "Asn1.Props.C52_not_AnyAlgorithmId",
    "Asn1.Props.C52_not_AnyAlgorithmId_force",
    "Asn1.Props.C52_not_SignedDigestAlgorithmId",
    "Asn1.Props.C52_not_KeyEncryptionAlgorithmId",
    "Asn1.Props.C52_not_Attribute"
   ],
   "note": "Proved for all 442 classes of the package except: AnyAlgorithmId (cannot be set at all), SignedDigestAlgorithmId (two OIDs with one name), the alias 'rsa' of KeyEncryptionAlgorithmId (not listed in _map) and the dead entry microsoft_csp_name of pkcs12.Attribute; the C52_not_* theorems prove these violations. Distinctness of the tables is a kernel-checked computation over the complete tables, lifted to the general statements."
  },
  {
   "property": "C53",
   "status": "partial",
   "theorems": [
    "Asn1.Props.C53_dump_partial",
    "Asn1.Props.C53_load_partial",
    "Asn1.Props.C53_native_partial",
    "Asn1.Props.C53_injective_partial",
    "Asn1.Props.C53_contents_partial",
    "Asn1.Props.C53_primitive_partial",
    "Asn1.Props.C53_package_partial",
    "Asn1.Props.C53_not_set_absent",
    "Asn1.Props.C53_not_any_explicit",
    "Asn1.Props.C53_not_any_explicit_back",
    "Asn1.Props.C53_not_choice_payload",
    "Asn1.Props.C53_not_set_order"
   ],
   "note": "Proved for all kinds of types and all classes of the package: dump is the DER encoding, loading gives the value back, different values have different bytes; values given as Python values, as new instances, as instances of alternatives of a CHOICE, and as loaded instances inside strings. Missing: absent optional or default fields in a SET (the code fails), SET fields with explicit tags or of CHOICE/ANY type, constructed instances in an ANY field, CHOICE inside a string (the code is wrong), loaded or already changed instances outside strings; contents of primitive values given in another form than their native one are described by the model's set plus reading back"
  },
  {
   "property": "C54",
   "status": "partial",
   "theorems": [
    "Asn1.Props.C54_private_partial",
    "Asn1.Props.C54_public",
    "Asn1.Props.C54_public_ec",
    "Asn1.Props.C54_compressed_fails",
    "Asn1.Props.C54_hash",
    "Asn1.Props.C54_q_byte_size",
    "Asn1.Props.C54_reads",
    "Asn1.Props.C54_ec_private_fails",
    "Asn1.Props.C54_other_fails",
    "Asn1.Props.C54_stale_fails"
   ],
   "note": "Sizes are proved for RSA and DSA keys and public EC keys with uncompressed points, for numbers of up to 16384 bits that are not within one part in 2^32 of a power of 256 (rounding of math.log, stated as an assumption); hash families, q_byte_size and independence of the order of reads in full. Violated by the code: EC private keys, compressed points, other algorithms, changes after a read (the _fails theorems)."
  },
  {
   "property": "C55",
   "status": "partial",
   "theorems": [
    "Asn1.Props.C55_public",
    "Asn1.Props.C55_public_loaded",
    "Asn1.Props.C55_public_refused",
    "Asn1.Props.C55_private_partial",
    "Asn1.Props.C55_pss_fails"
   ],
   "note": "C55_public (encoding given) and C55_public_loaded (instance loaded from a DER encoding) for public keys; C55_private_partial for private keys given as encoding or as the instance loaded from it, for encodings whose header does not end with the octet 80. C55_public_refused: every other name is refused. False for 'rsassa_pss': C55_public_refused and C55_pss_fails show that it always raises TypeError. 'dsa' and 'ec' private keys are the subject of C64 and C65. Missing: public key instances loaded from BER encodings that are not DER or built from Python values, private key encodings with an indefinite length or a length ending in 80."
  },
  {
   "property": "C56",
   "status": "partial",
   "theorems": [
    "Asn1.Props.C56_mail_round_trip",
    "Asn1.Props.C56_dns_round_trip",
    "Asn1.Props.C56_mail_octets",
    "Asn1.Props.C56_mail",
    "Asn1.Props.C56_dns",
    "Asn1.Props.C56_ip",
    "Asn1.Props.C56_general",
    "Asn1.Props.C56_refused",
    "Asn1.Props.C56_symm",
    "Asn1.Props.C56_trans",
    "Asn1.Props.C56_again",
    "Asn1.Props.C56_mail_rewrites",
    "Asn1.Props.C56_mail_latin_fails",
    "Asn1.Props.C56_mail_label_fails",
    "Asn1.Props.C56_dns_folded_fails"
   ],
   "note": "Proved: e-mail addresses and DNS names in ASCII (labels of 1 to 63 characters, no xn--) survive dump and load (C56_mail_round_trip, C56_dns_round_trip); comparison of e-mail addresses (C56_mail, and C56_mail_octets for every address that can be written), DNS names (C56_dns), IP addresses (C56_ip) and general names (C56_general, C56_refused); symmetry, transitivity and repetition for all general names (C56_symm, C56_trans, C56_again). Not true for all names: comparing an e-mail address rewrites it (C56_mail_rewrites) and fails for some that can be read (C56_mail_latin_fails, C56_mail_label_fails); a DNS name that IDNA changes is not equal to itself after writing (C56_dns_folded_fails, given what the codec does). URIs: see C57. Missing: the IDNA codec and the lower case for text that is not ASCII."
  },
  {
   "property": "C57",
   "status": "partial",
   "theorems": [
    "Asn1.Props.C57_uri_partial",
    "Asn1.Props.C57_parts",
    "Asn1.Props.C57_ascii",
    "Asn1.Props.C57_round_trip_partial",
    "Asn1.Props.C57_equal_partial",
    "Asn1.Props.C57_opaque_partial",
    "Asn1.Props.C57_opaque_round_trip_partial",
    "Asn1.Props.C57_plus_fails",
    "Asn1.Props.C57_one_bracket",
    "Asn1.Props.C57_brackets_fails",
    "Asn1.Props.C57_password_fails",
    "Asn1.Props.C57_ldap_fails",
    "Asn1.Props.C57_slashes_fails"
   ],
   "note": "Proved for any IDNA codec: every result of iri_to_uri is ASCII; the URI of an IRI with a host (C57_uri_partial) or without one (C57_opaque_partial, schemes such as mailto and urn) is the text of parts with the same scheme, port, and meaning of user name, password, path, query and fragment (no escaped NUL or percent, every % begins an escape or none does); normalisation drops exactly the standard port and the path /; back from the URI one gets the IRI (no escapes, no U+001A/U+001C in path and query); URI equality is exactly equality after normalisation up to the case of an ASCII host. Wrong in the code, proved with witnesses: schemes with +, bracketed addresses, a password without user name, ldap:///, http:/a. Missing: upper-case schemes, ports with leading zeros, equality without host, and the IDNA codec for text that is not ASCII."
  },
  {
   "property": "C58",
   "status": "proved",
   "theorems": [
    "Asn1.Props.C58_iff",
    "Asn1.Props.C58_other",
    "Asn1.Props.C58_refl",
    "Asn1.Props.C58_symm",
    "Asn1.Props.C58_trans",
    "Asn1.Props.C58_values",
    "Asn1.Props.C58_ber_fails",
    "Asn1.Props.C58_kinds_fails",
    "Asn1.Props.C58_segments_fails"
   ],
   "note": "For values a class keeps (Holds: contents octets that are read back), in native or other form, of all primitive classes with definite contents. Loaded values are compared by contents octets: BER allows several for one value (C58_ber_fails), and classes for the same ASN.1 type that read differently are equal (C58_kinds_fails). Subclasses that override the comparison are in C56. C58_segments_fails: a string in segments equals the one whose octets are the encodings of the segments."
  },
  {
   "property": "C59",
   "status": "proved",
   "theorems": [
    "Asn1.Props.C59_text",
    "Asn1.Props.C59_shows",
    "Asn1.Props.C59_labels",
    "Asn1.Props.C59_label_words",
    "Asn1.Props.C59_label_number",
    "Asn1.Props.C59_cached",
    "Asn1.Props.C59_bytes_fails"
   ],
   "note": "for all names over an abstract type of values; 'native' of the values is a parameter (their decoding is C50/C52)"
  },
  {
   "property": "C60",
   "status": "partial",
   "theorems": [
    "Asn1.Props.C60_own",
    "Asn1.Props.C60_authority",
    "Asn1.Props.C60_again",
    "Asn1.Props.C60_same",
    "Asn1.Props.C60_finds",
    "Asn1.Props.C60_order_fails",
    "Asn1.Props.C60_serial_fails",
    "Asn1.Props.C60_untag"
   ],
   "note": "Proved for all histories of reads and any hash function. False of the code when the first name of the extension is not a directory name (C60_order_fails: AttributeError); without serial number the result is bytes ending in ':None' (C60_serial_fails). Reads of the decoded structure are given as values or exceptions, as in C33 and C34."
  },
  {
   "property": "C61",
   "status": "partial",
   "theorems": [
    "Asn1.Props.C61_edits_partial",
    "Asn1.Props.C61_reload_partial",
    "Asn1.Props.C61_package_partial",
    "Asn1.Props.C61_length_128_fails"
   ],
   "note": "False as stated for headers whose last length octet is 0x80 (C61_length_128_fails) and for changes inside a CHOICE (C44_in_choice). Proved for all histories of assignments, deletions and appends at any depth in SEQUENCE, SEQUENCE OF and SET OF of sound type definitions, in particular of the package's classes; not covered: fields whose type another field decides, changes inside the deciding field, lists of CHOICE or ANY elements that are opened, reads and dumps in between."
  },
  {
   "property": "C62",
   "status": "partial",
   "theorems": [
    "Asn1.Props.C62_choice_partial",
    "Asn1.Props.C62_map_partial",
    "Asn1.Props.C62_sequence_partial",
    "Asn1.Props.C62_set_partial",
    "Asn1.Props.C62_ends",
    "Asn1.Props.C62_choice_first",
    "Asn1.Props.C62_map_first",
    "Asn1.Props.C62_sequence_first",
    "Asn1.Props.C62_set_first",
    "Asn1.Props.C62_map_fails",
    "Asn1.Props.C62_choice_fails",
    "Asn1.Props.C62_sequence_fails"
   ],
   "note": "The code violates the property under some schedules (C62_map_fails, C62_choice_fails, C62_sequence_fails). Proved: dict tables after all threads are done, for all schedules; no schedule gets stuck; everything, if one thread completes the first use before others begin."
  },
  {
   "property": "C63",
   "status": "partial",
   "theorems": [
    "Asn1.Props.C63_others_partial",
    "Asn1.Props.C63_version_partial",
    "Asn1.Props.C63_v1_fails",
    "Asn1.Props.C63_repair_partial"
   ],
   "note": "Proved: elements with any other tag load as the plain CHOICE does (and so as C51 states); certificates tagged version 1 load as such when a version other than v2 is written out with a one-octet length, and as version 2 when it is v2. The code violates the rest: without the version, as in DER, no version 1 certificate loads (C63_v1_fails). Not proved: certificates whose first element is none of these."
  },
  {
   "property": "C64",
   "status": "proved",
   "theorems": [
    "Asn1.Props.C64_wrap",
    "Asn1.Props.C64_refused"
   ],
   "note": "wrap for DSA keys: what is written, what is read back and the public value kept, for bytes and instances; what is refused"
  },
  {
   "property": "C65",
   "status": "partial",
   "theorems": [
    "Asn1.Props.C65_wrap_partial",
    "Asn1.Props.C65_too_big",
    "Asn1.Props.C65_refused",
    "Asn1.Props.C65_unknown_curve",
    "Asn1.Props.C65_no_curve",
    "Asn1.Props.C65_indefinite_fails"
   ],
   "note": "The bytes of a key whose SEQUENCE header ends with the octet 80 are excluded in C65_wrap_partial: the code encodes them anew and may drop zero octets (C65_indefinite_fails)."
  },
  {
   "property": "C66",
   "status": "partial",
   "theorems": [
    "Asn1.Props.C66_prepared_partial",
    "Asn1.Props.C66_refused_partial",
    "Asn1.Props.C66_bytes_refused",
    "Asn1.Props.C66_bytes",
    "Asn1.Props.C66_variation_fails"
   ],
   "note": "Proved for text without the characters U+FE00-U+FF00, which the code treats differently from RFC 4518 (C66_variation_fails). The Unicode tables are parameters."
  },
  {
   "property": "C67",
   "status": "partial",
   "theorems": [
    "Asn1.Props.C67_package_partial",
    "Asn1.Props.C67_loaded_partial",
    "Asn1.Props.C67_choice_partial",
    "Asn1.Props.C67_built_partial",
    "Asn1.Props.C67_tagged_fails",
    "Asn1.Props.C67_absent_fails"
   ],
   "note": "Conditions of C15 (loaded; for the package C67_package_partial) and C53 (built). Values with field tags and absent fields violate the property (C67_tagged_fails, C67_absent_fails)."
  },
  {
   "property": "C68",
   "status": "partial",
   "theorems": [
    "Asn1.Props.C68_load",
    "Asn1.Props.C68_dump_partial",
    "Asn1.Props.C68_back",
    "Asn1.Props.C68_number",
    "Asn1.Props.C68_read",
    "Asn1.Props.C68_refused",
    "Asn1.Props.C68_implicit_fails"
   ],
   "note": "C68_load: the cast of a loaded value equals, as a whole, the value loaded with the other class, for any explicit tags and length form, without implicit tag. C68_read: with any tags it reads the same as that value. C68_number: an OCTET STRING read as a number. C68_dump_partial: the encoding is kept for values in definite form with a header or without implicit tag. C68_back, C68_refused. C68_implicit_fails: the implicit tag is lost when the header is written again. Missing: dump of casts of built values in indefinite form (such values cannot be built)."
  },
  {
   "property": "C69",
   "status": "partial",
   "theorems": [
    "Asn1.Props.C69_iff",
    "Asn1.Props.C69_other_class",
    "Asn1.Props.C69_absent",
    "Asn1.Props.C69_loaded",
    "Asn1.Props.C69_values",
    "Asn1.Props.C69_constructed_fails",
    "Asn1.Props.C69_ber_fails",
    "Asn1.Props.C69_constructed_witness"
   ],
   "note": "C69_iff: for any list of primitive elements the answer is exactly whether one has the type and contents octets of the item. C69_loaded: in terms of the elements of the encoding. C69_values: in terms of values, for DER. C69_other_class, C69_absent. C69_constructed_fails: elements of constructed classes are compared by identity; C69_ber_fails: other BER forms are not found. Missing: classes of x509.py with a comparison of their own (C35, C57), lists built from Python values in terms of values."
  },
  {
   "property": "C70",
   "status": "partial",
   "theorems": [
    "Asn1.Props.C70_loaded_partial",
    "Asn1.Props.C70_text",
    "Asn1.Props.C70_text_injective",
    "Asn1.Props.C70_key",
    "Asn1.Props.C70_stale_fails",
    "Asn1.Props.C70_key_fails"
   ],
   "note": "C70_loaded_partial: for all classes of the package, under the conditions of C15. C70_text, C70_text_injective: the text form in full. C70_key: what the fingerprint of a public key is the digest of. C70_stale_fails and C70_key_fails: the property is violated after changes and for public keys."
  },
  {
   "property": "C71",
   "status": "partial",
   "theorems": [
    "Asn1.Props.C71_get",
    "Asn1.Props.C71_outside",
    "Asn1.Props.C71_not_value",
    "Asn1.Props.C71_set",
    "Asn1.Props.C71_len",
    "Asn1.Props.C71_history",
    "Asn1.Props.C71_dump",
    "Asn1.Props.C71_built",
    "Asn1.Props.C71_too_many",
    "Asn1.Props.C71_reload",
    "Asn1.Props.C71_empty_fails",
    "Asn1.Props.C71_short_fails",
    "Asn1.Props.C71_class_fails"
   ],
   "note": "Proved: construction from all values, item access, KeyError outside, assignment, dump as concatenation and splitting on reload. False of the code and proved so: assignment of another class, missing values, instances without value. Copies and iteration are not modelled."
  },
  {
   "property": "C72",
   "status": "partial",
   "theorems": [
    "Asn1.Props.C72_domains_partial",
    "Asn1.Props.C72_ips_partial",
    "Asn1.Props.C72_ca",
    "Asn1.Props.C72_path",
    "Asn1.Props.C72_issuer_partial",
    "Asn1.Props.C72_domains_fails",
    "Asn1.Props.C72_ca_fails",
    "Asn1.Props.C72_issuer_fails"
   ],
   "note": "Proved for all histories: ca and max_path_length without conditions; valid_domains, valid_ips and issuer_name when what they read can be decoded. False of the code and proved so when it cannot: the second read does not raise."
  },
  {
   "property": "C73",
   "status": "partial",
   "theorems": [
    "Asn1.Props.C73_names_partial",
    "Asn1.Props.C73_first",
    "Asn1.Props.C73_round_trip_partial",
    "Asn1.Props.C73_order_fails"
   ],
   "note": "Proved for all histories when only one class of the method resolution order defines names (this is so for all classes of the package, checked by reading the source, not in Lean), and for any class that is used before its bases. False of the code otherwise: C73_order_fails. Registering names of object identifiers at run time is in C10."
  },
  {
   "property": "C74",
   "status": "partial",
   "theorems": [
    "Asn1.Props.C74_declared",
    "Asn1.Props.C74_unknown",
    "Asn1.Props.C74_decided_partial",
    "Asn1.Props.C74_reads",
    "Asn1.Props.C74_refused",
    "Asn1.Props.C74_unread_fails",
    "Asn1.Props.C74_extension_fails"
   ],
   "note": "Fails for values loaded and not read when _oid_pair decides (C74_unread_fails); the rest is proved."
  },
  {
   "property": "C75",
   "status": "partial",
   "theorems": [
    "Asn1.Props.C75_means",
    "Asn1.Props.C75_class_partial",
    "Asn1.Props.C75_name_fails",
    "Asn1.Props.C75_tag_type",
    "Asn1.Props.C75_explicit_wins",
    "Asn1.Props.C75_dict",
    "Asn1.Props.C75_recognized_partial",
    "Asn1.Props.C75_class_key_fails",
    "Asn1.Props.C75_old_class_key_fails",
    "Asn1.Props.C75_two_tags_fails"
   ],
   "note": "Fails for unknown class names in explicit tags and for fields with class_ or several explicit tags in their params; the rest is proved."
  },
  {
   "property": "C76",
   "status": "partial",
   "theorems": [
    "Asn1.Props.C76_safe_partial",
    "Asn1.Props.C76_safe_again",
    "Asn1.Props.C76_safe_reads",
    "Asn1.Props.C76_signed_fails",
    "Asn1.Props.C76_stale_fails",
    "Asn1.Props.C76_decompressed",
    "Asn1.Props.C76_decompressed_again",
    "Asn1.Props.C76_decompressed_reads",
    "Asn1.Props.C76_response_partial",
    "Asn1.Props.C76_response_reads",
    "Asn1.Props.C76_absent_fails",
    "Asn1.Props.C76_reason"
   ],
   "note": "Fails for signed PKCS#12 files, OCSP responses without response bytes, and after assignments; the rest is proved."
  },
  {
   "property": "C77",
   "status": "partial",
   "theorems": [
    "Asn1.Props.C77_latest",
    "Asn1.Props.C77_names_partial",
    "Asn1.Props.C77_renamed_fails",
    "Asn1.Props.C77_name_again_fails"
   ],
   "note": "names registered one to one: both directions, independent of first use; latest name and width for every history. Repeated names or OIDs refuted (C77_renamed_fails, C77_name_again_fails)"
  },
  {
   "property": "C78",
   "status": "partial",
   "theorems": [
    "Asn1.Props.C78_algorithm",
    "Asn1.Props.C78_curve_partial",
    "Asn1.Props.C78_refused",
    "Asn1.Props.C78_reads",
    "Asn1.Props.C78_absent_fails",
    "Asn1.Props.C78_stale_fails"
   ],
   "note": "Fails for EC keys without parameters and for keys whose algorithm was assigned after it had been read; the rest is proved."
  },
  {
   "property": "C79",
   "status": "partial",
   "theorems": [
    "Asn1.Props.C79_from_bytes",
    "Asn1.Props.C79_not_negative",
    "Asn1.Props.C79_negative_iff",
    "Asn1.Props.C79_negative_fails",
    "Asn1.Props.C79_negative_width_partial",
    "Asn1.Props.C79_width_fails",
    "Asn1.Props.C79_unsigned_fails"
   ],
   "note": "Reading: proved for all octets. Writing: proved for all numbers that are not negative, and for negative numbers with the exact condition under which the versions agree (C79_negative_iff); with a width that is large enough likewise. False of the code for the other negative numbers, for widths that are too small, and in the kind of exception (the _fails theorems)."
  },
  {
   "property": "C80",
   "status": "partial",
   "theorems": [
    "Asn1.Props.C80_set",
    "Asn1.Props.C80_given_back",
    "Asn1.Props.C80_dump",
    "Asn1.Props.C80_round_trip_partial",
    "Asn1.Props.C80_alternatives",
    "Asn1.Props.C80_contents_fails"
   ],
   "note": "Which values are accepted, what the states read as, that their dump is that of NULL for all objects, and the round trip are proved; that only empty contents are loaded is refuted."
  },
  {
   "property": "C81",
   "status": "proved",
   "theorems": [
    "Asn1.Props.C81_accepted",
    "Asn1.Props.C81_same_name",
    "Asn1.Props.C81_name",
    "Asn1.Props.C81_equal",
    "Asn1.Props.C81_copy",
    "Asn1.Props.C81_parsed",
    "Asn1.Props.C81_convert",
    "Asn1.Props.C81_moment",
    "Asn1.Props.C81_back",
    "Asn1.Props.C81_no_dst"
   ],
   "note": "All offsets, names, times and zones; the standard library's functions are modelled after their Python source."
  },
  {
   "property": "C82",
   "status": "partial",
   "theorems": [
    "Asn1.Props.C82_dotted",
    "Asn1.Props.C82_same",
    "Asn1.Props.C82_forced_partial",
    "Asn1.Props.C82_empty_fails",
    "Asn1.Props.C82_lossy_fails"
   ],
   "note": "What any octets read as, when two contents read alike, and what a forced dump writes are proved for all octet strings; that contents not allowed by X.690 are refused is itself refuted."
  },
  {
   "property": "C83",
   "status": "partial",
   "theorems": [
    "Asn1.Props.C83_reads_fails",
    "Asn1.Props.C83_writes_fails",
    "Asn1.Props.C83_round_trip_partial",
    "Asn1.Props.C83_class",
    "Asn1.Props.C83_example_fails"
   ],
   "note": "The property is refuted for every list of arcs, reading and writing; only the round trip of texts that are OIDs is proved."
  },
  {
   "property": "C84",
   "status": "partial",
   "theorems": [
    "Asn1.Props.C84_accepts",
    "Asn1.Props.C84_kept_partial",
    "Asn1.Props.C84_kept_fails",
    "Asn1.Props.C84_read_fails",
    "Asn1.Props.C84_set",
    "Asn1.Props.C84_tagged",
    "Asn1.Props.C84_set_refused"
   ],
   "note": "Refuted for contents of 128 modulo 256 octets (AttributeError on dump), for native and for dump(force=True); proved for everything else. Under explicit tags the round trip of set values is proved."
  }
 ]
}