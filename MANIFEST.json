{
 "claims": [
  {
   "property": "C01",
   "status": "proved",
   "theorems": [
    "Props.C01_checksum_is_hex_of_xor",
    "Props.C01_hex_text_unique",
    "Props.C01_two_digits",
    "Props.C01_order_irrelevant",
    "Props.C01_checksum_eq_iff",
    "Props.C01_generate_checksum"
   ],
   "note": "Modelled: `calc_checksum`, `generate_checksum`. Proof: XOR fold vs. an independent specification of hexadecimal text; permutation invariance by induction."
  },
  {
   "property": "C02",
   "status": "proved",
   "theorems": [
    "Props.C02_corruption_rejected",
    "Props.C02_byte_corruption_rejected"
   ],
   "note": "Modelled: `get_parts`, `parse`. Proof: XOR cancels: one changed character changes the XOR; acceptance unfolded to the specification `HasContent`."
  },
  {
   "property": "C03",
   "status": "proved",
   "theorems": [
    "Props.C03_accept_implies_checksum",
    "Props.C03_wrong_checksum_rejected",
    "Props.C03_checksum_text_irrelevant"
   ],
   "note": "Modelled: `get_parts`, `parse`. Proof: XOR cancels: one changed character changes the XOR; acceptance unfolded to the specification `HasContent`."
  },
  {
   "property": "C04",
   "status": "proved",
   "theorems": [
    "Props.C04_serialize",
    "Props.C04_bytes",
    "Props.C04_bytes_total",
    "Props.C04_canonical",
    "Props.C04_reparse",
    "Props.C04_snc_counterexample"
   ],
   "note": "Modelled: `get_parts`, `serialize`, UTF-8. Proof: string algebra of split/strip/join, UTF-8 decode/encode inverse. Where the plain claim fails of the code, proved as: C04_snc_counterexample."
  },
  {
   "property": "C05",
   "status": "proved",
   "theorems": [
    "Props.C05_generate",
    "Props.C05_wire_text",
    "Props.C05_talkers_split",
    "Props.C05_accepted",
    "Props.C05_same"
   ],
   "note": "Modelled: keyword path of the constructor. Proof: the attribute loop refines the relation `Emit` (spec of what is written); induction over definitions."
  },
  {
   "property": "C06",
   "status": "proved",
   "theorems": [
    "Nmea.C06_text",
    "Nmea.C06_int",
    "Nmea.C06_int_limit",
    "Nmea.C06_decimal",
    "Nmea.C06_unknown",
    "Nmea.C06_nominal",
    "Nmea.C06_long_date",
    "Nmea.C06_empty",
    "Nmea.C06_nominal_wire"
   ],
   "note": "Modelled: `str2val`, `val2str`, `nomval`. Proof: per type; decimals by shortest-repr/correct-rounding argument."
  },
  {
   "property": "C07",
   "status": "proved",
   "theorems": [
    "Nmea.C07_round_trip",
    "Nmea.C07_reading",
    "Nmea.C07_text_round_trip",
    "Nmea.C07_shape",
    "Nmea.C07_field",
    "Nmea.C07_invalid",
    "Nmea.C07_bool",
    "Nmea.C07_short",
    "Nmea.C07_sixty",
    "Nmea.C07_int"
   ],
   "note": "Modelled: `ddd2dmm`, `dmm2ddd`, `deg2dms`, `deg2dmm`, `dms2deg`, `latlon2dm*`, `llh2iso6709`. Proof: binary64 error analysis of each operation; regular expression as explicit grammar."
  },
  {
   "property": "C08",
   "status": "proved",
   "theorems": [
    "Props.C08_sign",
    "Props.C08_builtin",
    "Props.C08_builtin_sign",
    "Props.C08_numeric",
    "Props.C08_unsigned"
   ],
   "note": "Modelled: attribute loop. Proof: invariant over the loop for all definitions, then the built-in tables."
  },
  {
   "property": "C09",
   "status": "proved",
   "theorems": [
    "Props.C09_direction",
    "Props.C09_magnitude",
    "Props.C09_builtin",
    "Props.C09_other_names_counterexample"
   ],
   "note": "Modelled: attribute loop. Proof: invariant over the loop for all definitions, then the built-in tables. Where the plain claim fails of the code, proved as: C09_other_names_counterexample."
  },
  {
   "property": "C10",
   "status": "proved",
   "theorems": [
    "Nmea.C10_window",
    "Nmea.C10_round_trip",
    "Nmea.C10_outside",
    "Nmea.C10_long",
    "Nmea.C10_long_early",
    "Nmea.C10_field",
    "Nmea.C10_valid"
   ],
   "note": "Modelled: `date2str`, `date2utc`, `time2str`, `time2utc`. Proof: `strptime` as the backtracking regex of CPython's `_strptime`."
  },
  {
   "property": "C11",
   "status": "proved",
   "theorems": [
    "Nmea.C11_round_trip",
    "Nmea.C11_reads",
    "Nmea.C11_valid",
    "Nmea.C11_text"
   ],
   "note": "Modelled: `date2str`, `date2utc`, `time2str`, `time2utc`. Proof: `strptime` as the backtracking regex of CPython's `_strptime`."
  },
  {
   "property": "C12",
   "status": "proved",
   "theorems": [
    "Props.C12_lossless",
    "Props.C12_rejects",
    "Props.C12_unique",
    "Props.C12_total"
   ],
   "note": "Modelled: `get_parts`, `serialize`, UTF-8. Proof: string algebra of split/strip/join, UTF-8 decode/encode inverse."
  },
  {
   "property": "C13",
   "status": "proved",
   "theorems": [
    "Props.C13_exceptions",
    "Props.C13_documented",
    "Props.C13_index_escapes",
    "Props.C13_counterexample",
    "Props.C13_counterexample_zero"
   ],
   "note": "Modelled: `parse`, constructor, definition lookup. Proof: case analysis with exceptions as values. Where the plain claim fails of the code, proved as: C13_counterexample, C13_counterexample_zero."
  },
  {
   "property": "C14",
   "status": "proved",
   "theorems": [
    "Props.C14_none_iff",
    "Props.C14_rejected_when_on"
   ],
   "note": "Modelled: `parse`, constructor, definition lookup. Proof: case analysis with exceptions as values."
  },
  {
   "property": "C15",
   "status": "proved",
   "theorems": [
    "Props.C15_positional",
    "Props.C15_flat",
    "Props.C15_builtin"
   ],
   "note": "Modelled: attribute loop, getters, `__str__`. Proof: refinement of the recursive routine to a flat positional specification (`Expand`, `readSlots`); texts of values by a separate relation (`Spec/Shown`)."
  },
  {
   "property": "C16",
   "status": "proved",
   "theorems": [
    "Props.C16_layout",
    "Props.C16_unique",
    "Props.C16_builtin",
    "Props.C16_group"
   ],
   "note": "Modelled: attribute loop, getters, `__str__`. Proof: refinement of the recursive routine to a flat positional specification (`Expand`, `readSlots`); texts of values by a separate relation (`Spec/Shown`)."
  },
  {
   "property": "C17",
   "status": "proved",
   "theorems": [
    "Props.C17_short_ok",
    "Props.C17_empty",
    "Props.C17_bounded",
    "Props.C17_truncate",
    "Props.C17_surplus",
    "Props.C17_named_counterexample"
   ],
   "note": "Modelled: attribute loop, getters, `__str__`. Proof: refinement of the recursive routine to a flat positional specification (`Expand`, `readSlots`); texts of values by a separate relation (`Spec/Shown`). Where the plain claim fails of the code, proved as: C17_named_counterexample."
  },
  {
   "property": "C18",
   "status": "proved",
   "theorems": [
    "Props.C18_nominal",
    "Props.C18_unknown_id"
   ],
   "note": "Modelled: attribute loop, getters, `__str__`. Proof: refinement of the recursive routine to a flat positional specification (`Expand`, `readSlots`); texts of values by a separate relation (`Spec/Shown`)."
  },
  {
   "property": "C19",
   "status": "proved",
   "theorems": [
    "Props.C19_constructor_rejects",
    "Props.C19_parse_rejects",
    "Props.C19_accept_implies_known",
    "Props.C19_off",
    "Props.C19_constructor_undefined",
    "Props.C19_constructor_known"
   ],
   "note": "Modelled: `parse`, constructor, definition lookup. Proof: case analysis with exceptions as values."
  },
  {
   "property": "C20",
   "status": "proved",
   "theorems": [
    "Props.C20_keyword_order"
   ],
   "note": "Modelled: constructor, `parse`. Proof: congruence/simulation: two runs in lock-step."
  },
  {
   "property": "C21",
   "status": "proved",
   "theorems": [
    "Props.C21_payload_only",
    "Props.C21_clash_counterexample",
    "Props.C21_mode_rejected"
   ],
   "note": "Modelled: constructor, `parse`. Proof: congruence/simulation: two runs in lock-step. Where the plain claim fails of the code, proved as: C21_clash_counterexample."
  },
  {
   "property": "C22",
   "status": "proved",
   "theorems": [
    "Props.C22_immutable",
    "Props.C22_wire_stable",
    "Props.C22_delete_counterexample",
    "Props.C22_edited_payload",
    "Props.C22_swapped_counterexample"
   ],
   "note": "Modelled: `__setattr__`. Proof: object histories as step function; induction over operations. Where the plain claim fails of the code, proved as: C22_delete_counterexample, C22_swapped_counterexample."
  },
  {
   "property": "C23",
   "status": "proved",
   "theorems": [
    "Nmea.C23_every_stream",
    "Nmea.C23_sentences_in_order",
    "Nmea.C23_prefix"
   ],
   "note": "Modelled: `NMEAReader.read`, iteration. Proof: well-founded recursion over any stream with a progress order; induction."
  },
  {
   "property": "C24",
   "status": "proved",
   "theorems": [
    "Nmea.C24_raw_slices",
    "Nmea.C24_raw_slices_file",
    "Nmea.C24_raw_slices_socket"
   ],
   "note": "Modelled: `NMEAReader.read`, iteration. Proof: well-founded recursion over any stream with a progress order; induction."
  },
  {
   "property": "C25",
   "status": "proved",
   "theorems": [
    "Nmea.C25_error_policy",
    "Nmea.C25_session_unique",
    "Nmea.C25_session_calls"
   ],
   "note": "Modelled: `NMEAReader.read`, iteration. Proof: well-founded recursion over any stream with a progress order; induction."
  },
  {
   "property": "C26",
   "status": "proved",
   "theorems": [
    "Nmea.C26_reading_ends",
    "Nmea.C26_progress"
   ],
   "note": "Modelled: `NMEAReader.read`, iteration. Proof: well-founded recursion over any stream with a progress order; induction."
  },
  {
   "property": "C27",
   "status": "proved",
   "theorems": [
    "Nmea.C27_foreign_header",
    "Nmea.C27_junk_silent",
    "Nmea.C27_errors_without"
   ],
   "note": "Modelled: `NMEAReader.read`, iteration. Proof: well-founded recursion over any stream with a progress order; induction."
  },
  {
   "property": "C28",
   "status": "proved",
   "theorems": [
    "Nmea.C28_stop_iff",
    "Nmea.C28_stop_exhausted",
    "Nmea.C28_loop_end"
   ],
   "note": "Modelled: `NMEAReader.read`, iteration. Proof: well-founded recursion over any stream with a progress order; induction."
  },
  {
   "property": "C29",
   "status": "proved",
   "theorems": [
    "Nmea.C29_calls_of_wire",
    "Nmea.C29_segmentation",
    "Nmea.C29_reader"
   ],
   "note": "Modelled: `SocketWrapper`. Proof: state machine driven by a script of `recv` outcomes; refinement to a byte queue."
  },
  {
   "property": "C30",
   "status": "proved",
   "theorems": [
    "Nmea.C30_all_or_nothing",
    "Nmea.C30_fifo",
    "Nmea.C30_content",
    "Nmea.C30_read_result"
   ],
   "note": "Modelled: `SocketWrapper`. Proof: state machine driven by a script of `recv` outcomes; refinement to a byte queue."
  },
  {
   "property": "C31",
   "status": "proved",
   "theorems": [
    "Nmea.C31_readline",
    "Nmea.C31_exhaustive"
   ],
   "note": "Modelled: `SocketWrapper`. Proof: state machine driven by a script of `recv` outcomes; refinement to a byte queue."
  },
  {
   "property": "C32",
   "status": "proved",
   "theorems": [
    "Nmea.C32_decoded_is_file",
    "Nmea.C32_socket_is_file",
    "Nmea.C32_bare_lf_counterexample"
   ],
   "note": "Modelled: `SocketWrapper`. Proof: state machine driven by a script of `recv` outcomes; refinement to a byte queue. Where the plain claim fails of the code, proved as: C32_bare_lf_counterexample."
  },
  {
   "property": "C33",
   "status": "proved",
   "theorems": [
    "Nmea.C33_dechunk",
    "Nmea.C33_dechunk_plain"
   ],
   "note": "Modelled: `dechunk`. Proof: induction over chunk lists and over segmentations; zlib arbitrary."
  },
  {
   "property": "C34",
   "status": "proved",
   "theorems": [
    "Nmea.C34_clean_cuts",
    "Nmea.C34_flags",
    "Nmea.C34_reader",
    "Nmea.C34_cut_before_crlf_counterexample",
    "Nmea.C34_cut_in_crlf_counterexample"
   ],
   "note": "Modelled: `dechunk`. Proof: induction over chunk lists and over segmentations; zlib arbitrary. Where the plain claim fails of the code, proved as: C34_cut_before_crlf_counterexample, C34_cut_in_crlf_counterexample."
  },
  {
   "property": "C35",
   "status": "proved",
   "theorems": [
    "Nmea.C35_complete_chunks",
    "Nmea.C35_decompression",
    "Nmea.C35_buffer"
   ],
   "note": "Modelled: `dechunk`. Proof: induction over chunk lists and over segmentations; zlib arbitrary."
  },
  {
   "property": "C36",
   "status": "proved",
   "theorems": [
    "Nmea.C36_value",
    "Nmea.C36_intervals",
    "Nmea.C36_now",
    "Nmea.C36_monotone",
    "Nmea.C36_epoch"
   ],
   "note": "Modelled: `leapsecond`, `utc2wnotow`, `wnotow2utc`. Proof: microsecond arithmetic, binary64 for `total_seconds`, induction for autoroll."
  },
  {
   "property": "C37",
   "status": "proved",
   "theorems": [
    "Nmea.C37_supplied",
    "Nmea.C37_derived",
    "Nmea.C37_close",
    "Nmea.C37_last_seconds",
    "Nmea.C37_autoroll",
    "Nmea.C37_counterexamples"
   ],
   "note": "Modelled: `leapsecond`, `utc2wnotow`, `wnotow2utc`. Proof: microsecond arithmetic, binary64 for `total_seconds`, induction for autoroll. Where the plain claim fails of the code, proved as: C37_counterexamples."
  },
  {
   "property": "C38",
   "status": "proved",
   "theorems": [
    "Nmea.C38_errors",
    "Nmea.C38_latest",
    "Nmea.C38_not_future",
    "Nmea.C38_past",
    "Nmea.C38_succeeds",
    "Nmea.C38_documented"
   ],
   "note": "Modelled: `leapsecond`, `utc2wnotow`, `wnotow2utc`. Proof: microsecond arithmetic, binary64 for `total_seconds`, induction for autoroll."
  },
  {
   "property": "C39",
   "status": "proved",
   "theorems": [
    "Nmea.C39_value",
    "Nmea.C39_range",
    "Nmea.C39_overrun"
   ],
   "note": "Modelled: `leapsecond`, `utc2wnotow`, `wnotow2utc`. Proof: microsecond arithmetic, binary64 for `total_seconds`, induction for autoroll."
  },
  {
   "property": "C40",
   "status": "proved",
   "theorems": [
    "Props.C40_groupsize",
    "Props.C40_error",
    "Props.C40_order",
    "Props.C40_counterexamples"
   ],
   "note": "Modelled: `groupsize`, `msgdesc`, `hex2str`, `knots2spd`. Proof: direct. Where the plain claim fails of the code, proved as: C40_counterexamples."
  },
  {
   "property": "C41",
   "status": "proved",
   "theorems": [
    "Props.C41_msgdesc"
   ],
   "note": "Modelled: `groupsize`, `msgdesc`, `hex2str`, `knots2spd`. Proof: direct."
  },
  {
   "property": "C42",
   "status": "proved",
   "theorems": [
    "Nmea.Geo.C42_haversine",
    "Nmea.Geo.C42_haversine_metric",
    "Nmea.Geo.C42_haversine_zero",
    "Nmea.Geo.C42_bearing_range",
    "Nmea.Geo.C42_bearing",
    "Nmea.Geo.C42_planar",
    "Nmea.Geo.C42_planar_zero",
    "Nmea.Geo.C42_planar_meridian",
    "Nmea.Geo.C42_planar_asymmetric",
    "Nmea.Geo.C42_area",
    "Nmea.Geo.C42_area_symmetric"
   ],
   "note": "Modelled: `haversine`, `planar`, `bearing`, `area`. Proof: over the reals: equality with the central angle of unit vectors (Mathlib)."
  },
  {
   "property": "C43",
   "status": "proved",
   "theorems": [
    "Nmea.Geo.C43_llh2ecef",
    "Nmea.Geo.C43_total",
    "Nmea.Geo.C43_core",
    "Nmea.Geo.C43_longitude",
    "Nmea.Geo.C43_equator",
    "Nmea.Geo.C43_pole",
    "Nmea.Geo.C43_mirror",
    "Nmea.Geo.C43_sign",
    "Nmea.Geo.C43_round_trip"
   ],
   "note": "Modelled: `llh2ecef`, `ecef2llh`. Proof: over the reals: error bound of the closed-form iteration by contraction arguments."
  },
  {
   "property": "C44",
   "status": "proved",
   "theorems": [
    "Nmea.C44_dmm_format",
    "Nmea.C44_dms_format",
    "Nmea.C44_latlon",
    "Nmea.C44_invalid",
    "Nmea.C44_bool",
    "Nmea.C44_rejects",
    "Nmea.C44_reading",
    "Nmea.C44_bad_number",
    "Nmea.C44_sign",
    "Nmea.C44_round_trip",
    "Nmea.C44_unreadable"
   ],
   "note": "Modelled: `ddd2dmm`, `dmm2ddd`, `deg2dms`, `deg2dmm`, `dms2deg`, `latlon2dm*`, `llh2iso6709`. Proof: binary64 error analysis of each operation; regular expression as explicit grammar."
  },
  {
   "property": "C45",
   "status": "proved",
   "theorems": [
    "Props.C45_inverse",
    "Props.C45_digits",
    "Props.C45_unpadded",
    "Props.C45_counterexample"
   ],
   "note": "Modelled: `groupsize`, `msgdesc`, `hex2str`, `knots2spd`. Proof: direct. Where the plain claim fails of the code, proved as: C45_counterexample."
  },
  {
   "property": "C46",
   "status": "proved",
   "theorems": [
    "Props.C46_key",
    "Props.C46_value",
    "Props.C46_case",
    "Props.C46_accuracy"
   ],
   "note": "Modelled: `groupsize`, `msgdesc`, `hex2str`, `knots2spd`. Proof: direct."
  },
  {
   "property": "C47",
   "status": "proved",
   "theorems": [
    "Props.C47_typed",
    "Props.C47_counters",
    "Props.C47_names",
    "Props.C47_tables_nodup",
    "Props.C47_LR2"
   ],
   "note": "Modelled: tables, variant selection. Proof: `decide +kernel` over the complete finite tables, plus lemmas for every payload."
  },
  {
   "property": "C48",
   "status": "proved",
   "theorems": [
    "Props.C48_variant",
    "Props.C48_geofence_dis",
    "Props.C48_by_content"
   ],
   "note": "Modelled: tables, variant selection. Proof: `decide +kernel` over the complete finite tables, plus lemmas for every payload."
  },
  {
   "property": "C49",
   "status": "proved",
   "theorems": [
    "Props.C49_rebuild",
    "Props.C49_no_definition_counterexample",
    "Props.C49_user_defined_counterexample",
    "Props.C49_bracketed"
   ],
   "note": "Modelled: `__repr__`. Proof: grammar of Python string literals; escaping is inverted; unambiguity by induction; bracketed sentences by the characterisation of received messages (C16), whose converted texts do not change when brackets are removed twice. Where the plain claim fails of the code, proved as: C49_no_definition_counterexample, C49_user_defined_counterexample."
  },
  {
   "property": "C50",
   "status": "proved",
   "theorems": [
    "Props.C50_getters",
    "Props.C50_payload",
    "Props.C50_identity",
    "Props.C50_not_shadowed",
    "Props.C50_not_shadowed_example",
    "Props.C50_methods",
    "Props.C50_methods_example"
   ],
   "note": "Modelled: attribute loop, getters, `__str__`. Proof: refinement of the recursive routine to a flat positional specification (`Expand`, `readSlots`); texts of values by a separate relation (`Spec/Shown`)."
  },
  {
   "property": "C51",
   "status": "proved",
   "theorems": [
    "Props.C51_standard",
    "Props.C51_proprietary",
    "Props.C51_user",
    "Props.C51_no_override",
    "Props.C51_parse_builtin",
    "Props.C51_lower_case_user",
    "Props.C51_TNLGGKx_dead",
    "Props.C51_poll_dead",
    "Props.C51_undefined_standard"
   ],
   "note": "Modelled: `parse`, constructor, definition lookup. Proof: case analysis with exceptions as values."
  },
  {
   "property": "C52",
   "status": "proved",
   "theorems": [
    "Props.C52_str",
    "Props.C52_nominal",
    "Props.C52_once",
    "Props.C52_total",
    "Props.C52_empty_name_counterexample",
    "Props.Shown.C52_values",
    "Props.Shown.C52_values_distinct",
    "Props.Shown.C52_text_field",
    "Props.Shown.C52_values_example"
   ],
   "note": "Modelled: attribute loop, getters, `__str__`. Proof: refinement of the recursive routine to a flat positional specification (`Expand`, `readSlots`); texts of values by a separate relation (`Spec/Shown`). Where the plain claim fails of the code, proved as: C52_empty_name_counterexample."
  },
  {
   "property": "C53",
   "status": "proved",
   "theorems": [
    "Props.C53_valid_checksum",
    "Props.C53_payload_checksum",
    "Props.C53_no_definition_counterexample"
   ],
   "note": "Modelled: keyword path of the constructor. Proof: the attribute loop refines the relation `Emit` (spec of what is written); induction over definitions. Where the plain claim fails of the code, proved as: C53_no_definition_counterexample."
  },
  {
   "property": "C54",
   "status": "proved",
   "theorems": [
    "Nmea.C54_reading",
    "Props.C54_signs",
    "Props.C54_altitude_counterexample",
    "Props.C54_altitude"
   ],
   "note": "Modelled: `ddd2dmm`, `dmm2ddd`, `deg2dms`, `deg2dmm`, `dms2deg`, `latlon2dm*`, `llh2iso6709`. Proof: binary64 error analysis of each operation; regular expression as explicit grammar. Where the plain claim fails of the code, proved as: C54_altitude_counterexample."
  },
  {
   "property": "C55",
   "status": "proved",
   "theorems": [
    "Nmea.C55_resync",
    "Nmea.C55_dollar_counterexample"
   ],
   "note": "Modelled: `NMEAReader.read`, iteration. Proof: well-founded recursion over any stream with a progress order; induction. Where the plain claim fails of the code, proved as: C55_dollar_counterexample."
  },
  {
   "property": "C56",
   "status": "proved",
   "theorems": [
    "Nmea.C56_locality",
    "Nmea.C56_locality_all"
   ],
   "note": "Modelled: `NMEAReader.read`, iteration. Proof: well-founded recursion over any stream with a progress order; induction."
  },
  {
   "property": "C57",
   "status": "proved",
   "theorems": [
    "Props.C57_parse",
    "Props.C57_generate"
   ],
   "note": "Modelled: constructor, `parse`. Proof: congruence/simulation: two runs in lock-step."
  },
  {
   "property": "C58",
   "status": "proved",
   "theorems": [
    "Props.C58_text_or_bytes",
    "Props.C58_framing",
    "Props.C58_core",
    "Props.C58_not_text"
   ],
   "note": "Modelled: constructor, `parse`. Proof: congruence/simulation: two runs in lock-step."
  },
  {
   "property": "C59",
   "status": "proved",
   "theorems": [
    "Props.C59_other_definitions",
    "Props.C59_builtin"
   ],
   "note": "Modelled: constructor, `parse`. Proof: congruence/simulation: two runs in lock-step."
  },
  {
   "property": "C60",
   "status": "proved",
   "theorems": [
    "Props.C60_talker",
    "Props.C60_fail_alike"
   ],
   "note": "Modelled: constructor, `parse`. Proof: congruence/simulation: two runs in lock-step."
  },
  {
   "property": "C61",
   "status": "proved",
   "theorems": [
    "Props.C61_exact",
    "Props.C61_monotone"
   ],
   "note": "Modelled: constructor, `parse`. Proof: congruence/simulation: two runs in lock-step."
  },
  {
   "property": "C62",
   "status": "proved",
   "theorems": [
    "Props.C62_keywords",
    "Props.C62_extra"
   ],
   "note": "Modelled: constructor, `parse`. Proof: congruence/simulation: two runs in lock-step."
  },
  {
   "property": "C63",
   "status": "proved",
   "theorems": [
    "Props.C63_precision"
   ],
   "note": "Modelled: constructor, `parse`. Proof: congruence/simulation: two runs in lock-step."
  },
  {
   "property": "C64",
   "status": "proved",
   "theorems": [
    "Props.C64_value",
    "Props.C64_round_trip",
    "Props.C64_readable",
    "Props.C64_coordinate",
    "Props.C64_standard",
    "Props.C64_proprietary",
    "Props.C64_misread"
   ],
   "note": "Modelled: constructor, serialize, parse, reader, socket. Proof: composition of C05, C06, C07, C10, C11, C16, C23, C29."
  },
  {
   "property": "C65",
   "status": "proved",
   "theorems": [
    "Props.C65_lines",
    "Props.C65_copy",
    "Props.C65_generated"
   ],
   "note": "Modelled: constructor, serialize, parse, reader, socket. Proof: composition of C05, C06, C07, C10, C11, C16, C23, C29."
  },
  {
   "property": "C66",
   "status": "proved",
   "theorems": [
    "Props.C66_string",
    "Props.C66_repr",
    "Props.C66_unambiguous",
    "Props.C66_distinguishes",
    "Props.C66_rebuild",
    "Props.C66_checksum_counterexample",
    "Props.C66_quote_counterexample",
    "Props.C66_generated",
    "Props.C66_generated_standard",
    "Props.C66_generated_proprietary"
   ],
   "note": "Modelled: `__repr__`. Proof: grammar of Python string literals; escaping is inverted; unambiguity by induction; bracketed sentences by the characterisation of received messages (C16), whose converted texts do not change when brackets are removed twice. Where the plain claim fails of the code, proved as: C66_checksum_counterexample, C66_quote_counterexample."
  },
  {
   "property": "C67",
   "status": "proved",
   "theorems": [
    "Props.C67_every_port",
    "Props.C67_policies",
    "Props.C67_no_splice",
    "Props.C67_between_sentences",
    "Props.C67_cut_sentence"
   ],
   "note": "Modelled: reader over a serial port with timeouts. Proof: the reader's step function over an arbitrary interleaving of data and timeouts; induction."
  },
  {
   "property": "C68",
   "status": "proved",
   "theorems": [
    "Props.C68_reading",
    "Props.C68_unambiguous",
    "Props.C68_decimal_accuracy",
    "Props.C68_others",
    "Props.C68_unsigned",
    "Props.C68_complete"
   ],
   "note": "Modelled: tables, `parse`. Proof: `Spec/Nmea0183` is an independently written table of layouts, `Spec/Nmea0183More` the transcribed rest (`C68_complete`: together all but LR2 and FOO); every listed definition is shown to be that layout, then one proof for all layouts."
  },
  {
   "property": "C69",
   "status": "proved",
   "theorems": [
    "Props.C69_default",
    "Props.C69_made"
   ],
   "note": "Modelled: `nomval`, keyword path. Proof: one proof for any definition; the built-in tables by `decide +kernel`."
  },
  {
   "property": "C70",
   "status": "proved",
   "theorems": [
    "Nmea.GeoF.C70_haversine",
    "Nmea.GeoF.C70_haversine_same",
    "Nmea.GeoF.C70_haversine_earth",
    "Nmea.GeoF.C70_bearing_range",
    "Nmea.GeoF.C70_bearing",
    "Nmea.GeoF.C70_accurate_exists",
    "Nmea.GeoF.C70_area",
    "Nmea.GeoF.C70_planar",
    "Nmea.GeoF.C70_llh2ecef",
    "Nmea.GeoF.C70_area_symmetric",
    "Nmea.GeoF.C70_haversine_symmetric",
    "Nmea.GeoF.C70_planar_symmetric",
    "Nmea.GeoF.C70_even_exists"
   ],
   "note": "Modelled: `haversine`, `bearing`, `planar`, `area`, `llh2ecef` in binary64. Proof: forward error analysis (`Near x r \u03b5`), libm a parameter with an accuracy assumption (`Spec/GeoFloat.Accurate`, shown satisfiable); symmetry in the two points is exact, from `y - x` being `x - y` or its negation."
  },
  {
   "property": "C71",
   "status": "proved",
   "theorems": [
    "Nmea.GeoF.C71_ecef2llh",
    "Nmea.GeoF.C71_round_trip"
   ],
   "note": "Modelled: `ecef2llh` in binary64, alone and after `llh2ecef`. Proof: forward error analysis up to the first guess (only coarse closeness needed, `GuessNear`), the real Newton step from that guess (`Geodetic.newton_full`), forward error analysis of the float Newton step."
  },
  {
   "property": "C72",
   "status": "proved",
   "theorems": [
    "Props.C72_handler",
    "Props.C72_ignore",
    "Props.C72_converse",
    "Props.C72_plain",
    "Props.C72_port",
    "Props.C72_nothing_lost",
    "Props.C72_calls_unique"
   ],
   "note": "Modelled: exceptions from the stream object and from the error handler. Proof: `Model/ReaderExc`: the loop of `read` over streams whose methods may raise, handler = any function of its calls so far; events of passes are independent of the policy, outcomes are a fold over events; `C72_plain` embeds the other reader model."
  },
  {
   "property": "C73",
   "status": "proved",
   "theorems": [
    "Nmea.GeoF.C73_planar",
    "Nmea.GeoF.C73_planar_error",
    "Nmea.GeoF.C73_fifty_metres",
    "Nmea.GeoF.C73_planar_float",
    "Nmea.GeoF.C73_antimeridian"
   ],
   "note": "Modelled: `planar` against the great circle. Proof: exact difference of squared planar distance and squared chord, Taylor bounds of cosine, Jordan's inequality for the arc; combined with C70 for floats."
  },
  {
   "property": "C74",
   "status": "proved",
   "theorems": [
    "Props.Vendor.C74_reading",
    "Props.Vendor.C74_variants",
    "Props.Vendor.C74_acknowledged",
    "Props.Vendor.C74_refused",
    "Props.Vendor.C74_trimble_dates",
    "Props.Vendor.C74_satellites_dropped",
    "Props.Vendor.C74_brackets"
   ],
   "note": "Modelled: tables, definition lookup, `parse`. Proof: `Spec/Vendor` is a separate table of layouts of proprietary sentences (195, and 17 variants; the 57 of u-blox, Garmin, Trimble, Septentrio and similar were written from knowledge of the manufacturers' descriptions, the others transcribed from the library's payload descriptions); same proof as C68 (`Lemmas/Reading`), with counted groups; the attribute names are those the library documents."
  },
  {
   "property": "C75",
   "status": "proved",
   "theorems": [
    "Props.SocketFail.C75_socket_is_port",
    "Props.SocketFail.C75_open",
    "Props.SocketFail.C75_every_socket",
    "Props.SocketFail.C75_no_splice",
    "Props.SocketFail.C75_between_sentences",
    "Props.SocketFail.C75_cut_sentence"
   ],
   "note": "Modelled: `SocketWrapper` over a script with failures, repeated `read()`. Proof: simulation between the socket stream and the serial-port stream with timeouts (C55) on lines in which every LF follows CR; the results of C55 transfer."
  },
  {
   "property": "C76",
   "status": "proved",
   "theorems": [
    "Props.C76_writing",
    "Props.C76_vendor",
    "Props.C76_exponents",
    "Props.C76_others"
   ],
   "note": "Modelled: constructor with keywords, `val2str`, `nomval`, group expansion, against the independent layouts of C68 and C74 (`Spec/Writing`). Proof: induction over the definition along the layout (existence of a generation, then its shape); per kind of field an independent description of its text; shortest `repr` has an exponent exactly outside `[0.0001, 10**16)`."
  },
  {
   "property": "C77",
   "status": "proved",
   "theorems": [
    "Props.C77_reading_undisturbed",
    "Props.C77_peer_gets",
    "Props.C77_all_written",
    "Props.C77_partial_write",
    "Props.C77_waiting",
    "Props.C77_not_waiting",
    "Props.C77_waiting_count",
    "Props.C77_open",
    "Props.C77_refused_loses_data"
   ],
   "note": "Modelled: `SocketWrapper.write`, `in_waiting`, the constructor of `NMEAReader` (`Model/SocketIO`). Proof: two-directional state machine with scripts for `recv` and `send`; induction over the actions."
  },
  {
   "property": "C78",
   "status": "proved",
   "theorems": [
    "Props.C78_locked",
    "Props.C78_progress",
    "Props.C78_race_valid",
    "Props.C78_race_own_bytes",
    "Props.C78_race_file",
    "Props.C78_locked_example",
    "Props.C78_race_loses",
    "Props.C78_race_splices"
   ],
   "note": "Modelled: `NMEAReader.read` as a machine of single stream operations (`Model/Threads`). Proof: schedules are lists of thread numbers; refinement of the machine to `readMsg`, induction over schedules; progress by well-founded induction on the stream."
  },
  {
   "property": "C79",
   "status": "proved",
   "theorems": [
    "Props.Grow.C79_growing_is_port",
    "Props.Grow.C79_no_splice",
    "Props.Grow.C79_whole_sentences",
    "Props.Grow.C79_cut_sentence"
   ],
   "note": "Modelled: a growing file as the reader's stream (`Model/Growing`). Proof: for each operation the port's input that gives the same answer is constructed, composed over steps, calls and sessions; whole sentences by induction over the calls."
  },
  {
   "property": "C80",
   "status": "proved",
   "theorems": [
    "Props.Commands.C80_commands",
    "Props.Commands.C80_variants"
   ],
   "note": "Modelled: constructor with keywords in modes SET and POLL, definition lookup with keyword-selected variants. Proof: `Spec/Commands` is a separate table of commands and queries, transcribed from the library's payload descriptions (manuals are not available here), so it fixes what the library promises rather than what the manufacturers say; proof of C76 (`writing_core`) instantiated per mode; checks of the tables by kernel evaluation."
  },
  {
   "property": "C81",
   "status": "proved",
   "theorems": [
    "Props.Commands.C81_reading",
    "Props.Commands.C81_variants"
   ],
   "note": "Modelled: `parse` in modes SET and POLL. Proof: `reading_mode` (`Lemmas/Reading`), the proof of C68/C74 for any mode, instantiated with `Spec/Commands`."
  },
  {
   "property": "C82",
   "status": "proved",
   "theorems": [
    "Props.Decodes.C82_system",
    "Props.Decodes.C82_signal",
    "Props.Decodes.C82_signals_missing",
    "Props.Decodes.C82_quality",
    "Props.Decodes.C82_quality_labels",
    "Props.Decodes.C82_mode",
    "Props.Decodes.C82_mode_gns",
    "Props.Decodes.C82_flags",
    "Props.Decodes.C82_flags_text"
   ],
   "note": "Modelled: `nmeatypes_decodes.py` (`Model/Decodes`), `parse`. Proof: position and type of each coded field by kernel evaluation of the tables, value by C16; lookups characterised by membership."
  },
  {
   "property": "C83",
   "status": "proved",
   "theorems": [
    "Props.Queries.C83_made",
    "Props.Queries.C83_sent",
    "Props.Queries.C83_not_data",
    "Props.Queries.C83_no_commands"
   ],
   "note": "Modelled: constructor and `parse` in POLL and SET mode. Proof: C05 (generation) and C16 (layout) for the six one-field queries; C19 for the rejections."
  },
  {
   "property": "C84",
   "status": "proved",
   "theorems": [
    "Props.Gpx.C84_track",
    "Props.Gpx.C84_failure",
    "Props.Gpx.C84_has_point",
    "Props.Gpx.C84_position",
    "Props.Gpx.C84_log",
    "Props.Gpx.C84_stops",
    "Props.Gpx.C84_well_formed"
   ],
   "note": "Modelled: `examples/gpxtracker.py` (`Model/GpxTracker`). Proof: the loop against a relation between items and points (`Spec/GpxTracker`), C23, C14, C16, C68 for what is read; well-formed XML by a separate grammar (`Spec/Xml`)."
  },
  {
   "property": "C85",
   "status": "proved",
   "theorems": [
    "Props.Poller.C85_reading",
    "Props.Poller.C85_sending",
    "Props.Poller.C85_queues",
    "Props.Poller.C85_io_stops",
    "Props.Poller.C85_over",
    "Props.Poller.C85_process_stops",
    "Props.Poller.C85_printed",
    "Props.Poller.C85_sent",
    "Props.Poller.C85_not_sent",
    "Props.Poller.C85_queries",
    "Props.Poller.C85_query_written",
    "Props.Poller.C85_endless"
   ],
   "note": "Modelled: `examples/nmeapoller.py`: both threads, both queues, the event (`Model/Poller`). Proof: transition system, a schedule is a list of actions; an invariant over all schedules, ranking functions for stopping and for progress (`Spec/Poller`)."
  },
  {
   "property": "C86",
   "status": "proved",
   "theorems": [
    "Nmea.Datum.C86_total",
    "Nmea.Datum.C86_core",
    "Nmea.Datum.C86_longitude",
    "Nmea.Datum.C86_equator",
    "Nmea.Datum.C86_pole",
    "Nmea.Datum.C86_mirror",
    "Nmea.Datum.C86_sign",
    "Nmea.Datum.C86_round_trip",
    "Nmea.Datum.C86_datums"
   ],
   "note": "Modelled: `ecef2llh`, `llh2ecef` with the caller's ellipsoid; the ellipsoids of `examples/datums.py` (`Model/Datums`). Proof: the error analysis of C43 redone for a range of ellipsoids (`Lemmas/Datum*`, `Spec/Datum`): how close the series gives the first guess, then one Newton step with explicit second-order bounds."
  },
  {
   "property": "C87",
   "status": "proved",
   "theorems": [
    "Props.Web.C87_storable",
    "Props.Web.C87_json",
    "Props.Web.C87_ended",
    "Props.Web.C87_text",
    "Props.Web.C87_text_distinct",
    "Props.Web.C87_words",
    "Props.Web.C87_no_json",
    "Props.Web.C87_settings",
    "Props.Web.C87_reads",
    "Props.Web.C87_newest",
    "Props.Web.C87_any_time",
    "Props.Web.C87_death",
    "Props.Web.C87_fatal",
    "Props.Web.C87_quiet",
    "Props.Web.C87_stops"
   ],
   "note": "Modelled: `set_data`, `_read_thread`, `get_data` of `examples/webserver/nmeaserver.py`, `json.dumps` of texts and numbers (`Model/WebServer`). Proof: an invariant over all schedules relating the dictionary to the messages read (`Spec/WebServer`: newest value per entry, JSON of RFC 8259); C16 for which attributes a sentence has; shape of `repr` of floats."
  },
  {
   "property": "C88",
   "status": "proved",
   "theorems": [
    "Props.Reentrant.C88_timeline",
    "Props.Reentrant.C88_reads",
    "Props.Reentrant.C88_slices",
    "Props.Reentrant.C88_shared",
    "Props.Reentrant.C88_unique",
    "Props.Reentrant.C88_ends",
    "Props.Reentrant.C88_file",
    "Props.Reentrant.C88_plain"
   ],
   "note": "Modelled: `read` and `_do_error` with a handler that calls `read()` and uses the stream (`Model/Reentrant`: mutually inductive big-step relation over arbitrary handlers). Proof: mutual induction: the nested calls flatten to a sequence of calls with errors raised (`Spec/Reentrant.Timeline`); then C06-style slices; determinism and termination by well-founded induction on the stream."
  },
  {
   "property": "C89",
   "status": "proved",
   "theorems": [
    "Props.SocketAny.C89_every_socket",
    "Props.SocketAny.C89_bursts",
    "Props.SocketAny.C89_policies",
    "Props.SocketAny.C89_no_splice",
    "Props.SocketAny.C89_resync",
    "Props.SocketAny.C89_bare_lf",
    "Props.SocketAny.C89_chunked"
   ],
   "note": "Modelled: `SocketWrapper` and `read` as in C31/C75, without the condition that LF follows CR. Proof: the wrapper is read like a stream of `Option UInt8` with CR LF lines (simulation, `step_sim`); the specification `Spec/SocketAny` splits any bytes into pieces (existence and uniqueness by strong induction); a joined pair of sentences cannot have a valid checksum text because it contains LF."
  },
  {
   "property": "C90",
   "status": "proved",
   "theorems": [
    "Props.QuectelDemo.C90_sending",
    "Props.QuectelDemo.C90_prefix",
    "Props.QuectelDemo.C90_not_configured",
    "Props.QuectelDemo.C90_made",
    "Props.QuectelDemo.C90_complete",
    "Props.QuectelDemo.C90_printing",
    "Props.QuectelDemo.C90_printed",
    "Props.QuectelDemo.C90_queues",
    "Props.QuectelDemo.C90_stops"
   ],
   "note": "Modelled: `examples/quecteldemo.py`: the I/O thread of C85, the filtering processing thread, the statements of `main` with its variables (`Model/QuectelDemo`). Proof: simulation by the program of C85 with fewer messages printed; the list of sentences is a literal in the specification, obtained from the constructors by evaluation at one clock and independence of the clock for definitions without dates; an invariant relates what is put on the queue, the variables and the remaining statements."
  },
  {
   "property": "C91",
   "status": "proved",
   "theorems": [
    "Props.C91_detected",
    "Props.C91_exact",
    "Props.C91_bits",
    "Props.C91_burst",
    "Props.C91_burst_example",
    "Props.C91_star",
    "Props.C91_lost",
    "Props.C91_inserted",
    "Props.C91_reordered",
    "Props.C91_reordered_example"
   ],
   "note": "Modelled: `parse`, `get_parts`, `calc_checksum` as in C02/C03, any two messages with contents. Proof: an accepted sentence has the checksum of its content; two XORs agree iff every bit does, and bit `j` of an XOR is the parity of the characters with bit `j` (induction); a burst changes disjoint bits in two neighbours; C61 reduces acceptance with `VALCKSUM` to acceptance without."
  },
  {
   "property": "C92",
   "status": "proved",
   "theorems": [
    "Props.C92_star",
    "Props.C92_commas",
    "Props.C92_commas_example",
    "Props.C92_injected",
    "Props.C92_unnoticed",
    "Props.C92_text_message",
    "Props.C92_unnoticed_example"
   ],
   "note": "Modelled: the constructor from keywords and `serialize` (C05, C53), `parse`, `read` of a file. Proof: the wire text of C53 framed; at the first `*` the rest is no checksum (C91); cutting the joined fields at commas is cutting each field (`join_cut`); the bytes of a text are the bytes of its parts, so that the reader resynchronises at the line end (C55) or reads two sentences and junk (C23)."
  },
  {
   "property": "C93",
   "status": "proved",
   "theorems": [
    "Props.C93_nearby",
    "Props.C93_fields",
    "Props.C93_standard",
    "Props.C93_proprietary",
    "Props.C93_distance",
    "Props.C93_example"
   ],
   "note": "Modelled: the constructor, `serialize` and `parse` (C64), `haversine` over the reals (C42). Proof: C64 gives the coordinates within 1e-7 (1e-9) degrees, signs included; the built-in tables are checked: wherever `lat` and `lon` are coordinates, directions follow; the angle on the sphere is at most the difference of the latitudes plus that of the longitudes (triangle inequality via the corner point)."
  },
  {
   "property": "C94",
   "status": "proved",
   "theorems": [
    "Props.C94_file",
    "Props.C94_each_once",
    "Props.C94_slices",
    "Props.C94_datastream",
    "Props.C94_socket",
    "Props.C94_one_segment",
    "Props.C94_example",
    "Props.C94_socket_example"
   ],
   "note": "Modelled: `read` once per element of a list of settings on one stream (`Spec/Handover.lean`), file and socket. Proof: one pass takes exactly the first piece of `Pieces` whatever the settings; induction over the readers; sockets by simulation (C32) and by `content` of the wrapper made anew."
  },
  {
   "property": "C95",
   "status": "proved",
   "theorems": [
    "Props.Listing.C95_listing",
    "Props.Listing.C95_file",
    "Props.Listing.C95_socket",
    "Props.Listing.C95_heard",
    "Props.Listing.C95_count",
    "Props.Listing.C95_fails",
    "Props.Listing.C95_example",
    "Props.Listing.C95_socket_example"
   ],
   "note": "Modelled: `main` of both programs (`Model/Listing`): text printed, errors reported, exception; not Ctrl-C in nmeasocket.py. Proof: the loop over the events of the stream against `Listed` over the pieces (C23, C89), `str` never fails (C52), the exceptions of `parse` (C13, C14); listings exist and are unique."
  },
  {
   "property": "C96",
   "status": "proved",
   "theorems": [
    "Props.Prompt.C96_prompt",
    "Props.Prompt.C96_none",
    "Props.Prompt.C96_received",
    "Props.Prompt.C96_arrival",
    "Props.Prompt.C96_buffered",
    "Props.Prompt.C96_example"
   ],
   "note": "Modelled: `recv`, `fill`, `read`, `readline` of the wrapper and `read` of the reader (`Model/Socket`, `Model/Reader`) against the number of `recv` calls (`Spec/Prompt`: `recvs`). Proof: `Minimal`/`Drained` invariant through `fill`, `readlineFrom`, `step`, `readMsg`; `recv` commutes with dropping from the front of the buffer; conservation of content (C30); C89's stream for what is returned."
  },
  {
   "property": "C97",
   "status": "proved",
   "theorems": [
    "Props.HttpServer.C97_page",
    "Props.HttpServer.C97_verbatim",
    "Props.HttpServer.C97_no_page",
    "Props.HttpServer.C97_unknown",
    "Props.HttpServer.C97_isolation",
    "Props.HttpServer.C97_gps",
    "Props.HttpServer.C97_live",
    "Props.HttpServer.C97_favicon",
    "Props.HttpServer.C97_example"
   ],
   "note": "Modelled: `do_GET` (`Model/HttpServer`) with `open` in text mode (UTF-8, universal newlines); `guess_type` is a parameter; requests other than GET are not modelled. Proof: UTF-8 lemmas (C03) and byte-level `Newlines`; JSON text is ASCII; C87 for the data at any moment."
  },
  {
   "property": "C98",
   "status": "proved",
   "theorems": [
    "Props.Order.C98_order",
    "Props.Order.C98_distinct",
    "Props.Order.C98_writing",
    "Props.Order.C98_every"
   ],
   "note": "Modelled: the model of C68, C74 and C07. Proof: exact values of fields (`Spec/Order`), `dmm2ddd` and `ddd2dmm` as compositions of monotone roundings; distance from the accuracy of C07."
  },
  {
   "property": "C99",
   "status": "proved",
   "theorems": [
    "Props.Benchmark.C99_messages",
    "Props.Benchmark.C99_bar",
    "Props.Benchmark.C99_few",
    "Props.Benchmark.C99_none",
    "Props.Benchmark.C99_runs",
    "Props.Benchmark.C99_rates"
   ],
   "note": "Modelled: `progbar`, the loop and the rates (`Model/Benchmark`), given the duration; the other lines printed and the command line are not modelled. Proof: messages by evaluation in the kernel (`parse` does not depend on the clock), bar by monotone rounding, loop by induction."
  },
  {
   "property": "C100",
   "status": "proved",
   "theorems": [
    "Props.C100_same",
    "Props.C100_explained",
    "Props.C100_raised",
    "Props.C100_raised_fields",
    "Props.C100_builtin",
    "Props.C100_field",
    "Props.C100_misfits",
    "Props.C100_repair",
    "Props.C100_reader_same",
    "Props.C100_log",
    "Props.C100_bytes",
    "Props.C100_group_named",
    "Props.C100_lr2"
   ],
   "note": "Modelled: `get_parts`, `__init__`, `_get_dict`, `_do_attributes`, `parse` and `read` once more, with the texts of the library's exceptions (`Model/ErrorText`); the texts of Python's own exceptions are not modelled. Proof: erasing the texts gives the functions of the other properties (induction); the entry by induction over the definition and the layout theorem (C16) for each initial part of it; the log by induction over the pieces of the file."
  },
  {
   "property": "C101",
   "status": "proved",
   "theorems": [
    "Props.C101_clash",
    "Props.C101_same",
    "Props.C101_explained",
    "Props.C101_raised",
    "Props.C101_culprit",
    "Props.C101_misfits",
    "Props.C101_accepts",
    "Props.C101_repair",
    "Props.C101_builtin",
    "Props.C101_setattr_same",
    "Props.C101_immutable",
    "Props.C101_nameless",
    "Props.C101_anything",
    "Props.C101_number_named",
    "Props.C101_group_named"
   ],
   "note": "Modelled: as C100; `__setattr__` with its text (`Model/ErrorText`). Proof: the entry by induction over the definition and the generation theorem (C05, `Emit`) for each initial part of it; the values that have no text by cases over types and values and the bounds of the coordinate conversion (C07)."
  },
  {
   "property": "C102",
   "status": "proved",
   "theorems": [
    "Props.AnyPayload.C102_bracketed_texts",
    "Props.AnyPayload.C102_chosen",
    "Props.AnyPayload.C102_groups",
    "Props.AnyPayload.C102_every",
    "Props.AnyPayload.C102_first_item",
    "Props.AnyPayload.C102_undefined",
    "Props.AnyPayload.C102_natural_groups",
    "Props.AnyPayload.C102_in_view",
    "Props.AnyPayload.C102_rate",
    "Nmea.C102_keywords",
    "Nmea.C102_clash",
    "Nmea.C102_texts_keywords",
    "Props.AnyPayload.C102_texts",
    "Props.AnyPayload.C102_values",
    "Props.AnyPayload.C102_natural",
    "Props.AnyPayload.C102_tuple",
    "Props.AnyPayload.C102_characters",
    "Props.AnyPayload.C102_serialize",
    "Props.AnyPayload.C102_unsendable",
    "Props.AnyPayload.C102_objects",
    "Props.AnyPayload.C102_one_text",
    "Props.AnyPayload.C102_bracketed"
   ],
   "note": "Modelled: the constructor once more, with any payload (`Model/AnyPayload`), and with further keywords (`Model/AnyPayloadKw`). Proof: agreement with the model of the other properties on lists of texts by induction over the definition; reading item by item for static definitions (`ReadItems`) by induction over the definition and its repetitions; for definitions with repeating groups (`ExpandItems`) an invariant relates the state to the slots passed, as in C16; texts of numbers from C06 and C66."
  }
 ]
}