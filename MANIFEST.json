{
 "claims": [
  {
   "property": "C01",
   "status": "proved",
   "theorems": [
    "Verif.Codec.C01_pack_short",
    "Verif.Codec.C01_pack_contract"
   ],
   "note": "For every platform, argument and buffer; double is an exact ordered field."
  },
  {
   "property": "C02",
   "status": "proved",
   "theorems": [
    "Verif.Codec.C02_pack_layout",
    "Verif.Codec.C02_pack_layout_wrap"
   ],
   "note": "Byte-exact layout, for the standard and the wrapping conversion; double is an exact ordered field."
  },
  {
   "property": "C03",
   "status": "proved",
   "theorems": [
    "Verif.Codec.C03_roundtrip",
    "Verif.Codec.C03_roundtrip_wrap",
    "Verif.Codec.C03_repack"
   ],
   "note": "Round trip in both directions; double is an exact ordered field."
  },
  {
   "property": "C04",
   "status": "proved",
   "theorems": [
    "Verif.Codec.C04_unpack",
    "Verif.Codec.C04_unpack_prefix",
    "Verif.Codec.C04_unpack_needs_two_bytes"
   ],
   "note": "Complete functional behaviour of unpackPosition; needs two readable bytes, shown necessary."
  },
  {
   "property": "C05",
   "status": "proved",
   "theorems": [
    "Verif.Codec.C05_pack_ub_iff",
    "Verif.Codec.C05_pack_negative_dec_ub"
   ],
   "note": "Exact domain of definedness; negative declinations are UB on the ESP32 (defect)."
  },
  {
   "property": "C06",
   "status": "proved",
   "theorems": [
    "Verif.NexStar.C06_fixed_reply",
    "Verif.NexStar.C06_unknown",
    "Verif.NexStar.C06_state_unchanged",
    "Verif.NexStar.C06_unambiguous"
   ],
   "note": "All request strings and states, for any telescope implementation."
  },
  {
   "property": "C07",
   "status": "proved",
   "theorems": [
    "Verif.NexStar.C07_response",
    "Verif.NexStar.C07_reply_length",
    "Verif.NexStar.C07_nineteen_needed"
   ],
   "note": "All requests and buffer sizes; an 18-byte buffer truncates the position reply (kernel-checked)."
  },
  {
   "property": "C08",
   "status": "proved",
   "theorems": [
    "Verif.NexStar.C08_reads_only_request",
    "Verif.NexStar.C08_depends_on_prefix",
    "Verif.NexStar.C08_arduino_unknown_oob",
    "Verif.NexStar.C08_memory_safe"
   ],
   "note": "All requests and memories; the Arduino log line over-reads short unknown commands (defect)."
  },
  {
   "property": "C09",
   "status": "proved",
   "theorems": [
    "Verif.NexStar.C09_position_reply",
    "Verif.NexStar.C09_domain",
    "Verif.NexStar.C09_negative_dec_ub"
   ],
   "note": "Any telescope implementation; double arithmetic exact; negative declinations are UB on the ESP32 (defect)."
  },
  {
   "property": "C10",
   "status": "proved",
   "theorems": [
    "Verif.NexStar.C10_sync_decodes",
    "Verif.NexStar.C10_round_trip",
    "Verif.NexStar.C10_south_pole",
    "Verif.NexStar.C10_garbage_accepted"
   ],
   "note": "All 32-bit values in either letter case, any separator; -90 deg comes back as 270 and garbage digits are accepted (findings)."
  },
  {
   "property": "C11",
   "status": "proved",
   "theorems": [
    "Verif.Main.C11_J_bluetooth",
    "Verif.Main.C11_flag",
    "Verif.Main.C11_one_byte_sync"
   ],
   "note": "All histories of the whole firmware (loop calls, Bluetooth requests, MQTT resets, connections)."
  },
  {
   "property": "C12",
   "status": "proved",
   "theorems": [
    "Verif.NexStar.C12_location",
    "Verif.NexStar.C12_south_west_ub",
    "Verif.NexStar.C12_south_west_wrong",
    "Verif.NexStar.C12_south_wrong"
   ],
   "note": "Float arithmetic with IEEE rounding; south/west positions are UB (defect)."
  },
  {
   "property": "C13",
   "status": "proved",
   "theorems": [
    "Verif.NexStar.C13_time",
    "Verif.NexStar.C13_after_rmc"
   ],
   "note": "All stored times; end-to-end corollary after a well-formed RMC sentence."
  },
  {
   "property": "C14",
   "status": "proved",
   "theorems": [
    "Verif.Nmea.C14_accept_iff",
    "Verif.Nmea.C14_reject",
    "Verif.Nmea.C14_built_accepted",
    "Verif.Nmea.C14_corrupt_rejected",
    "Verif.Nmea.C14_single_byte",
    "Verif.Nmea.C14_signed_high_rejected",
    "Verif.Nmea.C14_star_before_dollar"
   ],
   "note": "All payloads, platforms and corruptions; a corruption that introduces a new * is excluded (it moves the checksum)."
  },
  {
   "property": "C15",
   "status": "proved",
   "theorems": [
    "Verif.Nmea.C15_rmc",
    "Verif.Nmea.C15_gga",
    "Verif.Nmea.C15_gsv",
    "Verif.Nmea.C15_nmea",
    "Verif.Nmea.C15_buffer"
   ],
   "note": "All byte strings and states."
  },
  {
   "property": "C16",
   "status": "proved",
   "theorems": [
    "Verif.Nmea.C16_rmc",
    "Verif.Nmea.C16_second_sixty"
   ],
   "note": "All well-formed sentences, IEEE binary32 rounding modelled; second may be one more when its fraction exceeds 0.99 (kernel-checked finding 23:59:60)."
  },
  {
   "property": "C17",
   "status": "proved",
   "theorems": [
    "Verif.Nmea.C17_rmc_no_fix",
    "Verif.Nmea.C17_flags_contradict_position",
    "Verif.Nmea.C17_gga_no_fix",
    "Verif.Nmea.C17_no_fix_keeps_position"
   ],
   "note": "All byte strings; the hemisphere-flag contradiction is a kernel-checked finding."
  },
  {
   "property": "C18",
   "status": "proved",
   "theorems": [
    "Verif.Nmea.C18_gga"
   ],
   "note": "All well-formed sentences, IEEE binary32 rounding modelled."
  },
  {
   "property": "C19",
   "status": "proved",
   "theorems": [
    "Verif.Nmea.C19_gsv"
   ],
   "note": "All well-formed sentences and states."
  },
  {
   "property": "C20",
   "status": "proved",
   "theorems": [
    "Verif.Nmea.C20_lines",
    "Verif.Nmea.C20_leading_fragment"
   ],
   "note": "All line sequences, tails and leading fragments."
  },
  {
   "property": "C21",
   "status": "proved",
   "theorems": [
    "Verif.Nmea.C21_terminates",
    "Verif.Nmea.C21_effects",
    "Verif.Nmea.C21_junk_lines_bypass_checksum"
   ],
   "note": "All byte strings; double processing / checksum bypass as kernel-checked finding."
  },
  {
   "property": "C22",
   "status": "proved",
   "theorems": [
    "Verif.Nmea.C22_no_oob_read",
    "Verif.Nmea.C22_missing_star",
    "Verif.Nmea.C22_short_sentence_oob",
    "Verif.Nmea.C22_short_gsv_reads_checksum",
    "Verif.Nmea.C22_buffer_no_oob_read"
   ],
   "note": "Sufficient comma condition for all strings; out-of-bounds reads of short sentences and missing * as findings."
  },
  {
   "property": "C23",
   "status": "proved",
   "theorems": [
    "Verif.Helper.C23_fmod_range",
    "Verif.Helper.C23_fmod_unique",
    "Verif.Helper.C23_fmod_id",
    "Verif.Helper.C23_fmod_periodic",
    "Verif.Helper.C23_fmod_ieee_reaches_modulus"
   ],
   "note": "Exact arithmetic for all arguments; in IEEE double the bound r < n fails (kernel-checked witness, defect)."
  },
  {
   "property": "C24",
   "status": "proved",
   "theorems": [
    "Verif.Helper.C24_julianDay_next",
    "Verif.Helper.C24_julianDay_epoch",
    "Verif.Helper.C24_julianDay_steps",
    "Verif.Helper.C24_julianDay_count"
   ],
   "note": "In the code's own float/double arithmetic (IEEE rounding modelled), for every date of the years 1..6765."
  },
  {
   "property": "C25",
   "status": "proved",
   "theorems": [
    "Verif.Helper.C25_lst",
    "Verif.Helper.C25_lst_longitude",
    "Verif.Helper.C25_lst_next_day"
   ],
   "note": "julianDay part in IEEE float, the remaining double/long double arithmetic exact."
  },
  {
   "property": "C26",
   "status": "proved",
   "theorems": [
    "Verif.Helper.C26_checkbits",
    "Verif.Helper.C26_upper_bits_ignored",
    "Verif.Helper.C26_detects",
    "Verif.Helper.C26_detects_single",
    "Verif.Helper.C26_undetected_iff"
   ],
   "note": "All 32-bit words and all error patterns."
  },
  {
   "property": "C27",
   "status": "proved",
   "theorems": [
    "Verif.Main.C27_step",
    "Verif.Main.C27_range",
    "Verif.Main.C27_bad_frames",
    "Verif.Main.C27_exact_contraction",
    "Verif.Main.C27_converges",
    "Verif.Main.C27_scaling",
    "Verif.Main.C27_long_way"
   ],
   "note": "All encoder frames and states; binary32/binary64 rounding for the range, exact arithmetic for the contraction; wrap-around as finding."
  },
  {
   "property": "C28",
   "status": "proved",
   "theorems": [
    "Verif.Coord.C28_roundtrip",
    "Verif.Coord.C28_zenith"
   ],
   "note": "All real inputs; exact arithmetic."
  },
  {
   "property": "C29",
   "status": "proved",
   "theorems": [
    "Verif.Coord.C29_roundtrip"
   ],
   "note": "All real inputs; exact arithmetic."
  },
  {
   "property": "C30",
   "status": "proved",
   "theorems": [
    "Verif.Coord.C30_same_direction",
    "Verif.Coord.C30_ranges",
    "Verif.Coord.C30_turns_h2e",
    "Verif.Coord.C30_turns_e2h",
    "Verif.Coord.C30_rotation_e2h",
    "Verif.Coord.C30_rotation_h2e"
   ],
   "note": "All real inputs; exact arithmetic."
  },
  {
   "property": "C31",
   "status": "proved",
   "theorems": [
    "Verif.Align.C31_duplicate_rejected",
    "Verif.Align.C31_new_accepted",
    "Verif.Align.C31_distinct"
   ],
   "note": "All histories, all sorting implementations."
  },
  {
   "property": "C32",
   "status": "proved",
   "theorems": [
    "Verif.Align.C32_overflow_keeps_triangles",
    "Verif.Align.C32_capacity",
    "Verif.Align.C32_modulo"
   ],
   "note": "All histories; the 64th point keeps the triangles of the discarded points (finding)."
  },
  {
   "property": "C33",
   "status": "proved",
   "theorems": [
    "Verif.Align.C33_faithful",
    "Verif.Align.C33_wrap",
    "Verif.Align.C33_drift"
   ],
   "note": "All histories, all sorting implementations; the wrap base drifts (kernel-checked finding)."
  },
  {
   "property": "C34",
   "status": "proved",
   "theorems": [
    "Verif.Align.C34_translation"
   ],
   "note": "All histories with one accepted point, exact arithmetic."
  },
  {
   "property": "C35",
   "status": "proved",
   "theorems": [
    "Verif.Align.C35_similarity",
    "Verif.Align.C35_two_points",
    "Verif.Align.C35_collinear"
   ],
   "note": "All histories; exact arithmetic. Two points, and any number of generic collinear points."
  },
  {
   "property": "C36",
   "status": "proved",
   "theorems": [
    "Verif.Align.C36_affine",
    "Verif.Align.C36_interpolates"
   ],
   "note": "All histories and queries; exact arithmetic."
  },
  {
   "property": "C37",
   "status": "proved",
   "theorems": [
    "Verif.Telescope.C37_nexstar",
    "Verif.Telescope.C37_one_star",
    "Verif.Telescope.C37_two_stars",
    "Verif.Telescope.C37_corner",
    "Verif.Telescope.C37_three_stars",
    "Verif.Telescope.C37_uncalibrated",
    "Verif.Telescope.C37_resync_ignored",
    "Verif.Telescope.C37_collinear_third_ignored",
    "Verif.Telescope.C37_tolerance_wrong_triangle",
    "Verif.Telescope.C37_many_stars"
   ],
   "note": "All telescope histories; unconditional for one and two stars, three stars with a triangle, and any number of stars in generic directions (exact arithmetic, hypotheses on the directions only); corner condition in general; protocol round trip; re-sync, collinear and tolerance findings."
  },
  {
   "property": "C38",
   "status": "proved",
   "theorems": [
    "Verif.Linalg.C38_invert_exact",
    "Verif.Linalg.C38_invert_false_iff",
    "Verif.Linalg.C38_singular_accepted",
    "Verif.Linalg.C38_no_zero_divisor",
    "Verif.Linalg.C38_products"
   ],
   "note": "Exact ordered field arithmetic, for every stray value the out-of-bounds read delivers; singular matrices are accepted (finding)."
  },
  {
   "property": "C39",
   "status": "proved",
   "theorems": [
    "Verif.Align.C39_type_matches"
   ],
   "note": "All histories ending with a triangulation, all queries."
  },
  {
   "property": "C40",
   "status": "proved",
   "theorems": [
    "Verif.Align.C40_identity",
    "Verif.Align.C40_like_new"
   ],
   "note": "All states; behavioural equality with a new alignment for all later histories that succeed on a new one."
  },
  {
   "property": "C41",
   "status": "proved",
   "theorems": [
    "Verif.Align.C41_indices",
    "Verif.Align.C41_reads_safe"
   ],
   "note": "For arbitrary answers of the geometric tests, hence for any arithmetic."
  },
  {
   "property": "C42",
   "status": "proved",
   "theorems": [
    "Verif.Align.C42_succeeds",
    "Verif.Align.C42_delaunay",
    "Verif.Align.C42_disjoint",
    "Verif.Align.C42_count",
    "Verif.Align.C42_star_is_corner",
    "Verif.Align.C42_complete",
    "Verif.Align.C42_history",
    "Verif.Align.C42_star_has_own_triangle",
    "Verif.Align.C42_flat_triple_dropped",
    "Verif.Telescope.C42_sync_succeeds",
    "Verif.Telescope.C42_history_succeeds"
   ],
   "note": "All sets of up to 64 generic positions and all histories, exact arithmetic: success, empty circles, disjointness, count, completeness for moderate circles; dropped flat triple as finding."
  },
  {
   "property": "C43",
   "status": "proved",
   "theorems": [
    "Verif.Align.C43_indeterminate",
    "Verif.Align.C43_harmless"
   ],
   "note": "All points; the comparison of indeterminate variables itself is reported as a defect."
  },
  {
   "property": "C44",
   "status": "proved",
   "theorems": [
    "Verif.Align.C44_nearest"
   ],
   "note": "All histories and queries, any rounding of the float distance."
  },
  {
   "property": "C45",
   "status": "proved",
   "theorems": [
    "Verif.Align.C45_exact_accepts",
    "Verif.Align.C45_exact_iff",
    "Verif.Align.C45_exact_rejects",
    "Verif.Align.C45_float_accepts",
    "Verif.Align.C45_float_rejects_inside"
   ],
   "note": "Exact arithmetic for all triangles; binary32 rounding for areas up to 400; rejection of inside points as kernel-checked finding."
  },
  {
   "property": "C46",
   "status": "proved",
   "theorems": [
    "Verif.Main.C46_choice",
    "Verif.Main.C46_spacing",
    "Verif.Main.C46_latency",
    "Verif.Main.C46_latency_20ms",
    "Verif.Main.C46_starvation"
   ],
   "note": "All call sequences and times, including the 32-bit wrap; starvation as finding."
  },
  {
   "property": "C47",
   "status": "proved",
   "theorems": [
    "Verif.Main.C47_watchdog"
   ],
   "note": "All histories of the whole firmware; the timeout is about 10 s (finding)."
  },
  {
   "property": "C48",
   "status": "proved",
   "theorems": [
    "Verif.Main.C48_pattern",
    "Verif.Main.C48_flash_missed",
    "Verif.Main.C48_wrap_glitch",
    "Verif.Main.C48_led_shows_state"
   ],
   "note": "All modes and times, and all firmware histories: the mode shown is the one chosen in the last 100 ms task; missed single flash and wrap glitch as findings."
  },
  {
   "property": "C49",
   "status": "proved",
   "theorems": [
    "Verif.Net.C49_never_displaced",
    "Verif.Net.C49_accepts",
    "Verif.Net.C49_rejects"
   ],
   "note": "All event sequences."
  },
  {
   "property": "C50",
   "status": "proved",
   "theorems": [
    "Verif.Main.C50_goto",
    "Verif.Main.C50_stale_echo",
    "Verif.Main.C50_bluetooth_independent",
    "Verif.Main.C50_failed_read_repeats",
    "Verif.Main.C50_length_74"
   ],
   "note": "All states and messages; stale receive buffer, failed read and LENGTH 74 as findings."
  },
  {
   "property": "C51",
   "status": "proved",
   "theorems": [
    "Verif.Main.C51_only_then",
    "Verif.Main.C51_never_again",
    "Verif.Main.C51_sent"
   ],
   "note": "All histories of the whole firmware."
  },
  {
   "property": "C52",
   "status": "proved",
   "theorems": [
    "Verif.Main.C52_reset",
    "Verif.Main.C52_ignored",
    "Verif.Main.C52_no_feedback",
    "Verif.Main.C52_step"
   ],
   "note": "All messages; every handled reset empties the alignment."
  },
  {
   "property": "C53",
   "status": "proved",
   "theorems": [
    "Verif.Main.C53_out_of_bounds",
    "Verif.Main.C53_in_bounds",
    "Verif.Main.C53_broker_overread",
    "Verif.Main.C53_content",
    "Verif.Main.C53_22_points",
    "Verif.Main.C53_trailing_comma",
    "Verif.Main.C53_history"
   ],
   "note": "All lists of finite coordinates; exact condition; 22 points always overflow, also in whole-firmware histories; trailing comma and stale bytes for the local broker as findings."
  },
  {
   "property": "C54",
   "status": "proved",
   "theorems": [
    "Verif.Persist.C54_write",
    "Verif.Persist.C54_roundtrip",
    "Verif.Persist.C54_read",
    "Verif.Persist.C54_frame",
    "Verif.Persist.C54_crash",
    "Verif.Persist.C54_old_lost",
    "Verif.Persist.C54_torn_write_detected"
   ],
   "note": "All data, file systems and crash points."
  },
  {
   "property": "C55",
   "status": "proved",
   "theorems": [
    "Verif.Imu.C55_mean",
    "Verif.Imu.C55_mean_full"
   ],
   "note": "All sample histories, exact arithmetic."
  },
  {
   "property": "C56",
   "status": "proved",
   "theorems": [
    "Verif.Imu.C56_pitch"
   ],
   "note": "All sample histories and angles, exact arithmetic."
  },
  {
   "property": "C57",
   "status": "proved",
   "theorems": [
    "Verif.Main.C57_report",
    "Verif.Main.C57_gnss",
    "Verif.Main.C57_completes"
   ],
   "note": "All histories of the whole firmware; values of the telescope are an exact ordered field; over-read for huge matrix elements as finding."
  },
  {
   "property": "C58",
   "status": "proved",
   "theorems": [
    "Verif.System.C58_goto_then_packet",
    "Verif.System.C58_goto_then_packet_many",
    "Verif.System.C58_same_bytes",
    "Verif.System.C58_still_pointing",
    "Verif.System.C58_still_pointing_many",
    "Verif.System.C58_stars_kept"
   ],
   "note": "All histories of the whole firmware with the telescope model (exact arithmetic)."
  },
  {
   "property": "C59",
   "status": "proved",
   "theorems": [
    "Verif.Node.C59_node_connection",
    "Verif.Node.C59_node_extreme_crash",
    "Verif.Node.C59_node_decode",
    "Verif.Node.C59_node_encode"
   ],
   "note": "All connections; numbers are IEEE binary64 with rounding."
  },
  {
   "property": "C60",
   "status": "proved",
   "theorems": [
    "Verif.Node.C60_node_agrees_with_firmware",
    "Verif.Node.C60_answers_unique"
   ],
   "note": "All exact requests, all firmware states."
  },
  {
   "property": "C61",
   "status": "proved",
   "theorems": [
    "Verif.Node.C61_node_position",
    "Verif.Node.C61_node_position_any",
    "Verif.Node.C61_node_overflow"
   ],
   "note": "Real arithmetic."
  },
  {
   "property": "C62",
   "status": "proved",
   "theorems": [
    "Verif.Python.C62_python_decodes",
    "Verif.Python.C62_python_loses",
    "Verif.Python.C62_python_goto",
    "Verif.Python.C62_python_glued"
   ],
   "note": "All byte strings; numbers are IEEE binary64 with rounding; acceptance of a time by datetime.fromtimestamp is a parameter."
  },
  {
   "property": "C63",
   "status": "proved",
   "theorems": [
    "Verif.System.C63_only_hazards",
    "Verif.System.C63_always_a_position",
    "Verif.System.C63_short_stops",
    "Verif.System.C63_position_stops"
   ],
   "note": "All histories of the whole firmware (exact arithmetic in the telescope; the circle test exact and its static variables set, as Normal says)."
  },
  {
   "property": "C64",
   "status": "proved",
   "theorems": [
    "Verif.System.C64_heading",
    "Verif.System.C64_heading_settles",
    "Verif.System.C64_pitch",
    "Verif.System.C64_oriented",
    "Verif.System.C64_no_early_report"
   ],
   "note": "All histories of the whole firmware, any scheduling of the calls of loop(); exact arithmetic in the telescope, decimal rounding of the encoder as in the code."
  },
  {
   "property": "C65",
   "status": "proved",
   "theorems": [
    "Verif.System.C65_report"
   ],
   "note": "All histories of the whole firmware (exact arithmetic in the telescope); the matrix text is covered for elements below 10^20, the temperature below 10^200."
  },
  {
   "property": "C66",
   "status": "proved",
   "theorems": [
    "Verif.Codec.C66_unpack_exact",
    "Verif.Codec.C66_pack_near",
    "Verif.Codec.C66_pack_exact",
    "Verif.Codec.C66_repack",
    "Verif.NexStar.C66_nexstar_sync_exact",
    "Verif.NexStar.C66_nexstar_position",
    "Verif.NexStar.C66_nexstar_echo"
   ],
   "note": "IEEE binary64 rounding of every operation of the two codecs; the position and the sidereal time themselves are inputs here."
  },
  {
   "property": "C67",
   "status": "proved",
   "theorems": [
    "Verif.Setup.C67_setup",
    "Verif.Setup.C67_switches",
    "Verif.Setup.C67_steady",
    "Verif.Setup.C67_alone",
    "Verif.Setup.C67_only_with"
   ],
   "note": "All answers of the hardware; pins, Serial2 and the encoder initialisation are not modelled."
  },
  {
   "property": "C68",
   "status": "proved",
   "theorems": [
    "Verif.Link.C68_no_storm",
    "Verif.Link.C68_each_once",
    "Verif.Link.C68_in_order",
    "Verif.Link.C68_attempt",
    "Verif.Link.C68_comes_back",
    "Verif.Link.C68_deaf",
    "Verif.Link.C68_refines"
   ],
   "note": "Messages are not lost while the connection stands; the message size limit of PubSubClient is not modelled."
  },
  {
   "property": "C69",
   "status": "proved",
   "theorems": [
    "Verif.Coord64.C69_h2e",
    "Verif.Coord64.C69_e2h",
    "Verif.Coord64.C69_roundtrip"
   ],
   "note": "sin, cos, sqrt, atan2 are any functions accurate to one unit in the last place; the sign of zero is covered by allowing both angles."
  },
  {
   "property": "C70",
   "status": "proved",
   "theorems": [
    "Verif.Helper.C70_lst",
    "Verif.Helper.C70_fmod"
   ],
   "note": "Every operation rounded; the comparison polynomial is exact."
  },
  {
   "property": "C71",
   "status": "proved",
   "theorems": [
    "Verif.OneStar64.C71_position",
    "Verif.OneStar64.C71_echo"
   ],
   "note": "One star; without fused multiply-add or excess precision. With more stars the position is proved in exact arithmetic (C27-C29 and others)."
  },
  {
   "property": "C72",
   "status": "proved",
   "theorems": [
    "Verif.Bla.C72_views",
    "Verif.Bla.C72_elementwise",
    "Verif.Bla.C72_product",
    "Verif.Bla.C72_update",
    "Verif.Bla.C72_product_into",
    "Verif.Bla.C72_self_transpose",
    "Verif.Bla.C72_trace",
    "Verif.Bla.C72_norm",
    "Verif.Bla.C72_lu",
    "Verif.Bla.C72_solve",
    "Verif.Bla.C72_invert",
    "Verif.Bla.C72_invert_in_place",
    "Verif.Bla.C72_determinant",
    "Verif.Bla.C72_instance",
    "Verif.Bla.C72_fill"
   ],
   "note": "Exact arithmetic; Norm up to the square root of its last line; sparse storage is in C75."
  },
  {
   "property": "C73",
   "status": "proved",
   "theorems": [
    "Verif.Imu32.C73_mean",
    "Verif.Imu32.C73_pitch",
    "Verif.Imu32.C73_rest"
   ],
   "note": "The overload of atan2 (float or double) is a parameter; the I2C driver is not modelled."
  },
  {
   "property": "C74",
   "status": "proved",
   "theorems": [
    "Verif.Race.C74_safe",
    "Verif.Race.C74_bytes",
    "Verif.Race.C74_intact",
    "Verif.Race.C74_replies",
    "Verif.Race.C74_alone",
    "Verif.Race.C74_torn",
    "Verif.Race.C74_model"
   ],
   "note": "Sequentially consistent memory; the texts of the messages are computed before they are stored (races on the telescope object are in C76); lists of points that do not fit are in C53."
  },
  {
   "property": "C75",
   "status": "proved",
   "theorems": [
    "Verif.Sparse.C75_elements",
    "Verif.Sparse.C75_full",
    "Verif.Sparse.C75_apart",
    "Verif.Sparse.C75_large",
    "Verif.Sparse.C75_lost"
   ],
   "note": "Element access only: the class has no const access, so no operator accepts a sparse matrix. int does not overflow."
  },
  {
   "property": "C76",
   "status": "proved",
   "theorems": [
    "Verif.Shared.C76_alone_sync",
    "Verif.Shared.C76_alone_position",
    "Verif.Shared.C76_telescope_sync",
    "Verif.Shared.C76_telescope_position",
    "Verif.Shared.C76_telescope_reached",
    "Verif.Shared.C76_looking",
    "Verif.Shared.C76_reset",
    "Verif.Shared.C76_one_writer",
    "Verif.Shared.C76_objects",
    "Verif.Shared.C76_torn_orientation",
    "Verif.Shared.C76_first_sync_uninitialised",
    "Verif.Shared.C76_resync_uncalibrated",
    "Verif.Shared.C76_two_writers_out_of_bounds"
   ],
   "note": "Sequentially consistent memory, accesses to int and double members atomic; two synchronising tasks only by counterexample. A synchronisation is assumed not to fail when carried out in one step (C37, C44)."
  },
  {
   "property": "C77",
   "status": "proved",
   "theorems": [
    "Verif.SharedGnss.C77_piece",
    "Verif.SharedGnss.C77_buffer",
    "Verif.SharedGnss.C77_moment",
    "Verif.SharedGnss.C77_time",
    "Verif.SharedGnss.C77_time_parts",
    "Verif.SharedGnss.C77_location",
    "Verif.SharedGnss.C77_place",
    "Verif.SharedGnss.C77_quiet",
    "Verif.SharedGnss.C77_torn_hour",
    "Verif.SharedGnss.C77_torn_sidereal",
    "Verif.SharedGnss.C77_torn_midnight",
    "Verif.SharedGnss.C77_torn_new_year",
    "Verif.SharedGnss.C77_torn_degree"
   ],
   "note": "Sequentially consistent memory, accesses to int, float and bool members atomic. Sentences whose parsing is undefined behaviour (C22) are excluded."
  },
  {
   "property": "C78",
   "status": "proved",
   "theorems": [
    "Verif.Linalg64.C78_triangle",
    "Verif.Linalg64.C78_line",
    "Verif.Linalg64.C78_degrees",
    "Verif.Linalg64.C78_star",
    "Verif.Linalg64.C78_line_degrees",
    "Verif.Linalg64.C78_needle"
   ],
   "note": "Which of the matrices is used for a pointing direction is C35/C42 (exact arithmetic with rounded float variables), not part of this claim. The number behind the matrix that LUDecompose reads is assumed to be a finite double with the bound stated."
  },
  {
   "property": "C79",
   "status": "proved",
   "theorems": [
    "Verif.Telescope64.C79_type",
    "Verif.Telescope64.C79_one_star",
    "Verif.Telescope64.C79_line",
    "Verif.Telescope64.C79_two_stars",
    "Verif.Telescope64.C79_triangle",
    "Verif.Telescope64.C79_three_stars",
    "Verif.Telescope64.C79_total",
    "Verif.Telescope64.C79_missed"
   ],
   "note": "Orientations with azimuth up to 360 and altitude up to 91 degrees in magnitude; the number behind the matrix that LUDecompose reads is at most 1 in magnitude. With more than three stars the theorem does not say which triangle is used beyond what is stated (C42 in exact arithmetic). Histories in which the triangulation exceeds its arrays (C44) are excluded by the hypothesis that the run succeeds."
  },
  {
   "property": "C80",
   "status": "proved",
   "theorems": [
    "Verif.Session64.C80_story",
    "Verif.Session64.C80_one_star",
    "Verif.Session64.C80_two_stars",
    "Verif.Session64.C80_three_stars"
   ],
   "note": "Sessions whose run succeeds (a sync can fail only by more triangles or edges than the arrays have elements, C44/C79). Sync requests whose fields are not hexadecimal digits are excluded (for non-hexadecimal fields the numbers are whatever strtoul reads). With more than three stars see C79."
  },
  {
   "property": "C81",
   "status": "proved",
   "theorems": [
    "Verif.Shared.C81_words",
    "Verif.Shared.C81_torn_close",
    "Verif.Shared.C81_torn_range",
    "Verif.Shared.C81_includes",
    "Verif.Shared.C81_looking",
    "Verif.Shared.C81_reset",
    "Verif.Shared.C81_one_writer",
    "Verif.Shared.C81_angles",
    "Verif.Shared.C81_torn_azimuth",
    "Verif.Shared.C81_tearing",
    "Verif.Shared.C81_whole"
   ],
   "note": "Sequentially consistent memory, accesses to 32-bit words atomic, either word of a double first. The sign of zero is not represented. Arithmetic on the values read is exact as in C76."
  },
  {
   "property": "C82",
   "status": "proved",
   "theorems": [
    "Verif.Telescope64.C82_triangulation",
    "Verif.Telescope64.C82_sync",
    "Verif.Telescope64.C82_stars",
    "Verif.Telescope64.C82_run",
    "Verif.Telescope64.C82_run_stars",
    "Verif.Session64.C82_evening",
    "Verif.Session64.C82_session"
   ],
   "note": "Positions that are not well placed (three altitudes within 2e-6 degrees, four positions almost on a circle) are excluded: there the answers of the geometric tests are those of C44/C79 (arbitrary). The bound for the distance from a circle grows with the steepness and the conditioning of the bisectors."
  },
  {
   "property": "C83",
   "status": "proved",
   "theorems": [
    "Verif.Gyro32.C83_store",
    "Verif.Gyro32.C83_mean",
    "Verif.Gyro32.C83_clip_real",
    "Verif.Gyro32.C83_clip_int",
    "Verif.Gyro32.C83_clip",
    "Verif.Gyro32.C83_calibrate",
    "Verif.Gyro32.C83_log"
   ],
   "note": "The I2C driver is not modelled. Which abs is used depends on the headers and is a parameter. Signed zero is not represented."
  },
  {
   "property": "C84",
   "status": "proved",
   "theorems": [
    "Verif.Firmware64.C84_history",
    "Verif.Firmware64.C84_one_star",
    "Verif.Firmware64.C84_two_stars",
    "Verif.Firmware64.C84_three_stars",
    "Verif.Firmware64.C84_many_stars"
   ],
   "note": "The pitch a history reports is assumed to be at most 91 degrees, and the GNSS data valid when a position is told. A calculation that leaves the finite numbers ends the run (histories that fail are excluded here; C85 says which can). What printf makes of matrix elements that are not finite is arbitrary."
  },
  {
   "property": "C85",
   "status": "proved",
   "theorems": [
    "Verif.Firmware64.C85_only_causes",
    "Verif.Firmware64.C85_sensors",
    "Verif.Firmware64.C85_syncs",
    "Verif.Firmware64.C85_answers"
   ],
   "note": "A cause is necessary, not sufficient, for a stop. That calculations of the report (position, coordinates, matrix) succeed is not shown here; C85_syncs assumes the pitch at most 91 degrees, valid GNSS data and well-placed stars (as C82)."
  }
 ]
}