{
 "claims": [
  {
   "property": "C01",
   "status": "proved",
   "theorems": [
    "Verif.C01_window",
    "Verif.C01_general"
   ],
   "note": ""
  },
  {
   "property": "C02",
   "status": "proved",
   "theorems": [
    "Verif.C02_range"
   ],
   "note": ""
  },
  {
   "property": "C03",
   "status": "proved",
   "theorems": [
    "Verif.C03_no_flicker"
   ],
   "note": ""
  },
  {
   "property": "C04",
   "status": "proved",
   "theorems": [
    "Verif.C04_loop",
    "Verif.C04_cyclic"
   ],
   "note": ""
  },
  {
   "property": "C05",
   "status": "proved",
   "theorems": [
    "Verif.C05_gapless"
   ],
   "note": ""
  },
  {
   "property": "C06",
   "status": "partial",
   "theorems": [
    "Verif.C06_agree_partial",
    "Verif.C06_snr_violation",
    "Verif.C06_ll_inf_violation"
   ],
   "note": "Single-period number addressing proved; C06_snr_violation (snr_-1 with time offset) and C06_ll_inf_violation (infinite offset with chunks) are disagreements in the code."
  },
  {
   "property": "C07",
   "status": "partial",
   "theorems": [
    "Verif.C07_styp_partial",
    "Verif.C07_idempotent",
    "Verif.C07_last_segments",
    "Verif.C07_major_violation"
   ],
   "note": "Every styp whose lmsg does not already sit in the major brand or minor version words is proved to gain or keep the lmsg compatible brand exactly when the segment is last. C07_major_violation: a styp with 'lmsg' bytes as major brand is not given the compatible brand."
  },
  {
   "property": "C08",
   "status": "proved",
   "theorems": [
    "Verif.C08_refines",
    "Verif.C08_wellformed",
    "Verif.C08_copy"
   ],
   "note": ""
  },
  {
   "property": "C09",
   "status": "proved",
   "theorems": [
    "Verif.C09_terminates",
    "Verif.C09_zero_size",
    "Verif.C09_hang",
    "Verif.C09_consumes"
   ],
   "note": ""
  },
  {
   "property": "C10",
   "status": "proved",
   "theorems": [
    "Verif.C10_exact"
   ],
   "note": ""
  },
  {
   "property": "C11",
   "status": "proved",
   "theorems": [
    "Verif.C11_segment",
    "Verif.C11_samples",
    "Verif.C11_aux",
    "Verif.C11_unchanged"
   ],
   "note": ""
  },
  {
   "property": "C12",
   "status": "proved",
   "theorems": [
    "Verif.C12_mfhd",
    "Verif.C12_number"
   ],
   "note": ""
  },
  {
   "property": "C13",
   "status": "proved",
   "theorems": [
    "Verif.C13_only_durations",
    "Verif.C13_length",
    "Verif.C13_durations_zero",
    "Verif.C13_other_bytes",
    "Verif.C13_idempotent"
   ],
   "note": "For every well-formed box tree with complete header boxes."
  },
  {
   "property": "C14",
   "status": "proved",
   "theorems": [
    "Verif.C14_content",
    "Verif.C14_reading"
   ],
   "note": "For every pair of init segments with the required boxes that fit 32-bit sizes."
  },
  {
   "property": "C15",
   "status": "partial",
   "theorems": [
    "Verif.C15_layout",
    "Verif.C15_samples",
    "Verif.C15_fragments",
    "Verif.C15_two_runs_violation",
    "Verif.C15_no_styp_violation"
   ],
   "note": "C15_layout, C15_samples, C15_fragments hold for every pair of segments with a styp, one fragment with header and one track fragment with one run, and any other boxes beside them. With two runs only the last data offset is moved (C15_two_runs_violation); without styp the muxer raises (C15_no_styp_violation)."
  },
  {
   "property": "C16",
   "status": "proved",
   "theorems": [
    "Verif.C16_lossless",
    "Verif.C16_nonempty",
    "Verif.C16_times"
   ],
   "note": ""
  },
  {
   "property": "C17",
   "status": "proved",
   "theorems": [
    "Verif.C17_grid",
    "Verif.C17_boundaries",
    "Verif.C17_length",
    "Verif.C17_count"
   ],
   "note": ""
  },
  {
   "property": "C18",
   "status": "partial",
   "theorems": [
    "Verif.C18_schedule",
    "Verif.C18_production",
    "Verif.C18_segment_start_partial",
    "Verif.C18_start_violation"
   ],
   "note": "Both delivery loops proved for all clocks; the segment start the server feeds into the loop is the wall-clock start only when the media timeline starts at the epoch (C18_start_violation otherwise)."
  },
  {
   "property": "C19",
   "status": "proved",
   "theorems": [
    "Verif.C19_layout",
    "Verif.C19_roundtrip",
    "Verif.C19_chunks"
   ],
   "note": ""
  },
  {
   "property": "C20",
   "status": "partial",
   "theorems": [
    "Verif.C20_range_partial",
    "Verif.C20_suffix_violation",
    "Verif.C20_multi_violation"
   ],
   "note": "All single well-formed ranges except suffixes longer than the payload (C20_suffix_violation); lists of ranges: C20_multi_violation."
  },
  {
   "property": "C21",
   "status": "partial",
   "theorems": [
    "Verif.C21_errors",
    "Verif.C21_types_partial",
    "Verif.C21_type_violation",
    "Verif.C21_success_partial",
    "Verif.C21_malformed_range_violation"
   ],
   "note": "Every provider outcome replied to as claimed; malformed range headers raise outside the handler (C21_malformed_range_violation)."
  },
  {
   "property": "C22",
   "status": "proved",
   "theorems": [
    "Verif.C22_phases"
   ],
   "note": ""
  },
  {
   "property": "C23",
   "status": "partial",
   "theorems": [
    "Verif.C23_monotone_partial",
    "Verif.C23_last_number",
    "Verif.C23_compare",
    "Verif.C23_lmsg_violation"
   ],
   "note": "Monotone numbering proved within and across modulo sessions; C23_lmsg_violation shows that the last segment number of a modulo session is counted from zero and does not mark the segment that ends the session."
  },
  {
   "property": "C24",
   "status": "partial",
   "theorems": [
    "Verif.C24_denotes_partial",
    "Verif.C24_roundtrip_partial",
    "Verif.C24_day_violation"
   ],
   "note": "Full correctness and round trip below one day; C24_day_violation: durations of whole days give 'P1DT', which is not a valid duration, and day strings are not parsed back."
  },
  {
   "property": "C25",
   "status": "partial",
   "theorems": [
    "Verif.C25_tiles_partial",
    "Verif.C25_ast_violation"
   ],
   "note": "Tiling proved for availability start 0, the only start for which the code computes period starts consistently; C25_ast_violation for other starts."
  },
  {
   "property": "C26",
   "status": "proved",
   "theorems": [
    "Verif.C26_stable",
    "Verif.C26_single"
   ],
   "note": ""
  },
  {
   "property": "C27",
   "status": "partial",
   "theorems": [
    "Verif.C27_start_number_partial",
    "Verif.C27_old_period",
    "Verif.C27_grid_violation"
   ],
   "note": "Proved for period starts on the segment grid and start number 0; C27_grid_violation otherwise."
  },
  {
   "property": "C28",
   "status": "partial",
   "theorems": [
    "Verif.C28_window_partial",
    "Verif.C28_start",
    "Verif.C28_before_zero",
    "Verif.C28_one_entry_violation",
    "Verif.C28_whole_loop_violation",
    "Verif.C28_empty_number_violation",
    "Verif.C28_closest_partial",
    "Verif.C28_closest_violation"
   ],
   "note": "Proved for every duration table and window in which no table entry occurs twice (C28_window_partial; near_of_short gives a sufficient condition on the window length), with the first segment and start number right for every window (C28_start). False otherwise: single-entry tables across the loop end list too many segments, whole-loop windows lose segments, find_closest_start jumps to the last segment of the next entry, and an empty timeline leaves a stale or missing startNumber (violation theorems)."
  },
  {
   "property": "C29",
   "status": "partial",
   "theorems": [
    "Verif.C29_consistent_partial",
    "Verif.C29_consistent_violation"
   ],
   "note": "Proved for pairs of windows as in C28_window_partial; C29_consistent_violation shows the last listed number falling at the loop end for a single-entry table."
  },
  {
   "property": "C30",
   "status": "partial",
   "theorems": [
    "Verif.C30_time_number_partial",
    "Verif.C30_snr_violation"
   ],
   "note": "Proved for start number 0; with another start number the time request is answered with a different segment (violation theorem)."
  },
  {
   "property": "C31",
   "status": "proved",
   "theorems": [
    "Verif.C31_reorder",
    "Verif.C31_permutation",
    "Verif.C31_content"
   ],
   "note": ""
  },
  {
   "property": "C32",
   "status": "partial",
   "theorems": [
    "Verif.C32_grid_partial",
    "Verif.C32_start",
    "Verif.C32_segments_partial",
    "Verif.C32_long_segment_violation",
    "Verif.C32_snr_violation"
   ],
   "note": "Proved for segment durations up to 1000 s and start number 0; C32_long_segment_violation and C32_snr_violation show what happens otherwise."
  },
  {
   "property": "C33",
   "status": "partial",
   "theorems": [
    "Verif.C33_announced_partial",
    "Verif.C33_monotone",
    "Verif.C33_duration_violation"
   ],
   "note": "Announced end proved exactly and monotone; announced duration proved while the end is at least two update periods away; after that the code drops it (C33_duration_violation)."
  },
  {
   "property": "C34",
   "status": "partial",
   "theorems": [
    "Verif.C34_session",
    "Verif.C34_decode_partial",
    "Verif.C34_timeoffset_violation"
   ],
   "note": "Session start, length and decode-time bound proved for services without time offset; C34_timeoffset_violation with one."
  },
  {
   "property": "C35",
   "status": "partial",
   "theorems": [
    "Verif.C35_pattern",
    "Verif.C35_periodic",
    "Verif.C35_second_zero_violation"
   ],
   "note": "Pattern proved for all durations and times except that second 0 of each minute is never in a down slot (violation theorem)."
  },
  {
   "property": "C36",
   "status": "partial",
   "theorems": [
    "Verif.C36_announced_partial",
    "Verif.C36_only_splices",
    "Verif.C36_message",
    "Verif.C36_distinct_ids",
    "Verif.C36_missed_violation",
    "Verif.C36_missed_second_violation"
   ],
   "note": "Proved for segment durations up to 5 s and for durations up to 12 s that divide a minute. For other durations the code misses splices: C36_missed_violation (7 s segments) and C36_missed_second_violation (15 s segments, 3 per minute) prove it."
  },
  {
   "property": "C37",
   "status": "partial",
   "theorems": [
    "Verif.C37_round_trip_partial",
    "Verif.C37_no_truncation",
    "Verif.C37_size_violation"
   ],
   "note": "Round trip and size proved for ASCII strings without NUL. With non-ASCII strings the size field counts characters and not bytes: C37_size_violation."
  },
  {
   "property": "C38",
   "status": "partial",
   "theorems": [
    "Verif.C38_add",
    "Verif.C38_bytes",
    "Verif.C38_roundtrip_partial",
    "Verif.C38_prefix",
    "Verif.C38_wide_violation",
    "Verif.C38_pending_violation",
    "Verif.C38_step_bytes"
   ],
   "note": "C38_add decides every add_bits call; C38_bytes, C38_prefix and C38_roundtrip_partial hold for all sequences of fields of up to 34 bits (values that fit), the round trip for those that fill whole bytes. False for wider fields (C38_wide_violation: only 34 masks) and when the last byte is not full (C38_pending_violation: no flush)."
  },
  {
   "property": "C39",
   "status": "proved",
   "theorems": [
    "Verif.C39_decodes",
    "Verif.C39_hang",
    "Verif.C39_ends"
   ],
   "note": "For every number, buffer and bit position; C39_hang and C39_ends decide when the loop ends."
  },
  {
   "property": "C40",
   "status": "partial",
   "theorems": [
    "Verif.C40_rewrites",
    "Verif.C40_shift_partial",
    "Verif.C40_mdat",
    "Verif.C40_tfhd",
    "Verif.C40_hours_violation",
    "Verif.C40_run_violation"
   ],
   "note": "For every text, offset and segment number the result is the leftmost non-overlapping rewriting of begin/end times (shifted by exactly the offset, normalised), of the clock text (calendar date and time, checked against an independent Gregorian day count) and of the segment number, everything else unchanged. The list of times of the text is shifted elementwise provided they have two hour digits. Media data box size and default sample size follow. Fails for times with three hour digits and for sample sizes given in the run (violation theorems)."
  },
  {
   "property": "C41",
   "status": "partial",
   "theorems": [
    "Verif.C41_durations_partial",
    "Verif.C41_lossless_partial",
    "Verif.C41_gap_violation",
    "Verif.C41_zero_violation",
    "Verif.C41_describes_partial",
    "Verif.C41_longer_violation"
   ],
   "note": "For every accepted input the written file reads back to the number and duration of every segment (positive durations) and, where segments follow each other without gaps, to their start times; runs differ; the table then describes the loop as C28/C29 need. Violations shown: gaps inside a run are lost (C41_gap_violation), zero-duration segments are dropped (C41_zero_violation), a track longer than the loop gets a table that does not describe the loop (C41_longer_violation)."
  },
  {
   "property": "C42",
   "status": "partial",
   "theorems": [
    "Verif.C42_time",
    "Verif.C42_offset_partial",
    "Verif.C42_offset_violation",
    "Verif.C42_sync",
    "Verif.C42_chunk",
    "Verif.C42_position",
    "Verif.C42_position_fixed",
    "Verif.C42_chunk_offset",
    "Verif.C42_locate",
    "Verif.C42_zero"
   ],
   "note": "Decode times and durations, sync samples, chunks, sizes, byte positions and chunk offsets are proved for every table and every sample. Composition offsets only where none is negative: C42_offset_violation shows that signed offsets of version 1 boxes are read as unsigned."
  },
  {
   "property": "C43",
   "status": "partial",
   "theorems": [
    "Verif.C43_index_partial",
    "Verif.C43_two_runs_violation",
    "Verif.C43_default_violation"
   ],
   "note": "C43_index_partial: index position, size, duration, time and unchanged media for every single-fragment segment with one track header and one run. C43_two_runs_violation: with several runs the duration is that of the last run only. C43_default_violation: over HTTP, durations that only the initialization segment tells are taken as 0."
  },
  {
   "property": "C44",
   "status": "partial",
   "theorems": [
    "Verif.C44_segment_partial",
    "Verif.C44_once",
    "Verif.C44_kept",
    "Verif.C44_message",
    "Verif.C44_emulation",
    "Verif.C44_line",
    "Verif.C44_first_flags_violation",
    "Verif.C44_default_duration_violation",
    "Verif.C44_fragments_violation",
    "Verif.C44_index_violation"
   ],
   "note": "For every segment with one run that gives data offset, durations and sizes (any other boxes around): the result is exactly the segment of the samples with their captions inserted before the first picture unit, all sizes and offsets right; each caption once; messages read back. Violations with witnesses: first-sample flags dropped (box size wrong), default durations (captions lost), two fragments (raises), index box not updated."
  },
  {
   "property": "C45",
   "status": "proved",
   "theorems": [
    "Verif.C45_gate",
    "Verif.C45_redirect",
    "Verif.C45_location",
    "Verif.C45_same_content"
   ],
   "note": ""
  },
  {
   "property": "C46",
   "status": "proved",
   "theorems": [
    "Verif.C46_no_leak"
   ],
   "note": ""
  },
  {
   "property": "C47",
   "status": "proved",
   "theorems": [
    "Verif.C47_static",
    "Verif.C47_available_forever"
   ],
   "note": ""
  },
  {
   "property": "C48",
   "status": "partial",
   "theorems": [
    "Verif.C48_uint32",
    "Verif.C48_uint64",
    "Verif.C48_sint32",
    "Verif.C48_serialize_partial",
    "Verif.C48_u16_violation"
   ],
   "note": "32/64-bit integers proved for all values; the 16-bit box field writer raises above 65535 (violation theorem)."
  },
  {
   "property": "C49",
   "status": "partial",
   "theorems": [
    "Verif.C49_accept",
    "Verif.C49_selection_partial",
    "Verif.C49_role_partial",
    "Verif.C49_ad_violation"
   ],
   "note": "Selection proved without ads; C49_ad_violation: with ads the first candidate period of each manifest is not linked, so the role of a period depends on the request time."
  },
  {
   "property": "C50",
   "status": "proved",
   "theorems": [
    "Verif.C50_init"
   ],
   "note": ""
  },
  {
   "property": "C51",
   "status": "partial",
   "theorems": [
    "Verif.C51_all_sync_partial",
    "Verif.C51_flags_ignored_violation",
    "Verif.C51_marks_violation",
    "Verif.C51_default_flags_violation"
   ],
   "note": "The code violates the claim: a run with sample flags makes every sample a sync sample, default flags are read as a truth value and first-sample flags are ignored (three violation theorems, one general). Proved for segments whose samples are all sync samples and whose run lists flags."
  },
  {
   "property": "C52",
   "status": "partial",
   "theorems": [
    "Verif.C52_front_dropped_violation",
    "Verif.C52_last_segment_violation"
   ],
   "note": "The code violates the claim: chunks are the same with and without the boxes before the fragment (general theorem) and a last-segment announcement is lost (witness)."
  },
  {
   "property": "C53",
   "status": "partial",
   "theorems": [
    "Verif.C53_track",
    "Verif.C53_timescale_partial",
    "Verif.C53_handler",
    "Verif.C53_defaults",
    "Verif.C53_timescale_violation"
   ],
   "note": "Track number (both versions), handler and defaults proved for every box tree; timescale for version 0 media headers only (C53_timescale_partial). C53_timescale_violation: for a version 1 header the code reads from the upper half of the modification time."
  },
  {
   "property": "C54",
   "status": "partial",
   "theorems": [
    "Verif.C54_drift",
    "Verif.C54_segments_partial",
    "Verif.C54_wrap_partial",
    "Verif.C54_other_violation"
   ],
   "note": "Drift bound for all representations and all segments; enough segments and end of loop only for the first representation of each content type: C54_other_violation shows that other representations may have fewer segments than the loop."
  },
  {
   "property": "C55",
   "status": "partial",
   "theorems": [
    "Verif.C55_grid",
    "Verif.C55_monotone",
    "Verif.C55_manifest_partial",
    "Verif.C55_change_violation"
   ],
   "note": "Configuration publish time: grid, monotone, constant within an update interval, for every URL. The manifest writes the request time instead (violation with witness); for it: not in the future, monotone, same publish time means same manifest."
  },
  {
   "property": "C56",
   "status": "proved",
   "theorems": [
    "Verif.C56_durations",
    "Verif.C56_before_link",
    "Verif.C56_early_violation"
   ],
   "note": "Exact characterisation of the announced duration for every pair of neighbouring periods. Violation of the documented early termination with witness: an early-terminated period before an ad period is later announced with full length."
  },
  {
   "property": "C57",
   "status": "partial",
   "theorems": [
    "Verif.C57_sizes_partial",
    "Verif.C57_sequence",
    "Verif.C57_brands",
    "Verif.C57_entries",
    "Verif.C57_video_entry",
    "Verif.C57_placeholder",
    "Verif.C57_senc_violation",
    "Verif.C57_sgpd_violation",
    "Verif.C57_sidx_violation",
    "Verif.C57_esds_partial",
    "Verif.C57_esds_violation"
   ],
   "note": "For all trees of boxes with key ids of 16 bytes, encryption boxes with 8-byte vectors and samples of one kind, segment indexes of version 0 or 1, and decoder configurations of at most 104 bytes in esds. The violations show that each of these conditions is needed: the code writes wrong sizes otherwise."
  },
  {
   "property": "C58",
   "status": "partial",
   "theorems": [
    "Verif.C58_video",
    "Verif.C58_audio_partial",
    "Verif.C58_ac3_partial",
    "Verif.C58_text",
    "Verif.C58_language",
    "Verif.C58_read",
    "Verif.C58_live",
    "Verif.C58_hevc_violation",
    "Verif.C58_rate_violation",
    "Verif.C58_no_timescale"
   ],
   "note": "Proved for AVC and WebVTT, and for AAC and AC-3 with sample rates below 65536 Hz, all numbers within their fields. Fails for HEVC (the box can never be written: bitwriter is not imported) and for higher sample rates (cut to 16 bits). The code computes the movie duration in floating point; the model takes the exact quotient, equal as long as duration * 90000 < 2^53."
  },
  {
   "property": "C59",
   "status": "partial",
   "theorems": [
    "Verif.C59_offsets_partial",
    "Verif.C59_saiz_violation",
    "Verif.C59_mixed_violation",
    "Verif.C59_plain"
   ],
   "note": "Offsets, counts, durations and sizes proved for auxiliary information of one kind (all samples with subsamples or none) within its fields; the encryptor is not in the repository, its result is an argument. Fails for saiz, which always states 0 samples, and for samples of both kinds, where senc and so the fragment state a wrong size and the data offset is wrong."
  },
  {
   "property": "C60",
   "status": "proved",
   "theorems": [
    "Verif.C60_timestamp",
    "Verif.C60_unique"
   ],
   "note": "For every rational number of seconds: the text of make_timestamp denotes exactly the second obtained by rounding down, in the proleptic Gregorian calendar."
  },
  {
   "property": "C61",
   "status": "partial",
   "theorems": [
    "Verif.C61_content_partial",
    "Verif.C61_representations_partial",
    "Verif.C61_element_violation"
   ],
   "note": "Proved for VoD manifests whose Period follows the ProgramInformation and BaseURL elements directly, non-negative segment duration and time shift buffer depth. When another element comes first the code copies that instead of the period (violation)."
  },
  {
   "property": "C62",
   "status": "partial",
   "theorems": [
    "Verif.C62_mpd_partial",
    "Verif.C62_period_partial",
    "Verif.C62_metrics_violation",
    "Verif.C62_two_periods_violation",
    "Verif.C62_period_violation",
    "Verif.C62_baseurl_violation",
    "Verif.C62_adaptation_set_violation",
    "Verif.C62_protection_violation"
   ],
   "note": "Proved under hypotheses that exclude the combinations of options, and VoD manifests, for which the order is wrong; each of these has its own violation theorem."
  },
  {
   "property": "C63",
   "status": "partial",
   "theorems": [
    "Verif.C63_says_partial",
    "Verif.C63_base_partial",
    "Verif.C63_timescale_violation",
    "Verif.C63_own_offset_violation",
    "Verif.C63_own_duration_violation",
    "Verif.C63_representation_violation",
    "Verif.C63_day_violation",
    "Verif.C63_negative_depth_violation",
    "Verif.C63_base_violation"
   ],
   "note": "Proved for VoD manifests without live attributes of their own, templates in the adaptation sets with timescale 1 or none, non-negative values below whole days. The code fails the claim otherwise: presentationTimeOffset is written in seconds whatever the timescale, offsets and durations of the VoD manifest stay, templates in representations are not changed, whole days give P1DT, a negative depth sends the VoD period, BaseURL of the VoD manifest gets no offset (violations proved)."
  },
  {
   "property": "C64",
   "status": "proved",
   "theorems": [
    "Verif.C64_clocks",
    "Verif.C64_unknown"
   ],
   "note": ""
  },
  {
   "property": "C65",
   "status": "partial",
   "theorems": [
    "Verif.C65_base_partial",
    "Verif.C65_location_partial",
    "Verif.C65_multi_violation",
    "Verif.C65_start_only_violation",
    "Verif.C65_plus_violation",
    "Verif.C65_callback_violation"
   ],
   "note": "Proved for services with one BaseURL and for services with both relative times written with digits and minus; several BaseURLs, a relative start without stop, other int() spellings, and mpdcallback with a Location break the claim (violation theorems). The options dur, tfdt, cont and modulo are left out of the Location theorem."
  },
  {
   "property": "C66",
   "status": "proved",
   "theorems": [
    "Verif.C66_continuity"
   ],
   "note": ""
  },
  {
   "property": "C67",
   "status": "partial",
   "theorems": [
    "Verif.C67_profiles_partial",
    "Verif.C67_longer_violation"
   ],
   "note": "Proved but for VoD profiles that contain the name of the ad-insertion profile as part of a longer one (C67_longer_violation)."
  },
  {
   "property": "C68",
   "status": "partial",
   "theorems": [
    "Verif.C68_timeline_partial",
    "Verif.C68_session_partial",
    "Verif.C68_timeoffset_violation",
    "Verif.C68_stop_violation",
    "Verif.C68_empty_violation",
    "Verif.C68_before_violation",
    "Verif.C68_session_periods_violation",
    "Verif.C68_subtitle_violation"
   ],
   "note": "Proved for services without time offset (C68_timeline_partial) and for one-period sessions with timeoffset_0 and stop (C68_session_partial), inside the windows of C28. The other cases are refuted by the violation theorems."
  },
  {
   "property": "C69",
   "status": "partial",
   "theorems": [
    "Verif.C69_find_partial",
    "Verif.C69_types",
    "Verif.C69_wide_container_violation",
    "Verif.C69_empty_container_violation"
   ],
   "note": "Proved for files in which containers are not empty and have 32-bit sizes; refuted otherwise by the violation theorems. Paths with empty parts or attribute criteria are not modelled."
  },
  {
   "property": "C70",
   "status": "partial",
   "theorems": [
    "Verif.C70_inputs_partial",
    "Verif.C70_loss_violation",
    "Verif.C70_text_partial",
    "Verif.C70_host_violation",
    "Verif.C70_character_violation"
   ],
   "note": "For every option except segtimelineloss: if the VoD manifest and the parts of the request address have only XML characters and no ns0:, the manifest made has too (C70_inputs_partial), and reading its text gives the tree (C70_text_partial). Violations: a host name ending in ns0 with a port; control characters copied from the URL; a profile that segtimelineloss changes into one with ns0:. The serialiser of ElementTree (Python 3.9 and later) is modelled from its source, not part of /repo."
  },
  {
   "property": "C71",
   "status": "partial",
   "theorems": [
    "Verif.C71_links_partial",
    "Verif.C71_ads_partial",
    "Verif.C71_target_partial",
    "Verif.C71_base_violation",
    "Verif.C71_attribute_violation",
    "Verif.C71_mention_violation",
    "Verif.C71_namespace_violation",
    "Verif.C71_late_violation",
    "Verif.C71_name_violation"
   ],
   "note": "Proved for manifests the code's text search can cut: one BaseURL without attributes, period ids first and not mentioned earlier, no references in the file name; all ad modes, with and without default content. Each exclusion has a violation theorem."
  },
  {
   "property": "C72",
   "status": "proved",
   "theorems": [
    "Verif.C72_down",
    "Verif.C72_frozen",
    "Verif.C72_up",
    "Verif.C72_plain"
   ],
   "note": ""
  },
  {
   "property": "C73",
   "status": "partial",
   "theorems": [
    "Verif.C73_announced",
    "Verif.C73_callbacks_partial",
    "Verif.C73_handler_violation"
   ],
   "note": "Announcements proved for all services; callbacks for services with one BaseURL (with a Location there is no manifest: C65_callback_violation). C73_handler_violation: the server answers the announced callback URL with 404."
  },
  {
   "property": "C74",
   "status": "partial",
   "theorems": [
    "Verif.C74_fetch_partial",
    "Verif.C74_drift_violation"
   ],
   "note": "Proved for services that start numbering at 0 without time offset, from their start until their stop if there is one (C68_stop_violation after it), with tables whose segments are less than one second and less than half a segment from the average, and with no entry of the table twice in the buffer. For drifting segments the claim is false (C74_drift_violation)."
  },
  {
   "property": "C75",
   "status": "partial",
   "theorems": [
    "Verif.C75_numbers_partial",
    "Verif.C75_init_partial"
   ],
   "note": "Proved for services without end (C94 has those with an end), Location or several BaseURLs, with or without low latency, with one period or with periods on the grid of the segments (C27_grid_violation otherwise), VoD templates in seconds (C63_timescale_violation) and buffers that are not whole days (C63_day_violation)."
  },
  {
   "property": "C76",
   "status": "partial",
   "theorems": [
    "Verif.C76_roundtrip_partial",
    "Verif.C76_known_partial",
    "Verif.C76_comma_violation",
    "Verif.C76_space_violation",
    "Verif.C76_return_violation",
    "Verif.C76_empty_violation",
    "Verif.C76_image_violation",
    "Verif.C76_zero_violation",
    "Verif.C76_ms_violation"
   ],
   "note": "Proved for representation names without comma, line break and outer space, types video, audio and subtitles, at least one representation per type, duration not 0; violation theorems show that the code fails outside (image never written, 0 and ms durations unusable). Python's configparser is modelled from its source; file encoding is taken as the same for writing and reading."
  },
  {
   "property": "C77",
   "status": "partial",
   "theorems": [
    "Verif.C77_media_partial",
    "Verif.C77_init",
    "Verif.C77_other_violation",
    "Verif.C77_template_violation",
    "Verif.C77_kind_violation",
    "Verif.C77_default_violation"
   ],
   "note": "Media segments, whole or in chunks, of the first representation of every adaptation set with the template $RepresentationID$/$Number$.m4s, and initialization segments of all representations. False for later representations with fewer segments, for templates with text beside the number, for content types other than video and audio, and for manifests without startNumber (violation theorems)."
  },
  {
   "property": "C78",
   "status": "partial",
   "theorems": [
    "Verif.C78_drift",
    "Verif.C78_continuous_partial",
    "Verif.C78_sync",
    "Verif.C78_gap_violation"
   ],
   "note": "C78_drift, C78_sync: every whole reply, any options, any number of loops. C78_continuous_partial needs stored segments without gaps, which the analyser does not check (C78_gap_violation). Segments with several fragments or runs and replies in chunks are not covered."
  },
  {
   "property": "C79",
   "status": "partial",
   "theorems": [
    "Verif.C79_sent_partial",
    "Verif.C79_init_partial",
    "Verif.C79_init_violation",
    "Verif.C79_early_violation"
   ],
   "note": "C79_sent_partial: for accepted content with room for the additions, a decided segment is sent iff its number and decode time fit their fields (whole replies, one fragment with one run). C79_init_partial: init segments with complete headers are sent with durations 0. C79_init_violation: content with a cut-off movie header is accepted but its init segment cannot be sent. C79_early_violation: with timeoffset after the start, decided segments have negative numbers and raise. Missing: chunked replies, several fragments or runs."
  },
  {
   "property": "C80",
   "status": "partial",
   "theorems": [
    "Verif.C80_media_partial",
    "Verif.C80_init_partial"
   ],
   "note": "Proved end to end for number-addressed services of analysed content (one BaseURL, no timeline, no announced end, periods on the segment grid, one fragment per segment), and for init segments with complete headers; low latency is C92. Outside this class the component properties have violations (C27, C63, C75, C77, C79)."
  },
  {
   "property": "C81",
   "status": "partial",
   "theorems": [
    "Verif.C81_timeline_partial",
    "Verif.C81_wrap_violation"
   ],
   "note": "Proved for content without gaps whose loop is whole, when no run of equal durations occurs twice in the buffer, for young services and for services with a stop that has not passed. False over the end of the loop for content with one duration (C81_wrap_violation). Missing: start numbers, time offsets, other ends of the service (see C74), low latency, several BaseURLs."
  },
  {
   "property": "C82",
   "status": "partial",
   "theorems": [
    "Verif.C82_chunks_partial",
    "Verif.C82_stream_partial",
    "Verif.C82_init_name_violation",
    "Verif.C82_ticks_violation"
   ],
   "note": "C82_chunks_partial and C82_stream_partial are the full claim for stored segments with one fragment and one run and an initialization segment called init.mp4. The code fails for other names (C82_init_name_violation) and for chunk durations below one tick (C82_ticks_violation). Times are relative to the segment start that the server uses (see C18)."
  },
  {
   "property": "C83",
   "status": "partial",
   "theorems": [
    "Verif.C83_pacing",
    "Verif.C83_complete",
    "Verif.C83_ticks_partial",
    "Verif.C83_ticks_violation",
    "Verif.C83_stop",
    "Verif.C83_uneven",
    "Verif.C83_number",
    "Verif.C83_time",
    "Verif.C83_order"
   ],
   "note": "All parts hold except the chunk duration in ticks, which may come out one tick short (C83_ticks_violation). Exponent range (overflow, subnormals) is not modelled."
  },
  {
   "property": "C84",
   "status": "partial",
   "theorems": [
    "Verif.C84_media_partial",
    "Verif.C84_http_partial",
    "Verif.C84_init_partial",
    "Verif.C84_base_violation",
    "Verif.C84_box_violation",
    "Verif.C84_event_violation",
    "Verif.C84_duration_violation",
    "Verif.C84_track_violation",
    "Verif.C84_name_violation"
   ],
   "note": "Proved over HTTP for segments with one segment type box and one run per fragment, whose fragments hold nothing but header and track fragment, and whose second representation uses offsets from the fragment. False otherwise: C84_base_violation, C84_box_violation, C84_event_violation, C84_duration_violation, C84_track_violation, C84_name_violation; see also C15."
  },
  {
   "property": "C85",
   "status": "partial",
   "theorems": [
    "Verif.C85_media_partial",
    "Verif.C85_http_partial",
    "Verif.C85_two_violation",
    "Verif.C85_seconds_violation",
    "Verif.C85_hours_violation",
    "Verif.C85_header_violation"
   ],
   "note": "`C85_media_partial`: the body of the reply, its number, its only sample and the places of its cues; `C85_http_partial`: the same through the server. False for segments with several samples (`C85_two_violation`), times in seconds (`C85_seconds_violation`), hours of three digits (`C85_hours_violation`) and track headers without default size or duration (`C85_header_violation`)."
  },
  {
   "property": "C86",
   "status": "partial",
   "theorems": [
    "Verif.C86_media_partial",
    "Verif.C86_http_partial",
    "Verif.C86_width_violation",
    "Verif.C86_number_violation",
    "Verif.C86_index_violation",
    "Verif.C86_analyser_violation"
   ],
   "note": "Proved for replies that are sent and over HTTP, for any number of fragments whose decode times have one width and do not decrease. False for mixed widths, sequence numbers, inserted indexes and the analyser (violations)."
  },
  {
   "property": "C87",
   "status": "partial",
   "theorems": [
    "Verif.C87_exact",
    "Verif.C87_cut",
    "Verif.C87_silent",
    "Verif.C87_content_partial",
    "Verif.C87_hidden_violation",
    "Verif.C87_numbers_violation",
    "Verif.C87_start_violation"
   ],
   "note": "Exactness, silence and cut files proved for every file. The content part holds for content without gaps; gaps between segments of equal duration are lost by the analyser before the checker sees them, and numbers and the start of the loop are not checked (violations)."
  },
  {
   "property": "C88",
   "status": "partial",
   "theorems": [
    "Verif.C88_time",
    "Verif.C88_cues_partial",
    "Verif.C88_beyond_violation",
    "Verif.C88_nothing_violation",
    "Verif.C88_segment_violation"
   ],
   "note": "Times and cues proved for all inputs. The generator itself never makes a segment (C88_nothing_violation, for all inputs): its templates are str, which the box filter cannot unpack; cues may go beyond the segment. What the filters of stpp_creator.py would do with bytes is not modelled."
  },
  {
   "property": "C89",
   "status": "partial",
   "theorems": [
    "Verif.C89_file",
    "Verif.C89_tool_partial",
    "Verif.C89_once",
    "Verif.C89_gaps_violation",
    "Verif.C89_representations_violation",
    "Verif.C89_max_violation",
    "Verif.C89_format_violation"
   ],
   "note": "Proved for one representation and segments of one run: files are read to their captions, every segment with a caption in its time is written with exactly its captions, every caption goes to exactly one segment. The code fails the rest: segments without captions are not written, several representations overwrite each other, --max n processes n+1 segments, tab separated lines and drop-frame times raise ValueError (violation theorems). Segment times are exact in the model, not floats."
  },
  {
   "property": "C90",
   "status": "partial",
   "theorems": [
    "Verif.C90_numbers_partial",
    "Verif.C90_complete",
    "Verif.C90_copy_violation",
    "Verif.C90_refused_violation"
   ],
   "note": "Proved for directories in which no other file begins like a segment; with copies such as 2.m4s.bak a gap is accepted (C90_copy_violation) and complete content refused (C90_refused_violation), because the regular expression is not anchored."
  },
  {
   "property": "C91",
   "status": "partial",
   "theorems": [
    "Verif.C91_together_partial",
    "Verif.C91_window_partial",
    "Verif.C91_stop_violation",
    "Verif.C91_offset_violation",
    "Verif.C91_loss_violation"
   ],
   "note": "Proved end to end for services without stop time, time offset and loss pattern; the code fails for these options (C91_stop_violation, C91_offset_violation, C91_loss_violation)."
  },
  {
   "property": "C92",
   "status": "partial",
   "theorems": [
    "Verif.C92_stream_partial",
    "Verif.C92_start_violation"
   ],
   "note": "Proved for services whose media timeline starts at the epoch; the pacing is wrong for services with a later start (C92_start_violation). Also not covered: what C80 and C82 leave out."
  },
  {
   "property": "C93",
   "status": "partial",
   "theorems": [
    "Verif.C93_id",
    "Verif.C93_id_injective",
    "Verif.C93_session_partial",
    "Verif.C93_name_violation"
   ],
   "note": "Proved for requests without a query (C45 has the violations there) and services without Location or several BaseURLs (C65). It fails for directories named like a session start (C93_name_violation)."
  },
  {
   "property": "C94",
   "status": "partial",
   "theorems": [
    "Verif.C94_any_time",
    "Verif.C94_ending_partial",
    "Verif.C94_periods_violation"
   ],
   "note": "Proved for every analysed content, option list without options relative to the request time, request time and segment number, with one period for the completeness. Fails for several periods (C94_periods_violation) and, as in C32 and C63, for start numbers below 0 and presentations of whole days."
  },
  {
   "property": "C95",
   "status": "partial",
   "theorems": [
    "Verif.C95_told_partial",
    "Verif.C95_only_partial",
    "Verif.C95_type_violation",
    "Verif.C95_number_violation",
    "Verif.C95_chunk_violation"
   ],
   "note": "Proved for whole replies of analysed video content whose stored segments begin with a styp box, sessions with segment 0 at media time 0, and segment durations of up to 5 s or divisors of 60 up to 12 s. False for segments without styp box, other start numbers, replies in chunks (violation theorems here) and for other durations (C36_missed_violation)."
  },
  {
   "property": "C96",
   "status": "partial",
   "theorems": [
    "Verif.C96_last_partial",
    "Verif.C96_number_violation",
    "Verif.C96_stop_violation",
    "Verif.C96_chunk_violation"
   ],
   "note": "Proved for sessions with a start time and durations, whole replies of analysed content whose stored segments begin with a styp box, and sessions with segment 0 at media time 0. False for other start numbers, sessions that end with a stop time, and replies in chunks (violation theorems)."
  }
 ]
}