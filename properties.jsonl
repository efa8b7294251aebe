{"id": "C01", "title": "Exact availability window of a media segment", "statement": "A request for media segment number n of a plain live service (finite availabilityTimeOffset, no stop, no last segment, not before the first-segment gate) is answered with media exactly when n is not before the first number and now lies in the closed interval from AST+(n-start+1)*segDur-ATO to AST+(n-start+2)*segDur+timeShiftBufferDepth; before it the answer is 'too early', after it 'too late', and below the first number 'before first'.", "quantifier": "every segment number, wall-clock time, availabilityStartTime, segment duration, ATO, time-shift depth and start number", "why_tests_cant": "The decision depends on an unbounded product of clock, number and configuration; boundary errors of one segment or one second show only at particular combinations.", "anchors": ["dashlivesim/dashlib/dash_proxy.py: get_media, process_media_segment", "dashlivesim/dashlib/configprocessor.py: Config.adjusted_start_number, Config.adjusted_pto, Config.stop_number"]}
{"id": "C02", "title": "The available segments at any instant are one contiguous number range with the documented live edge", "statement": "At any time at or after the first segment's availability, the set of segment numbers answered with media is a contiguous range; its upper end is start+floor((now-AST+ATO)/segDur)-1 (the documented latestSegmentNumber), its lower end is the larger of start and start+ceil((now-AST-tsbd)/segDur)-2, and the live-edge segment is itself always available.", "quantifier": "every instant and every configuration with positive segment duration", "why_tests_cant": "Unit tests sample a few numbers at a few instants; contiguity and the closed-form edge are statements about all numbers at all instants.", "anchors": ["dashlivesim/dashlib/dash_proxy.py: process_media_segment", "doc/dashlivesim.mdown"]}
{"id": "C03", "title": "Availability is an interval in time and never flickers", "statement": "For a fixed service configuration the instants at which a given segment is served form one interval: once it has become available it stays available until it expires, and after expiring it is never served again.", "quantifier": "every segment, every triple of instants t1<=t2<=t3, every fixed configuration", "why_tests_cant": "It is a statement over whole request histories.", "anchors": ["dashlivesim/dashlib/dash_proxy.py: get_media, process_media_segment"]}
{"id": "C04", "title": "Live numbers map onto the VoD loop without gaps", "statement": "Every served segment reads a VoD file whose number is inside the loop, consecutive live numbers read consecutive files wrapping from the last to the first, two live numbers read the same file iff they differ by a multiple of the loop length, and the time offset added is exactly the loop duration times the number of completed loops; the internal range assertion can never fire.", "quantifier": "every live number, loop length, first file number, segment duration and time offset", "why_tests_cant": "Wrap-around happens once per loop (an hour for the test content) and after decades of epoch time; tests see a handful of indices.", "anchors": ["dashlivesim/dashlib/dash_proxy.py: process_media_segment, process_thumbnail"]}
{"id": "C05", "title": "Decode times are gapless across loop wraps", "statement": "If the VoD files form a gapless track whose total duration is exactly the loop duration then for every live number n the decode time in the served segment n+1 equals the decode time in n plus the duration of n, including across every loop wrap.", "quantifier": "every VoD track satisfying the precondition and every live segment number", "why_tests_cant": "A gap appears only at a wrap point or at the 32/64-bit transition; no finite sample of segments covers all wraps.", "anchors": ["dashlivesim/dashlib/dash_proxy.py: process_media_segment, filter_media_segment", "dashlivesim/dashlib/mediasegmentfilter.py: process_tfdt"]}
{"id": "C06", "title": "MPD addressing and the segment server agree", "statement": "For a single-period number-based service, a client that computes from the MPD (availabilityStartTime, startNumber, presentationTimeOffset, duration, availabilityTimeOffset) which segment number is at media time T and when it becomes available gets the number and the availability instant the segment server uses, for every start time, time offset and start number; in particular a startNumber omitted from the MPD is served as 1.", "quantifier": "every configuration of start, timeoffset, snr and every media time", "why_tests_cant": "Two code paths (manifest and segment) must agree for all configurations; tests check isolated values of each.", "anchors": ["dashlivesim/dashlib/mpd_proxy.py: generate_dynamic_mpd, generate_period_data", "dashlivesim/dashlib/mpdprocessor.py: update_periods", "dashlivesim/dashlib/dash_proxy.py: process_media_segment", "dashlivesim/dashlib/configprocessor.py: adjusted_start_number, adjusted_pto"]}
{"id": "C07", "title": "The last-segment brand marks exactly the last segment", "statement": "The styp box of a served segment contains the brand lmsg if the segment is one of the configured last segments and does not contain it otherwise, all other brands keep their order and content, the box size is right, and rewriting is idempotent.", "quantifier": "every styp box content (any brand list, with any number of lmsg brands) and every flag value", "why_tests_cant": "Ranges over all brand lists.", "anchors": ["dashlivesim/dashlib/mediasegmentfilter.py: process_styp", "dashlivesim/dashlib/dash_proxy.py: process_media_segment"]}
{"id": "C08", "title": "Box filtering keeps the file a well-formed box sequence", "statement": "Filtering a file that is a well-formed sequence of boxes (nested where the filter looks inside) produces a well-formed sequence: every untouched box is copied byte for byte, every container's size field equals its new length whatever the children became, and the boxes keep their order.", "quantifier": "every box tree with sizes representable in 32 bits and every per-box rewriting rule", "why_tests_cant": "Structural induction over all box trees.", "anchors": ["dashlivesim/dashlib/mp4filter.py: MP4Filter.filter, filter_box, check_box"]}
{"id": "C09", "title": "The filter loop terminates on every input, or the failure is characterised", "statement": "Filtering any byte string terminates with output or an exception unless the parse reaches a box with size field 0; every step consumes the declared size.", "quantifier": "every byte string", "why_tests_cant": "Non-termination can not be observed by a test that must end.", "anchors": ["dashlivesim/dashlib/mp4filter.py: MP4Filter.filter, filter_box", "dashlivesim/dashlib/mediasegmentfilter.py: find_and_process_mdat"]}
{"id": "C10", "title": "Decode time rewriting is exact and survives the 32-bit limit", "statement": "The decode time in the output equals the input decode time plus offset times timescale; while the result fits 32 bits the box keeps its 32-bit form and size, from 2^32 on it becomes the 64-bit form with a size field larger by four, and 64-bit boxes stay 64-bit; no result is silently truncated (out-of-range raises).", "quantifier": "every tfdt box version and value, every offset and timescale", "why_tests_cant": "The boundary value 2^32 and the overflow of 2^64 are single points of a 64-bit space.", "anchors": ["dashlivesim/dashlib/mediasegmentfilter.py: process_tfdt, process_tfdt_to_64bit", "dashlivesim/dashlib/structops.py"]}
{"id": "C11", "title": "Sample data stays addressable when the fragment grows", "statement": "When rewriting the decode time makes the movie fragment four bytes longer, the enclosing box sizes grow by four and the run's data offset and auxiliary-info offsets grow by four, so the bytes every sample is read from are the same as in the input; when it does not grow nothing but the decode time and sequence number changes.", "quantifier": "every fragment with one track whose run follows the decode time box, every offset value", "why_tests_cant": "Relates several fields across boxes for all payload sizes and for both sides of the 32-bit boundary.", "anchors": ["dashlivesim/dashlib/mediasegmentfilter.py: process_tfdt, process_trun, process_saio", "dashlivesim/dashlib/mp4filter.py: filter_box"]}
{"id": "C12", "title": "The fragment sequence number is the requested number", "statement": "The mfhd box of a served segment carries the live segment number (not the file number), with all other bytes of the box header unchanged; numbers that do not fit 32 bits raise instead of wrapping.", "quantifier": "every segment number and mfhd box", "why_tests_cant": "32-bit limit and every number.", "anchors": ["dashlivesim/dashlib/mediasegmentfilter.py: process_mfhd", "dashlivesim/dashlib/dash_proxy.py: filter_media_segment"]}
{"id": "C13", "title": "Live init segments differ from the VoD ones only in zeroed durations", "statement": "The live init segment has the same length and box structure as the stored one; movie, track and media durations are zero in both box versions, every other byte is unchanged, and filtering twice equals filtering once.", "quantifier": "every init segment box tree and both header versions", "why_tests_cant": "Quantifies over all byte contents.", "anchors": ["dashlivesim/dashlib/initsegmentfilter.py: InitLiveFilter"]}
{"id": "C14", "title": "A multiplexed init segment contains both tracks and is well formed", "statement": "The muxed init segment is ftyp of the first input followed by one movie box whose size field is its length and whose children are exactly the first movie header, one extends box with both track defaults, and both track boxes; parsing it back yields those boxes.", "quantifier": "every pair of init segments with the required boxes", "why_tests_cant": "Sizes are sums over arbitrary inputs.", "anchors": ["dashlivesim/dashlib/segmentmuxer.py: MultiplexInits, InitSegmentStructure"]}
{"id": "C15", "title": "Multiplexing two media segments keeps every track's sample bytes", "statement": "In the muxed segment, following each track's data offset from the start of the fragment gives the byte sequence that the track's own segment gives, for both tracks, and the box sizes are right.", "quantifier": "every pair of one-fragment segments with data offsets present", "why_tests_cant": "Relates offsets and lengths of arbitrary inputs.", "anchors": ["dashlivesim/dashlib/segmentmuxer.py: MediaSegmentStructure, MultiplexMediaSegments.mux_on_sample_level, mux_on_fragment_level"]}
{"id": "C16", "title": "Chunking neither loses, duplicates nor reorders samples", "statement": "Splitting a segment into chunks and concatenating the chunks gives back the sample sequence; every chunk is non-empty; each chunk's first decode time continues where the previous chunk ended.", "quantifier": "every sample list and every positive chunk duration", "why_tests_cant": "Induction over sample lists with arbitrary durations.", "anchors": ["dashlivesim/dashlib/chunker.py: partition, encode_chunked, decode_fragment"]}
{"id": "C17", "title": "Chunk boundaries follow the chunk duration grid", "statement": "Chunk number k (from 1) ends at the first sample boundary at or after k times the chunk duration, provided no sample is longer than the chunk duration; so no chunk is more than one sample longer than the chunk duration and the number of chunks is determined by the grid.", "quantifier": "every sample list with positive durations and every chunk duration", "why_tests_cant": "Drift accumulates over arbitrarily many samples.", "anchors": ["dashlivesim/dashlib/chunker.py: partition"]}
{"id": "C18", "title": "Chunks are never delivered before their availability time and arrive in order", "statement": "With low-latency delivery chunk i leaves the server no earlier than segment start + i*chunk duration - 0.1 s on the server clock, chunks leave in order, all of them leave, and a chunk already available is not delayed.", "quantifier": "every clock behaviour (any monotone sequence of clock readings, any sleep overshoot), every chunk list", "why_tests_cant": "Quantifies over schedules of the clock and of sleep.", "anchors": ["dashlivesim/mod_wsgi/mod_dashlivesim.py: application", "dashlivesim/dashlib/chunker.py: simulate_continuous_production"]}
{"id": "C19", "title": "A generated chunk is a decodable fragment", "statement": "Each chunk is a movie fragment box followed by a media data box, the sizes are right, the sequence number and track are those of the segment, the decode time is that of its first sample, the run lists duration, size and composition offset of every sample and the data offset points at the first byte of the first sample; parsing the chunk gives back the samples.", "quantifier": "every non-empty sample list with representable fields", "why_tests_cant": "Binary layout for all sample lists.", "anchors": ["dashlivesim/dashlib/boxes.py: create_moof, create_mdat, TRUN, TFHD, TFDT, MFHD, MDAT", "dashlivesim/dashlib/chunker.py: encode_chunked, decode_fragment", "dashlivesim/dashlib/mp4.py: trun_box, tfhd_box, tfdt_box"]}
{"id": "C20", "title": "Byte-range replies return exactly the requested bytes", "statement": "For a payload and a single well-formed range the reply body is the payload slice the range denotes (RFC 7233: first-last, first-, -suffix, with the end clipped to the payload), the Content-Range names the first and last byte and the length of that slice, and unsatisfiable or unsupported ranges give the whole payload with status 200.", "quantifier": "every payload and every range header", "why_tests_cant": "All integers and payload lengths; off-by-one errors at the ends.", "anchors": ["dashlivesim/mod_wsgi/mod_dashlivesim.py: handle_byte_range, application"]}
{"id": "C21", "title": "Every request gets a reply and errors are 404 text", "statement": "Whatever exception or error response the content side produces, the reply is status 404 with content type text/plain, no Content-Range and a Content-Length equal to the body length; successful replies have status 200 or 206, the mime type of the extension and a correct Content-Length.", "quantifier": "every provider outcome and every range header", "why_tests_cant": "Quantifies over all exceptions and responses.", "anchors": ["dashlivesim/mod_wsgi/mod_dashlivesim.py: application, start_reply, get_mime_type"]}
{"id": "C22", "title": "Modulo sessions: phase table, window and ordering", "statement": "For a modulo session of m minutes at any time: the availability start is the start of the current m-minute slot, or of the next one during the last 10 percent; the presentation duration is 20/40/60/80/20 percent of the slot in the phases 0-10-30-50-90-100 percent; the end time is start + duration + 5 percent, never extends beyond the slot, and lies in the future except in the documented idle phase (85 to 90 percent).", "quantifier": "every time and every positive number of minutes", "why_tests_cant": "Five phases with boundaries that depend on the slot length, at every instant.", "anchors": ["dashlivesim/dashlib/moduloperiod.py: ModuloPeriod", "dashlivesim/dashlib/configprocessor.py: update_with_modulo_period"]}
{"id": "C23", "title": "Within one modulo session the announced presentation only grows", "statement": "During one modulo session (same availability start) the announced presentation end and availability end never decrease with time, and the number of the last segment never decreases; the segment announced as last in the final phase is the one with the lmsg brand.", "quantifier": "every pair of instants in the same session", "why_tests_cant": "Pairs of instants, all slot lengths.", "anchors": ["dashlivesim/dashlib/moduloperiod.py: ModuloPeriod", "dashlivesim/dashlib/configprocessor.py: update_with_modulo_period", "dashlivesim/dashlib/dash_proxy.py: process_media_segment"]}
{"id": "C24", "title": "ISO duration formatting and parsing are inverse", "statement": "The duration string written to the manifest for a number of seconds denotes that number of seconds and is read back as that number by the package's own parser.", "quantifier": "every non-negative number of seconds; every string for the parser", "why_tests_cant": "All integers; digit-level formatting.", "anchors": ["dashlivesim/dashlib/timeformatconversions.py: seconds_to_iso_duration, iso_duration_to_seconds"]}
{"id": "C25", "title": "Multi-period manifests tile time", "statement": "With n periods per hour the listed periods are consecutive: each starts where the previous ends, ids and starts are distinct and increasing, together they cover from the oldest still addressable instant (now - tsbd - segDur) to beyond now, the current period is always listed, and the next period is listed at least half a period before it starts.", "quantifier": "every time, time-shift depth and accepted period count", "why_tests_cant": "All instants including the exact half-period boundaries.", "anchors": ["dashlivesim/dashlib/mpd_proxy.py: generate_period_data"]}
{"id": "C26", "title": "Period data is stable over time", "statement": "A period with a given id has the same start, startNumber, presentationTimeOffset, early-termination and callback data in every manifest that lists it, whenever requested.", "quantifier": "every pair of instants and every option combination", "why_tests_cant": "Relates two requests at arbitrary times.", "anchors": ["dashlivesim/dashlib/mpd_proxy.py: generate_period_data"]}
{"id": "C27", "title": "Period start number and presentation time offset address the same segment", "statement": "The startNumber of a period is the number of the segment whose media time is the period's presentationTimeOffset; so the segment requested for the period start is the one that starts there.", "quantifier": "every period and segment duration", "why_tests_cant": "Fails only when the segment duration does not divide the period duration.", "anchors": ["dashlivesim/dashlib/mpd_proxy.py: generate_period_data", "dashlivesim/dashlib/dash_proxy.py: process_media_segment"]}
{"id": "C28", "title": "SegmentTimeline lists exactly the window of the looped track", "statement": "Expanding the S elements of a SegmentTimeline gives consecutive segments of the infinitely looped track: the last listed is the last one that has ended at the window end, the first listed is the one containing (or ending at) the window start; t, d and r agree with the track, and startNumber is the number of the first.", "quantifier": "every duration table, window start and end", "why_tests_cant": "Run-length tables, wraps and repeat boundaries interact for all windows.", "anchors": ["dashlivesim/dashlib/segtimeline.py: create_segtimeline, find_latest_starting_before, get_seg_starttime, get_seg_endtime, get_seg_number"]}
{"id": "C29", "title": "Successive SegmentTimelines are consistent", "statement": "Two SegmentTimelines generated at different times list the same start and duration for every segment number that occurs in both, and later ones never start or end earlier.", "quantifier": "every pair of request times", "why_tests_cant": "Relates two requests at arbitrary times (issue 91 of the project was of this kind).", "anchors": ["dashlivesim/dashlib/segtimeline.py: create_segtimeline"]}
{"id": "C30", "title": "$Time$ and $Number$ addressing reach the same segment", "statement": "Requesting a segment by the start time listed in the timeline is answered as the request by its number, as long as the track drifts less than half a segment from the nominal grid.", "quantifier": "every timeline entry and every drift below half a segment", "why_tests_cant": "Rounding at every multiple of the segment duration.", "anchors": ["dashlivesim/dashlib/dash_proxy.py: process_media_segment", "dashlivesim/dashlib/segtimeline.py: get_seg_starttime, get_seg_number"]}
{"id": "C31", "title": "URL options are independent of their order", "statement": "Reordering the option parts of the URL (options with distinct effect) yields the same service configuration; the first part that is not an option names the content.", "quantifier": "every permutation of every option list", "why_tests_cant": "Factorially many orders.", "anchors": ["dashlivesim/dashlib/configprocessor.py: ConfigProcessor.process_url"]}
{"id": "C32", "title": "Start and stop times are quantised to the segment grid", "statement": "With a start time s the availability start is the largest multiple of the segment duration not after s, with a stop time the presentation ends at a multiple of the segment duration not before the stop time and less than one segment later, and exactly the segments between them are served, the number of segments being their distance divided by the segment duration.", "quantifier": "every start, stop, segment duration and segment number", "why_tests_cant": "Rounding with the 0.999 factor for every residue and duration.", "anchors": ["dashlivesim/dashlib/configprocessor.py: process_start_time, quantize, stop_number", "dashlivesim/dashlib/dash_proxy.py: process_media_segment"]}
{"id": "C33", "title": "Announced end time follows the duration list", "statement": "With several durations in the URL the announced end time is that of the earliest duration prefix that is still at least two update periods away, or the last one if none is, the announced end never decreases with time, and the announced presentation duration belongs to the announced end.", "quantifier": "every list of durations, start and time", "why_tests_cant": "All lists and instants.", "anchors": ["dashlivesim/dashlib/configprocessor.py: process_start_time, update_with_aet"]}
{"id": "C34", "title": "32-bit sessions keep all decode times within 32 bits", "statement": "With 32-bit sessions the availability start is a multiple of three hours, now is inside the session, and every segment served before the session ends has a decode time that fits 32 bits for tracks with timescale up to 2^32/10800, so the box is never enlarged.", "quantifier": "every time and every timescale", "why_tests_cant": "All instants.", "anchors": ["dashlivesim/dashlib/configprocessor.py: update_for_tfdt32", "dashlivesim/dashlib/mediasegmentfilter.py: process_tfdt"]}
{"id": "C35", "title": "Up/down base URL patterns", "statement": "For a base URL with an up/down pattern each second of the minute is either up or down as the pattern says, repeating every a+b seconds within the minute and every minute; the down-first pattern is down in the first part; media requests fail exactly in the down seconds.", "quantifier": "every time and every pair of up and down durations", "why_tests_cant": "All pairs and seconds; pattern truncation at the minute.", "anchors": ["dashlivesim/dashlib/dash_proxy.py: get_media", "dashlivesim/dashlib/mpd_proxy.py: get_mpd"]}
{"id": "C36", "title": "Every SCTE-35 splice is announced", "statement": "For each configured splice point every minute, some segment carries its announcement before the splice, the announced time is the splice time, and distinct splices have distinct event ids.", "quantifier": "every segment duration, segment number and ads-per-minute setting", "why_tests_cant": "Interaction of segment grid and minute grid for all durations.", "anchors": ["dashlivesim/dashlib/mediasegmentfilter.py: create_scte35box", "dashlivesim/dashlib/scte35.py"]}
{"id": "C37", "title": "emsg boxes are well formed", "statement": "The emsg box size field equals the number of bytes of the box, and parsing it gives back scheme, value, timescale, delta, duration, id and message.", "quantifier": "every field value and string", "why_tests_cant": "All strings incl. non-ASCII and all 32-bit values.", "anchors": ["dashlivesim/dashlib/emsg.py: Emsg.get_box", "dashlivesim/dashlib/mp4.py: emsg_box"]}
{"id": "C38", "title": "Bit writer and bit reader are inverse", "statement": "Writing any sequence of (value, width) pairs and reading the same widths gives back the values; the number of whole bytes produced is the total width divided by 8.", "quantifier": "every sequence of fields with values that fit their widths", "why_tests_cant": "All sequences and alignments.", "anchors": ["dashlivesim/dashlib/bitwriter.py: Bitwriter.add_bits", "dashlivesim/dashlib/bitreader.py: bitreader.get_bits"]}
{"id": "C39", "title": "Exp-Golomb decoding", "statement": "Reading an Exp-Golomb code word written for v returns v and leaves the reader right after it.", "quantifier": "every v and every bit position", "why_tests_cant": "All naturals.", "anchors": ["dashlivesim/dashlib/bitreader.py: ue"]}
{"id": "C40", "title": "Subtitle times are shifted by exactly the loop offset", "statement": "In a TTML sample every begin/end attribute hh:mm:ss is increased by exactly the offset in seconds and written normalised, other text is unchanged, and the segment-number text shows the live number.", "quantifier": "every sample text and offset", "why_tests_cant": "All texts and offsets, carry between fields.", "anchors": ["dashlivesim/dashlib/ttml_timing_offset.py: adjust_ttml_content", "dashlivesim/dashlib/mediasegmentfilter.py: update_ttml_mdat, find_and_process_mdat, process_tfhd"]}
{"id": "C41", "title": "The duration table written by the analyser is lossless", "statement": "Expanding the run-length table gives back the number, start time and duration of every analysed segment, adjacent runs have different durations, and no segment is missing.", "quantifier": "every list of segment durations", "why_tests_cant": "All sequences of durations.", "anchors": ["dashlivesim/vodanalyzer/dashanalyzer.py: checkAndUpdateMediaData", "dashlivesim/dashlib/configprocessor.py: SEGTIMEFORMAT"]}
{"id": "C42", "title": "Sample table lookups agree with linear expansion", "statement": "The binary searches in the sample tables return for every sample number the time, duration, composition offset, chunk and byte offset given by expanding the run-length tables.", "quantifier": "every table and every sample number", "why_tests_cant": "All tables; loop invariants of the binary search.", "anchors": ["dashlivesim/dashlib/mp4.py: stts_box.sample_time_and_duration, ctts_box.sample_offset, stsc_box.chunk_and_index, stsz_box.sample_size_and_offset"]}
{"id": "C43", "title": "Inserted segment index refers to the media", "statement": "When a segment index is inserted its referenced size is the number of bytes from the end of the index to the end of the media, its duration is the sum of sample durations and its time is the rewritten decode time; media bytes are unchanged.", "quantifier": "every single-fragment segment", "why_tests_cant": "Lengths of arbitrary inputs.", "anchors": ["dashlivesim/dashlib/mediasegmentfilter.py: finalize, create_sidx, process_trun"]}
{"id": "C44", "title": "Caption insertion keeps the video", "statement": "After inserting caption NAL units the media data size field equals its length, every sample's new size equals its old size plus the inserted bytes, removing the inserted bytes gives back the original samples, and the captions are inserted before the first video NAL unit of their sample.", "quantifier": "every sample list and caption list", "why_tests_cant": "All NAL unit sequences.", "anchors": ["dashlivesim/cc_inserter/cc_inserter.py: CCInsertFilter.process_trun, process_mdat, generate_data"]}
{"id": "C45", "title": "Session limiting admits exactly the allowed window", "statement": "With a maximum session length configured a manifest request without session start is redirected to a URL that carries the current time, a request within the session length is served, later ones get 410, requests without start 404, start times more than 5 s in the future 404; with the limit 0 nothing is redirected.", "quantifier": "every clock value, start value and limit", "why_tests_cant": "All instants.", "anchors": ["dashlivesim/mod_wsgi/mod_dashlivesim.py: application", "dashlivesim/dashlib/sessionid.py: generate_session_id"]}
{"id": "C46", "title": "Replies do not leak state between requests", "statement": "The headers of a reply depend only on that request although the default header dictionary is a shared mutable default.", "quantifier": "every history of requests", "why_tests_cant": "Leak shows only after particular histories.", "anchors": ["dashlivesim/mod_wsgi/mod_dashlivesim.py: start_reply, full_reply, application"]}
{"id": "C47", "title": "A finished presentation becomes static and stays so", "statement": "With a stop time the manifest is dynamic until the stop time and static for ever after; static manifests have no minimumUpdatePeriod and no timeShiftBufferDepth, and every segment between start and stop remains available for ever.", "quantifier": "every instant and configuration with stop", "why_tests_cant": "All instants after the end.", "anchors": ["dashlivesim/dashlib/mpd_proxy.py: generate_dynamic_mpd", "dashlivesim/dashlib/mpdprocessor.py: process_mpd", "dashlivesim/dashlib/dash_proxy.py: process_media_segment"]}
{"id": "C48", "title": "Binary integers round-trip", "statement": "Packing and unpacking 32-bit signed, unsigned and 64-bit integers are inverse on their ranges; values outside raise.", "quantifier": "every integer and every 4/8-byte string", "why_tests_cant": "2^64 values.", "anchors": ["dashlivesim/dashlib/structops.py", "dashlivesim/dashlib/boxes.py: serialize_u8, serialize_u16, serialize_u24, serialize_u32, serialize_u64"]}
{"id": "C49", "title": "Xlink period selection", "statement": "With xlink periods the manifest generation raises unless the number of periods is a multiple of the number of xlinks; when accepted, exactly every (periods/xlinks)-th period is replaced by a link and a period keeps its role over time.", "quantifier": "every period number and option values", "why_tests_cant": "All period numbers.", "anchors": ["dashlivesim/dashlib/mpd_proxy.py: get_mpd, generate_response_with_xlink"]}
{"id": "C50", "title": "Init segments are available from the configured offset before the start", "statement": "An init segment request is answered with media exactly when the whole-second clock is at least AST minus the init offset; once available it stays available.", "quantifier": "every instant and offset", "why_tests_cant": "All instants.", "anchors": ["dashlivesim/dashlib/dash_proxy.py: get_init"]}
{"id": "C51", "title": "Chunks keep the random access marks", "statement": "A sample in a low-latency chunk is marked as a sync sample exactly when the sample flags of the stored segment (run, first sample, header or track defaults) say so.", "quantifier": "every segment with one fragment and every chunk duration", "why_tests_cant": "All combinations of where flags come from and what they say.", "anchors": ["dashlivesim/dashlib/chunker.py: decode_fragment", "dashlivesim/dashlib/boxes.py: TRUNBox"]}
{"id": "C52", "title": "Chunked delivery keeps the boxes around the fragment", "statement": "What the server puts before the movie fragment of a segment (styp with the last segment brand, segment index, event messages) is also delivered when the segment is sent in chunks.", "quantifier": "every segment and chunk duration", "why_tests_cant": "All segments; two delivery paths must agree.", "anchors": ["dashlivesim/dashlib/chunker.py: chunk", "dashlivesim/dashlib/dash_proxy.py: process_media_segment"]}
{"id": "C53", "title": "The init segment is read correctly", "statement": "The values that the init segment filter reports (track number, timescale, handler, sample defaults) are those in the track header, media header, handler and track extends boxes of the movie box, wherever those boxes stand in it and whatever version they have.", "quantifier": "every well-formed init segment with one box of the kind in question", "why_tests_cant": "Field positions depend on box versions and the boxes can stand at any place among any others.", "anchors": ["dashlivesim/dashlib/initsegmentfilter.py: InitFilter", "dashlivesim/dashlib/mp4filter.py: MP4Filter.filter, filter_box"]}
{"id": "C54", "title": "Content accepted by the analyser fits the loop", "statement": "When the analyser accepts content, every representation starts at the same segment number, has all segments of the loop, every segment ends within 0.1 s of its nominal end, and at the end of the loop each track is within 0.1 s of the loop duration.", "quantifier": "every set of tracks and segments", "why_tests_cant": "All durations and track combinations; loop invariant over segments.", "anchors": ["dashlivesim/vodanalyzer/dashanalyzer.py: checkAndUpdateMediaData"]}
{"id": "C55", "title": "Publish time", "statement": "The publish time of a service is the start of the current update interval (the last multiple of the minimum update period at or before the request), so it never decreases and only changes when the manifest may change; the manifest announces a publish time that is not in the future and never decreases, and two manifests of a URL with the same publish time are identical.", "quantifier": "every URL and every pair of request times", "why_tests_cant": "Relates requests at arbitrary pairs of times, for every option combination.", "anchors": ["dashlivesim/dashlib/configprocessor.py: update_publish_time", "dashlivesim/dashlib/mpdprocessor.py: process_mpd"]}
{"id": "C56", "title": "Announced period durations", "statement": "Of two neighbouring periods the first announces a duration exactly if it terminates early or the second is an ad period; it then ends at the start of the ad period, and never after the start of the next period; every linked ad period is preceded by a period that ends where it starts.", "quantifier": "every option combination and time", "why_tests_cant": "All period numbers and positions in the list; the duration is written to the previous list element.", "anchors": ["dashlivesim/dashlib/mpd_proxy.py: generate_period_data", "dashlivesim/dashlib/mpdprocessor.py: update_periods"]}
{"id": "C57", "title": "Boxes made by the box classes have the size they state", "statement": "For every tree of box objects of boxes.py, if serialisation succeeds it writes exactly size() bytes, and these bytes are one box whose containers hold sequences of complete boxes; a sequence of boxes writes the sum of the sizes; sample descriptions count their entries; the place holder for a segment index is as long as the index that replaces it; the descriptors in an esds box have the lengths they state.", "quantifier": "all trees of boxes of the classes in boxes.py, all field values", "why_tests_cant": "size() and __iter__ are written separately for about forty classes with repeated and conditional fields; a test fixes the number of entries and the values.", "anchors": ["dashlivesim/dashlib/boxes.py:112-148", "dashlivesim/dashlib/boxes.py:768-813", "dashlivesim/dashlib/boxes.py:1110-1244"]}
{"id": "C58", "title": "An init segment made from a track description says what the description says", "statement": "For every track description whose numbers fit the fields, the movie box made by create_moov_* is the box tree of a fragmented movie with one track: its headers hold the track number, the timescale, the durations (in the movie timescale rounded down), the language or und, width and height, the handler of the media type; it has one sample entry with the codec parameters; the init segment reader reads from it timescale, track and handler of the description; and the live init segment made from it is the same movie with all durations 0.", "quantifier": "all descriptions of AVC, AAC, AC-3, HEVC and WebVTT tracks", "why_tests_cant": "The writer (boxes.py) and the readers (initsegmentfilter.py) use byte positions written separately; only a proof about all values shows that no field is shifted, cut or swapped for some of them.", "anchors": ["dashlivesim/dashlib/boxes.py:1247-1751", "dashlivesim/dashlib/initsegmentfilter.py:36-145"]}
{"id": "C59", "title": "Offsets in encrypted fragments", "statement": "For every non-empty list of samples and their auxiliary encryption information, in the fragment made by create_moof the offset in saio points to the auxiliary information of the first sample, with that of the other samples after it in order; the data offset in trun points to the first byte of media data, and the data of all samples follows up to the end of the segment; trun states number, durations and sizes, senc the number of samples, saiz the sizes of their auxiliary information. Without encryption the bytes are those the chunker sends.", "quantifier": "all lists of samples, all vectors and subsample lists", "why_tests_cant": "The offsets are computed from sizes before the boxes exist, with constants for the boxes not yet added; they must be right for every number of samples and subsamples.", "anchors": ["dashlivesim/dashlib/boxes.py:1754-1813", "dashlivesim/dashlib/boxes.py:1039-1181"]}
{"id": "C60", "title": "Time stamps name the second they stand for", "statement": "For every number of seconds since 1970, also negative or fractional, the text that make_timestamp writes is year, month, day, hour, minute and second of exactly one second of the Gregorian calendar, and that second is the number rounded down.", "quantifier": "all rational numbers of seconds", "why_tests_cant": "Leap years, centuries, month ends and fractions make infinitely many cases; availability of every segment hangs on this text.", "anchors": ["dashlivesim/dashlib/timeformatconversions.py:75-79"]}
{"id": "C61", "title": "The live manifest keeps what the VoD manifest says about the content", "statement": "For every VoD manifest with a period, every configuration and every time: in the live manifest the root differs from the VoD root in the attributes of a live service only; its children are the ProgramInformation elements, new BaseURL, Location and ServiceDescription elements, the periods, new UTCTiming elements and the other children of the VoD manifest in order; there are as many periods as period data; and every period is the VoD period with descriptors added and with other attributes of time, number and timeline in its segment templates: adaptation sets, representations and all else are kept in order and unchanged.", "quantifier": "all manifests, configurations and times", "why_tests_cant": "The processor edits a tree of arbitrary shape in place, with positions computed before and after insertions; tests use a handful of manifests.", "anchors": ["dashlivesim/dashlib/mpdprocessor.py:88-209", "dashlivesim/dashlib/mpdprocessor.py:270-407", "dashlivesim/dashlib/mpd_proxy.py:62-115"]}
{"id": "C62", "title": "The elements of the live manifest are in the order of the schema", "statement": "For every VoD manifest whose elements are in the order that the DASH schema demands, every configuration and every time, the children of the MPD element, of each Period and of each AdaptationSet of the live manifest are in that order.", "quantifier": "all manifests in order, all configurations and times", "why_tests_cant": "Eight insertions at computed positions may be combined in any way by URL options; a test sees one combination.", "anchors": ["dashlivesim/dashlib/mpdprocessor.py:137-209", "dashlivesim/dashlib/mpdprocessor.py:294-358", "dashlivesim/dashlib/mpdprocessor.py:424-453"]}
{"id": "C63", "title": "The text of the manifest says what was computed", "statement": "For every VoD manifest, configuration and time with a live manifest in number mode: read back from the text of its attributes, the availability start and end time, publish time, minimum update period, buffer depth, durations, and for each period its id, start, duration, and for each of its segment templates the start number, the presentation time offset (divided by the timescale), the segment duration and the availability time offset are the values computed for that request; BaseURL elements carry the availability time offset of the service.", "quantifier": "all manifests, configurations and times", "why_tests_cant": "Each value goes through formatting and a walk over a tree of any shape; attributes that the VoD manifest has already, timescales and template positions vary without bound.", "anchors": ["dashlivesim/dashlib/mpdprocessor.py:88-136", "dashlivesim/dashlib/mpdprocessor.py:270-300", "dashlivesim/dashlib/mpdprocessor.py:360-407", "dashlivesim/dashlib/mpd_proxy.py:62-115"]}
{"id": "C64", "title": "Clients get the clocks they ask for", "statement": "For every manifest request with utc_ options: the live manifest has exactly one UTCTiming element for each requested method, in the requested order, with the scheme of that method and a value of that method (the current time for direct, server addresses for the others); a low-latency service that asks for none has one HTTP clock; a request for an unknown method gets no manifest.", "quantifier": "all lists of methods, VoD manifests, configurations and times", "why_tests_cant": "Lists of methods are of any length and order, with repetition, and the place in the manifest depends on the number of periods and on what the VoD manifest has.", "anchors": ["dashlivesim/dashlib/mpdprocessor.py:424-453", "dashlivesim/dashlib/mpdprocessor.py:409-422", "dashlivesim/dashlib/mpd_proxy.py:62-115"]}
{"id": "C65", "title": "URLs in the manifest lead back to the same service", "statement": "A manifest has a BaseURL or a Location, never both. A path to a file of a known representation appended to the BaseURL leads to a request with exactly the service configuration of the manifest request. The Location of a service with relative start and stop time leads to a request that, whenever it is made, has the same configuration, with the same absolute start and stop.", "quantifier": "all option lists, content names, file paths, VoD manifests and times of the first and the second request", "why_tests_cant": "The URL is taken apart, rewritten by regular expressions and put together again; whether it means the same depends on all options in any order and on the time of the later request.", "anchors": ["dashlivesim/dashlib/mpdprocessor.py:150-192", "dashlivesim/dashlib/configprocessor.py:385-530", "dashlivesim/dashlib/mpd_proxy.py:62-90"]}
{"id": "C66", "title": "Continuous periods are linked, others are not", "statement": "In a service with continuous periods every adaptation set of every period but the first has exactly one continuity descriptor, whose value is the id of the period just before it in the manifest; the first period has none. In every other service no adaptation set has one.", "quantifier": "all VoD manifests, configurations and times, any number of periods and adaptation sets", "why_tests_cant": "The link is made while periods are copied and changed one after the other, for any number of periods and adaptation sets.", "anchors": ["dashlivesim/dashlib/mpdprocessor.py:312-360"]}
{"id": "C67", "title": "Profiles of the manifest", "statement": "The profiles of the live manifest are those of the VoD manifest, in order, followed by the ad-insertion profile when the service has SCTE-35 events and by the low-latency profile when it has chunks, none added twice; with segment loss the simple profile is replaced by the main profile.", "quantifier": "every configuration, time and VoD manifest with one period", "why_tests_cant": "The profiles are edited as text by three steps whose effect depends on what the text already contains.", "anchors": ["dashlivesim/dashlib/mpdprocessor.py: process_mpd, add_profiles", "dashlivesim/dashlib/mpd_proxy.py: generate_dynamic_mpd"]}
{"id": "C68", "title": "Timelines in the manifest list the segments in the buffer", "statement": "In a service with SegmentTimeline, the text of every segment template of every period lists, with its timescale, offset and start number, exactly the segments of the looped track of its content type from the one at the start of the part of the period in the time-shift buffer to the last that has ended; names have $Time$ for $Number$.", "quantifier": "every configuration, time, segment tables and VoD manifest with one period", "why_tests_cant": "Period structure, buffer, loop of the content, run lengths and text all interact, for all times.", "anchors": ["dashlivesim/dashlib/mpdprocessor.py: update_periods, get_timeline_window (372-420)", "dashlivesim/dashlib/segtimeline.py: create_segtimeline", "dashlivesim/dashlib/mpd_proxy.py: generate_dynamic_mpd, generate_period_data"]}
{"id": "C69", "title": "Boxes are found by their path", "statement": "For a well-formed file, find_all(path) returns exactly the boxes whose types from the top are the path, in file order, with their position and size, and find(path) the first of them, also with 64-bit box sizes; exactly the box types that are not UTF-8 raise.", "quantifier": "every box file and path", "why_tests_cant": "All nestings, repeated boxes and dead ends of the search.", "anchors": ["dashlivesim/dashlib/mp4.py: find, find_all, parse_children (169-272)", "dashlivesim/dashlib/mp4filter.py: 119"]}
{"id": "C70", "title": "A reader of the reply gets the manifest that was made", "statement": "The text of a live manifest is well-formed XML, and a namespace-aware reader gets from it exactly the elements, attributes and texts of the processed manifest in their order, with DASH elements in the DASH namespace, for any characters in URLs, attributes and texts.", "quantifier": "every configuration, request, time and VoD manifest", "why_tests_cant": "Escaping, prefixes and the textual removal of ns0: depend on all characters of all texts at once.", "anchors": ["dashlivesim/dashlib/mpdprocessor.py: get_full_xml (455-463)", "dashlivesim/dashlib/mpd_proxy.py: generate_dynamic_mpd (62-115)"]}
{"id": "C71", "title": "Links to periods lead to the periods", "statement": "With xlink_, a reader of the manifest gets the manifest with exactly the periods of every n-th number given by links (or, with insertad_, by links to ads, with asset identifiers in the periods that stay), all else unchanged; the link of a period leads back to the server, and the reply to it is exactly that period.", "quantifier": "every configuration, request, time and VoD manifest", "why_tests_cant": "The replacement is done by searching and cutting the text of the manifest, so it depends on every character of the URL, the ids and the contents at once.", "anchors": ["dashlivesim/dashlib/mpd_proxy.py: get_mpd (10-59), generate_response_with_xlink (118-197), insert_asset_identifier (292-298)"]}
{"id": "C72", "title": "Lost segments are not announced", "statement": "With segtimelineloss_1 and baseurl_uA_dB the manifest requested in a down time is exactly the one of the last second before it, so it does not change during the down time; in the up time it is the current one, and in the last second of it the message about the loss is announced.", "quantifier": "every configuration, pattern of up and down times, request time and VoD manifest", "why_tests_cant": "All seconds of all patterns, also those that do not divide the minute.", "anchors": ["dashlivesim/dashlib/mpd_proxy.py: get_mpd (34-53)"]}
{"id": "C73", "title": "The manifest announces the messages of the service", "statement": "Every adaptation set announces exactly the inband messages that its segments can have (splice information in the video of a service with scte35_, the end of the service), and exactly every n-th period has a callback event with the callback URL of the server, as many in an hour as mpdcallback_ says.", "quantifier": "every configuration, request, time and VoD manifest", "why_tests_cant": "All combinations of options, periods and contents.", "anchors": ["dashlivesim/dashlib/mpdprocessor.py: process_mpd_children, insert_callback (300-420)", "dashlivesim/dashlib/mpd_proxy.py: generate_period_data (200-290)"]}
{"id": "C74", "title": "Every segment listed in a timeline can be fetched", "statement": "Take a live manifest with SegmentTimelines. A client makes the URL of a listed segment from the BaseURL of the manifest, the media template (with $RepresentationID$ and $Number$ or $Time$) and the place of the segment in the timeline. Within the second of the manifest a GET of this URL is answered with a media segment, for every listed segment of every period and adaptation set and every representation of the content; and the decode time in the reply is the time that the timeline lists.", "quantifier": "For all VoD manifests of the supported shape, URLs with options, request times, tables of segment durations, periods, adaptation sets, listed segments, representations and times within the second.", "why_tests_cant": "It joins the manifest writer, the URL options, the availability check, the rounding of times to numbers and the rewriting of decode times, over all tables of durations and all times; a test looks at one manifest and one segment.", "anchors": ["dashlivesim/dashlib/dash_proxy.py:92-262", "dashlivesim/dashlib/segtimeline.py:48-240", "dashlivesim/dashlib/mpdprocessor.py:260-420", "dashlivesim/dashlib/mediasegmentfilter.py:180-230"]}
{"id": "C75", "title": "What the manifest says about numbered segments is what the server does", "statement": "A client reads availability start, period start, start number, segment duration, presentation time offset, availability time offset and buffer depth from the text of a live manifest with $Number$ templates, and makes the URL of segment n from BaseURL and template. The server answers a GET of this URL with the segment exactly from the instant that the client computes for the end of segment n, until the segment has left the buffer (plus one segment duration); outside of this window it refuses. The decode time of the reply is the media time that the client computes for n. URLs of init segments lead to init segments from the start of the service on.", "quantifier": "For all VoD manifests of the supported shape, URLs with options, one period or periods on the segment grid, all periods, adaptation sets, templates, numbers, representations and all later request times.", "why_tests_cant": "It relates the text of the manifest to the replies of the media handler for all numbers and instants, including both ends of the window and multi-period numbering.", "anchors": ["dashlivesim/dashlib/mpd_proxy.py:62-260", "dashlivesim/dashlib/mpdprocessor.py:96-400", "dashlivesim/dashlib/dash_proxy.py:92-262", "dashlivesim/dashlib/configprocessor.py:122-400"]}
{"id": "C76", "title": "The server reads the content description that was written", "statement": "Reading (VodConfig.read_config) the file written by VodConfig.write_config gives back the first segment, the number of segments, the segment duration, the default buffer depth and, for every content type, the representations, the timescale, the total duration and the name of the duration table; so the server knows every analysed representation with its type and timescale. A file that is accepted has a duration the server can use.", "quantifier": "all content descriptions (any numbers, any representation names, any content types), all files with durations in milliseconds", "why_tests_cant": "Names and numbers range over an infinite set and go through a text format with its own rules for spaces, separators, comments and continuation lines; a test tries a few harmless names.", "anchors": ["dashlivesim/dashlib/configprocessor.py:266-301", "dashlivesim/dashlib/configprocessor.py:305-334", "dashlivesim/vodanalyzer/dashanalyzer.py:248-265"]}
{"id": "C77", "title": "Content that the analyser accepts can be served", "statement": "When the VoD analyser accepts a manifest with its files and the server uses the configuration written then, every media segment that the server decides to send and every initialization segment named by the template is a file that exists, and the reply is the live filter applied to its bytes; the analyser accepts manifests that use the defaults of the standard.", "quantifier": "all directories of files, all stored manifests, all representations, all URL options, all request times and segment numbers", "why_tests_cant": "The claim connects what one program checked on a directory with what another opens later, for every number and time; a test analyses one content and fetches a few segments.", "anchors": ["dashlivesim/vodanalyzer/dashanalyzer.py:64-265", "dashlivesim/vodanalyzer/mpdprocessor.py:39-265", "dashlivesim/dashlib/dash_proxy.py:190-330", "dashlivesim/dashlib/configprocessor.py:122-150"]}
{"id": "C78", "title": "A live session of analysed content has no drift, no gaps and stays in sync", "statement": "Content that the VoD analyser accepted is served so that the decode times of the segments received stay, for ever, those of an endless repetition of the stored content: a whole segment is the stored one with the requested number and a decode time moved by a whole number of loops; it ends within a tenth of a second of the start of the content plus the media time of its end; consecutive segments follow each other, with less than a tenth of a second between them where the loop starts again; and audio and video of the same media time end less than a fifth of a second apart.", "quantifier": "For all files, manifests, representations (templates $RepresentationID$/$Number$.m4s, one fragment with one run per stored segment), URL options, request times and segment numbers or times.", "why_tests_cant": "It relates the tolerance checks of the analyser to the bytes sent after any number of loops, through configuration file, URL options, number or time addressing and the box rewriting; tests look at a few segments of one content near the start.", "anchors": ["dashlivesim/vodanalyzer/dashanalyzer.py:148-247", "dashlivesim/dashlib/dash_proxy.py:210-325", "dashlivesim/dashlib/mediasegmentfilter.py:158-332"]}
{"id": "C79", "title": "What the server decides to send, it sends", "statement": "For content that the VoD analyser accepted, a media request that passes the availability checks is answered with a segment and never ends in an error while the segment is made, whatever options were used; and the initialization segment of every representation is sent, as stored but with all durations 0.", "quantifier": "For all files, manifests, representations (templates $RepresentationID$/$Number$.m4s, one fragment with one run per stored segment, whole replies), URL options, request times and segment numbers or times.", "why_tests_cant": "The success of the rewriting depends on the sizes and values of every box of every stored segment together with all combinations of options (index, markers, last-segment messages, number and time shifts).", "anchors": ["dashlivesim/dashlib/dash_proxy.py:210-325", "dashlivesim/dashlib/mediasegmentfilter.py:60-332", "dashlivesim/dashlib/initsegmentfilter.py", "dashlivesim/vodanalyzer/dashanalyzer.py:148-247"]}
{"id": "C80", "title": "A client that follows the manifest over HTTP gets what it says", "statement": "Take VoD content that the analyser accepted and a client that got a 200 reply to a manifest request. For every segment number that the manifest addresses, a GET of the URL built from BaseURL and template, at any time at which the URL options still mean the same, is answered with status 200, type video/iso.segment, the right Content-Length and a complete segment with that number whose decode time is that of the stored segment moved by whole loops and whose end is within a tenth of a second of the announced one, exactly while the manifest says that the segment is available; at other times the answer is 404. Init segments are answered 200 video/mp4 with zero durations from the announced start (less the configured offset) on, and 404 before.", "quantifier": "all content, option lists, manifest requests, hosts and schemes, segment numbers and request times in the described class", "why_tests_cant": "It composes URL parsing, manifest generation, XML text, URL resolution, timing decisions, box rewriting and the HTTP reply over unbounded times and numbers; the project's tests check each piece for single instants.", "anchors": ["dashlivesim/mod_wsgi/mod_dashlivesim.py:89-213", "dashlivesim/dashlib/dash_proxy.py:86-187", "dashlivesim/dashlib/mpd_proxy.py:10-115"]}
{"id": "C81", "title": "Clients following a timeline over HTTP get the segments it lists", "statement": "For VoD content that the analyser accepted, with the segment tables it wrote, a client that requests a manifest with segmenttimeline options and then any segment listed in a SegmentTimeline, by the URL the manifest gives (time or number), until a segment duration after the manifest, gets 200 and a complete media segment whose decode time and duration are the listed ones.", "quantifier": "all analysed contents, options, requests, times and listed segments", "why_tests_cant": "It links the files written by the analyser, the tables read by the manifest generator, the timeline window, URL resolution, the mapping of times to stored files and the rewriting of segments for unboundedly many times and contents.", "anchors": ["dashlivesim/dashlib/segtimeline.py:49", "dashlivesim/dashlib/mpdprocessor.py:312", "dashlivesim/dashlib/dash_proxy.py", "dashlivesim/vodanalyzer/dashanalyzer.py", "dashlivesim/mod_wsgi/mod_dashlivesim.py"]}
{"id": "C82", "title": "Low-latency replies carry the segment, in time", "statement": "A request for a media segment of a service with a chunk duration is answered with a stream of chunks. Together they hold exactly the samples of the stored segment, in order, each once, moved by the loop offset and otherwise unchanged; every chunk is a complete fragment with the number of the requested segment. Chunk i holds the samples that start between i and i+1 chunk durations after the start of the segment. No sample leaves the server more than a tenth of a second before it starts, and, unless the client is late, none leaves later than a chunk duration after its start.", "quantifier": "all contents the analyser accepts, all options in the URL, all segment numbers and request times, all chunk durations, all sample layouts of the stored segments, all client speeds and clock overshoots", "why_tests_cant": "A test streams one segment of one asset with one chunk duration; the claim joins URL parsing, availability decision, box rewriting with size changes, sample decoding, chunk making and timed delivery for every asset, loop, number and clock.", "anchors": ["dashlivesim/dashlib/dash_proxy.py:241", "dashlivesim/dashlib/chunker.py:38", "dashlivesim/mod_wsgi/mod_dashlivesim.py:210"]}
{"id": "C83", "title": "Floating-point rounding does not change what is served", "statement": "The server computes with binary64 floats. Compared with exact arithmetic: a request by number or by time gets the same answer (same segment, same refusal) at every clock value more than a microsecond away from an availability instant, and at every clock value when the availability time offset is a multiple of 2^-20 s; a time in ticks reaches its segment even when it is too large to be an exact float. When a segment is available no earlier segment is refused as too early, at that moment or later, for any offset. Chunks are sent within 16 microseconds of their formal time. The chunk duration in ticks, the rounding of the stop time and the tests on period counts come out as in exact arithmetic.", "quantifier": "all configurations, segment numbers, times in ticks (up to segment number 2^48), offsets, loss patterns, chunk durations, clocks before 2106", "why_tests_cant": "A test uses a few round numbers, for which floats are exact; the values at which a rounded comparison or a truncated product goes the other way are isolated points among 2^64.", "anchors": ["dashlivesim/dashlib/dash_proxy.py:148", "dashlivesim/dashlib/dash_proxy.py:233", "dashlivesim/dashlib/dash_proxy.py:254", "dashlivesim/dashlib/dash_proxy.py:277", "dashlivesim/mod_wsgi/mod_dashlivesim.py:222", "dashlivesim/dashlib/configprocessor.py:209"]}
{"id": "C84", "title": "Replies with two tracks carry both stored tracks", "statement": "A request that names two representations (`V1__A1`) and for which the server decides to send a media segment is answered with 200 and one segment with both tracks: one fragment with the requested number and a track fragment for each representation, each with its stored header and the decode time of the live session. Reading the reply as ISO/IEC 14496-12 says, the samples of either track are exactly the stored samples of its segment, in order, with their bytes, moved by the loop offset. The segment type is that of the first representation, with the last-segment mark exactly in the last segment. The initialization segment has the tracks and track defaults of both, with the file type and movie header of the first.", "quantifier": "all contents the analyser accepts, all pairs of representations, options, numbers, request times, sample layouts and segment sizes", "why_tests_cant": "A test muxes two given files. The claim joins URL parsing, availability, the rewriting of both segments (which may lengthen either fragment), and the recomputed data offsets of both, for all layouts and loop offsets.", "anchors": ["dashlivesim/dashlib/dash_proxy.py:292", "dashlivesim/dashlib/dash_proxy.py:203", "dashlivesim/dashlib/segmentmuxer.py:200", "dashlivesim/dashlib/mediasegmentfilter.py:66"]}
{"id": "C85", "title": "Replies with subtitles have their cues in time", "statement": "A representation that the content configuration calls subtitles, each stored segment of which is one TTML text: when the server decides to send a media segment of it, it answers with 200 and a segment with the requested number and one sample. The sample is the stored one moved by the loop offset, with the same duration; its data is the whole stored text with every cue time, clock text and segment number rewritten for the live session. So every cue of the reply has the place relative to the sample that it has in the stored segment.", "quantifier": "all contents, representations, options, segment numbers, request times, texts and segment layouts", "why_tests_cant": "A test compares one segment with one text. The claim joins URL parsing, availability, the rewriting of the text (which changes its length), of the track header that tells this length, of the decode time (which may lengthen the fragment) and of the data offset, for all texts and loop offsets.", "anchors": ["dashlivesim/dashlib/dash_proxy.py:313", "dashlivesim/dashlib/mediasegmentfilter.py:66", "dashlivesim/dashlib/ttml_timing_offset.py:40"]}
{"id": "C86", "title": "Segments of several movie fragments play as stored", "statement": "If the stored media segments of a representation consist of several movie fragments (chunked or CMAF content), then every media segment the server sends is a sequence of as many fragments, and a player that reads all of them at their positions in the reply gets exactly the stored samples in order, each moved by the loop offset, also when the decode times grow from 32 to 64 bits.", "quantifier": "for all contents, all numbers of fragments and samples, all fragment layouts within the format, all URL options without chunking and index, all request times", "why_tests_cant": "The filter keeps the change of size of one fragment in a variable that the next fragments see, and positions count from each movie fragment; whether all data offsets are right depends on the combination of widths, times and fragment order over an unbounded number of fragments, and becomes visible only after the decode time passes 2^32.", "anchors": ["dashlivesim/dashlib/mediasegmentfilter.py:79", "dashlivesim/dashlib/mediasegmentfilter.py:197", "dashlivesim/dashlib/dash_proxy.py:307", "dashlivesim/vodanalyzer/dashanalyzer.py:200"]}
{"id": "C87", "title": "The table checker finds exactly the gaps of a table", "statement": "parse_dat_file prints one line for every place in a duration table where a segment does not start where the segment before it ends, with both times and in order, and nothing else; it is silent about a file exactly when the server can read the file and the table in it has no gaps or overlaps. It is silent about every table the analyser writes for content without gaps, and reports the gaps of other content.", "quantifier": "for all files, all verbosity levels, and all content accepted by the analyser", "why_tests_cant": "A table is an arbitrary byte string with any number of runs; that a check per run is the same as a check per segment, for every split into runs, needs induction.", "anchors": ["dashlivesim/vodanalyzer/parse_dat_file.py:8", "dashlivesim/vodanalyzer/parse_dat_file.py:14", "dashlivesim/vodanalyzer/dashanalyzer.py:155"]}
{"id": "C88", "title": "Generated subtitle segments have cues for their whole duration", "statement": "The subtitle generator writes an init segment and the asked number of media segments. The cues of a segment follow each other without gaps from the start to the end of the segment, each shows its own start, and all times are exact to the millisecond.", "quantifier": "for all numbers of segments, durations, resolutions, languages and track ids", "why_tests_cant": "The times grow without bound with the number of segments, and whether the cues fill the segment depends on how the resolution divides the duration.", "anchors": ["dashlivesim/dashlib/stpp_generator/make_stpp_segments.py:72", "dashlivesim/dashlib/stpp_generator/make_stpp_segments.py:100", "dashlivesim/dashlib/stpp_generator/make_stpp_segments.py:123", "dashlivesim/dashlib/stpp_generator/stpp_creator.py:38"]}
{"id": "C89", "title": "The caption tool puts every caption of the caption file into the segment of its time", "statement": "For a caption file (SCC) and the stored video segments, the caption tool writes every segment with the captions of its time: every line `hh:mm:ss:ff words` is read to its words in order at its time, lines without a time say nothing, and the segment with that time is written with the caption messages in the samples of their time, everything else unchanged. Over segments that follow each other every caption is in exactly one segment, and all segments of all representations are written.", "quantifier": "all caption files with any number of lines of any length, all segment lists with any samples and NAL units, all timescales, limits and first numbers", "why_tests_cant": "The tests insert captions of one small file into one segment; time reading, chunking at 31 words, the choice of the segment by time and the naming of the output are only right or wrong over all files and segment lists.", "anchors": ["dashlivesim/cc_inserter/cc_inserter.py:248", "dashlivesim/cc_inserter/cc_inserter.py:265", "dashlivesim/cc_inserter/cc_inserter.py:389", "dashlivesim/cc_inserter/cc_inserter.py:397", "dashlivesim/cc_inserter/cc_inserter.py:498"]}
{"id": "C90", "title": "The analyser finds missing segments", "statement": "When the VoD analyser accepts stored content, no segment file is missing between two that are in the directory of a representation, and the loop in the configuration that the server reads begins with the lowest segment number; content without missing segments is not refused for a missing segment.", "quantifier": "all manifests with a $RepresentationID$/$Number$.m4s template, all directories of files, all representations of all adaptation sets", "why_tests_cant": "Which files a directory holds, in which order they are listed and what their names are is unbounded; a test has one complete directory and perhaps one gap.", "anchors": ["dashlivesim/vodanalyzer/dashanalyzer.py:127", "dashlivesim/vodanalyzer/dashanalyzer.py:141", "dashlivesim/vodanalyzer/dashanalyzer.py:249"]}
{"id": "C91", "title": "Thumbnails go with the media", "statement": "A request for picture N.jpg of a live service is answered (status 200, the stored picture as complete body) exactly when the media segment with number N of the same service is available, with the picture that is stored for the segment that is played as number N at that time; otherwise it is answered with 404.", "quantifier": "for every service (all URL options, start numbers, loop lengths, segment durations), every picture number and every request time", "why_tests_cant": "process_thumbnail repeats the number, window and loop arithmetic of process_media_segment with small differences (start number, stop number, time offset, loss pattern); whether the two agree depends on all options, numbers and times together, while the tests request one picture at one time", "anchors": ["dashlivesim/dashlib/dash_proxy.py:326", "dashlivesim/dashlib/dash_proxy.py:210", "dashlivesim/mod_wsgi/mod_dashlivesim.py:168"]}
{"id": "C92", "title": "A low-latency client that follows the manifest gets every segment as a stream in time", "statement": "A client that has got the manifest of a service with a chunk duration reads in it from when on each segment can be requested (availabilityTimeOffset of the template, availabilityTimeComplete false). If it requests a segment by the URL that the manifest gives, the server answers 404 outside the announced time and otherwise 200 with a stream of complete fragments that together hold the samples of the segment, in order, each once; no sample leaves more than a tenth of a second before the instant at which the manifest presents it, nor later than a chunk duration after that instant, unless the client is late.", "quantifier": "all analysed content, all option lists of the URL, all segment numbers, all request times, all speeds of the client and all precisions of the clock", "why_tests_cant": "The manifest, the URL parser, the availability check, the loop arithmetic, the chunker and the pacing of the reply have to agree for every number, time and chunk duration; the unit tests look at each of them alone and for one segment.", "anchors": ["dashlivesim/dashlib/mpdprocessor.py:338", "dashlivesim/dashlib/dash_proxy.py:210", "dashlivesim/dashlib/dash_proxy.py:271", "dashlivesim/dashlib/chunker.py:107", "dashlivesim/mod_wsgi/mod_dashlivesim.py:213"]}
{"id": "C93", "title": "A limited session can be followed over HTTP until it ends", "statement": "A server with a maximum session length answers a manifest request without a session by a redirection to a URL that holds the start of the session and an eight-digit hexadecimal session id. The redirected URL asks for the same file of the same service: the added parts do not change what the options mean. The manifest got there gives URLs that belong to the same session, so that every later request is let through without a redirection until the maximum length after the start, and is answered with 410 after that. Different drawn numbers give different session ids.", "quantifier": "all session lengths, all request times, all option lists, all drawn numbers, all files named by the manifest", "why_tests_cant": "The redirection, the URL parser, the BaseURL in the manifest and the check of later requests have to agree for every path and time; the unit tests run without a session limit.", "anchors": ["dashlivesim/mod_wsgi/mod_dashlivesim.py:106", "dashlivesim/dashlib/sessionid.py:8", "dashlivesim/dashlib/configprocessor.py:402", "dashlivesim/dashlib/dash_proxy.py:107"]}
{"id": "C94", "title": "A presentation with a start and a stop can be fetched completely over HTTP", "statement": "With a start and a stop in the URL the manifest, whenever it is asked for, announces the duration of the presentation and the places of its segments, and is static exactly after the stop. Every segment that starts within the announced duration can be fetched by the URL that the manifest gives from the instant on at which the manifest makes it available, without an end; no other segment can be. Once the manifest is static, all segments of the presentation are available and cover it from its start to its end. What the URL means does not depend on the time of the request, except for the publish time.", "quantifier": "all starts and stops, all option lists without options relative to the request time, all request times of the manifest and of the segments, all segment numbers, all analysed content", "why_tests_cant": "The rounding of the stop, the stop number, the exception from the time shift buffer, the type and duration in the manifest and the URL parser have to agree for every start, stop, segment and instant; a test looks at one of them at one instant.", "anchors": ["dashlivesim/dashlib/configprocessor.py:208", "dashlivesim/dashlib/configprocessor.py:246", "dashlivesim/dashlib/dash_proxy.py:239", "dashlivesim/dashlib/mpd_proxy.py:70", "dashlivesim/dashlib/mpd_proxy.py:88"]}
{"id": "C95", "title": "The splices that a service announces are in its replies", "statement": "With the option scte35_N, for every splice point of every minute there is a media segment whose reply, whenever and with whatever other options it is requested, carries an event message box of the SCTE 35 scheme with the value of the manifest, whose time is the splice point on the media timeline of the segment, whose id names the splice and whose text agrees with its fields, at least six seconds ahead; no reply carries any other message from this option.", "quantifier": "all analysed video content, all URL options, all request times, all minutes and splice points of all numbers of splices per minute, all segment numbers", "why_tests_cant": "The claim connects the splice schedule with the bytes of replies for every minute and every position in the loop; tests decode the message of one or two segments.", "anchors": ["dashlivesim/dashlib/mediasegmentfilter.py:107-128", "dashlivesim/dashlib/mediasegmentfilter.py:342-384", "dashlivesim/dashlib/scte35.py:37-110", "dashlivesim/dashlib/emsg.py:53-80", "dashlivesim/dashlib/dash_proxy.py:268-323"]}
{"id": "C96", "title": "The end of a session is marked in the replies", "statement": "In a session that ends, the reply with the segment that ends where the session ends has the brand lmsg in its type box, no other reply has it, the other brands are those stored, and no reply has a segment behind the end.", "quantifier": "all analysed content, all start times and lists of durations, all other options, all request times and segment numbers", "why_tests_cant": "The number of the last segment is computed from the options and compared with every request; tests look at one session.", "anchors": ["dashlivesim/dashlib/configprocessor.py:190-212", "dashlivesim/dashlib/dash_proxy.py:210-294", "dashlivesim/dashlib/mediasegmentfilter.py:107-128"]}
