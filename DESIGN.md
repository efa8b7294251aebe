# Formal model of dash-live-source-simulator — design

The code under study is the Python package in `/repo` (read as text, never run).
The model and the proofs are in `/verif/lean` (Lean 4.33.0, Lake project `verif`).

## Conventions of the model

* **Python exceptions** are values: `Py α = Except PyErr α` (`Verif/Py.lean`).
  `PyErr.hang` stands for "the Python loop does not terminate".
* **Python ints** are `Int` (or `Nat` where the code can only produce non-negative
  values).  `//` and `%` are `Int.fdiv`/`Int.fmod` (floor semantics) and division by
  zero raises where the code can reach it.
* **Python floats** (`now_float`, `availabilityTimeOffset`, modulo-session times,
  chunk durations) are exact rationals `Rat` in most of the model.  `Float.lean` models binary64
  rounding and the float operations of the media request path; C83 shows where the exact model
  of that path and the rounded one agree.  Floats elsewhere (analyser's printed times, caption
  times, modulo sessions) are exact; overflow and gradual underflow are not modelled.
* **bytes** are `List UInt8`; slices, `struct.pack`/`unpack` are modelled with their
  error behaviour.
* **text** is `List Char`.
* Objects with mutable fields become structures threaded through the functions
  (state monad).  Loops become recursive functions; loops that may not terminate get an
  explicit `hang` outcome.
* Each model definition carries a comment with the file and lines modelled and the
  simplifications made.

Model files (`Verif/*.lean`) contain definitions that mirror the code.
`Verif/Spec/*.lean` holds independent specifications.  `Verif/Props/*.lean` holds the
property theorems (one file per area, names start with the property id, e.g.
`C01_window`) with a concrete `example` beside each.  `Verif/Lemmas/*.lean` holds
helper lemmas.

When the code violates a property, the file holds a theorem `Cxx_…_violation`, a concrete witness of the violation, and a theorem with suffix
`_partial` with the hypotheses under which the property does hold.

## Plan per property

| id | model | proof |
|----|-------|-------|
| C01 | `get_media`, `process_media_segment` as a function of config, clock, request | decision theorem: outcome ⇔ interval, all four outcomes characterised |
| C02 | same | served numbers at an instant = integer interval with closed-form ends (floor/ceil of rationals) |
| C03 | same | convexity in time from C01, for fixed config incl. stop/last/AET |
| C04 | loop arithmetic of `process_media_segment` | division algorithm; periodicity and injectivity mod loop |
| C05 | loop arithmetic + `process_tfdt` value | gapless track spec `List` of durations; induction-free modular argument, byte level through C10 |
| C06 | MPD period data for one period + segment server | client spec computed only from MPD fields; equality |
| C07 | `process_styp` on bytes | spec on brand lists (filter ++ flag), byte serialisation, idempotence |
| C08 | `MP4Filter.filter/filter_box` on bytes, generic in leaf rewriting | refinement to a map over box trees, structural induction |
| C09 | same, with explicit `hang` outcome | total recursive function; hang iff a size-0 box is reached |
| C10 | `process_tfdt`, `process_tfdt_to_64bit`, structops | decision + byte-exact result |
| C11 | media filter on moof/traf/mdat trees | relation of data offset to mdat position before/after; stale size change shown as violation for multi-fragment segments |
| C12 | `process_mfhd` | byte-exact |
| C13 | `InitLiveFilter` | length, zeroed fields, others unchanged, idempotent |
| C14 | `MultiplexInits` | byte-exact structure, parse-back |
| C15 | `mux_on_sample_level`, `mux_on_fragment_level` | slices at data offsets equal |
| C16 | `partition` | induction with generalised accumulator; violation for chunk duration 0 / long samples (empty chunk) |
| C17 | `partition` | invariant on the grid counter |
| C18 | WSGI chunk loop with clock/sleep traces | induction over the trace |
| C19 | `create_moof`, `create_mdat`, parser side `trun_box` etc. | serialise/parse round trip; sample flags not preserved (violation) |
| C20 | `handle_byte_range` on text | RFC 7233 spec; violations for multi-range, long suffix, malformed |
| C21 | `application` reply logic over abstract provider outcomes | case analysis; violation: malformed range raises |
| C22 | `ModuloPeriod` with rationals | phase table decision, bounds |
| C23 | same, two instants | monotonicity; last segment number relation |
| C24 | both conversions on text | round trip below one day, violation from one day on; denotation spec for all |
| C25 | `generate_period_data` | arithmetic progression; coverage |
| C26 | same | two calls, equal entries |
| C27 | same | iff segDur divides the start; violation witness |
| C28 | `SegmentTimelineGenerator` | refinement to infinite timeline; violation (single entry table over a wrap) |
| C29 | same | corollary of C28 |
| C30 | time request rounding | rounding lemma |
| C31 | `process_url` option parsing | permutation induction over independent option updates |
| C32 | `process_start_time`, `quantize`, `stop_number` | arithmetic; 0.999 factor gives violation for long segments |
| C33 | `update_with_aet` | induction over the list |
| C34 | `update_for_tfdt32` | arithmetic + C10 |
| C35 | up/down loop in `get_media` | decision by seconds; periodicity |
| C36 | `create_scte35box` | violation witnesses + exact decision theorem |
| C37 | `Emsg.get_box` | size; parse back; violation for non-ASCII |
| C38 | bit writer/reader | refinement to a list of bits |
| C39 | `ue` | on bit lists; hang on all-zero input |
| C40 | `adjust_ttml_content` time attributes | scanning function; time arithmetic |
| C41 | analyser run-length table | induction, expand∘encode = id |
| C42 | stts/ctts/stsc/stsz lookups | loop invariants, linear spec |
| C43 | `finalize` with sidx | sizes |
| C44 | caption inserter on bytes | refinement: rewritten box tree = tree of the samples with captions inserted |
| C45 | session gate in `application` | decision |
| C46 | `start_reply` shared default dict as state | history induction |
| C47 | MPD type & stop behaviour | monotonicity |
| C48 | structops + serialisers | round trip; mask mistake of u16 shown |
| C49 | xlink selection | modular arithmetic |
| C50 | `get_init` | decision |
| C51 | decoded samples of the chunker | comparison with the flags the segment states; violations |
| C52 | `chunk` | front boxes; violation |
| C53 | `InitFilter` | reading of each field over box trees; violation for version 1 media headers |
| C54 | analyser `check_and_update_media_data` | induction over segments; violation for other representations |
| C55 | publish time in configuration and manifest | floor grid, monotone; violation |
| C56 | period durations written to the previous period | case analysis over neighbouring periods |
| C57 | every box class of boxes.py: `size()` and what `__iter__` yields | induction over trees of boxes, one lemma per class |
| C58 | `create_moov_*`, `create_box_trak_*`, `create_stsd_*` | byte-exact box tree, field positions of ISO/IEC 14496-12, composition with `InitFilter` (C53) and `InitLiveFilter` (C13) |
| C59 | `create_moof`, `create_mdat` with encryption data | byte-exact box tree, offsets against positions |
| C60 | `make_timestamp` (`gmtime`, `strftime`) | proleptic Gregorian calendar as specification, induction over years; text read back |
| C61 | `MpdProcessor.process` on element trees, `generate_dynamic_mpd` | relation between VoD tree and live tree, closed under each editing step |
| C62 | the same | order of the schema as lists of tags, decidable; position arithmetic of the insertions |
| C63 | the same, with the text of every attribute | attributes read back (`pyInt`, ISO durations, decimals) and compared with `generateMpd`; witnesses where the VoD manifest has values of its own |
| C64 | `insert_utc_timings` in the element tree | UTCTiming children of the manifest related one by one to the requested methods by a table of schemes in `Spec/ManifestParts` |
| C65 | BaseURL and Location elements, `re.sub`, URL parsing at two times | splitting of joined URLs; simulation of the option loop on the rewritten options; witnesses for several BaseURLs, half-open services, digits `int` reads and the pattern does not |
| C66 | `update_periods` in the element tree | invariant of the loop over periods carrying the id of the last period |
| C67 | `generateXml` (profiles edited as text), str.replace and split | inversion of the three steps; spec on the list of profiles; violation (longer profile) |
| C68 | `generateXml` with timelines: window, S elements, templates | refinement composed of C28 and the tree of C60-C63, with the ends of periods; sessions with stop; violations (time offset without stop, after the end, nothing in the buffer, segment of the period before, sessions in several periods, subtitles) |
| C69 | `find`, `find_all` with their queue, `parse_children` with 64-bit sizes | refinement of the queue to a depth-first listing; listing of all boxes with their paths as specification; violations (containers that are empty or have 64-bit sizes) |
| C70 | `get_full_xml` and the serialiser of ElementTree (prefixes, escapes, declarations) | independent lexer and namespace resolver; the removal of `ns0:` is shown to act as a change of prefix by lemmas on `str.replace`; induction on trees; `Lemmas/Writable*.lean` carry the condition on texts from the VoD manifest and the address of the request through every step of the processor; violations (`ns0:` in a host name, control characters, a profile changed by `segtimelineloss`) |
| C71 | Xlink.lean (mpd_proxy.py on texts: find, slices, replace, findall for BaseURL); reader and writer as in C70 | Spec/Xlink.lean says on trees which periods are links; a lemma about searching shows where the cuts fall in the written text, and the reader of the spliced text is computed part by part; the target by C70 for the one element |
| C72 | Xlink.lean timelineLoss, lossLoop, lossText | induction over the loop; the seconds of down times by arithmetic |
| C73 | MpdTree.lean adSetStep, periodHead, callbackElem; Periods.lean | the parts of the manifest (C61) with the elements added by each step |
| C74 | the whole path from the manifest request to the media request: generateXml, processUrl, getMedia, processTfdt; client rules in Spec/TimelineClient | composition of C68, C65, C01, C30 and C10; partial: content whose segments drift from the average is listed before it can be fetched (violation) |
| C75 | the path from the manifest request to the media request for numbers; what a client reads from the text is in Spec/NumberClient | composition of C63, C65, C27, C01 and C10; partial: the restrictions of those |
| C76 | VodConfig.lean: `RawConfigParser._read` line by line and `write` (from the source of Python 3's configparser), `read_config`, `write_config` | invariant over the lines written: the reader's sections, seen through the joining of lines, are the sections written so far; then lookup of each option; violations by evaluation and, for milliseconds, for every file |
| C77 | AnalyzerFiles.lean: reading of the stored manifest, templates, directory listing, segment files, writing of the description; MediaBody.lean: the files opened by the server | the analyser's run is taken apart into facts per adaptation set and representation (induction over the elements and over the files read); the number decided by the server lies in the loop; round trip of the description (C76); violations by evaluation of small contents |
| C78 | analyser, configuration reader, URL processing, segment decision, file reading and media filter composed (AnalyzerFiles, VodConfig, Config, Media, MediaBody) | the analyser's check of end times (C54) is carried through the configuration (C76, C77) to the decode time written by the filter (C11); the arithmetic of loops gives continuity and synchronisation; violation: gaps inside the stored content are not checked |
| C79 | the composed model of C78, and the init filter | a segment that passes the filter of the analyser passes the filter of the server (transfer lemma over the box tree), given room for the additions; the conditions on number and decode time are shown necessary and sufficient; violations: cut-off movie header, time offsets after the start |
| C80 | `Server.lean`: the whole request path (`serve`), from the parsed WSGI environment to status, headers and body, connecting the models of URL processing, manifests, init and media segments and the WSGI application; spec of requests and replies in `Spec/Client.lean` | composition of C75 (URLs and times), C78/C79 (bytes), C70 (text), C21 (replies) with inversion of a successful manifest reply |
| C81 | the constructor of SegmentTimeLineGenerator reading the files of the analyser (TableFile), on top of the server of C80 | `C81_timeline_partial`: the tables written by the analyser describe the stored loop (C41, C54), hence C74 gives the decisions and C79 the bodies; `C81_wrap_violation` over HTTP |
| C82 | the modules of C16-C19, C79 and C80 together | the stored segment is seen in two ways, as a list of boxes that the filter rewrites and as a fragment that the chunker reads; a lemma shows that what the filter writes is again such a fragment with the same samples moved in time; then the chunk and pacing theorems apply |
| C83 | `Float.lean`: round-to-nearest-even with 53 bits on rationals, and the media request path, the delivery loop, the stop time and the period tests with every float operation rounded | `fl` is shown monotone, exact on 53-bit numbers and within a relative error of 2^-53; each float decision is compared with the exact one; violation: truncated chunk durations |
| C84 | `mediaBody` and `initBody` for two representations (MediaBody.lean) on top of the filter, the muxer and the server; Spec/Muxed.lean: reading several track fragments, with the rule for the base of data offsets | `rep_decision` gives both stored segments; `LiveFragment.Ok.muxed` turns what the filter makes into the muxer's input; `mux_live` follows both data offsets through; then the request path of C80 |
| C85 | `filterSegment` for subtitles (MediaBody.lean), `filterTtml` (Ttml.lean) and the server; Spec/Subtitles.lean: a text played later, places of cues in a sample | `LiveFragment.Subtitle.filterTtml`: filtering a subtitle segment is filtering the same segment with the new text and its length (`rewriteTop_sim` relates both passes of the filter); then `filter_sent`, `LiveFragment.Ok.filtered` and `C40_shift_partial`; then the request path of C80 |
| C86 | fragment lists as box forests (Lemmas/Fragments), reading at absolute positions (Spec/Chain) | induction over the fragments with the size change of the filter as invariant; transfer from the analyser for totality; violations for mixed widths, sequence numbers, indexes and the analyser |
| C87 | `parseDat`: the loop over a file with the lines printed | the checker's lines are the jumps of the expanded table, by induction over the file (a run has no jumps inside); cut files fail after the whole entries; composed with C41 for tables of the analyser. Violations: gaps inside a run, numbers, start of the loop |
| C88 | `timeString`, `stppPars`, `stppSegments` with the templates as the texts they are | times by division with remainder against an independent reading of `hh:mm:ss.mmm`; cues by index. Violations: no segment is ever made (for all inputs), cues beyond the segment |
| C89 | reading of caption files and the loop over segments (`CaptionFile`) | `C89_file`: induction over the lines of any `CueFile`; `C89_tool_partial`: induction over the segments, with the segment theorem of C44 for each; `C89_once`: splitting of time intervals. Violations: segments without captions are not written, representations overwrite each other, `--max n` takes n+1 segments, tabs and drop-frame times are not read |
| C90 | `segmentRange`, `fileNumber`, `consecutive`, `sortNats` (AnalyzerFiles.lean) | membership in the sorted list of numbers, induction over `consecutive`; names of files against `Spec/SegmentFiles`; false with copies such as `2.m4s.bak` |
| C91 | `processThumb` (Media), `provideThumb` (Server), `serve` | for services without stop time, time offset and loss pattern: the decision of the picture request follows the one of the media request (`C91_together_partial`), and lies in the availability window of the specification (`C91_window_partial`); violations for the other options |
| C92 | the whole path: manifest text, URL, `serve`, chunker, pacing (no new model code) | `C75_numbers_partial` (now also with a chunk duration) gives what the client reads, `Opened.followed` the decision of the server, `C82_stream_partial` the stream; the clock of the manifest is `Addressing.clock` |
| C93 | `sessionId`; `gate`, `redirectParts`, `serve`, `processUrl`, `baseURL` (already there) | the id is read back by an own reader (`Spec.Hex`); the added parts are options without effect on `processUrl`; the BaseURL keeps all parts of the request, so the session start stays in every URL that a client builds |
| C94 | `processUrl`, `processStartTime`, `getMedia`, `generateXml`, `serve` (already there) | options that are not relative to the request time mean the same at all times (invariant of the option loop); the availability decision with a stop (C01) is compared with what an own reader of the manifest (`Spec.NumberClient`) computes; the delivery as in C80 |
| C95 | `processUrl`, `getMedia`, `mediaBody`, `filterMedia`, `processStyp`, `scteBox`, `Emsg.getBox` (already there) | the reply of analysed content (C78) is cut behind its type box (C07, C11); what is there is the message of the schedule (C36), read back by an own statement of what a client learns (`Spec/Splice.lean`, C37); three violations: stored segments without type box, numbers that do not start at 0, replies in chunks |
| C96 | `finishUrl`, `processStartTime`, `getMedia`, `mediaBody`, `processStyp` (already there) | the list of last numbers of a session (C33) against the decision to send (`getMedia_last`) and the type box of the reply (C07, C78); three violations: numbers that do not start at 0, stop times, replies in chunks |

## Code that is modelled

| model file | code |
|------------|------|
| `Py`, `Text`, `Boxes`, `Bits` | dashlib/structops.py; serialisers of boxes.py; bitreader.py, bitwriter.py |
| `Config`, `Modulo` | dashlib/configprocessor.py (URL options, configuration, content type and representation lookup), moduloperiod.py |
| `Media` | dashlib/dash_proxy.py (media and init requests, errors, thumbnails) |
| `Mpd`, `SegTimeline`, `TimeFormat` | dashlib/mpd_proxy.py (periods, options), the times, periods, templates and timelines of mpdprocessor.py, segtimeline.py, timeformatconversions.py |
| `Xlink` | dashlib/mpd_proxy.py `get_mpd` and `generate_response_with_xlink` on texts |
| `Xml`, `MpdTree`, `XmlText`, `Timestamp` | dashlib/mpdprocessor.py on element trees and its text, `generate_dynamic_mpd` of mpd_proxy.py, `make_timestamp` |
| `Float` | binary64 rounding, and the float operations of dashlib/dash_proxy.py `get_media`/`process_media_segment` (148-149, 166, 233, 254, 277), mod_wsgi/mod_dashlivesim.py 214-227, dashlib/configprocessor.py 209, dashlib/mpd_proxy.py 27-28 |
| `MediaBody` | dashlib/dash_proxy.py: the files that a request opens and the bytes of the reply (single, muxed, chunked, initialization) |
| `Mp4Filter`, `MediaFilter`, `InitFilter`, `Emsg`, `Ttml` | dashlib/mp4filter.py, mediasegmentfilter.py, initsegmentfilter.py, emsg.py, scte35.py, ttml_timing_offset.py |
| `Muxer` | dashlib/segmentmuxer.py |
| `Mp4Parser`, `SampleTables`, `Chunker` | dashlib/mp4.py (parser, fragment boxes, sample tables, emsg), chunker.py |
| `BoxWriter` | dashlib/boxes.py, all box classes and `create_*` functions |
| `Wsgi` | mod_wsgi/mod_dashlivesim.py (application, ranges, sessions, chunked delivery) |
| `SessionId` | dashlib/sessionid.py (the number that is drawn is an argument) |
| `Server` | mod_wsgi/mod_dashlivesim.py 150-187 with dash_proxy.py 86-118 (`createProvider`): the path from a request to data or an error; the texts of error messages and the parsing of the stored manifest file are arguments |
| `TableFile` | dashlib/segtimeline.py `SegmentTimeLineGenerator.__init__`: reading the tables that the analyser wrote |
| `Analyzer`, `AnalyzerFiles` | vodanalyzer/dashanalyzer.py, reading of the manifest in vodanalyzer/mpdprocessor.py (templates, numbers, timescale, duration), the files on disk |
| `TableCheck` | vodanalyzer/parse_dat_file.py |
| `VodConfig` | dashlib/configprocessor.py `VodConfig` (content description files), with the reader and writer of Python's configparser |
| `Captions` | cc_inserter/cc_inserter.py |
| `Stpp` | dashlib/stpp_generator: make_stpp_segments.py, and stpp_creator.py as far as it gets |
| `CaptionFile` | cc_inserter/cc_inserter.py: caption file reader (`SCCParser`, `convert_time`) and the loop over the segments |

## Code that is not modelled

* XML reading (`xml.etree`, `xml.dom`): manifests are read as element trees; the writer of
  `xml.etree` (Python 3.9 and later) is modelled from its source (`XmlText`).
* Files and network: reading segments, configurations and caption files is an argument of the
  model (a function from names to contents).  The server's configuration reader is an argument of
  `processUrl`; `VodConfig` models what it does with the text of the file.
* Floating point rounding outside what `Float` covers (overflow and gradual underflow, and floats away from the path of a
  media request); `float(text)` is a parameter.
* mp4.py: descriptors, codec configuration boxes (`hvcC`, `dac3`, `esds` reading) and printing.
* boxes.py: `DataPlaceholder`, printing.
* Command line entry points, logging, the text that the template engine of stpp_generator makes, and the methods of the
  filters in stpp_creator.py (they are never reached, see C88).
* Threads: requests are handled one at a time (except C46, about the shared header list).

## Trusted base

* The Lean 4 kernel and the axioms `propext`, `Classical.choice`, `Quot.sound`; `#print axioms`
  of every theorem named in MANIFEST.json lists a subset of these three.
  No other axioms, no `sorry`, no `native_decide`, no `bv_decide`.
* The hand translation Python → Lean (cited definition by definition).
* The conventions above: exact rationals instead of floats (outside C83), ASCII text where noted.
* The specifications in `Verif/Spec`.

## Where the code disagrees with a property

Each is a theorem with a concrete witness or for all inputs; the claim itself is kept as a
`_partial` theorem with the hypotheses under which it holds.

<!-- disagreements -->
* `C06_ll_inf_violation` — Low-latency service with infinite offset: the manifest writes the internal value -1 as availabilityTimeOffset of the segment templates, so a client waits until one second after the end of the segment, while the server serves it at any time.
* `C06_snr_violation` — `snr_-1` with a time offset: the manifest announces 299 as the number of media time 600 (the first segment), which the server calls 1.
* `C07_major_violation` — **C07 violated** for `lmsg` as major brand: the minor version becomes the major brand and the first compatible brand the minor version.
* `C15_no_styp_violation` — A segment without styp box cannot be multiplexed: `None` is joined.
* `C15_two_runs_violation` — With two runs in the track fragments only the data offset of the last one is moved. In the segments the first run starts with the first byte of the media data. In the multiplexed segment the data offset of the first run of the first track is unchanged, 88, and it is the start of the second run inside the fragment that it leads to.
* `C18_start_violation` — A service that starts at second 1000: for segment 10, which starts on the wall clock at 1010, the application takes second 10 as its start, so all its chunks leave at once although they should be paced from 1010 on.
* `C20_multi_violation` — A list of ranges is answered with the whole payload, but as status 206 with a meaningless range header.
* `C20_suffix_violation` — A suffix longer than the payload denotes the whole payload; the code sends the last two of ten bytes and an invalid header.
* `C21_malformed_range_violation` — A malformed range header on a good request raises outside the error handling of the application: no reply is started.
* `C21_type_violation` — Thumbnails are sent as plain text.
* `C23_lmsg_violation` — The last segment number of a modulo session counts from the epoch while segments are numbered from the session start. In the session that starts at 2400 with an announced duration of 480 s, at 2900 s: the segment that ends the presentation (239) is served without the last-segment mark, segment 240 beyond the announced end is served as well, and the number that would get the mark (1439) is refused as too early.
* `C24_day_violation` — One day is written `P1DT`, which is not a valid duration, and the parser of the package rejects every string with a day part.
* `C25_ast_violation` — Period numbers count from the epoch while period starts are relative to the availability start: for a service that starts at 90000 no period of the manifest at 100000 contains the current instant.
* `C27_grid_violation` — With 7 s segments and 120 s periods the period start 120 is not a segment boundary: the start number 17 belongs to media time 119; and with start number 1 the server's number 60 is at media time 118, not at the period start 120.
* `C28_closest_violation` — A session started at 3598 s: the segment that starts nearest is the first of the next loop (number 600, start 3600), but the last of that loop (number 1199, start 7194) is taken: for an hour nothing is listed, and then segment 1199 alone.
* `C28_empty_number_violation` — When no segment has ended since the start of the window, the start number is what it was before: none (the MPD then says startNumber="None"), or that of the period before.
* `C28_one_entry_violation` — With one entry in the table, as for the test content, a window over the end of the loop lists segments that have not begun: at 3630 s with a buffer of 60 s the segments 594 to 604 have to be listed, but 594 to 608 are, the last of which ends at 3654 s.
* `C28_whole_loop_violation` — A window as long as the loop: the segments 0 to 4 have to be listed, but the entry that they begin in is listed with the repeats of the end: segment 1 is missing and all that follow are listed 40 too early.
* `C29_consistent_violation` — The test content again, with a buffer of 60 s: the timeline of 3654 s lists the segments 598 to 616, that of 3663 s the segments 600 to 609 only.
* `C30_snr_violation` — With start number 1 the time request for media time 40 s is taken as number 20, while the segment with media time 40 s has number 21: the reply is the segment before the requested one.
* `C32_long_segment_violation` — For 2000 s segments the stop time 1 is rounded down to 0: the presentation ends before the stop time and is empty.
* `C32_snr_violation` — The presentation from 1000 to 1056 has 7 segments of 8 s. With `snr_-1` numbering starts at 1, but the number 6 is already refused as beyond the stop.
* `C33_duration_violation` — In the last two update periods (and afterwards) the manifest announces an end but no presentation duration any more.
* `C34_timeoffset_violation` — With a time offset the media timeline is counted from the offset, not from the session start, so decode times need 64 bits in spite of `tfdt_32`.
* `C35_second_zero_violation` — A pattern whose cycle divides the minute is not down for its full share: with `u30_d30` second 0 of the minute, the 30th second of the down phase 31…60, is served, so the server is down for 29 seconds of each minute only.
* `C36_missed_second_violation` — C36 fails for a duration that divides the minute but is longer than 12 s: with 15 s segments and three splices a minute the third one is announced by no segment.
* `C36_missed_violation` — C36 fails for a duration that does not divide the minute: with 7 s segments the splice at second 130 is announced by no segment.
* `C37_size_violation` — C37 does not hold for all strings: the size is computed from the number of characters, so with a character outside ASCII the size field is smaller than the box.
* `C38_pending_violation` — **C38 fails when the last byte is not full.** There is no way to get the bits that wait for their byte, so that the value of the last field is not read back.
* `C38_wide_violation` — **C38 fails for wide fields.** A field of 42 bits cannot be written at all.
* `C40_hours_violation` — **C40 fails** for a time with three digits for the hours: `begin="100:00:00"` stays, though its segment is played an hour later.
* `C40_run_violation` — **The sample size fails** where it is given in the run: the text (20 bytes before) has 22 bytes after shifting it by 1000 hours, the default size in the track header says so, but the run that takes precedence over it still says 20: the last two bytes of the text are lost.
* `C41_gap_violation` — A gap inside a run of equal durations is lost: the third segment starts at 365, the table says 360.
* `C41_longer_violation` — The other content type has more segments than the loop: its table describes four segments, the loop has three.
* `C41_zero_violation` — A segment without samples (duration 0) is missing from the table.
* `C42_offset_violation` — The offsets of version 1 boxes are signed. A box of version 1 with the offset -1024 is read as 4294966272.
* `C43_default_violation` — **C43 fails for durations from the initialization segment.** Content with segments of 100 samples of 1800 units, where only the initialization segment tells the 1800. The analyser knows that the segments last 2 s, but the index in a reply says that the segment lasts 0.
* `C43_two_runs_violation` — With two runs the index announces the duration of the last run (20) though the samples last 30.
* `C44_default_duration_violation` — With the default duration of the track fragment no caption is inserted, though the sample lasts from 0 to 5 seconds and there is a caption at second 2.
* `C44_first_flags_violation` — First-sample flags are dropped, and the box keeps its size field and its flags: the rest of the box is read wrongly by every reader.
* `C44_fragments_violation` — A segment of two fragments with a caption in the first is refused: the captions of the first fragment are looked for again in the second one.
* `C44_index_violation` — The index box before a segment keeps the size of the old segment, though the new one is longer.
* `C48_u16_violation` — Unlike the 8- and 32-bit serialisers `serialize_u16` does not reduce its argument to 16 bits: the mask has 20 bits, so 65536 raises, as does every value that is negative and larger than -(2^20 - 2^16).
* `C49_ad_violation` — With ads the role of a period changes while it is listed: period 168 is a link at 101100 and no longer one at 102000.
* `C51_default_flags_violation` — **C51 fails: default flags.** Default flags of the track are read as a truth value: a track whose samples are not sync samples by default (flags 0x00010000) gets all samples marked as sync samples, and one with default flags 0, that is sync samples, gets none marked.
* `C51_flags_ignored_violation` — **C51 fails, in general.** Whenever the run of the segment lists sample flags, every sample of every chunk is marked as a sync sample, whatever the flags say.
* `C51_marks_violation` — **C51 fails: a witness.** The second sample of the segment is not a sync sample, but the chunks mark both as sync samples.
* `C52_front_dropped_violation` — **C52 fails, in general.** What stands before the movie fragment of a segment (styp with the last segment brand, sidx, emsg boxes) leaves no trace in chunked delivery: the chunks are the same as for the segment without these boxes.
* `C52_last_segment_violation` — **C52 fails: a witness.** A segment announced as the last one loses the announcement.
* `C53_timescale_violation` — **C53 fails for version 1 media headers.** The timescale is read from the upper half of the modification time: 0 instead of 90000.
* `C54_other_violation` — Only the first representation counts: the second one has a single segment, and the loop three.
* `C55_change_violation` — In the middle of an update interval the manifest has not changed, and the configuration says so (publish time 1980 at both instants), but the manifest gets a new publish time.
* `C56_early_violation` — A period announced to terminate early (after half its length, as long as it is the last one of the manifest) is announced with its full length later, when an ad period follows.
* `C57_esds_violation` — **C57 fails for longer configurations.** With 105 bytes the length of the ES descriptor is written with a continuation bit, and reads as nothing like the 128 bytes that follow.
* `C57_senc_violation` — **C57 fails for encryption boxes with mixed samples.** One sample with a subsample and one without: 42 bytes are written, the size says 40.
* `C57_sgpd_violation` — **C57 fails for key ids that are not 16 bytes long.**
* `C57_sidx_violation` — **C57 fails for segment indexes of a version over 1.**
* `C58_hevc_violation` — **C58 fails for HEVC.** For every description of an HEVC track with a timescale a movie box is made, and it can never be written.
* `C58_rate_violation` — **C58 fails for sample rates from 65536 Hz.** A 96 kHz track: the rate written is 30464.
* `C59_mixed_violation` — **C59 fails for samples of both kinds.** One sample with pairs and one without: the data offset is 205, the media data begins at 207.
* `C59_saiz_violation` — **C59 fails for the sizes.** However many samples are encrypted, `saiz` states the size of the auxiliary information of no sample.
* `C61_element_violation` — **C61 fails** when another element stands between BaseURL and the period (mpdprocessor.py 197-207 finds the period but copies the element at the position before): with a ServiceDescription in the VoD manifest, a service with seven periods has one period and six more copies of the ServiceDescription.
* `C62_adaptation_set_violation` — **C62 fails** for the adaptation sets of continuous periods in a low-latency service: the ProducerReferenceTime is put before the SupplementalProperty (mpdprocessor.py 352-358). With SCTE-35 the InbandEventStream is before it too.
* `C62_baseurl_violation` — **C62 fails** for a VoD period with a BaseURL and the offset at period level: the SegmentBase is put before the BaseURL (mpdprocessor.py 294-299).
* `C62_metrics_violation` — **C62 fails** for a VoD manifest with Metrics after the period in a service with UTCTiming elements: these are put directly after the periods (mpdprocessor.py 208), the schema wants them after Metrics.
* `C62_period_violation` — **C62 fails** for periods with a callback and the offset at period level: the EventStream is put before the SegmentBase (mpdprocessor.py 332-339).
* `C62_protection_violation` — **C62 fails** for a protected adaptation set in a service with SCTE-35: the InbandEventStream is put before ContentProtection (mpdprocessor.py 349).
* `C62_two_periods_violation` — **C62 fails** for a VoD manifest with two periods: the second is left as it is, after the UTCTiming elements and without a start.
* `C63_base_violation` — **C63 fails** for the availability time offset when the VoD manifest has a BaseURL, and in a service with a Location: the manifest does not say that segments are available 5 s early.
* `C63_day_violation` — **C63 fails** for a buffer of a day: the text of the depth is not a duration.
* `C63_negative_depth_violation` — **C63 fails** for a negative buffer depth in a service with periods: there is no period data, and the VoD period is sent as it is, without start.
* `C63_own_duration_violation` — **C63 fails** for a VoD period with a duration: all periods but those with a duration of their own say they are as long as the VoD content.
* `C63_own_offset_violation` — **C63 fails** for a template with an offset of its own in a service with one period: the offset is to be removed, but `key in elem` (mpdprocessor.py 280) looks for a child, and it stays.
* `C63_representation_violation` — **C63 fails** for templates in Representation elements: they are copied with the start number of the VoD content, and without offset, into every period.
* `C63_timescale_violation` — **C63 fails** for templates with a timescale: with 90000 units per second the presentation time offset is written in seconds. The first period of the manifest starts at 999660 s and its offset is 999660 units, 11 seconds.
* `C65_callback_violation` — **C65 fails** for a callback in a service with a Location: there is no BaseURL to make the URL of the callback from, and no manifest.
* `C65_multi_violation` — **C65 fails** for a service that is asked for several BaseURLs: the option is put after the name of the content, in front of which empty parts stay, and the server finds no content at any of the BaseURLs.
* `C65_plus_violation` — **C65 fails** for values that `int()` reads but the pattern for the replacement does not match: with a plus sign the Location keeps the relative time, and with a digit separator the start moves.
* `C65_start_only_violation` — **C65 fails** for a service with a relative start and no stop (or the other way round): there is no manifest, as the missing time cannot be written into the Location.
* `C67_longer_violation` — **C67 fails** for a VoD manifest with a longer profile that contains the name of the profile for ad insertion: the code looks for the name anywhere in the text, and does not add it.
* `C68_before_violation` — **C68 fails** at the start of every period but the first in the buffer: the segment that ends where the period starts, the last of the period before, is listed there again (segment 166669 of the third period, 6 s before its start).
* `C68_empty_violation` — **C68 fails** for a period of which nothing is in the buffer: its template has no segments and the start number "None", which is no number; and until the first segment of a service has ended there is no manifest at all.
* `C68_session_periods_violation` — **C68 fails** for a session in several periods: each of them lists the segments of the whole session.
* `C68_stop_violation` — **C68 fails** after the end of a session without time offset: half a minute after the end of a session of 30 s its static manifest lists the segments from 24 s to 60 s.
* `C68_subtitle_violation` — **C68 fails** for content with subtitles: there are timelines for video and audio alone, and a third content type gives an error instead of a manifest.
* `C68_timeoffset_violation` — **C68 fails** for a service with `timeoffset_0` and a start but no stop: a minute after the start the template says that the period starts at the media time 999960, but lists segments from the media time 0.
* `C69_empty_container_violation` — **C69 fails** for an empty container: the box after it is read as its child as well, if its size is not too large for that.
* `C69_wide_container_violation` — **C69 fails** for a container with a 64-bit size: its children are read 8 bytes too early, at the size, and none is found.
* `C70_character_violation` — **C70 fails** when the URL of the request contains a control character: it is copied to the manifest, and a reader rejects the manifest.
* `C70_host_violation` — **C70 fails** when a text contains `ns0:`: the code removes it everywhere, not only where it is a prefix, so that on a server with the address `dns0:8080` the element `BaseURL` names another server.
* `C70_loss_violation` — **C70 fails** for content with the profile `urn:dash-if-simples0:a` when segments are left out of the timeline: the code makes `urn:dash-if-mains0:a` of it, and then removes `ns0:`.
* `C71_attribute_violation` — **C71 fails** when the period of the VoD manifest has another attribute before its id: the code counts the characters of `<Period id="` back from the id and cuts the attribute in two; a reader rejects the reply.
* `C71_base_violation` — **C71 fails** when `BaseURL` is left out (with relative times) or has attributes (with an availability time offset): the code does not find it, and the request is answered with an internal error instead of a manifest.
* `C71_late_violation` — **C71 fails** for a link that is followed after its period has left the manifest: the reply is not a period and no error, but text from elsewhere, here nothing at all.
* `C71_mention_violation` — **C71 fails** when the id of a period is mentioned before the period, here in the name of the server: the code cuts the manifest at that place, and a reader rejects the reply.
* `C71_name_violation` — **C71 fails** when the name of the manifest has an ampersand: it is written to the link without a reference, and a reader rejects the reply.
* `C71_namespace_violation` — **C71 fails** when the period has an element of another namespace: its prefix is declared in the manifest, not in the period, and a reader rejects the reply to the link.
* `C73_handler_violation` — **C73 fails for the callback itself.** The manifest tells clients to call `http://h/livesim/mpdcallback/`, and the server answers that URL with 404: `mpdcallback` is taken as an option, which has no value.
* `C74_drift_violation` — **C74 fails** for content with segments of 1 s, 3 s, 2 s and 2 s: the timeline at 1001 s lists the segment from 1000 s to 1001 s, number 500, but a request for it at that time, by number or by time, is answered that it is too early.
* `C76_comma_violation` — **C76 fails** for identities with commas: one representation is read as two.
* `C76_empty_violation` — **C76 fails** for a content type without representations: it is read with one, of empty name.
* `C76_image_violation` — **C76 fails** for thumbnails: the type `image` is read but never written.
* `C76_ms_violation` — **C76 fails** for durations in milliseconds: every file that gives one and can be read is read with a duration of 0 seconds, and with that no media segment is ever served.
* `C76_return_violation` — **C76 fails** for identities with a carriage return, which `write_config` copies into the file: the server cannot read the file.
* `C76_space_violation` — **C76 fails** for identities with spaces at the ends: the server does not know them.
* `C76_zero_violation` — **C76 fails** for a duration of 0 (segments shorter than a second): the file is written and cannot be read.
* `C77_default_violation` — **C77 fails** for manifests that leave `startNumber` to its default 1: the files are those of accepted content, and the analyser raises.
* `C77_kind_violation` — **C77 fails** for content types other than video and audio: the analyser accepts the adaptation set and checks its segments, and leaves it out of the configuration, so that every request for it raises.
* `C77_other_violation` — **C77 fails** for representations after the first of their adaptation set: the analyser does not compare the numbers of segments. `V2` has two segments, the loop three; the third segment of a loop is announced and available, and opening its file raises.
* `C77_template_violation` — **C77 fails** for templates with text beside the number: the analyser accepts `$RepresentationID$/seg_$Number$.m4s`, and the server, which takes the whole file name for the number, raises for every segment.
* `C78_gap_violation` — **C78 fails** for continuity: the analyser compares only the ends of the stored segments with the segment duration. Content whose second segment starts more than a second late is accepted, and of the segments 6 and 7, which are two seconds apart in the manifest, the first ends at 1260000 and the second starts at 1380000 in units of 1/90000 s.
* `C79_early_violation` — **C79 fails** for early segments: with a time offset after the start of the session the first segment has a negative number and decode time. Segment -45 is the latest that is available at 10 s and the server decides to send it, but making it raises, because neither value has a place in the segment.
* `C79_init_violation` — **C79 fails** for initialization segments: the analyser does not look at the movie header. Content whose movie header is cut off is accepted and its manifest is served, but the request for the initialization segment raises.
* `C81_wrap_violation` — **C81 fails** when the buffer reaches over the end of the loop and all segments have the same duration (C28): at 106 s with a buffer of 5 s the manifest lists four segments from 100 s on, the last of which, from 106 s to 108 s, has not begun. A client that asks for it is answered 404.
* `C82_init_name_violation` — **C82 fails for initialization segments with another name.** The manifest calls it `head.mp4`, the analyser reads it, and whole segments are sent; but for a reply in chunks the server opens `init.mp4`, which raises, and every segment gets 404.
* `C82_ticks_violation` — **C82 fails for chunks of less than one tick.** A chunk duration of 10 µs is accepted by the URL parser, but it is 0 ticks of 1/90000 s: the chunker makes an empty chunk first, which raises, and every segment gets 404.
* `C83_ticks_violation` — **C83 fails** for chunk durations with an inexact float: with `chunkdur_0.58` and a timescale of 50 the product is computed as 28.999999999999996 and truncated, so chunks of 28 ticks are cut where 29 were asked for (dash_proxy.py 277).
* `C84_base_violation` — **C84 fails for a second representation whose offsets do not count from the fragment.** The header of its track fragments does not have the flag `default-base-is-moof`. Alone this means the same, as there is only one track fragment. The multiplexer keeps the header and counts from the fragment, but now a client has to count from the end of the data of the first track: the samples of the second are not found.
* `C84_box_violation` — **C84 fails for fragments with other boxes.** The segments of the first representation have a protection system header of 20 bytes in their fragments. The multiplexer leaves it out and moves the offset only by the size of the second track fragment: the data of the first track is looked for 20 bytes behind where it is.
* `C84_duration_violation` — **C84 fails for durations.** The initialization segment of a live session must not say how long the stored content is, and that of the video does not: its movie header is changed. In the one with both tracks the movie header is the stored one, with its duration of 9 ms.
* `C84_event_violation` — **C84 fails for events.** With three ad breaks per minute segment 44 of the video carries an event message. In the reply with both tracks there is none: a client of such a representation sees no ad break.
* `C84_name_violation` — **C84 fails for names that end with an underscore.** The representations `V_` and `A1` are accepted and each is sent, but `V___A1` is taken for `V` and `_A1`: every segment of both gets 404.
* `C84_track_violation` — **C84 fails for tracks with the same number.** Both representations call their track 2, as they may, being separate files. The multiplexer keeps the numbers: in the reply there are two tracks with the same number, and in its initialization segment too.
* `C85_header_violation` — **C85 fails for track headers without a default size.** The size of the sample is said by the initialization segment, as the format allows. The filter has to write the new size, finds no room for it and raises an error: the server says that there is no such segment. So it does without a default duration.
* `C85_hours_violation` — **C85 fails for cues after a hundred hours.** The stored sample starts with the cue. The server moves only times with two digits of hours: the sample of the reply starts 90 seconds after its cue.
* `C85_seconds_violation` — **C85 fails for times in seconds.** TTML has clock times and offset times. `begin="5s"` says the same as `begin="00:00:05"`, but the server does not move it: the sample of the reply starts with second 94, its cue ended with second 6.
* `C85_two_violation` — **C85 fails for segments with two samples.** Each of them is a text of its own, of 35 bytes, as the track header says. The filter takes the media data for one text and makes the size of all of it the size of every sample: the first sample of the reply has both texts, the second none.
* `C86_analyser_violation` — **C86 fails in the analyser.** It takes the time and the duration of the last fragment for those of the segment and refuses the content, though the segments are two seconds long and follow each other without gaps.
* `C86_index_violation` — **C86 fails for inserted indexes.** With `sidx_1` the index stands before the last fragment and describes that fragment: its decode time and its duration of one second; but the size is that of both fragments, 216 bytes, of which only 108 follow.
* `C86_number_violation` — **C86 fails for sequence numbers.** In a file the numbers of the movie fragments increase, as they do in the stored segment (5 and 6). In the reply both fragments have the number of the segment.
* `C86_width_violation` — **C86 fails for decode times of different widths.** The first fragment has a decode time of 32 bits and grows by four bytes. The second one has 64 bits and does not grow, but the filter still knows of the four bytes and moves its data offset: the player looks for the samples four bytes too late, where the file ends.
* `C87_hidden_violation` — **C87 fails** for gaps between segments of the same duration: the analyser writes one run for them, and the checker finds nothing wrong with its table.
* `C87_numbers_violation` — **C87 fails** for the numbers of the segments: the checker does not look at them, so a table that goes on with another number than the next one (here 1, 2, 4) passes.
* `C87_start_violation` — **C87 fails** for the seam of the loop: a table that does not start at 0 (here at 7) passes, though the server takes every loop to start at a multiple of its duration.
* `C88_beyond_violation` — **C88 fails** where the resolution does not divide the duration: the last cue of a segment of two seconds with a resolution of 1.5 seconds ends a second after the segment, over the first cue of the next one.
* `C88_nothing_violation` — **C88 fails** for every input: the templates are texts, which the box filter cannot take apart, so the generator ends with a TypeError and leaves nothing but an empty init segment.
* `C88_segment_violation` — **C88 fails** for single segments too: neither an init segment nor a media segment can be made.
* `C89_format_violation` — **C89 fails** for the files that captioning programs write: the time and the words are separated by a tab there, and drop-frame times have a semicolon before the frames. Neither is read.
* `C89_gaps_violation` — **C89 fails** for segments without captions: they are not written, so the output directory is not a representation that can be played.
* `C89_max_violation` — **C89 fails** for the limit: with `--max 1` two segments are processed.
* `C89_representations_violation` — **C89 fails** for two representations: both are written under the same names, so that only the segments of the last one are there in the end.
* `C90_copy_violation` — **C90 fails** when there is a copy of the missing segment under another name: the expression for file names is not anchored at the end, so `2.m4s.bak` counts as segment 2. Segment 2 is missing, the analyser accepts the content with no word about it, and the loop has segment 1 alone.
* `C90_refused_violation` — **C90 fails** in the other direction too: complete content is refused, with a message that a segment is missing, when the directory has a copy of one of its segments.
* `C91_loss_violation` — **C91 fails** for a service with a loss pattern: while the server is down for the media it gives out pictures.
* `C91_offset_violation` — **C91 fails** for a service with a time offset: the numbers of its media segments are moved, the ones of the pictures are not. Segment 14 is there at 121 s, its picture comes 10 s later.
* `C91_stop_violation` — **C91 fails** for a service that stops: the media segments from the stop on are refused, and pictures are given for them; the media segments of the whole session stay available after the stop, and their pictures do not.
* `C92_start_violation` — **C92 fails for services that start later.** The manifest of a service that starts at 1000 s says that segment 50, with media times from 100 s to 102 s, is presented from 1100 s on and can be asked for then. The server takes 100 s as its start on the clock: both chunks leave at 1100 s, the last sample (media time 101.5 s) 1.5 s before the manifest presents it.
* `C93_name_violation` — **C93 fails for directories that are named like a session start.** The server looks for the start of the session in all parts of the URL and takes the last one. In a session that started at 1000 s the manifest of content with a representation `sts_1` is served, but all its segments are answered with 410 (without a limit they are sent).
* `C94_periods_violation` — **C94 fails for several periods.** The presentation of 40 s from 1000 s on, with a period each minute: after its end the static manifest announces a presentation of 40 s, whose periods start at 960 s, 1020 s and 1080 s of it, the first with segment 480. The server has segments 0 to 19 only.
* `C95_chunk_violation` — **C95 fails** for replies in chunks, in which nothing before the fragment is sent (`C52_front_dropped_violation`): with `chunkdur_1` the segment that should tell about the splice at 10 s is sent as if there were no splices.
* `C95_number_violation` — **C95 fails** for sessions whose numbers do not start with 0 at media time 0: the times of the splices are computed from the number of the segment alone. With `snr_1` the segment with number 2 is at media time 2 and its message says that the splice is 6 s after its start, at 8 s; the segment at the same media time in the session without the option says 8 s after its start, at 10 s, for a splice with the same id.
* `C95_type_violation` — **C95 fails** for stored segments without type box: the message is written behind the type box only. With `scte35_1` the replies for the content `tiny`, which the analyser accepts, are those without the option, also for the segments that should tell about the splice at 10 s.
* `C96_chunk_violation` — **C96 fails** for replies in chunks: the last segment is sent like one of a session without end (see `C52_last_segment_violation`).
* `C96_number_violation` — **C96 fails** for sessions whose numbers do not start with 0: the last number is computed as if they did. With `snr_1` the session from 1000 s to 1020 s has the segments 1 to 10; the mark is in segment 9, which ends at 1018 s, and segment 10 is refused.
* `C96_stop_violation` — **C96 fails** for sessions that end because of a stop time: the segment that ends at the stop time, behind which there is none, is not marked.
<!-- disagreements -->
