{
 "claims": [
  {
   "property": "C01",
   "status": "proved",
   "theorems": [
    "Mirakc.Props.C01_chunking_independent"
   ],
   "note": ""
  },
  {
   "property": "C02",
   "status": "proved",
   "theorems": [
    "Mirakc.Props.C02_aligned_lossless"
   ],
   "note": ""
  },
  {
   "property": "C03",
   "status": "proved",
   "theorems": [
    "Mirakc.Props.C03_only_genuine_packets"
   ],
   "note": ""
  },
  {
   "property": "C04",
   "status": "proved",
   "theorems": [
    "Mirakc.Props.C04_no_fault"
   ],
   "note": ""
  },
  {
   "property": "C05",
   "status": "proved",
   "theorems": [
    "Mirakc.Props.C05_packet_loop"
   ],
   "note": ""
  },
  {
   "property": "C06",
   "status": "proved",
   "theorems": [
    "Mirakc.Props.C06_stdout_faithful"
   ],
   "note": ""
  },
  {
   "property": "C07",
   "status": "partial",
   "theorems": [
    "Mirakc.Props.C07_claim_false",
    "Mirakc.Props.C07_stdout_failure_partial"
   ],
   "note": "The full claim (C07_claim) is false: after a failed write the buffer keeps bytes already written, so a later successful flush duplicates them (C07_claim_false). Proved: once every later write fails too, the output is a prefix of the input and the packet is refused. C116 says exactly what is on standard output in every case."
  },
  {
   "property": "C08",
   "status": "proved",
   "theorems": [
    "Mirakc.Props.C08_ring_content"
   ],
   "note": ""
  },
  {
   "property": "C09",
   "status": "proved",
   "theorems": [
    "Mirakc.Props.C09_ring_position"
   ],
   "note": ""
  },
  {
   "property": "C10",
   "status": "proved",
   "theorems": [
    "Mirakc.Props.C10_chunk_durable"
   ],
   "note": ""
  },
  {
   "property": "C11",
   "status": "proved",
   "theorems": [
    "Mirakc.Props.C11_ring_bounded"
   ],
   "note": ""
  },
  {
   "property": "C12",
   "status": "proved",
   "theorems": [
    "Mirakc.Props.C12_errors_reported"
   ],
   "note": ""
  },
  {
   "property": "C13",
   "status": "proved",
   "theorems": [
    "Mirakc.Props.C13_no_assertion"
   ],
   "note": ""
  },
  {
   "property": "C14",
   "status": "partial",
   "theorems": [
    "Mirakc.Props.C14_claim_false",
    "Mirakc.Props.C14_compare_pcr_partial"
   ],
   "note": "The full claim (C14_claim) is false: ComparePcr only compensates a wrap of rhs, so a PCR just after the wrap compares as earlier than one just before it (C14_claim_false). Proved: exact result in every case (true distance, minus one period when lhs is ahead across the wrap)."
  },
  {
   "property": "C15",
   "status": "proved",
   "theorems": [
    "Mirakc.Props.C15_time_to_pcr",
    "Mirakc.Props.C15_within",
    "Mirakc.Props.C15_program_filter"
   ],
   "note": "Exact, including 64-bit overflow: C15_time_to_pcr and C15_program_filter say when the conversion fails, C15_within gives a bound under which it never does."
  },
  {
   "property": "C16",
   "status": "partial",
   "theorems": [
    "Mirakc.Props.C16_claim_false",
    "Mirakc.Props.C16_clock_now_partial",
    "Mirakc.Props.C16_any_wraps"
   ],
   "note": "The full claim (C16_claim) is false with two wraps (53 h) since the last TOT (C16_claim_false). Proved for at most one wrap since the last TOT. C16_any_wraps: exact reading for any number of wraps."
  },
  {
   "property": "C17",
   "status": "partial",
   "theorems": [
    "Mirakc.Props.C17_claim_false",
    "Mirakc.Props.C17_jumps_partial",
    "Mirakc.Props.C17_any"
   ],
   "note": "The full claim (C17_claim) is false: the jump counter is not reset by an invalidation, so after a resync the first jump invalidates again (C17_claim_false). Proved: tolerance after a regular PCR step, fifth jump invalidates, stays unready until TOT and PCR. C17_any: exact readiness after any calls."
  },
  {
   "property": "C18",
   "status": "proved",
   "theorems": [
    "Mirakc.Props.C18_unix_jst"
   ],
   "note": ""
  },
  {
   "property": "C19",
   "status": "proved",
   "theorems": [
    "Mirakc.Props.C19_format_pcr"
   ],
   "note": ""
  },
  {
   "property": "C20",
   "status": "proved",
   "theorems": [
    "Mirakc.Props.C20_any_tables",
    "Mirakc.Props.C20_forward_iff",
    "Mirakc.Props.C20_tables"
   ],
   "note": ""
  },
  {
   "property": "C21",
   "status": "proved",
   "theorems": [
    "Mirakc.Props.C21_intact",
    "Mirakc.Props.C21_downstream"
   ],
   "note": ""
  },
  {
   "property": "C22",
   "status": "proved",
   "theorems": [
    "Mirakc.Props.C22_pat_rewritten"
   ],
   "note": ""
  },
  {
   "property": "C23",
   "status": "proved",
   "theorems": [
    "Mirakc.Props.C23_missing_service",
    "Mirakc.Props.C23_exit_code"
   ],
   "note": ""
  },
  {
   "property": "C24",
   "status": "proved",
   "theorems": [
    "Mirakc.Props.C24_time_limit"
   ],
   "note": ""
  },
  {
   "property": "C25",
   "status": "partial",
   "theorems": [
    "Mirakc.Props.C25_claim_false",
    "Mirakc.Props.C25_no_abort_partial"
   ],
   "note": "The full claim (C25_claim) is false (C25_claim_false, four counterexamples: PMT with pcr_pid 0x1FFF, PAT with null PMT PID, EMM on PID 0 before the first PAT, TOT section on a watched PID without time limit). Proved: no abnormal termination for conforming tables (Spec.ServiceFilter.Conforming). C105 gives the exact condition, for all streams."
  },
  {
   "property": "C26",
   "status": "proved",
   "theorems": [
    "Mirakc.Props.C26_silent",
    "Mirakc.Props.C26_tables"
   ],
   "note": "Hypothesis PatFree (only with pre-streaming: no PCR of the service in a packet of PID 0) always holds in filter-program, because the service filter in front replaces the packets of PID 0 by PAT packets without PCR (C67, C95)."
  },
  {
   "property": "C27",
   "status": "proved",
   "theorems": [
    "Mirakc.Props.C27_start"
   ],
   "note": "Hypothesis PatFree (only with pre-streaming: no PCR of the service in a packet of PID 0) always holds in filter-program, because the service filter in front replaces the packets of PID 0 by PAT packets without PCR (C67, C95)."
  },
  {
   "property": "C28",
   "status": "partial",
   "theorems": [
    "Mirakc.Props.C28_claim_false",
    "Mirakc.Props.C28_stream_partial",
    "Mirakc.Props.C28_order",
    "Mirakc.Props.C28_downstream",
    "Mirakc.Props.C28_no_wrap"
   ],
   "note": "The full claim (C28_claim Reached) is false: when the PCR wraps around between the end PCR and the next PCR, the stream does not stop (C28_claim_false, consequence of C14). Proved: the same statement with PCRs compared without wrap-around (C28_claim ReachedNoWrap); C28_no_wrap says when the two agree. C117 is the exact rule for every packet."
  },
  {
   "property": "C29",
   "status": "proved",
   "theorems": [
    "Mirakc.Props.C29_range",
    "Mirakc.Props.C29_other_eit"
   ],
   "note": "Hypothesis PatFree (only with pre-streaming: no PCR of the service in a packet of PID 0) always holds in filter-program, because the service filter in front replaces the packets of PID 0 by PAT packets without PCR (C67, C95)."
  },
  {
   "property": "C30",
   "status": "proved",
   "theorems": [
    "Mirakc.Props.C30_exit_code",
    "Mirakc.Props.C30_stop"
   ],
   "note": "Hypothesis PatFree (only with pre-streaming: no PCR of the service in a packet of PID 0) always holds in filter-program, because the service filter in front replaces the packets of PID 0 by PAT packets without PCR (C67, C95)."
  },
  {
   "property": "C31",
   "status": "partial",
   "theorems": [
    "Mirakc.Props.C31_claim_false",
    "Mirakc.Props.C31_selection_partial"
   ],
   "note": "The full claim (C31_claim) is false when an excluded elementary stream carries the PCR (C31_claim_false). Proved: PMT rewriting in general, dropping for excluded PIDs that do not carry the PCR, no other packet dropped. C117 is the exact rule for every packet."
  },
  {
   "property": "C32",
   "status": "partial",
   "theorems": [
    "Mirakc.Props.C32_claim_false",
    "Mirakc.Props.C32_no_abort_partial"
   ],
   "note": "The full claim (C32_claim) is false (C32_claim_false, five counterexamples, among them a PAT moving the PMT to another PID and a margin of 341700000000000 ms). Proved: no abnormal termination with a constant PMT PID, valid PCRs, PATs listing the service, and margins, clock time and event times within 2535 years (no 64-bit overflow). C112 gives the exact condition."
  },
  {
   "property": "C33",
   "status": "proved",
   "theorems": [
    "Mirakc.Props.C33_resync"
   ],
   "note": "Hypothesis PatFree (only with pre-streaming: no PCR of the service in a packet of PID 0) always holds in filter-program, because the service filter in front replaces the packets of PID 0 by PAT packets without PCR (C67, C95)."
  },
  {
   "property": "C34",
   "status": "proved",
   "theorems": [
    "Mirakc.Props.C34_output",
    "Mirakc.Props.C34_downstream"
   ],
   "note": "Hypotheses Placed and Fresh state what TSDuck guarantees about the first packet of a table and about a PID added to the demultiplexer; see DESIGN.md."
  },
  {
   "property": "C35",
   "status": "proved",
   "theorems": [
    "Mirakc.Props.C35_bounded"
   ],
   "note": ""
  },
  {
   "property": "C36",
   "status": "partial",
   "theorems": [
    "Mirakc.Props.C36_claim_false",
    "Mirakc.Props.C36_transition_partial",
    "Mirakc.Props.C36_limit"
   ],
   "note": "The full claim (C36_claim Reached) is false: if the PCR wraps around between the end of the maximum duration and the first PCR after it, the limit is missed (C36_claim_false, consequence of C14). Proved: the same statement with PCRs compared without wrap-around. C118 is the exact rule for every packet."
  },
  {
   "property": "C37",
   "status": "proved",
   "theorems": [
    "Mirakc.Props.C37_message_order"
   ],
   "note": ""
  },
  {
   "property": "C38",
   "status": "proved",
   "theorems": [
    "Mirakc.Props.C38_chunks"
   ],
   "note": ""
  },
  {
   "property": "C39",
   "status": "proved",
   "theorems": [
    "Mirakc.Props.C39_events_tile"
   ],
   "note": ""
  },
  {
   "property": "C40",
   "status": "proved",
   "theorems": [
    "Mirakc.Props.C40_recorded",
    "Mirakc.Props.C40_tables"
   ],
   "note": ""
  },
  {
   "property": "C41",
   "status": "proved",
   "theorems": [
    "Mirakc.Props.C41_reset"
   ],
   "note": ""
  },
  {
   "property": "C42",
   "status": "partial",
   "theorems": [
    "Mirakc.Props.C42_claim_false",
    "Mirakc.Props.C42_no_abort_partial"
   ],
   "note": "The full claim is false (C42_claim_false): a PCR with an extension of 300 or more aborts (also behind filter-service, which passes it on), and so does a PAT without the service. Proved: no abnormal termination when every usable PAT lists the service and PCRs are less than the period, for any source and file results. C111 gives the exact condition."
  },
  {
   "property": "C43",
   "status": "proved",
   "theorems": [
    "Mirakc.Props.C43_only_requested"
   ],
   "note": "Every section written shows a requested section completed by a packet of the stream."
  },
  {
   "property": "C44",
   "status": "partial",
   "theorems": [
    "Mirakc.Props.C44_claim_false",
    "Mirakc.Props.C44_none_missed_partial"
   ],
   "note": "The full claim is false (C44_claim_false): table 0x60+i is taken for table 0x50+i of the same service. Proved: a section asked for is written, or one of the same service, number and table (or the corresponding table of the other kind) was written before; the same table if only one kind is collected. C108 says exactly what is written."
  },
  {
   "property": "C45",
   "status": "partial",
   "theorems": [
    "Mirakc.Props.C45_claim_false",
    "Mirakc.Props.C45_updates_partial"
   ],
   "note": "The full claim is false (C45_claim_false): the last section of a segment is not written again when its version changes. Proved for the other sections of a segment, unless a section of another segment of the table has already brought the new version to that place. C108 says exactly what is written."
  },
  {
   "property": "C46",
   "status": "partial",
   "theorems": [
    "Mirakc.Props.C46_claim_false",
    "Mirakc.Props.C46_no_repetition_partial"
   ],
   "note": "The full claim is false (C46_claim_false): segments of different versions are written with every repetition. Proved: no repetition while sections written since have the same version of the table and announce the same last table. C108 says exactly what is written."
  },
  {
   "property": "C47",
   "status": "partial",
   "theorems": [
    "Mirakc.Props.C47_claim_false",
    "Mirakc.Props.C47_complete_partial"
   ],
   "note": "The full claim is false (C47_claim_false): a section announced after its segment had been announced to end before it is not waited for. Proved: at completion every section of every announced table was written, or announced not to exist, or in the past of the day. C48 is the exact condition for the end."
  },
  {
   "property": "C48",
   "status": "proved",
   "theorems": [
    "Mirakc.Props.C48_end"
   ],
   "note": "Exact condition for the end of collecting."
  },
  {
   "property": "C49",
   "status": "proved",
   "theorems": [
    "Mirakc.Props.C49_independent"
   ],
   "note": "Non-interference: what is written for a service is determined by the sections of the service."
  },
  {
   "property": "C50",
   "status": "proved",
   "theorems": [
    "Mirakc.Props.C50_every_change_once"
   ],
   "note": "Holds with and without streaming."
  },
  {
   "property": "C51",
   "status": "partial",
   "theorems": [
    "Mirakc.Props.C51_claim_false",
    "Mirakc.Props.C51_end_claim_false",
    "Mirakc.Props.C51_end_partial",
    "Mirakc.Props.C51_no_abort_partial"
   ],
   "note": "The full claim is false: std::map::at throws when two streams have a service with the same id (C51_claim_false); collecting goes on while the versions of the present and the following section differ (C51_end_claim_false). Proved: exact condition for the end if each id belongs to one service; no abnormal end under stated conditions (well-formed event loops). The exact conditions for the end and for aborting, without assumptions on services, are C109."
  },
  {
   "property": "C52",
   "status": "partial",
   "theorems": [
    "Mirakc.Props.C52_claim_false",
    "Mirakc.Props.C52_clocks_partial"
   ],
   "note": "The full claim is false (C52_claim_false): the clock of a data service is reported if its PMT shares the PID of the PMT of an audio/video service. Everything else is proved without conditions; audio/video if PMTs have PIDs of their own. C119 states the document exactly, without conditions."
  },
  {
   "property": "C53",
   "status": "partial",
   "theorems": [
    "Mirakc.Props.C53_claim_false",
    "Mirakc.Props.C53_time_partial"
   ],
   "note": "The full claim is false (C53_claim_false): a second TOT before the last capture changes the time reported with earlier captures. Proved: the time is that of the last TOT; right if no TOT follows the capture. C119 states the document exactly, without conditions."
  },
  {
   "property": "C54",
   "status": "partial",
   "theorems": [
    "Mirakc.Props.C54_any_tables",
    "Mirakc.Props.C54_claim_false",
    "Mirakc.Props.C54_tables_partial"
   ],
   "note": "The full claim is false (C54_claim_false): a repeated SDT is counted twice and TOTs are never looked at. Proved: which tables are looked at, if the SDT was received once up to the moment when all PMTs are known; later repetition is harmless. C54_any_tables: exactly which tables are looked at, without any condition on the tables."
  },
  {
   "property": "C55",
   "status": "proved",
   "theorems": [
    "Mirakc.Props.C55_exit_code"
   ],
   "note": "Exact condition for success; also that reading stops right there."
  },
  {
   "property": "C56",
   "status": "proved",
   "theorems": [
    "Mirakc.Props.C56_services"
   ],
   "note": "Exact list, in increasing order; ids, type and names from the SDT, remote control key from the NIT, all from the latest tables accepted."
  },
  {
   "property": "C57",
   "status": "partial",
   "theorems": [
    "Mirakc.Props.C57_claim_false",
    "Mirakc.Props.C57_lost_nit_claim_false",
    "Mirakc.Props.C57_moved_back_claim_false",
    "Mirakc.Props.C57_finish_partial",
    "Mirakc.Props.C57_any_order_partial"
   ],
   "note": "The full claim is false: an SDT of another stream is accepted if the PAT comes later (C57_claim_false); a NIT is forgotten when a PAT with a non-standard network PID is repeated (C57_lost_nit_claim_false); the standard network PID is not listened to again after a PAT moved the NIT away and back (C57_moved_back_claim_false). Proved: exact condition for the end in terms of the tables looked at, success iff it ends, and independence of the order for streams that use the standard network PID."
  },
  {
   "property": "C58",
   "status": "proved",
   "theorems": [
    "Mirakc.Props.C58_airtime"
   ],
   "note": "Exact records, exact end, no abort."
  },
  {
   "property": "C59",
   "status": "proved",
   "theorems": [
    "Mirakc.Props.C59_metadata"
   ],
   "note": "Exact records, never ends by itself, no abort."
  },
  {
   "property": "C60",
   "status": "partial",
   "theorems": [
    "Mirakc.Props.C60_claim_false",
    "Mirakc.Props.C60_times_partial",
    "Mirakc.Props.C60_any"
   ],
   "note": "The full claim is false (C60_claim_false): no compensation of a wrap-around of the PCR. Proved: right within the round of the PCR in which the TOT was received; no time shown before a TOT or without clock. C60_any: exact time shown for all values, also after a wrap-around."
  },
  {
   "property": "C61",
   "status": "proved",
   "theorems": [
    "Mirakc.Props.C61_events_decoded"
   ],
   "note": ""
  },
  {
   "property": "C62",
   "status": "partial",
   "theorems": [
    "Mirakc.Props.C62_claim_false",
    "Mirakc.Props.C62_memory_safe_partial"
   ],
   "note": "The full claim is false (C62_claim_false): the length of the descriptors is not checked against the data. Proved: exact characterisation, memory-safe exactly if the event loop is well-formed."
  },
  {
   "property": "C63",
   "status": "proved",
   "theorems": [
    "Mirakc.Props.C63_png"
   ],
   "note": "All logos. The compressed image data are not interpreted; the two inserted chunks are checked against CRC-32 and the PNG rules for PLTE/tRNS."
  },
  {
   "property": "C64",
   "status": "proved",
   "theorems": [
    "Mirakc.Props.C64_logos"
   ],
   "note": "All sequences of logos; LibISDB (download) and base64 are arbitrary."
  },
  {
   "property": "C65",
   "status": "proved",
   "theorems": [
    "Mirakc.Props.C65_tags"
   ],
   "note": "Model of std::stoi from the C++ standard."
  },
  {
   "property": "C66",
   "status": "partial",
   "theorems": [
    "Mirakc.Props.C66_claim_false",
    "Mirakc.Props.C66_sids_partial"
   ],
   "note": "The full claim is false (C66_claim_false): 65537 selects service 1, and a value such as 0x0400 is dropped, so that all services are selected. Proved: exact for decimal numbers 0..65535, and what happens to all other strings."
  },
  {
   "property": "C67",
   "status": "proved",
   "theorems": [
    "Mirakc.Props.C67_protected"
   ],
   "note": "Assumes of TSDuck (Demuxed): a table is completed by a packet of its PID; a PAT found in a generated PAT packet is the table it was made of. The assertion of each of the three downstream HandlePat functions is shown not to fail in any state."
  },
  {
   "property": "C68",
   "status": "proved",
   "theorems": [
    "Mirakc.Props.C68_filter_service"
   ],
   "note": "TSDuck's packet representation is any codec that keeps 188 bytes (Faithful). The selection itself is characterised by C20-C24."
  },
  {
   "property": "C69",
   "status": "proved",
   "theorems": [
    "Mirakc.Props.C69_exit_code",
    "Mirakc.Props.C69_filter_program"
   ],
   "note": "C69_exit_code: any sink behind the service filter; C69_filter_program: the two-filter command; record-service: see C87. Write failures of standard output do not reach the exit code (see C06/C07)."
  },
  {
   "property": "C70",
   "status": "partial",
   "theorems": [
    "Mirakc.Props.C70_claim_false",
    "Mirakc.Props.C70_resync_partial"
   ],
   "note": "The full claim (C70_claim) is false: PCRs are ignored until the event is known (C70_claim_false). Proved when the event is known before the PCR PID changes. C117 is the exact rule for every packet."
  },
  {
   "property": "C71",
   "status": "partial",
   "theorems": [
    "Mirakc.Props.C71_claim_false",
    "Mirakc.Props.C71_start_partial"
   ],
   "note": "The full claim (C71_claim) is false (C71_claim_false, consequence of C14). Proved when PCR, start and end are within half a period without wrap-around. C117 is the exact rule for every packet."
  },
  {
   "property": "C72",
   "status": "partial",
   "theorems": [
    "Mirakc.Props.C72_claim_false",
    "Mirakc.Props.C72_refusal_partial"
   ],
   "note": "The full claim (C72_claim) is false: refusals of packets held back are ignored (C72_claim_false). Proved: a refusal of a packet passed on one by one ends the stream; refusals are ignored only among packets held back. C118 is the exact rule for every packet."
  },
  {
   "property": "C73",
   "status": "partial",
   "theorems": [
    "Mirakc.Props.C73_claim_false",
    "Mirakc.Props.C73_packets_partial",
    "Mirakc.Props.C73_any"
   ],
   "note": "The full claim (C73_claim) is false: the default --max-duration 0 is taken as a limit, so output starts with the second PCR (C73_claim_false). Proved (for any maximum duration) for streams with at most one PCR so far. C73_any: exactly when a packet is held back. C118 is the exact rule for every packet."
  },
  {
   "property": "C74",
   "status": "partial",
   "theorems": [
    "Mirakc.Props.C74_claim_false",
    "Mirakc.Props.C74_no_abort_partial"
   ],
   "note": "The full claim (C74_claim) is false: a PAT not listing the service aborts (C74_claim_false). Proved if every usable PAT lists the service PCRs are less than the period, and the maximum duration in ticks is a number of 64 bits (10825 years). C110 gives the exact condition for arbitrary streams."
  },
  {
   "property": "C75",
   "status": "partial",
   "theorems": [
    "Mirakc.Props.C75_claim_false",
    "Mirakc.Props.C75_event_open_partial"
   ],
   "note": "The full claim is false: an event extended after it was over is not opened again (C75_claim_false). Proved: the open event is always that of the latest EIT and not over unless it was started with this packet; if none is open, an EIT of the same event showed it over. C115 is the exact rule for every packet: which event-start and event-end messages are sent, with their times and positions."
  },
  {
   "property": "C76",
   "status": "proved",
   "theorems": [
    "Mirakc.Props.C76_records"
   ],
   "note": ""
  },
  {
   "property": "C77",
   "status": "partial",
   "theorems": [
    "Mirakc.Props.C77_claim_false",
    "Mirakc.Props.C77_ends_partial"
   ],
   "note": "The full claim is false (C77_claim_false): completion by the clock alone is not noticed (UpdateUnused of CollectProgress does not recompute it). Proved when a section is written. C48 is the exact condition for the end."
  },
  {
   "property": "C78",
   "status": "partial",
   "theorems": [
    "Mirakc.Props.C78_claim_false",
    "Mirakc.Props.C78_no_abort_partial"
   ],
   "note": "The full claim is false (C78_claim_false): a malformed event loop makes the JSON conversion read outside the section. Proved when the sections asked for have well-formed event loops. Also: without any kind to collect the constructor asserts. The exact condition for aborting is C108."
  },
  {
   "property": "C79",
   "status": "partial",
   "theorems": [
    "Mirakc.Props.C79_claim_false",
    "Mirakc.Props.C79_complete_partial"
   ],
   "note": "The full claim is false (C79_claim_false): a new SDT may add a service after the PMTs of the others are known. Proved: every service with a known PMT is reported; these are all services if the SDT was received once and PMTs have PIDs of their own. C119 states the document exactly, without conditions."
  },
  {
   "property": "C80",
   "status": "partial",
   "theorems": [
    "Mirakc.Props.C80_claim_false",
    "Mirakc.Props.C80_no_abort_partial"
   ],
   "note": "The full claim is false (C80_claim_false): FormatPcr asserts on a PCR with an extension of 300 or more at the top of the range. Proved for PCRs within range, for arbitrary tables. The exact condition for aborting is C107."
  },
  {
   "property": "C81",
   "status": "partial",
   "theorems": [
    "Mirakc.Props.C81_claim_false",
    "Mirakc.Props.C81_stamps_partial"
   ],
   "note": "The full claim is false (C81_claim_false): a PCR out of range on a clock PID fails an assertion. Proved: exact stamps for every run; no abort if PCRs are in range. The exact condition for aborting is C106."
  },
  {
   "property": "C82",
   "status": "partial",
   "theorems": [
    "Mirakc.Props.C82_claim_false",
    "Mirakc.Props.C82_followed_partial"
   ],
   "note": "The full claim is false (C82_claim_false): a PAT on another PID that is looked at resets the PMTs. Proved for PATs on PID 0 and PMTs on PIDs other than 0, 1, 0x12, 0x14. The exact set of tables looked at, for arbitrary PIDs, is in C106."
  },
  {
   "property": "C83",
   "status": "proved",
   "theorems": [
    "Mirakc.Props.C83_recorder_options"
   ],
   "note": "Argument values are what docopt's asLong/asUint64 return (64 bits)."
  },
  {
   "property": "C84",
   "status": "partial",
   "theorems": [
    "Mirakc.Props.C84_claim_false",
    "Mirakc.Props.C84_ids_partial",
    "Mirakc.Props.C84_any"
   ],
   "note": "The full claim is false (C84_claim_false): values are cut to 16 bits. C84_ids_partial: used as given for 0..65535. C84_any: for all numbers, ids are residues modulo 65536 and filter-program takes exactly the times whose JST time fits 64 bits."
  },
  {
   "property": "C85",
   "status": "partial",
   "theorems": [
    "Mirakc.Props.C85_claim_false",
    "Mirakc.Props.C85_seeker_options_partial",
    "Mirakc.Props.C85_any"
   ],
   "note": "The full claim is false (C85_claim_false): max-packets is cut to 32 bits, negative values are accepted. C85_seeker_options_partial: values in range. C85_any: exact outcome for all values."
  },
  {
   "property": "C86",
   "status": "proved",
   "theorems": [
    "Mirakc.Props.C86_filter_program"
   ],
   "note": "The program filter's selection itself is characterised by C26-C33."
  },
  {
   "property": "C87",
   "status": "proved",
   "theorems": [
    "Mirakc.Props.C87_record_service"
   ],
   "note": "Recorded is the specification of C37-C41, used on the selected packets."
  },
  {
   "property": "C88",
   "status": "proved",
   "theorems": [
    "Mirakc.Props.C88_seek_start",
    "Mirakc.Props.C88_bytes"
   ],
   "note": "C88_seek_start: exact output in terms of the seeker's history, no abnormal termination iff the seeker has none; C88_bytes: in terms of the stream alone, with TSDuck's packet indices as assumed in C34 (Placed, Fresh)."
  },
  {
   "property": "C89",
   "status": "proved",
   "theorems": [
    "Mirakc.Props.C89_record_service",
    "Mirakc.Props.C89_filter_program",
    "Mirakc.Props.C89_filter_service",
    "Mirakc.Props.C89_seek_start"
   ],
   "note": "Conditions: Conforming tables for the service filter (C25), valid PCRs, and for filter-program one constant PMT PID (C32 shows that it is needed) and times within 2535 years. Writes may fail."
  },
  {
   "property": "C90",
   "status": "proved",
   "theorems": [
    "Mirakc.Props.C90_packets",
    "Mirakc.Props.C90_fragmentation"
   ],
   "note": "Whole program (Model/Main.lean); the clock readings and the tables per packet are part of the world and kept fixed."
  },
  {
   "property": "C91",
   "status": "partial",
   "theorems": [
    "Mirakc.Props.C91_claim_false",
    "Mirakc.Props.C91_unreadable_partial"
   ],
   "note": "The claim is false: all commands except scan-services and sync-clocks end with 0 (C91_claim_false). Proved (for all commands and all results of the system calls): exact exit codes, and exactly which messages record-service writes, including the failure to position its file."
  },
  {
   "property": "C92",
   "status": "proved",
   "theorems": [
    "Mirakc.Props.C92_clock_options"
   ],
   "note": "Composition of C52, C53, C84 and C15; the conversion is within the bound of C15_within."
  },
  {
   "property": "C93",
   "status": "proved",
   "theorems": [
    "Mirakc.Props.C93_scan_services",
    "Mirakc.Props.C93_sync_clocks",
    "Mirakc.Props.C93_collect_eits",
    "Mirakc.Props.C93_collect_eitpf"
   ],
   "note": "One theorem per command."
  },
  {
   "property": "C94",
   "status": "proved",
   "theorems": [
    "Mirakc.Props.C94_track_airtime",
    "Mirakc.Props.C94_program_metadata"
   ],
   "note": "One theorem per command."
  },
  {
   "property": "C95",
   "status": "proved",
   "theorems": [
    "Mirakc.Props.C95_filter_service",
    "Mirakc.Props.C95_filter_program",
    "Mirakc.Props.C95_record_service",
    "Mirakc.Props.C95_seek_start"
   ],
   "note": "One theorem per command; no failing write for the commands that write to standard output."
  },
  {
   "property": "C96",
   "status": "partial",
   "theorems": [
    "Mirakc.Props.C96_both_flags",
    "Mirakc.Props.C96_claim_false",
    "Mirakc.Props.C96_no_abort_partial"
   ],
   "note": "The claim is false: collect-eits with both --only flags aborts on every input (C96_both_flags); further witnesses are those of C25, C32, C42, C51, C74, C78, C80 and C81. Proved for benign arguments and input (Spec.Main.Benign, one condition per command; none for scan-services, collect-logos, filter-program-metadata and track-airtime), with arbitrary read, write and file results. C113 gives the exact condition."
  },
  {
   "property": "C97",
   "status": "proved",
   "theorems": [
    "Mirakc.Props.C97_lines"
   ],
   "note": "The times shown with stamps are C60, which stamps are shown is C81, the text of the lines is C122."
  },
  {
   "property": "C98",
   "status": "proved",
   "theorems": [
    "Mirakc.Props.C98_watched"
   ],
   "note": "No hypothesis on the PIDs of PATs and PMTs; C82 is the simpler statement for regular streams."
  },
  {
   "property": "C99",
   "status": "proved",
   "theorems": [
    "Mirakc.Props.C99_print_pes",
    "Mirakc.Props.C99_collect_logos"
   ],
   "note": "One theorem per command."
  },
  {
   "property": "C100",
   "status": "proved",
   "theorems": [
    "Mirakc.Props.C100_collect_eits",
    "Mirakc.Props.C100_collect_eitpf"
   ],
   "note": "One theorem per command. Descriptors are shown as their bytes (C61)."
  },
  {
   "property": "C101",
   "status": "proved",
   "theorems": [
    "Mirakc.Props.C101_lines",
    "Mirakc.Props.C101_utf8"
   ],
   "note": "The reader is a separate JSON reader (Spec/Json.lean), which accepts white space, any escapes and surrogate pairs."
  },
  {
   "property": "C102",
   "status": "proved",
   "theorems": [
    "Mirakc.Props.C102_stdout"
   ],
   "note": "print-pes does not print JSON (C97, C99). What the documents say is C93, C94, C95, C99 and C100. Descriptors are what the libraries decode (Documents.Decoders)."
  },
  {
   "property": "C103",
   "status": "partial",
   "theorems": [
    "Mirakc.Props.C103_claim_false",
    "Mirakc.Props.C103_events_partial",
    "Mirakc.Props.C103_messages_partial"
   ],
   "note": "The claim is false: the extended texts are missing, and undefined times are numbers (C103_claim_false). Proved: exactly which events look the same."
  },
  {
   "property": "C104",
   "status": "partial",
   "theorems": [
    "Mirakc.Props.C104_claim_false",
    "Mirakc.Props.C104_types_partial"
   ],
   "note": "The claim is false: the last message has the type stop, not end (C104_claim_false). Proved: the types of all messages."
  },
  {
   "property": "C105",
   "status": "proved",
   "theorems": [
    "Mirakc.Props.C105_filter_service"
   ],
   "note": ""
  },
  {
   "property": "C106",
   "status": "proved",
   "theorems": [
    "Mirakc.Props.C106_print_pes"
   ],
   "note": ""
  },
  {
   "property": "C107",
   "status": "proved",
   "theorems": [
    "Mirakc.Props.C107_sync_clocks"
   ],
   "note": ""
  },
  {
   "property": "C108",
   "status": "proved",
   "theorems": [
    "Mirakc.Props.C108_written",
    "Mirakc.Props.C108_collect_eits"
   ],
   "note": ""
  },
  {
   "property": "C109",
   "status": "proved",
   "theorems": [
    "Mirakc.Props.C109_written",
    "Mirakc.Props.C109_collect_eitpf"
   ],
   "note": ""
  },
  {
   "property": "C110",
   "status": "proved",
   "theorems": [
    "Mirakc.Props.C110_any_tables",
    "Mirakc.Props.C110_seek_start",
    "Mirakc.Props.C110_connected"
   ],
   "note": "Exact for all options and streams: run fails iff some packet is Unseekable. The overflow of the signed product max_duration * kPcrTicksPerMs is undefined behaviour in C++ and a fault of its own in the model."
  },
  {
   "property": "C111",
   "status": "proved",
   "theorems": [
    "Mirakc.Props.C111_any_tables",
    "Mirakc.Props.C111_record_service"
   ],
   "note": "Exact: the command aborts iff some packet, before the end, is Unrecordable. Assumes packets of 188 bytes and permitted options."
  },
  {
   "property": "C112",
   "status": "proved",
   "theorems": [
    "Mirakc.Props.C112_any_tables",
    "Mirakc.Props.C112_filter_program",
    "Mirakc.Props.C112_connected",
    "Mirakc.Props.C112_any_sink"
   ],
   "note": "Exact: run fails iff some packet, before the end, is Unfilterable; includes 64-bit overflow of times. With pre-streaming, PMTs that place the PCR on the PID of the PAT are excluded (PcrNotOnPat), as in C26-C33. C112_any_sink covers sinks that refuse packets."
  },
  {
   "property": "C113",
   "status": "proved",
   "theorems": [
    "Mirakc.Props.C113_abnormal"
   ],
   "note": "Exact, composed from C105-C112 and the model of main. Representable asks for 64-bit sizes (record-service)."
  },
  {
   "property": "C114",
   "status": "partial",
   "theorems": [
    "Mirakc.Props.C114_items",
    "Mirakc.Props.C114_any",
    "Mirakc.Props.C114_claim_false",
    "Mirakc.Props.C114_safe_partial",
    "Mirakc.Props.C114_outside",
    "Mirakc.Props.C114_exact",
    "Mirakc.Props.C114_document"
   ],
   "note": "The round trip (C114_items, with C114_any: every list of entries is of that form) and the document are proved for all inputs, and C114_exact says for all descriptors which items result or that the function reads outside. The claim that no byte outside of a descriptor is read is false (length of the entries larger than the descriptor); proved for descriptors that have the bytes they announce, and C114_outside: two missing bytes always lead outside; with exactly one missing byte it does so unless the bytes are uncut entries (C114_exact). No command calls this function."
  },
  {
   "property": "C115",
   "status": "proved",
   "theorems": [
    "Mirakc.Props.C115_event_boundaries"
   ],
   "note": "Exact for every packet, for any tables. C75 is the claim a user would expect and its refutation."
  },
  {
   "property": "C116",
   "status": "proved",
   "theorems": [
    "Mirakc.Props.C116_stdout_exact"
   ],
   "note": "Exact for every sequence of results of write."
  },
  {
   "property": "C117",
   "status": "proved",
   "theorems": [
    "Mirakc.Props.C117_packet_rule"
   ],
   "note": "Exact for every packet. Hypothesis PatFree: with --pre-streaming, no packet of PID 0 carries the PCR of the service."
  },
  {
   "property": "C118",
   "status": "proved",
   "theorems": [
    "Mirakc.Props.C118_packet_rule"
   ],
   "note": "Exact for every packet, for any tables and positions of tables."
  },
  {
   "property": "C119",
   "status": "proved",
   "theorems": [
    "Mirakc.Props.C119_document"
   ],
   "note": "Exact; clockPid, Captured, ids and latestTot are functions of what was received (Spec/PcrSynchronizer.lean)."
  },
  {
   "property": "C120",
   "status": "proved",
   "theorems": [
    "Mirakc.Props.C120_resume"
   ],
   "note": "Any number of sessions. After each, offsets written since the last fsync may hold anything; other offsets are kept. Runs that end by an assertion are covered by their prefix (the packets before)."
  },
  {
   "property": "C121",
   "status": "proved",
   "theorems": [
    "Mirakc.Props.C121_event_data"
   ],
   "note": "Holds between any start record and any later end record; for the event itself take the first end record after its start record."
  },
  {
   "property": "C122",
   "status": "proved",
   "theorems": [
    "Mirakc.Props.C122_text",
    "Mirakc.Props.C122_distinct"
   ],
   "note": "The text of a time is made by TSDuck: any function to 23 characters (C122_text). C122_distinct: lines with the same text show the same. The help text leaves out the PID that the code prints for a PAT."
  },
  {
   "property": "C123",
   "status": "proved",
   "theorems": [
    "Mirakc.Props.C123_live"
   ],
   "note": "scan-services and sync-clocks write one document at the end, seek-start holds packets back until it has found the start or given up: they are excluded (live). The stop message of record-service ends every run (withoutStop)."
  },
  {
   "property": "C124",
   "status": "proved",
   "theorems": [
    "Mirakc.Props.C124_selection",
    "Mirakc.Props.C124_eitpf",
    "Mirakc.Props.C124_tags"
   ],
   "note": "Numbers: the values denote numbers from 0 to 65535. C124_selection: the set of services asked for by --sids and --xsids together; C124_eitpf: --sids; C124_tags: the tags of filter-program."
  },
  {
   "property": "C125",
   "status": "proved",
   "theorems": [
    "Mirakc.Props.C125_foreign"
   ],
   "note": "Stated for one packet; by repetition for all packets of other services. The tables completed by the remaining packets stay the same (without): the demultiplexer of TSDuck treats PIDs separately."
  },
  {
   "property": "C126",
   "status": "proved",
   "theorems": [
    "Mirakc.Props.C126_idempotent",
    "Mirakc.Props.C126_pipeline",
    "Mirakc.Props.C126_early_cat"
   ],
   "note": "C126_idempotent: filter-service twice. C126_pipeline: every command for the service behind filter-service. C126_early_cat: the condition on the CAT is needed. Again says which tables the packets of the output complete: the same as before, rewritten PATs instead of the original ones, repeated PATs reported or not."
  },
  {
   "property": "C127",
   "status": "partial",
   "theorems": [
    "Mirakc.Props.C127_idle_packets_partial",
    "Mirakc.Props.C127_first_packet"
   ],
   "note": "False as stated for collect-eits with a time limit of at most 0 and for collect-eitpf without --sids outside the streaming mode (which its help excludes): they may stop at the first packet (C127_first_packet). C127_idle_packets_partial: true in all other cases, and for these commands if some packet precedes."
  },
  {
   "property": "C128",
   "status": "proved",
   "theorems": [
    "Mirakc.Props.C128_later",
    "Mirakc.Props.C128_time_of_day"
   ],
   "note": "C128_later: whole program, all commands. C128_time_of_day: without the multiple of 24 hours the claim is false for collect-eits."
  },
  {
   "property": "C129",
   "status": "proved",
   "theorems": [
    "Mirakc.Props.C129_args",
    "Mirakc.Props.C129_refused",
    "Mirakc.Props.C129_help"
   ],
   "note": "C129_args, C129_refused, C129_help. C129_args is for a non-empty name of the file of record-service; for an empty one see C146."
  },
  {
   "property": "C130",
   "status": "proved",
   "theorems": [
    "Mirakc.Props.C130_reading",
    "Mirakc.Props.C130_switched",
    "Mirakc.Props.C130_record_service"
   ],
   "note": "C130_reading (any calls), C130_switched (after a change of the PCR PID, spelled out), C130_record_service (the times of record-service). The reading with several wrap-arounds is the one of C16_any_wraps."
  },
  {
   "property": "C131",
   "status": "proved",
   "theorems": [
    "Mirakc.Props.C131_filter_service",
    "Mirakc.Props.C131_filter_program",
    "Mirakc.Props.C131_record_service",
    "Mirakc.Props.C131_filter_service_received",
    "Mirakc.Props.C131_filter_program_received",
    "Mirakc.Props.C131_record_service_received",
    "Mirakc.Props.C131_seek_start_differs"
   ],
   "note": "C131_filter_service, C131_filter_program, C131_record_service (the tables received are those received before, with repetitions), and the same for two streams of the same packets that also contain tables nobody receives (\u2026_received). C131_seek_start_differs: seek-start is different, a repeated PAT changes the beginning of its output."
  },
  {
   "property": "C132",
   "status": "proved",
   "theorems": [
    "Mirakc.Props.C132_exit_code",
    "Mirakc.Props.C132_retry"
   ],
   "note": "C132_exit_code (all commands, no assumption on the input or the oracles), C132_retry (with --pre-streaming; Faithful is what TSDuck guarantees about the bytes of packets)."
  },
  {
   "property": "C133",
   "status": "proved",
   "theorems": [
    "Mirakc.Props.C133_pre_streaming"
   ],
   "note": "C133_pre_streaming (command level; Faithful is what TSDuck guarantees about the bytes of packets; no write fails). The converse fails: without the option the filter aborts if no PAT precedes the start (C112)."
  },
  {
   "property": "C134",
   "status": "proved",
   "theorems": [
    "Mirakc.Props.C134_scan_services",
    "Mirakc.Props.C134_collect_eitpf",
    "Mirakc.Props.C134_collect_eits"
   ],
   "note": "C134_scan_services, C134_collect_eitpf, C134_collect_eits (command level, two or three runs on the same input compared). --only-actual/--only-others are kept the same in the compared runs: the code keeps one progress for the tables 0x50-0x5F and 0x60-0x6F of a service. sync-clocks is not among them: with --sids it may end earlier or later (C79). For collect-eitpf without --streaming the run must end normally (C109 says when not)."
  },
  {
   "property": "C135",
   "status": "proved",
   "theorems": [
    "Mirakc.Props.C135_runs",
    "Mirakc.Props.C135_says",
    "Mirakc.Props.C135_refused",
    "Mirakc.Props.C135_help"
   ],
   "note": "C135_runs, C135_says, C135_refused, C135_help. Model of the usage: Verif/Model/Usage.lean. What docopt does with a usage is taken from its documentation (every name has an entry; repeated options are lists, absent ones empty lists); splitting the words of the command line and abbreviated options are left out. A command line may have its parts in any order, which includes more command lines than docopt accepts (a file name before the command)."
  },
  {
   "property": "C136",
   "status": "proved",
   "theorems": [
    "Mirakc.Props.C136_filter_program",
    "Mirakc.Props.C136_record_service",
    "Mirakc.Props.C136_scan_services"
   ],
   "note": "C136_filter_program, C136_record_service, C136_scan_services. The commands are compared on the same stream (the same packets, tables and times); that the demultiplexers behind the service filter find tables in what it passes on is an oracle, the same for both."
  },
  {
   "property": "C137",
   "status": "proved",
   "theorems": [
    "Mirakc.Props.C137_recorder",
    "Mirakc.Props.C137_record_service"
   ],
   "note": "C137_recorder, C137_record_service. Positions of chunk and event-update messages depend on the geometry by nature (C38, C39 say what they are) and are not compared. Times read from the machine are an oracle, the same for both runs."
  },
  {
   "property": "C138",
   "status": "proved",
   "theorems": [
    "Mirakc.Props.C138_later",
    "Mirakc.Props.C138_without"
   ],
   "note": "C138_later, C138_without. Runs that end with 222 may differ: with a later limit the filter goes on where the other stopped."
  },
  {
   "property": "C139",
   "status": "proved",
   "theorems": [
    "Mirakc.Props.C139_limits",
    "Mirakc.Props.C139_more_packets"
   ],
   "note": "C139_limits, C139_more_packets. A longer --max-duration has no such one-sided statement: PCRs are compared cyclically, and a PCR far away can be after the later limit and before the earlier one."
  },
  {
   "property": "C140",
   "status": "proved",
   "theorems": [
    "Mirakc.Props.C140_shorter"
   ],
   "note": "C140_shorter, with C140ex for a stream on which the limit decides."
  },
  {
   "property": "C141",
   "status": "proved",
   "theorems": [
    "Mirakc.Props.C141_metadata",
    "Mirakc.Props.C141_airtime"
   ],
   "note": "C141_metadata, C141_airtime."
  },
  {
   "property": "C142",
   "status": "partial",
   "theorems": [
    "Mirakc.Props.C142_end_margin_partial",
    "Mirakc.Props.C142_claim_false"
   ],
   "note": "C142_end_margin_partial, C142_claim_false. The bytes written with the smaller end margin are a prefix of those written with the larger one, for runs of main that both end regularly without failed writes. Partial: the PCR must not start over between the two ends and no PCR may be half a period behind the end (NoWrap); C142_claim_false shows that otherwise the larger margin may give less, because comparePcr does not treat the wrap (C14)."
  },
  {
   "property": "C143",
   "status": "partial",
   "theorems": [
    "Mirakc.Props.C143_margins_partial",
    "Mirakc.Props.C143_claim_false"
   ],
   "note": "C143_margins_partial. The output with the smaller margins is packets of PID 0 or of a PMT, at most one further packet (with which streaming starts), and then packet by packet a contiguous part of the output with the larger margins, except that packets of PMTs may be other packets of a PMT on the same PID (the cycle of the packetizer is at another place). Partial: NoWrap for both starts and both ends; C143_claim_false shows that without it the output with the smaller margins need not be of this form."
  },
  {
   "property": "C144",
   "status": "proved",
   "theorems": [
    "Mirakc.Props.C144_clock"
   ],
   "note": "C144_clock. Two pairs of --clock-pcr and --clock-time that describe the same clock (27000 ticks per millisecond, modulo 2^33*300) give the same Ended (exit code and bytes), and one run ends regularly exactly if the other does. Hypotheses: both PCRs are values a PCR can have; the times given and the times of the event with its margins are within 3000 years of 1970 (otherwise the 64-bit multiplication may overflow in one of the runs only)."
  },
  {
   "property": "C145",
   "status": "proved",
   "theorems": [
    "Mirakc.Props.C145_tags",
    "Mirakc.Props.C145_tags_end"
   ],
   "note": "C145_tags: the run without --audio-tags and --video-tags ends with the same exit code; both outputs are lists of 188-byte packets, and those that are not PMT packets of the filter are, in the run with tags, those of the other without some on PIDs that a valid PMT of the service gives to an excluded stream. C145_tags_end: unless the tags are refused, the run with tags ends regularly if the one without does. Writes do not fail."
  },
  {
   "property": "C146",
   "status": "proved",
   "theorems": [
    "Mirakc.Props.C146_stdout"
   ],
   "note": "C146_stdout: refusals are the same as with a file; if the run with a file ends with e, the run on the standard output ends with the same e if the start position is 0 and fewer than chunk-size bytes are written, and aborts (failed assertion) otherwise; a run on the standard output that ends normally is that of a file."
  },
  {
   "property": "C147",
   "status": "proved",
   "theorems": [
    "Mirakc.Props.C147_joined"
   ],
   "note": "C147_joined: two runs of filter-service on one broadcast whose tables do not change (Steady), the second starting at a later packet; once the first has the tables of the service, the later run writes the same for the common packets apart from packets missing before its own tables came and from the numbering of PAT packets; both end with 0."
  },
  {
   "property": "C148",
   "status": "proved",
   "theorems": [
    "Mirakc.Props.C148_rescan",
    "Mirakc.Props.C148_found"
   ],
   "note": "C148_rescan: if scan-services succeeds on two streams in which all PATs, SDTs and NITs say the same, it prints the same. C148_found: it succeeds whenever a PAT, an SDT and a NIT come on their PIDs in any order and the PATs leave the NIT on its usual PID."
  },
  {
   "property": "C149",
   "status": "proved",
   "theorems": [
    "Mirakc.Props.C149_metadata",
    "Mirakc.Props.C149_airtime",
    "Mirakc.Props.C149_metadata_handover",
    "Mirakc.Props.C149_airtime_handover"
   ],
   "note": "C149_metadata and C149_airtime: filter-program-metadata and track-airtime keep nothing between packets: the output for a stream is the output for its first packets followed by the output of a run started after them, if the demux delivers the same tables there; for track-airtime if the event has not ended in the first packets, else the output of the first packets only. C149_metadata_handover and C149_airtime_handover: if the demux of the second run also delivers tables that are repeated unchanged, as TSDuck's does, nothing is lost or out of order and nothing else is printed."
  },
  {
   "property": "C150",
   "status": "proved",
   "theorems": [
    "Mirakc.Props.C150_entered",
    "Mirakc.Props.C150_filter_program",
    "Mirakc.Props.C150_early",
    "Mirakc.Props.C150_ahead"
   ],
   "note": "C150_filter_program: the command, two processes started at different times, both before the programme: both end with 0 and write the same from there on, but for the counting of PAT packets; before it nothing but packets of the PAT. C150_entered: the same for two program filters fed with such packets, packet by packet, with the beginning and the end. Hypothesis: the PCR PID is the one given with the clock; generated PAT packets carry the payload unit start indicator (one packet, as the rewritten PAT has one service). That the programme has not begun and is known to both when the common part starts is said by Ahead, in terms of the runs of the two filters. C150_early, C150_ahead: that it has not begun follows from the PCRs of those packets: none has reached the beginning or the end of the event by the given clock."
  },
  {
   "property": "C151",
   "status": "proved",
   "theorems": [
    "Mirakc.Props.C151_recordings"
   ],
   "note": "C151_recordings: the data written by two recordings of the same steady broadcast, the second started later. How much is dropped before the recorder is ready is not said here (C40: everything is recorded once ready)."
  },
  {
   "property": "C152",
   "status": "proved",
   "theorems": [
    "Mirakc.Props.C152_metadata",
    "Mirakc.Props.C152_airtime",
    "Mirakc.Props.C152_early_eit"
   ],
   "note": "C152_metadata, C152_airtime: filter-service, then the command. C152_early_eit: a stream whose EIT comes before the PAT, for which filter-program-metadata prints the event but prints nothing behind filter-service: the condition is needed."
  },
  {
   "property": "C153",
   "status": "proved",
   "theorems": [
    "Mirakc.Props.C153_scan"
   ],
   "note": "C153_scan: filter-service, then scan-services. That it finds services behind filter-service is a hypothesis (a NIT that comes before the first PAT and never again is lost)."
  },
  {
   "property": "C154",
   "status": "proved",
   "theorems": [
    "Mirakc.Props.C154_collect_eits",
    "Mirakc.Props.C154_collect_eitpf"
   ],
   "note": "C154_collect_eits, C154_collect_eitpf: filter-service, then the command; the whole result is the same. collect-logos is not included (LibISDB decides which packets it uses)."
  },
  {
   "property": "C155",
   "status": "proved",
   "theorems": [
    "Mirakc.Props.C155_collect_eitpf"
   ],
   "note": "C155_collect_eitpf: the command with --streaming; the first packets, then the rest. Assumes that no section is spread over the handover (the new process would miss it)."
  },
  {
   "property": "C156",
   "status": "proved",
   "theorems": [
    "Mirakc.Props.C156_sync_clocks"
   ],
   "note": "C156_sync_clocks: filter-service, then sync-clocks. A PCR PID of 0 (that of the PAT) is left out of the claim about the PCR. The clock need not be the one printed for the whole stream, where sync-clocks waits for the other services."
  },
  {
   "property": "C157",
   "status": "partial",
   "theorems": [
    "Mirakc.Props.C157_collect_eits_partial",
    "Mirakc.Props.C157_claim_false"
   ],
   "note": "C157_collect_eits_partial: the stream, its first packets, and the rest. Partial: the schedules do not change after the handover (Unchanging: sections of a service agree on the last table, those of a table on the version, those of a number on the last section of the segment). C157_claim_false: if a version changes after the handover, the process that goes on may print a section that the new one takes for known, as the versions are kept by the place in the segment and not for each segment."
  },
  {
   "property": "C158",
   "status": "proved",
   "theorems": [
    "Mirakc.Props.C158_other_service",
    "Mirakc.Props.C158_filter_program",
    "Mirakc.Props.C158_record_service"
   ],
   "note": "C158_other_service: filter-service, then filter-service for another service. The condition on CAT and PMT is needed: a CAT received before the first PAT makes filter-service pass on EMM packets before any PAT."
  },
  {
   "property": "C159",
   "status": "proved",
   "theorems": [
    "Mirakc.Props.C159_seek_start",
    "Mirakc.Props.C159_other_service"
   ],
   "note": "C159_seek_start: the same service, no abnormal termination. C159_other_service: another service, always abnormal termination if there is output (a CAT, or a PMT of the service, is received only after a PAT)."
  }
 ]
}