{"id": "C01", "title": "Packet framing does not depend on how the input is read", "statement": "The sequence of TS packets obtained from a file, pipe or terminal is a function of the byte stream alone: however read() splits the bytes into chunks, the same packets come out in the same order.", "quantifier": "every byte stream and every way of splitting it into read() results of 1..16384 bytes followed by EOF or an error", "why_tests_cant": "There are exponentially many chunkings of every input; a test fixes one mock read schedule.", "anchors": ["src/packet_source.hh FileSource::GetNextPacket, FillBuffer, Resync", "src/file.hh File::Read"]}
{"id": "C02", "title": "Aligned input is passed through losslessly", "statement": "If the input is a concatenation of 188-byte packets each beginning with 0x47, followed by at most 187 trailing bytes, every packet is delivered exactly once, in order, and nothing else is delivered.", "quantifier": "every finite list of valid packets, every trailing fragment shorter than a packet, every read schedule", "why_tests_cant": "Holds for streams of every length, including those that cross the internal buffer boundary at every possible offset.", "anchors": ["src/packet_source.hh FileSource::GetNextPacket, FillBuffer"]}
{"id": "C03", "title": "Only genuine packets are delivered, with bounded loss on resync", "statement": "Every delivered packet is 188 bytes long, starts with 0x47 and is a contiguous slice of the input; slices do not overlap and keep input order; between two delivered packets fewer than 376 bytes are skipped; bytes are skipped only when the next expected sync byte is missing, and delivery resumes at the first offset followed by three more sync bytes at packet distance.", "quantifier": "every byte stream and every read schedule", "why_tests_cant": "Arbitrary corruption patterns cannot be enumerated.", "anchors": ["src/packet_source.hh FileSource::Resync, ValidateResync, kMaxDropBytes, kMaxResyncBytes"]}
{"id": "C04", "title": "Reading never leaves the buffer", "statement": "While packets are extracted no byte outside the filled part of the read buffer is accessed, the read() request always fits into the buffer, and none of the internal assertions fails; every call terminates.", "quantifier": "every byte stream and every read schedule", "why_tests_cant": "Memory safety is a statement about all inputs; a sanitised test run covers only the executed input.", "anchors": ["src/packet_source.hh FileSource::FillBuffer, GetNextPacket, Resync, kBufferSize"]}
{"id": "C05", "title": "Packet loop protocol", "statement": "The packet loop starts the sink once; if that fails it exits with EXIT_FAILURE and calls nothing else; otherwise packets are given to the sink in source order up to and including the first one it refuses, the sink is ended exactly once afterwards, and the exit code is the one reported by the sink after that.", "quantifier": "every packet source and every sink behaviour", "why_tests_cant": "Sinks may refuse at any packet; all histories are possible.", "anchors": ["src/packet_source.hh PacketSource::FeedPackets", "src/packet_sink.hh PacketSink"]}
{"id": "C06", "title": "Standard output is a faithful copy", "statement": "When no write fails, the bytes on standard output after the end of the stream are exactly the concatenation of the packets handed to the sink; at every earlier moment they are a prefix of it and the missing part is shorter than 16384 bytes.", "quantifier": "every packet sequence and every pattern of short writes", "why_tests_cant": "Short writes may happen at any byte count at any call.", "anchors": ["src/packet_sink.hh StdoutSink::HandlePacket, Flush, End"]}
{"id": "C07", "title": "A failed write to standard output stops the stream without corrupting it", "statement": "When a write fails the packet is refused, so the stream stops, and what has been written is still a prefix of the packet stream; the final flush does not write bytes twice.", "quantifier": "every packet sequence and every pattern of short writes and failures", "why_tests_cant": "The failure may hit after any partial write; tests do not exercise write errors.", "anchors": ["src/packet_sink.hh StdoutSink::Flush, End", "src/packet_source.hh PacketSource::FeedPackets"]}
{"id": "C08", "title": "Ring file holds the most recent data at the right place", "statement": "While no file operation fails, byte k of the recorded packet stream is stored at offset (start + k) mod ring size, so at every moment each offset of the ring file holds the most recently flushed stream byte that maps to it.", "quantifier": "every packet sequence, every chunk size and chunk count allowed, every chunk-aligned start position, any number of wrap-arounds", "why_tests_cant": "Needs arbitrarily many wrap-arounds and arbitrary sizes.", "anchors": ["src/ring_file_sink.hh RingFileSink::HandlePacket, FillBuffer, Flush, SetPosition"]}
{"id": "C09", "title": "Ring position bookkeeping", "statement": "The reported position is always (start position + 188 * number of packets) modulo the ring size as far as whole packets have been accepted, is always smaller than the ring size between packets, and the file offset equals the position minus the bytes still buffered.", "quantifier": "every packet sequence, every permitted chunk size, chunk count and start position", "why_tests_cant": "An invariant over unbounded histories.", "anchors": ["src/ring_file_sink.hh RingFileSink::HandlePacket, Flush, pos, SetPosition"]}
{"id": "C10", "title": "A chunk is announced only after it is durable, exactly once per chunk", "statement": "End-of-chunk notifications occur exactly when the stream reaches a multiple of the chunk size, carry that position (ring size instead of 0 at the wrap), and at that moment all bytes of the chunk have been written and fsync'ed, with no write between fsync and notification.", "quantifier": "every packet sequence, every permitted geometry, every crash point between two file operations", "why_tests_cant": "Crash points and unbounded histories.", "anchors": ["src/ring_file_sink.hh RingFileSink::Flush", "src/packet_sink.hh PacketRingObserver::OnEndOfChunk"]}
{"id": "C11", "title": "Ring file never grows beyond the ring size", "statement": "No write reaches beyond the ring size; whenever the stream wraps the file is truncated to exactly the ring size and writing continues at offset 0.", "quantifier": "every packet sequence and every permitted geometry", "why_tests_cant": "Unbounded histories and geometries up to 2^61 bytes.", "anchors": ["src/ring_file_sink.hh RingFileSink::Flush"]}
{"id": "C12", "title": "Ring file errors are reported", "statement": "If any write, fsync, truncate or seek fails, the packet being handled is refused, the sink reports itself broken and the process exit code is EXIT_FAILURE; if none fails the exit code is EXIT_SUCCESS and no packet is refused.", "quantifier": "every packet sequence and every pattern of results of the file operations", "why_tests_cant": "The failing operation may be any one of an unbounded number.", "anchors": ["src/ring_file_sink.hh RingFileSink::Flush, HandlePacket, GetExitCode, IsBroken"]}
{"id": "C13", "title": "Ring sink assertions never fail for accepted options", "statement": "For every combination of --chunk-size, --num-chunks and --start-pos accepted by the record-service command, construction, positioning and recording never hit an assertion.", "quantifier": "all option values accepted by the option parser and all packet sequences and file results", "why_tests_cant": "The option space is 2^60-ish and the histories unbounded.", "anchors": ["src/main.cc LoadOption(ServiceRecorderOption)", "src/ring_file_sink.hh RingFileSink::RingFileSink, SetPosition, Flush"]}
{"id": "C14", "title": "PCR comparison follows the cyclic order", "statement": "Comparing two valid PCRs that are less than half a wrap period apart gives the sign of their true distance, also across the wrap-around.", "quantifier": "all pairs of PCR values in [0, 2^33*300)", "why_tests_cant": "About 10^24 pairs, and the interesting ones sit at the wrap.", "anchors": ["src/tsduck_helper.hh ComparePcr", "src/program_filter.hh WaitReady, DoStreaming", "src/start_seeker.hh Seek"]}
{"id": "C15", "title": "Converting a time to a PCR", "statement": "The PCR computed for a wall-clock time relative to a clock baseline is a valid PCR, is congruent to baseline + 27000 * milliseconds modulo the wrap period, and the computation terminates for times before and after the baseline. It fails only by overflow of 64 bits, exactly when the distance in ticks, or its sum with the PCR of the baseline, does not fit; never within 3*10^14 ms (9500 years) of the baseline.", "quantifier": "all baselines and all times", "why_tests_cant": "All integers; negative offsets and multiple wraps.", "anchors": ["src/program_filter.hh ProgramFilter::ConvertTimeToPcr", "src/base.hh ClockBaseline::TimeToPcr"]}
{"id": "C16", "title": "The stream clock shows the right time", "statement": "After synchronisation with a TOT and a PCR, as long as PCRs advance in steps smaller than one second, the clock reads the TOT time plus the true elapsed PCR time rounded down to milliseconds, also across a wrap-around of the PCR.", "quantifier": "all TOT times, all PCR sequences with steps below one second", "why_tests_cant": "Sequences of any length including any number of wraps.", "anchors": ["src/base.hh Clock::Now, UpdatePcr, UpdateTime", "src/base.hh ClockBaseline"]}
{"id": "C17", "title": "Isolated PCR jumps do not disturb the clock", "statement": "Up to four consecutive PCRs that jump by a second or more leave the clock unchanged; the fifth invalidates it, after which it stays unready until both a new TOT and a new PCR have been seen.", "quantifier": "all clock states and all PCR/TOT sequences", "why_tests_cant": "All histories.", "anchors": ["src/base.hh Clock::UpdatePcr, Invalidate, kPcrGapCountThreshold"]}
{"id": "C18", "title": "UNIX/JST time conversion", "statement": "Conversion between UNIX milliseconds and JST is a bijection that shifts by exactly nine hours and preserves order and differences.", "quantifier": "all times", "why_tests_cant": "All integers.", "anchors": ["src/tsduck_helper.hh ConvertUnixTimeToJstTime, ConvertJstTimeToUnixTime"]}
{"id": "C19", "title": "PCR text form is unambiguous", "statement": "The printed form of a valid PCR is always ten digits, '+' and three digits, and distinct PCRs have distinct texts whose alphabetical order is the numerical order.", "quantifier": "all valid PCR values", "why_tests_cant": "2.6*10^12 values.", "anchors": ["src/tsduck_helper.hh FormatPcr"]}
{"id": "C20", "title": "filter-service forwards exactly the selected service", "statement": "A packet is forwarded exactly when its PID is one of the fixed SI PIDs (PAT, CAT, NIT, SDT, EIT, RST, TOT, BIT, CDT) or the service's PMT PID after the first usable PAT, an EMM PID of the latest valid CAT, or a PCR, ECM or elementary PID of the latest valid PMT of the service; before any of these tables arrives nothing is forwarded.", "quantifier": "every packet stream and every way tables complete during it", "why_tests_cant": "All table histories: PAT, CAT and PMT may change any number of times in any order.", "anchors": ["src/service_filter.hh ServiceFilter::HandlePacket, CheckFilterForDrop, HandlePat, HandleCat, HandlePmt"]}
{"id": "C21", "title": "filter-service keeps packets intact and in order", "statement": "The output is the input with packets dropped and PAT packets replaced one for one by packets of the rewritten PAT: no forwarded packet is modified, duplicated or reordered.", "quantifier": "every packet stream and table history", "why_tests_cant": "All streams.", "anchors": ["src/service_filter.hh ServiceFilter::HandlePacket"]}
{"id": "C22", "title": "filter-service rewrites the PAT to the selected service", "statement": "Every PAT packet in the output stems from the most recently received usable PAT restricted to the selected service and its PMT PID; all other fields of the PAT are kept.", "quantifier": "every packet stream and table history", "why_tests_cant": "All PAT contents and histories.", "anchors": ["src/service_filter.hh ServiceFilter::HandlePat"]}
{"id": "C23", "title": "filter-service fails when the service is missing", "statement": "When a usable PAT does not list the selected service, the packet completing it is not forwarded, the stream stops there, and the exit code is EXIT_FAILURE unless a downstream sink reports its own failure code; without such a PAT the filter adds no failure.", "quantifier": "every packet stream and table history", "why_tests_cant": "All histories.", "anchors": ["src/service_filter.hh ServiceFilter::HandlePat, GetExitCode, HandlePacket"]}
{"id": "C24", "title": "filter-service stops at the time limit", "statement": "With a time limit the stream stops at the first packet completing a valid TOT whose time is not before the limit, and never because of an earlier TOT; without a limit it is never stopped by a TOT.", "quantifier": "every packet stream and table history, all limits", "why_tests_cant": "All histories.", "anchors": ["src/service_filter.hh ServiceFilter::HandleTot, CheckTimeLimit"]}
{"id": "C25", "title": "filter-service never aborts on broadcast data", "statement": "No packet stream makes filter-service terminate abnormally (assertion or uncaught exception).", "quantifier": "every packet stream and table history, all options", "why_tests_cant": "Adversarial or merely unusual PMTs and sections are not in the test streams.", "anchors": ["src/service_filter.hh ServiceFilter::HandlePacket, CheckTimeLimit"]}
{"id": "C26", "title": "filter-program emits nothing before the programme starts", "statement": "Before the start of the programme is detected nothing is output, except PAT packets when pre-streaming is requested.", "quantifier": "every packet stream, table history and option set (with --pre-streaming: no packet of PID 0 has a PCR of the service)", "why_tests_cant": "All histories.", "anchors": ["src/program_filter.hh ProgramFilter::WaitReady"]}
{"id": "C27", "title": "filter-program output starts with PAT and PMT", "statement": "The output at the start packet is the packets of the latest PAT (unless pre-streamed), then one complete cycle of packets of the latest PMT of the service with excluded streams removed, then the PCR packet that triggered the start.", "quantifier": "every packet stream, table history and option set (with --pre-streaming: no packet of PID 0 has a PCR of the service) for which streaming starts", "why_tests_cant": "All histories.", "anchors": ["src/program_filter.hh ProgramFilter::WaitReady, DoStreaming"]}
{"id": "C28", "title": "filter-program streams the whole programme and stops at its end", "statement": "From the start packet on, every packet is output unmodified and in order, except that packets on the PMT PID are replaced one for one by packets of the rewritten PMT and packets of excluded elementary streams are dropped, until the first PCR at or after the end PCR (modulo the PCR period) while the clock is in sync, or an EIT of the service without events; that packet and everything after it is not output.", "quantifier": "every packet stream, table history and option set (with --pre-streaming: no packet of PID 0 has a PCR of the service)", "why_tests_cant": "All histories.", "anchors": ["src/program_filter.hh ProgramFilter::DoStreaming"]}
{"id": "C29", "title": "filter-program start and end points come from the EIT", "statement": "The start and end PCRs are the PCR images of event start minus start margin and event end plus end margin of the most recent usable EIT p/f section that lists the event; EITs of other services or broken EITs have no influence.", "quantifier": "every packet stream, table history and option set (with --pre-streaming: no packet of PID 0 has a PCR of the service)", "why_tests_cant": "All histories, all margins.", "anchors": ["src/program_filter.hh ProgramFilter::HandleEit, UpdateEventTime, UpdatePcrRange, ConvertTimeToPcr"]}
{"id": "C30", "title": "filter-program retry exit code", "statement": "Exit code 222 is reported exactly when the stream was stopped before streaming started because the event was found missing, cancelled or overdue; otherwise the sink's exit code is reported.", "quantifier": "every packet stream, table history and option set (with --pre-streaming: no packet of PID 0 has a PCR of the service)", "why_tests_cant": "All histories.", "anchors": ["src/program_filter.hh ProgramFilter::GetExitCode, HandlePacket, HandleEit, CheckTimeLimit"]}
{"id": "C31", "title": "filter-program stream selection by component tag", "statement": "With --video-tags/--audio-tags, the rewritten PMT lists exactly the streams of the original PMT that are not excluded by the tag lists, no packet of an excluded PID is output while that PMT is in force, and no packet of a listed PID is dropped.", "quantifier": "every PMT, every tag list, every packet stream", "why_tests_cant": "All PMTs and tag lists.", "anchors": ["src/program_filter.hh ProgramFilter::HandlePmt, DoStreaming", "src/tsduck_helper.hh CheckComponentTagByRange"]}
{"id": "C32", "title": "filter-program never aborts on broadcast data", "statement": "No packet stream makes filter-program terminate abnormally.", "quantifier": "every packet stream and table history, all options", "why_tests_cant": "Needs rare table timing, e.g. a PAT change shortly before the start.", "anchors": ["src/program_filter.hh ProgramFilter::WaitReady, DoStreaming, HandlePat, ConvertTimeToPcr"]}
{"id": "C33", "title": "filter-program waits for clock re-synchronisation", "statement": "After the PCR PID of the service changes, streaming neither starts nor stops on a PCR until both a PCR on the new PID and a new TOT have been seen.", "quantifier": "every packet stream and table history", "why_tests_cant": "All histories.", "anchors": ["src/program_filter.hh ProgramFilter::NeedClockSync, UpdateClockPcr, UpdateClockTime, HandlePmt"]}
{"id": "C34", "title": "seek-start loses nothing", "statement": "The output of seek-start is either the complete input, or the latest PAT packet before the transition followed by the complete input from the first packet of the PMT that announced the transition; order and content of packets are preserved.", "quantifier": "every packet stream, table history and limits, any end of stream", "why_tests_cant": "All histories, including end of stream while still seeking.", "anchors": ["src/start_seeker.hh StartSeeker::Seek, SendPackets, End"]}
{"id": "C35", "title": "seek-start looks back only within its limits", "statement": "At most --max-packets packets are ever held back, and once output has begun every further packet is passed on immediately.", "quantifier": "every packet stream, table history and limits", "why_tests_cant": "All histories.", "anchors": ["src/start_seeker.hh StartSeeker::Seek"]}
{"id": "C36", "title": "seek-start transition point", "statement": "Output starts at a transition exactly when, within the limits, a PMT of the service arrives whose video or audio PID set differs from a previously seen non-empty one.", "quantifier": "every packet stream, table history and limits", "why_tests_cant": "All histories.", "anchors": ["src/start_seeker.hh StartSeeker::HandlePmt"]}
{"id": "C37", "title": "record-service message order", "statement": "The messages form a well-formed sequence: start first; then chunk and event messages; event-start, event-update and event-end of one event are properly nested and belong to the same event; stop last and exactly once; nothing follows stop.", "quantifier": "every packet stream, table history, file result pattern and option set", "why_tests_cant": "All histories.", "anchors": ["src/service_recorder.hh ServiceRecorder::Start, End, OnRecording, OnPreparing, OnEndOfChunk"]}
{"id": "C38", "title": "record-service chunk messages", "statement": "Every chunk message carries a position that is a multiple of the chunk size and smaller than the ring size; between two chunk messages exactly one chunk of stream data was recorded and made durable.", "quantifier": "every packet stream, table history, geometry and start position", "why_tests_cant": "Unbounded histories.", "anchors": ["src/service_recorder.hh ServiceRecorder::OnEndOfChunk, OnPreparing, SendChunkMessage", "src/ring_file_sink.hh RingFileSink::Flush"]}
{"id": "C39", "title": "record-service events tile the recording", "statement": "The start record of every event is where the previous event ended (or where recording began), and event-update precedes the chunk message with the same time and position whenever an event is being recorded.", "quantifier": "every packet stream and table history", "why_tests_cant": "All histories.", "anchors": ["src/service_recorder.hh ServiceRecorder::OnRecording, OnEndOfChunk"]}
{"id": "C40", "title": "record-service records everything once ready", "statement": "No packet is stored before the clock is synchronised and a present event is known; from the packet after that on, every packet of the service stream is stored in the ring in order until the ring fails.", "quantifier": "every packet stream and table history", "why_tests_cant": "All histories.", "anchors": ["src/service_recorder.hh ServiceRecorder::OnPreparing, OnRecording, HandlePacket"]}
{"id": "C41", "title": "record-service reports reset on failure", "statement": "The stop message has reset=true exactly when the ring file is broken, and then the exit code is EXIT_FAILURE.", "quantifier": "every packet stream and file result pattern", "why_tests_cant": "The failing file operation may be any.", "anchors": ["src/service_recorder.hh ServiceRecorder::End, GetExitCode", "src/ring_file_sink.hh RingFileSink::IsBroken"]}
{"id": "C42", "title": "record-service never aborts on broadcast data", "statement": "No packet stream makes record-service terminate abnormally, given the upstream filter-service.", "quantifier": "every packet stream and table history", "why_tests_cant": "All histories.", "anchors": ["src/service_recorder.hh ServiceRecorder::OnPreparing, HandlePat", "src/base.hh Clock::UpdatePcr"]}
{"id": "C43", "title": "collect-eits emits only requested sections", "statement": "A section is emitted only if it is an EIT schedule section of the requested kind (actual/other), currently applicable, long enough, and of a service passing the inclusion and exclusion lists.", "quantifier": "all option sets and section histories", "why_tests_cant": "All section headers and histories.", "anchors": ["src/eit_collector.hh EitCollector::handleSection"]}
{"id": "C44", "title": "collect-eits misses no section", "statement": "The first accepted section for each service, table and section number is always emitted; a section is suppressed only if a section with the same service, table and section number was emitted before.", "quantifier": "all section histories", "why_tests_cant": "All histories.", "anchors": ["src/eit_collector.hh EitCollector::handleSection, UpdateProgress", "src/eit_collector.hh TableProgress::CheckCollected, Update"]}
{"id": "C45", "title": "collect-eits emits updated sections", "statement": "When a section arrives with a version different from the version last emitted for the same service, table and section number, it is emitted again.", "quantifier": "all section histories", "why_tests_cant": "All histories of versions over all 256 section numbers.", "anchors": ["src/eit_collector.hh TableProgress::CheckCollected, Update, section_versions_"]}
{"id": "C46", "title": "collect-eits does not repeat sections", "statement": "An unchanged section (same service, table, section number, version, last section and table numbers) is not emitted twice while nothing else changed for its service.", "quantifier": "all section histories", "why_tests_cant": "All interleavings of the sections of a segment.", "anchors": ["src/eit_collector.hh TableProgress::CheckCollected, Update"]}
{"id": "C47", "title": "collect-eits completes only when everything is there", "statement": "Without streaming, collection ends by completion only if for every service seen and every announced table every announced section has been emitted or lies in an already elapsed part of today's schedule.", "quantifier": "all section histories and clock readings", "why_tests_cant": "All histories.", "anchors": ["src/eit_collector.hh EitCollector::IsCompleted, CollectProgress::CheckCompleted, TableProgress::CheckCompleted, UpdateUnused"]}
{"id": "C48", "title": "collect-eits timeout", "statement": "Without streaming, collection stops by timeout exactly when the stream time has advanced by the timeout since the last progress; with streaming it stops neither by timeout nor by completion.", "quantifier": "all histories of sections and times", "why_tests_cant": "All histories.", "anchors": ["src/eit_collector.hh EitCollector::CheckTimeout, HandleTime, HandlePacket"]}
{"id": "C49", "title": "Service identity is unambiguous", "statement": "Progress of different services never interferes: sections of services with different (network, stream, service) ids are tracked independently.", "quantifier": "all id triples", "why_tests_cant": "2^48 triples.", "anchors": ["src/tsduck_helper.hh EitSection::service_triple", "src/eit_collector.hh CollectProgress"]}
{"id": "C50", "title": "collect-eitpf streaming reports every change once", "statement": "In streaming mode a present/following section is emitted exactly when it is the first of its service and kind or its version differs from the last one emitted for that service and kind.", "quantifier": "all section histories and option sets", "why_tests_cant": "All histories.", "anchors": ["src/eitpf_collector.hh EitPfCollector::handleSection, IsCollected"]}
{"id": "C51", "title": "collect-eitpf terminates when all requested services are collected", "statement": "Without streaming, collection ends when, and only when, the requested sections of every requested service have been emitted, and it never terminates abnormally.", "quantifier": "all section histories and option sets", "why_tests_cant": "All histories.", "anchors": ["src/eitpf_collector.hh EitPfCollector::Done, HandlePacket"]}
{"id": "C52", "title": "sync-clocks reports only observed clocks", "statement": "Every reported clock belongs to a selected audio/video service of the latest PAT, names the PCR PID of that service's PMT, and carries a PCR value that was carried by a packet on that PID after the TOT.", "quantifier": "every packet stream and table history", "why_tests_cant": "All histories.", "anchors": ["src/pcr_synchronizer.hh PcrSynchronizer::End, HandlePacket, HandlePmt"]}
{"id": "C53", "title": "sync-clocks pairs PCRs with the right time", "statement": "The reported time is that of the last TOT preceding the reported PCR value in the stream.", "quantifier": "every packet stream and table history", "why_tests_cant": "Requires a second TOT between the first and last captured PCR.", "anchors": ["src/pcr_synchronizer.hh PcrSynchronizer::HandleTime, HandlePacket"]}
{"id": "C54", "title": "sync-clocks tolerates repeated tables", "statement": "Repeated delivery of an SDT does not keep the command from finishing: once the PMTs of all selected services are known, the next TOT starts capturing.", "quantifier": "every packet stream and table history", "why_tests_cant": "Needs an SDT version update in the middle of the collection.", "anchors": ["src/pcr_synchronizer.hh PcrSynchronizer::HandleSdt, HandlePmt"]}
{"id": "C55", "title": "sync-clocks exit code", "statement": "The command succeeds and prints exactly one document if and only if all clocks were captured (or the PAT selects no service); otherwise it prints nothing and fails.", "quantifier": "every packet stream and table history", "why_tests_cant": "All histories.", "anchors": ["src/pcr_synchronizer.hh PcrSynchronizer::End, GetExitCode, HandlePacket"]}
{"id": "C56", "title": "scan-services lists exactly the selected services", "statement": "The output lists, in increasing id order, exactly the services that are in the PAT and in the SDT as audio/video services and pass the inclusion and exclusion lists, with the network id, stream id, type and names of the SDT and the remote control key of the NIT.", "quantifier": "all PAT, SDT, NIT contents and option sets and arrival orders", "why_tests_cant": "All table contents and interleavings.", "anchors": ["src/service_scanner.hh ServiceScanner::CollectServices, HandlePat, HandleSdt, HandleNit"]}
{"id": "C57", "title": "scan-services result does not depend on table order", "statement": "The command finishes exactly when a usable PAT and the corresponding SDT and NIT have been received, whatever their order and repetition; it succeeds and prints one document iff it finishes.", "quantifier": "all table histories", "why_tests_cant": "All interleavings.", "anchors": ["src/service_scanner.hh ServiceScanner::HandlePacket, End, GetExitCode"]}
{"id": "C58", "title": "track-airtime reports every change of the event", "statement": "An airtime record is emitted exactly for valid p/f EITs of the service that list the event as present or following event, carries its start time and duration, and tracking stops exactly when the event is no longer listed (or no event is listed).", "quantifier": "all table histories", "why_tests_cant": "All histories.", "anchors": ["src/airtime_tracker.hh AirtimeTracker"]}
{"id": "C59", "title": "filter-program-metadata reports every p/f EIT", "statement": "One record is emitted for each valid non-empty present/following EIT of the selected service (or of any service if none is selected), in order, and the stream never stops because of it.", "quantifier": "all table histories", "why_tests_cant": "All histories.", "anchors": ["src/program_metadata_filter.hh ProgramMetadataFilter"]}
{"id": "C60", "title": "print-pes timestamps", "statement": "The wall-clock time printed for a PCR, PTS or DTS is the TOT time plus the elapsed PCR time since the baseline, also when the PCR wraps around between two TOTs.", "quantifier": "all PCR sequences and TOT times", "why_tests_cant": "Wrap happens once in 26.5 hours.", "anchors": ["src/pes_printer.hh PesPrinter", "src/base.hh ClockBaseline::PcrToTime"]}
{"id": "C61", "title": "EIT event loop is decoded exactly", "statement": "For every well-formed EIT event loop the JSON events are exactly the encoded events in order: id, start time, duration (null when undefined), free CA mode and descriptor bytes.", "quantifier": "all well-formed event loops", "why_tests_cant": "All encodings.", "anchors": ["src/tsduck_helper.hh MakeEventsJsonValue"]}
{"id": "C62", "title": "EIT event loop decoding is memory safe", "statement": "Decoding the event loop of a received section never reads outside the section, whatever its content.", "quantifier": "all byte strings", "why_tests_cant": "All malformed sections.", "anchors": ["src/tsduck_helper.hh MakeEventsJsonValue"]}
{"id": "C63", "title": "Logo images are valid PNGs", "statement": "Given a broadcast logo PNG without palette, the emitted PNG is the same image with valid PLTE and tRNS chunks inserted directly after IHDR: chunk structure and checksums stay valid and all original bytes are preserved.", "quantifier": "all logo PNGs", "why_tests_cant": "All images.", "anchors": ["src/logo_collector.hh LogoCollector::InsertPngChunks, OnLogoDownloaded"]}
{"id": "C64", "title": "collect-logos skips transparent logos only", "statement": "One record is emitted for every downloaded logo larger than 93 bytes, in download order, carrying its type, id, version, network and service list unchanged; smaller logos are skipped.", "quantifier": "all sequences of downloaded logos", "why_tests_cant": "All sequences of logos.", "anchors": ["src/logo_collector.hh LogoCollector::OnLogoDownloaded, MakeJsonValue"]}
{"id": "C65", "title": "Component tag options", "statement": "Every accepted --video-tags/--audio-tags value denotes a number 0..255 and is stored unchanged; anything else is rejected before processing starts.", "quantifier": "all argument strings", "why_tests_cant": "All strings.", "anchors": ["src/main.cc LoadComponentTags"]}
{"id": "C66", "title": "Service id list options", "statement": "Every value given with --sids/--xsids selects exactly that service id; malformed or out-of-range values are ignored or rejected, never mapped to another service and never widen the selection.", "quantifier": "all argument strings", "why_tests_cant": "All strings.", "anchors": ["src/base.hh SidSet::Add", "src/main.cc LoadSidSet"]}
{"id": "C67", "title": "filter-service protects downstream filters", "statement": "Whatever the input, a sink behind filter-service only ever sees PATs that list the selected service, so the downstream assertion on the PAT never fails.", "quantifier": "every packet stream and table history", "why_tests_cant": "All histories.", "anchors": ["src/service_filter.hh ServiceFilter::HandlePat", "src/program_filter.hh HandlePat", "src/service_recorder.hh HandlePat", "src/start_seeker.hh HandlePat"]}
{"id": "C68", "title": "filter-service end to end", "statement": "For a byte stream on standard input, the bytes on standard output are the concatenation of the packets selected by the service filter from the framed input, whatever the read and write fragmentation.", "quantifier": "all byte streams, read and write schedules, table histories", "why_tests_cant": "Composition over all schedules.", "anchors": ["src/main.cc MakePacketSink", "src/packet_source.hh FileSource", "src/service_filter.hh ServiceFilter", "src/packet_sink.hh StdoutSink"]}
{"id": "C69", "title": "Pipeline exit codes", "statement": "The exit code of the filter pipelines is the innermost non-zero one: a retry code or failure of the inner filter wins over a missing-service failure of the outer one; success is reported only if neither failed.", "quantifier": "every packet stream and table history", "why_tests_cant": "All histories.", "anchors": ["src/service_filter.hh GetExitCode", "src/program_filter.hh GetExitCode", "src/main.cc main"]}
{"id": "C70", "title": "filter-program pairs TOT and PCR correctly after a PCR PID change", "statement": "When the PCR PID has changed, the TOT received next is paired with a PCR next to it (the last one before it or the first one after it), and the programme starts with the first PCR in the range computed from that pair.", "quantifier": "every packet stream, table history and option set", "why_tests_cant": "The order of PMT, TOT, EIT and PCR packets is arbitrary.", "anchors": ["src/program_filter.hh WaitReady, UpdateClockPcr, UpdateClockTime, HandlePmt"]}
{"id": "C71", "title": "filter-program can join a programme across a PCR wrap-around", "statement": "The programme starts with the first packet carrying a PCR at or after the start PCR and before the end PCR, PCRs compared modulo their period.", "quantifier": "every packet stream, table history and option set", "why_tests_cant": "The wrap-around may be anywhere relative to start, end and the first packet received.", "anchors": ["src/program_filter.hh WaitReady", "src/base.hh ComparePcr"]}
{"id": "C72", "title": "seek-start stops when its output is refused", "statement": "After the connected sink has refused a packet, it receives no further packet.", "quantifier": "every packet stream, table history, limits and sink behaviour", "why_tests_cant": "The refusal may come at any packet, in particular among those held back.", "anchors": ["src/start_seeker.hh StartSeeker::Seek, SendPacket, SendPackets, End"]}
{"id": "C73", "title": "seek-start with only --max-packets", "statement": "If only --max-packets is given, packets are held back until there is a transition or that many packets have been received.", "quantifier": "every packet stream and table history", "why_tests_cant": "All histories, any number of PCRs.", "anchors": ["src/start_seeker.hh StartSeeker::Seek", "src/main.cc LoadOption(StartSeekerOption)"]}
{"id": "C74", "title": "seek-start does not abort", "statement": "No packet stream makes seek-start fail an assertion or access a packet outside the buffer of packets held back.", "quantifier": "every packet stream, table history and limits", "why_tests_cant": "All histories.", "anchors": ["src/start_seeker.hh StartSeeker::Seek, HandlePat", "src/base.hh ComparePcr"]}
{"id": "C75", "title": "record-service records the event being broadcast", "statement": "Once recording has begun, after every packet the present event according to the latest EIT is open (started and not ended), unless it is over; an event that is over is not open.", "quantifier": "every packet stream, table history and file result pattern", "why_tests_cant": "Depends on the order in which EITs, PCRs and TOTs arrive; events may be extended or replaced at any time.", "anchors": ["src/service_recorder.hh ServiceRecorder::OnRecording, OnPreparing, UpdateEit"]}
{"id": "C76", "title": "record-service messages carry current data", "statement": "Chunk and event-update messages carry the stream time; event-start and event-update carry the present event of the latest EIT; an event-end of an event that is over carries its end time, an event-end of a replaced event carries the stream time and the replaced event.", "quantifier": "every packet stream, table history and file result pattern", "why_tests_cant": "All histories.", "anchors": ["src/service_recorder.hh ServiceRecorder::SendEventMessage, SendChunkMessage, OnRecording, OnEndOfChunk"]}
{"id": "C77", "title": "collect-eits ends once everything is there", "statement": "Without streaming, collection ends with the packet after which, for every service seen, every announced section has been emitted or lies in an already elapsed part of today's schedule.", "quantifier": "all section histories and clock readings", "why_tests_cant": "All histories; the interplay of clock and sections.", "anchors": ["src/eit_collector.hh CollectProgress::Update, UpdateUnused, CheckCompleted", "src/eit_collector.hh EitCollector::IsCompleted, HandleTime"]}
{"id": "C78", "title": "collect-eits never aborts", "statement": "For every stream of packets, sections and tables, collect-eits ends without abnormal termination and with exit code 0, provided one of actual and others is to be collected.", "quantifier": "all option sets and packet streams", "why_tests_cant": "All malformed sections and histories.", "anchors": ["src/eit_collector.hh EitCollector", "src/tsduck_helper.hh EitSection"]}
{"id": "C79", "title": "sync-clocks reports all clocks", "statement": "On success, the output contains every selected service of the PAT that the SDT lists as an audio/video service and that has a clock (unless the PAT selects no service).", "quantifier": "every packet stream and table history", "why_tests_cant": "All histories; table updates in the middle of the collection.", "anchors": ["src/pcr_synchronizer.hh PcrSynchronizer::HandleSdt, HandlePmt, HandlePacket, End"]}
{"id": "C80", "title": "sync-clocks never aborts", "statement": "For every stream of packets and tables, sync-clocks ends without abnormal termination.", "quantifier": "all option sets and packet streams", "why_tests_cant": "All malformed streams.", "anchors": ["src/pcr_synchronizer.hh PcrSynchronizer::HandlePacket", "src/tsduck_helper.hh FormatPcr"]}
{"id": "C81", "title": "print-pes shows every time stamp", "statement": "print-pes never aborts, ends with exit code 0 and prints, in order, exactly one line with a stamp for every PCR of a known clock, every PTS and every DTS, with the value in units of the PCR.", "quantifier": "every packet stream and table history", "why_tests_cant": "All histories and stamp values.", "anchors": ["src/pes_printer.hh PesPrinter::HandlePacket, Print", "src/tsduck_helper.hh FormatPcr"]}
{"id": "C82", "title": "print-pes follows the services of the PAT", "statement": "print-pes looks at the PAT, CAT, EIT and TOT and at the PMTs of the latest PAT, and at no other tables; it ends with the first packet after which the latest PAT lists no services, otherwise with the input.", "quantifier": "every packet stream and table history", "why_tests_cant": "All histories of PAT changes.", "anchors": ["src/pes_printer.hh PesPrinter::HandlePat, ResetStates"]}
{"id": "C83", "title": "record-service option checks", "statement": "With any numbers as --chunk-size, --num-chunks and --start-pos, record-service either uses exactly the values given, and its set-up fails no assertion, or ends before the file is opened; it does the latter exactly if the values do not describe a ring of chunks and a chunk boundary in it.", "quantifier": "all argument values of 64 bits", "why_tests_cant": "All combinations of values, including negative ones.", "anchors": ["src/main.cc LoadOption(ServiceRecorderOption)", "src/ring_file_sink.hh RingFileSink::RingFileSink, SetPosition"]}
{"id": "C84", "title": "Numbers given as ids are used as given", "statement": "A number given as service id, event id or PID is used as given or rejected; times, margins and tags of filter-program are taken over unchanged.", "quantifier": "all argument values", "why_tests_cant": "All values, including those outside 16 bits.", "anchors": ["src/main.cc LoadOption"]}
{"id": "C85", "title": "seek-start limits", "statement": "seek-start runs exactly if a positive limit is given, and then uses the limits as given; otherwise it prints its help and fails.", "quantifier": "all argument values", "why_tests_cant": "All values, including negative ones and those outside 32 bits.", "anchors": ["src/main.cc LoadOption(StartSeekerOption)", "src/start_seeker.hh StartSeekerOption"]}
{"id": "C86", "title": "filter-program end to end", "statement": "For a byte stream on standard input, the bytes on standard output are the packets selected by the program filter from those the service filter selects from the packets of the stream, 188 bytes each and in order, whatever the read and write fragmentation; the service filter reads the whole stream unless the program filter refuses a packet.", "quantifier": "all byte streams, read and write schedules without failures, table histories, options", "why_tests_cant": "Composition over all schedules and histories.", "anchors": ["src/main.cc main", "src/service_filter.hh ServiceFilter", "src/program_filter.hh ProgramFilter", "src/packet_sink.hh StdoutSink"]}
{"id": "C87", "title": "record-service end to end", "statement": "For a byte stream on standard input, the file operations and messages are those of the recorder on exactly the packets the service filter selects from the stream; the whole stream is used unless a file operation failed; the exit code is 1 if a file operation failed or a PAT received lacks the service, and 0 otherwise.", "quantifier": "all byte streams, read schedules, results of file operations, table histories, permitted options", "why_tests_cant": "Composition over all schedules and histories.", "anchors": ["src/main.cc main", "src/service_filter.hh ServiceFilter", "src/service_recorder.hh ServiceRecorder", "src/ring_file_sink.hh RingFileSink"]}
{"id": "C88", "title": "seek-start end to end", "statement": "For a byte stream on standard input, seek-start writes either all packets of the stream, or one PAT packet of the stream followed by all packets from a later position on, whatever the read and write fragmentation; its exit code is 0.", "quantifier": "all byte streams, read and write schedules without failures, table histories", "why_tests_cant": "Composition over all schedules and histories.", "anchors": ["src/main.cc main", "src/start_seeker.hh StartSeeker", "src/packet_sink.hh StdoutSink"]}
{"id": "C89", "title": "Connected commands do not terminate abnormally", "statement": "On a stream with PCRs in range and tables that name no reserved PIDs, record-service and filter-program do not terminate abnormally, whatever the fragmentation and whatever fails; for filter-program the PMT stays on one PID.", "quantifier": "all byte streams and table histories that meet the conditions", "why_tests_cant": "All histories of both filters.", "anchors": ["src/service_filter.hh ServiceFilter", "src/service_recorder.hh ServiceRecorder", "src/program_filter.hh ProgramFilter"]}
{"id": "C90", "title": "Commands depend on the input bytes only", "statement": "What a command does (exit code, standard output, file operations, abnormal termination) depends on its input only through the packets in it: not on how the bytes are split over read calls, and a read error is the same as the end of the input.", "quantifier": "all commands, byte streams, read schedules", "why_tests_cant": "All commands and schedules.", "anchors": ["src/main.cc main", "src/packet_source.hh FileSource", "src/main.cc PosixFile"]}
{"id": "C91", "title": "Unreadable input is reported by the exit code", "statement": "If the input file cannot be opened, the command ends with a non-zero exit code and writes nothing to standard output.", "quantifier": "all commands and options", "why_tests_cant": "All option values.", "anchors": ["src/main.cc main", "src/main.cc PosixFile", "src/packet_source.hh FileSource"]}
{"id": "C92", "title": "Clocks of sync-clocks fit filter-program", "statement": "A clock printed by sync-clocks can be passed to filter-program as --clock-pid, --clock-pcr and --clock-time: it is taken unchanged, its PCR is a PCR of the stream in the range of PCRs, its time is that of a TOT of the stream, and every time within 3*10^14 ms (9500 years) of it can be converted to a PCR with it.", "quantifier": "all byte streams, read schedules, table histories, options", "why_tests_cant": "Two commands composed over all streams.", "anchors": ["src/main.cc LoadOption", "src/pcr_synchronizer.hh PcrSynchronizer", "src/program_filter.hh ConvertTimeToPcr"]}
{"id": "C93", "title": "--sids and --xsids mean what they say", "statement": "If the values of --sids and --xsids are decimal numbers below 65536, scan-services prints exactly the services selected by them, and sync-clocks, collect-eits and collect-eitpf print only documents of services selected by them; --only-actual, --only-others, --present and --following restrict the kind of sections shown likewise.", "quantifier": "all byte streams, read schedules, table and section histories, option strings", "why_tests_cant": "All option strings and histories.", "anchors": ["src/main.cc LoadSidSet", "src/base.hh SidSet", "src/main.cc LoadOption", "src/main.cc MakePacketSink"]}
{"id": "C94", "title": "track-airtime and filter-program-metadata end to end", "statement": "track-airtime prints the airtime of the event with the id given for every present/following EIT of the service with the id given that lists it, up to the packet with the first EIT that does not; filter-program-metadata prints all events of every non-empty present/following EIT of the service (of all services without --sid), to the end of the stream; the exit code is 0.", "quantifier": "all byte streams, read schedules, table histories, ids below 65536", "why_tests_cant": "All histories.", "anchors": ["src/main.cc LoadOption", "src/airtime_tracker.hh AirtimeTracker", "src/program_metadata_filter.hh ProgramMetadataFilter"]}
{"id": "C95", "title": "Packet-passing commands from the command line", "statement": "filter-service, filter-program, record-service and seek-start, called with ids in range, use the values given: what they write to standard output or to the file, the messages of record-service and the exit code are those of the filters and the recorder with those options on the packets of the input; arguments the ring file does not permit are refused before anything is read.", "quantifier": "all byte streams, read and write schedules, table histories, argument values", "why_tests_cant": "All histories and argument values.", "anchors": ["src/main.cc main", "src/main.cc MakePacketSink", "src/main.cc LoadOption"]}
{"id": "C96", "title": "No command terminates abnormally", "statement": "Whatever its arguments and its input, and whether reads and writes fail or not, a command either ends with an exit code or refuses its arguments, and the refusal does not depend on the input.", "quantifier": "all commands, arguments, byte streams, table histories, read, write and file results", "why_tests_cant": "All inputs of all commands.", "anchors": ["src/main.cc main", "src/packet_sink.hh StdoutSink", "src/eit_collector.hh EitCollector"]}
{"id": "C97", "title": "The lines of print-pes for tables and streams", "statement": "With every packet print-pes prints the lines with the packet's stamps and then, for every table looked at and in their order, what is in it: the services of a PAT, the streams of a PMT with what they are, the events of an EIT if its service is in the latest PAT, the time of a TOT; a line with a PTS or DTS names what the stream is by the latest PMT with the stream.", "quantifier": "all packet and table histories", "why_tests_cant": "All histories.", "anchors": ["src/pes_printer.hh HandlePat", "src/pes_printer.hh HandlePmt", "src/pes_printer.hh HandleEit", "src/pes_printer.hh HandleTot", "src/tsduck_helper.hh IsAribSubtitle"]}
{"id": "C98", "title": "Which tables print-pes looks at", "statement": "print-pes looks at exactly the tables on the PIDs of the PMTs of the latest PAT (none if that came on another PID than 0) and at those on the PIDs of PAT, CAT, EIT and TOT as long as these were not listed as PIDs of PMTs; it stops with the packet after which the latest PAT looked at is on PID 0 and lists no services, otherwise with the end of the input.", "quantifier": "all packet and table histories, including PATs on other PIDs and PMTs on PIDs of other tables", "why_tests_cant": "All histories.", "anchors": ["src/pes_printer.hh HandlePat", "src/pes_printer.hh ResetStates", "src/pes_printer.hh HandlePacket"]}
{"id": "C99", "title": "print-pes and collect-logos from the command line", "statement": "print-pes ends with 0 and prints, packet by packet, the stamps and the tables looked at; collect-logos ends with 0 and prints one document for every logo that is not transparent, in the order received, up to the packet that ends the collection.", "quantifier": "all byte streams, read schedules, table and logo histories", "why_tests_cant": "All histories.", "anchors": ["src/main.cc main", "src/main.cc MakePacketSink", "src/pes_printer.hh PesPrinter", "src/logo_collector.hh LogoCollector"]}
{"id": "C100", "title": "collect-eits and collect-eitpf from the command line", "statement": "If --sids and --xsids are given numbers, collect-eits prints, one document each and in order, exactly the EIT sections its collector (C43 to C49) takes from the stream with the selection of services the values name, with the time limit given (30 s if none), streaming only with --streaming, leaving out the own stream only with --only-others and the other streams only with --only-actual. Likewise collect-eitpf for its collector (C50, C51), --streaming, --present and --following. Each document shows the ids, numbers and version of its section and its events, decoded, in order; nothing goes to the standard output besides.", "quantifier": "all option values naming services by numbers, all streams, all fragmentations into reads", "why_tests_cant": "Unit tests construct the collectors with options directly and look at chosen sections; the path from argument values through the collector to the documents printed for a whole stream is not exercised.", "anchors": ["src/main.cc LoadOption", "src/main.cc MakePacketSink", "src/eit_collector.hh WriteEitSection", "src/eitpf_collector.hh HandleSection", "src/tsduck_helper.hh MakeJsonValue"]}
{"id": "C101", "title": "JSON output is one readable document per line", "statement": "A consumer that splits the output of a command printing JSON into lines and reads every line as a JSON text (RFC 8259) gets exactly the documents written, in order, whatever bytes their strings and names contain (line ends, quotes, escapes, control characters). If all strings are UTF-8, so is the output.", "quantifier": "all lists of documents of any size and depth, all strings", "why_tests_cant": "Titles and texts come from the air and may contain any characters; the tests compare the output for a few strings only.", "anchors": ["src/jsonl_sink.hh StdoutJsonlSink", "src/jsonl_source.hh FeedDocument"]}
{"id": "C102", "title": "what is on the standard output", "statement": "filter-service, filter-program and seek-start print packets only. Every other command but print-pes prints only lines, each of which can be read as a JSON document; the documents show, in the members described in the help texts (with the names, nesting, null values and optional members given there), exactly what was found: ids, times in Unix milliseconds, events with their valid descriptors and extended texts. No object has two members of the same name.", "quantifier": "all commands except print-pes, all argument values, all streams, all contents of descriptors", "why_tests_cant": "Tests compare chosen documents; a member missing, misspelt or doubled for other inputs, or text mixed with packets, is not excluded.", "anchors": ["src/main.cc MakePacketSink", "src/tsduck_helper.hh MakeJsonValue", "src/tsduck_helper.hh MakeEventsJsonValue", "src/service_recorder.hh SendEventMessage", "src/program_metadata_filter.hh WriteEvents", "src/service_scanner.hh CollectServices", "src/pcr_synchronizer.hh End"]}
{"id": "C103", "title": "events have the same format in all commands", "statement": "The help texts say that the events printed by filter-program-metadata and record-service have the same format as those of collect-eits: for the same event, the same JSON.", "quantifier": "all events, all contents of descriptors", "why_tests_cant": "The two formats come from two different implementations (hand-written decoding with LibISDB, and TSDuck tables); tests check each by itself.", "anchors": ["src/program_metadata_filter.hh WriteEvents", "src/service_recorder.hh SendEventMessage", "src/tsduck_helper.hh MakeJsonValue", "src/tsduck_helper.hh MakeEventsJsonValue", "src/main.cc kFilterProgramMetadataHelp"]}
{"id": "C104", "title": "message types of record-service", "statement": "Every message of record-service has the type its help text gives: start, end, chunk, event-start, event-update, event-end.", "quantifier": "all messages", "why_tests_cant": "The tests check the messages of the code, not the documentation that consumers are written against.", "anchors": ["src/service_recorder.hh SendStopMessage", "src/main.cc kRecordServiceHelp"]}
{"id": "C105", "title": "exactly which streams make filter-service terminate abnormally", "statement": "filter-service terminates abnormally exactly at the first packet, before its end, that meets one of three conditions: there is no time limit and the packet completes a valid TOT that is looked at; or the filter goes on and the packet, a null packet, is to be forwarded; or the filter goes on and the packet, on the PID of the PAT, is to be forwarded though no usable PAT was received. Which tables are looked at is determined by the stream alone: those of the PID of the PMT in the latest PAT with the service, those of PAT, CAT and (with a time limit) TOT unless a PAT ever placed the PMT there, and those of the null PID once a PAT placed the PMT there.", "quantifier": "all services, limits, and streams, including malformed and contradictory tables", "why_tests_cant": "Asserts are conditions on the whole history of tables; tests exercise regular streams, and cannot show that no further stream aborts.", "anchors": ["src/service_filter.hh HandlePacket", "src/service_filter.hh HandlePat", "src/service_filter.hh HandleCat", "src/service_filter.hh HandlePmt", "src/service_filter.hh HandleTot", "src/service_filter.hh CheckTimeLimit"]}
{"id": "C106", "title": "exactly which streams make print-pes terminate abnormally", "statement": "print-pes terminates abnormally exactly at the first packet, before its end, whose PCR is out of range though an earlier PMT named its PID as the PID of a clock, or whose PTS or DTS is out of range. All other streams, whatever tables they contain, are printed to the end.", "quantifier": "all streams, including malformed and contradictory tables", "why_tests_cant": "Asserts are conditions on the whole history of tables; tests exercise regular streams, and cannot show that no further stream aborts.", "anchors": ["src/pes_printer.hh HandlePacket", "src/pes_printer.hh Print", "src/pes_printer.hh HandlePmt", "src/base.hh FormatPcr"]}
{"id": "C107", "title": "exactly which streams make sync-clocks terminate abnormally", "statement": "sync-clocks terminates abnormally exactly at the first packet, before its end, whose PCR is out of range and which is the first one to be captured for a clock after a TOT, while services are selected. All other streams, whatever tables they contain, are processed to the end. Which tables are looked at is determined by the stream alone, also if PMTs share PIDs with each other or with other tables, or tables are repeated.", "quantifier": "all selections of services, and all streams, including malformed and contradictory tables", "why_tests_cant": "Asserts are conditions on the whole history of tables; tests exercise regular streams, and cannot show that no further stream aborts.", "anchors": ["src/pcr_synchronizer.hh HandlePacket", "src/pcr_synchronizer.hh HandlePat", "src/pcr_synchronizer.hh HandleSdt", "src/pcr_synchronizer.hh HandlePmt", "src/pcr_synchronizer.hh HandleTot", "src/pcr_synchronizer.hh ResetStates"]}
{"id": "C108", "title": "exactly what collect-eits writes, and exactly which streams make it terminate abnormally", "statement": "The sections written by collect-eits are determined by the stream: going through the sections completed by packets with the PIDs of EIT and TOT, each section that the options ask for and that is not taken for a repetition is written, and no other. collect-eits terminates abnormally at once if neither kind of sections is to be collected, and otherwise exactly at the first packet, before its end, with a section that is to be written when its turn comes but has a malformed event loop. All other streams are processed to the end.", "quantifier": "all options and all streams, including malformed sections", "why_tests_cant": "Whether a section is written depends on the whole history of sections, versions and announcements; tests cover a few sequences and cannot show that no further stream aborts.", "anchors": ["src/eit_collector.hh EitCollector::handleSection", "src/eit_collector.hh CollectProgress", "src/eit_collector.hh WriteEitSection", "src/tsduck_helper.hh MakeEventsJsonValue"]}
{"id": "C109", "title": "exactly what collect-eitpf writes, when it ends, and exactly which streams make it terminate abnormally", "statement": "The sections written by collect-eitpf are determined by the stream: going through the sections completed by packets with the PID of the EIT, each section that the options ask for is written if its version is not the one last written for its service, and no other. Without streaming, collecting ends after a packet exactly if the number of services with the sections asked for is the number of ids given, and (if both kinds are asked for) each service's versions agree. It terminates abnormally exactly at the first packet, before its end, with a section to be written whose event loop is malformed, or after which the numbers are right but some service has no following section and no service before it (by network, stream and service) has different versions.", "quantifier": "all options and all streams, including services of different streams with the same id", "why_tests_cant": "The condition is about the set of services seen so far and about the order of map iteration; tests use one stream with one service of each id.", "anchors": ["src/eitpf_collector.hh EitpfCollector::handleSection", "src/eitpf_collector.hh Done", "src/eitpf_collector.hh IsCollected", "src/tsduck_helper.hh MakeEventsJsonValue"]}
{"id": "C110", "title": "exactly which streams make seek-start terminate abnormally", "statement": "seek-start terminates abnormally exactly at the first packet that meets one of four conditions: a PAT without the service is looked at; or the start has not been found, the packet brings the transition to the program, and the latest PAT is said to begin at a packet that has not been received; or the start has not been found, the packet brings neither the transition nor the maximum number of packets, and it has a PCR of the service which is not the first one and is out of range; or the same with the first PCR of the service, if the maximum duration in ticks of the PCR does not fit into 64 bits. Which tables are looked at is determined by the stream alone: before the start was found, those on the PID of the PMT in the latest PAT, those of the PAT unless a PAT placed the PMT there, and those of the null PID once a PAT placed the PMT there.", "quantifier": "all services, limits and streams, including malformed and contradictory tables", "why_tests_cant": "Asserts are conditions on the whole history of tables; tests exercise regular streams, and cannot show that no further stream aborts.", "anchors": ["src/start_seeker.hh StartSeeker::HandlePacket", "src/start_seeker.hh StartSeeker::Seek", "src/start_seeker.hh HandlePat", "src/start_seeker.hh HandlePmt", "src/base.hh ComparePcr"]}
{"id": "C111", "title": "exactly which streams make record-service terminate abnormally", "statement": "record-service, started with permitted options, terminates abnormally exactly at the first packet, before it ends for another reason, that meets one of two conditions: it has a PCR of the service (a PCR on the PCR PID of the latest PMT of the service, other than the null PID) that is out of range (not below 2^33*300); or a PAT without the service is looked at. Which tables are looked at is determined by the stream alone: those on the PID of the PMT in the latest PAT, those of PAT, EIT and TOT unless a PAT placed the PMT there, and those of the null PID once a PAT placed the PMT there. Neither the source nor the results of the file operations matter.", "quantifier": "all permitted options, streams of 188-byte packets including malformed and contradictory tables, and file results", "why_tests_cant": "Asserts in the recorder, the clock and the ring buffer depend on the whole history; tests exercise regular streams and cannot show that no other stream or file error aborts.", "anchors": ["src/service_recorder.hh ServiceRecorder::HandlePacket", "src/service_recorder.hh HandlePat", "src/base.hh Clock::UpdatePcr", "src/ring_file_sink.hh RingFileSink::Write"]}
{"id": "C112", "title": "exactly which streams make filter-program terminate abnormally", "statement": "filter-program terminates abnormally exactly at the first packet, before it ends for another reason, that meets one of these conditions. (1) A PAT without the service is looked at. (2) A table is looked at with which the event is known and the clock in sync, but with a PCR out of range (from --clock-pcr, or captured before a TOT), or with a start or end so far from the time of the clock that its PCR does not fit 64 bits; or with which the event is known and its end, including the margin, does not fit 64 bits. Or no table cancels the recording, and: (3) the packet has a PCR of the service that is out of range, and the PCR range of the programme is known with it; or (4) the programme starts with it, and no packet of a PAT was received (without pre-streaming), or the latest PMT was not received on the PID that the latest PAT says; or (5) the programme has started, its end is not reached, the packet is to be replaced by one of the PMT, and the latest PMT was not received on the PID that the latest PAT says. Which tables are looked at is determined by the stream alone. The same holds connected to a sink that takes every packet, whatever the source. Connected to a sink that may refuse packets but does not fail itself, it terminates abnormally exactly if the sink also took everything sent before; in case (4), if a PAT was received, its packets are sent before the stale PMT is noticed, and if the sink refuses one of them, the filter ends with the exit code of the sink instead.", "quantifier": "all options, PMT sizes and streams, including malformed and contradictory tables; with pre-streaming, except for PMTs that place the PCR on the PID of the PAT", "why_tests_cant": "The asserts depend on the whole history of tables and PCRs (a PMT moved to another PID aborts or not depending on which packet comes first); tests exercise regular streams and cannot show that nothing else aborts.", "anchors": ["src/program_filter.hh ProgramFilter::HandlePacket", "src/program_filter.hh WaitReady", "src/program_filter.hh DoStreaming", "src/program_filter.hh HandlePat", "src/program_filter.hh UpdatePcrRange", "src/program_filter.hh ConvertTimeToPcr", "src/tsduck_helper.hh ComparePcr"]}
{"id": "C113", "title": "exactly when the process terminates abnormally", "statement": "Given arguments and standard input, the process terminates abnormally (failed assert, uncaught exception or undefined behaviour) exactly in these cases; in all others it ends with an exit code or is refused by its own checks. scan-services, collect-logos, filter-program-metadata and track-airtime: never. sync-clocks, collect-eitpf and print-pes: at the first packet that C107, C109 or C106 names, before the command ends for another reason. collect-eits: always with both --only flags, otherwise at the packet that C108 names. filter-service: at the packet that C105 names, if standard output took everything before it. filter-program and record-service: at the first packet for which the service filter aborts as in C105, or which it passes on and for which the second filter aborts as in C112 or C111 with the packets passed on before, while both asked for more and the output took everything before it (for filter-program including the packets of the PAT that are sent before a stale PMT is noticed). seek-start: at the packet that C110 names, if the output took everything before it.", "quantifier": "all commands, arguments, inputs and results of reading and writing; record-service with sizes representable in 64 bits", "why_tests_cant": "Whether the process aborts depends on arguments, the whole input, which filter ends first, and which write fails; tests with mocks see one filter at a time and a few inputs.", "anchors": ["src/main.cc main", "src/main.cc LoadOption", "src/service_filter.hh ServiceFilter::HandlePacket", "src/program_filter.hh ProgramFilter::HandlePacket", "src/service_recorder.hh ServiceRecorder::HandlePacket", "src/start_seeker.hh StartSeeker::HandlePacket"]}
{"id": "C114", "title": "the items of extended event descriptors are put together", "statement": "MakeExtendedEventJsonValue over a descriptor list: an item whose text is cut into pieces at any places, spread over any number of extended event descriptors, with descriptors of other kinds and invalid ones in between, is listed once, with its description and its whole text, and the items are listed in order. A text before the first description is put before the text of the first item (and lost if there is none). The bytes the function looks at belong to the descriptors: this is false for a descriptor that announces more bytes than it has; it holds whenever each descriptor has the bytes it announces, whatever they are, fails for every descriptor that lacks two bytes or more, and for one that lacks one byte it holds exactly if its bytes are complete entries.", "quantifier": "all lists of descriptors, all contents, all ways of cutting texts; all decoders of strings", "why_tests_cant": "The function is not called by the commands and has no test; how texts are cut, and malformed lengths, are unbounded spaces.", "anchors": ["src/tsduck_helper.hh MakeExtendedEventJsonValue"]}
{"id": "C115", "title": "record-service: which packets start and end events", "statement": "For every packet of a recording: before PMT, PCR, EIT and clock are available no event starts or ends; with the packet that makes the recorder ready the present event is started at the stream time and the start position, unless it is over; after that, if an event is open, another present event ends it and is started itself, both at the stream time and the position of the packet, and the same event past its end is ended at its end time; if none is open, the present event is started exactly if it is another one than before, with the time and position of the last event-end message (or of the first chunk), even if it is over. Nothing else starts or ends an event.", "quantifier": "all streams, all tables, all sizes of the ring, all start positions, all results of the system calls", "why_tests_cant": "The state depends on the whole history of tables, PCRs and the clock; tests show a few histories.", "anchors": ["src/service_recorder.hh"]}
{"id": "C116", "title": "standard output, exactly, for all results of write", "statement": "For every stream of packets and every sequence of results of write (partial writes, failures): as long as no write fails, standard output holds the complete blocks of 16384 bytes, and at the end of the stream what the calls take of the rest; if a write fails, the packet that completed the block is refused, and standard output holds the blocks before and what was taken of this one; at the end of the stream the same block is started over.", "quantifier": "all packets, all sequences of results of write", "why_tests_cant": "Results of write cannot be enumerated.", "anchors": ["src/packet_sink.hh StdoutSink"]}
{"id": "C117", "title": "filter-program: what is done with each packet", "statement": "For every packet of a stream filter-program either ends (a cancelling table, or a PCR at which the end is reached), or waits (nothing is written; with --pre-streaming packets of PID 0 are passed on), or starts (the last PAT, the rewritten PMT, then the packet), or, after the start, passes the packet on, replaces it (PMT) or drops it (excluded streams), and which of these it does is determined by the tables and PCRs received so far.", "quantifier": "all streams, all tables, all options", "why_tests_cant": "Depends on the whole history of tables, PCRs and times.", "anchors": ["src/program_filter.hh"]}
{"id": "C118", "title": "seek-start: what is done with each packet", "statement": "For every packet of a stream: as long as everything is held back, a change of the video or audio streams announced by a PMT starting at packet k (k > 0) sends the first packet of the latest PAT and all packets from k on; otherwise, if the maximum number of packets or the maximum duration since the first PCR is reached, all packets received so far are sent; otherwise the packet is held back. After that every packet is passed on, whatever it is. This holds for any tables, whatever they say about where they start.", "quantifier": "all streams, all tables, all options", "why_tests_cant": "Depends on the whole history of tables and PCRs.", "anchors": ["src/start_seeker.hh"]}
{"id": "C119", "title": "sync-clocks: the document, exactly", "statement": "The document of sync-clocks is empty if nothing is selected by the options. Otherwise it is sorted by service ID; it has an entry for a service exactly if the PID of the clock of the service is known from the last PMT received for it and a PCR was captured on this PID; the entry has this PID, this PCR, the identifiers of the stream as received last, and the time of the last TOT; and no service whose PID of the clock is known and not 0x1FFF is missing.", "quantifier": "all streams, all tables, all options", "why_tests_cant": "Depends on the order of all tables and PCRs of the stream.", "anchors": ["src/pcr_synchronizer.hh"]}
{"id": "C120", "title": "record-service: an interrupted recording can be resumed", "statement": "If record-service is interrupted any number of times, at any moment and in any way (killed, a failed file operation, a failure of the system with the loss of everything not yet synced), and is started each time again with --start-pos set to the position in the last chunk message, then this position is always accepted, and the file holds the recorded data up to the last chunk message as if there had been no interruption: byte k of it at offset (start + k) mod ring size, for all data younger than the ring size less one chunk.", "quantifier": "all numbers of interruptions, all moments, all streams, all results of the file operations, all ring sizes, all earlier contents of the file", "why_tests_cant": "Needs all points of interruption in all histories, and the states of a file after a failure of the system.", "anchors": ["src/service_recorder.hh OnEndOfChunk, OnPreparing, Start", "src/ring_file_sink.hh Flush, SetPosition", "src/main.cc PosixFile"]}
{"id": "C121", "title": "record-service: the data of an event is found with its records", "statement": "If an event was started with a record at position p and ended with a record at position p', the packets recorded from the one that ended the previous event (or from the first one) up to the one before the packet that ended this event are in the ring file, one after the other, from p to p' (around the end of the ring), as far as they were written and not yet overwritten, at any moment; and p' is p plus the size of these packets modulo the ring size.", "quantifier": "all streams, all tables, all ring sizes and start positions, all results of the file operations, all moments", "why_tests_cant": "Needs all histories of tables and packets, and the whole contents of the file.", "anchors": ["src/service_recorder.hh", "src/ring_file_sink.hh"]}
{"id": "C122", "title": "print-pes: the output can be read back", "statement": "Every line that print-pes writes has the form [DATETIME]|[CLOCK]|<MESSAGE> of its help text, with the separators in fixed columns; a reader of this form finds exactly the lines printed, in order, with the same times, the same base and extension of the clock, and the same ids, versions, stream types and names of streams in the messages. Lines that show different things have different texts.", "quantifier": "all streams, all tables, all ids, versions, durations and clocks, all texts of times with 23 characters", "why_tests_cant": "Needs all values of all numbers in all messages; a test compares single lines.", "anchors": ["src/pes_printer.hh", "src/tsduck_helper.hh"]}
{"id": "C123", "title": "What has been written does not depend on what is read later", "statement": "collect-eits, collect-eitpf, collect-logos, filter-service, filter-program, filter-program-metadata, record-service, track-airtime and print-pes write as they read: if more packets follow in the input, the command writes first what it writes on the shorter input (bytes on standard output, JSON documents and lines, operations on the record file). The only exception is the stop message of record-service.", "quantifier": "all inputs, all continuations of them, all options, all sequences of failing or short writes", "why_tests_cant": "Needs pairs of runs of any length; a test runs the command on a few files.", "anchors": ["src/main.cc", "src/packet_source.hh", "src/packet_sink.hh"]}
{"id": "C124", "title": "Options that list ids work as sets", "statement": "For scan-services, sync-clocks and collect-eits only the set of the ids given by --sids and --xsids matters: order, repetitions and leading zeros change nothing in what the command does. The same holds for --sids of collect-eitpf and for the component tags of filter-program.", "quantifier": "all lists of ids, all inputs, all worlds", "why_tests_cant": "Needs all pairs of lists with the same members, and all inputs.", "anchors": ["src/main.cc", "src/base.hh"]}
{"id": "C125", "title": "Packets of other services do not matter", "statement": "filter-service, filter-program and record-service: a packet whose PID is not to be forwarded after the tables received so far can be removed from the input and the command does the same: exit code, bytes on standard output, messages, operations on the record file, and also failures are unchanged. The packet must not complete a table if it is a PAT, CAT or null packet.", "quantifier": "all streams, all packets in them, all tables, all options, all sequences of writes", "why_tests_cant": "Compares two runs for any packet in any stream of any length.", "anchors": ["src/service_filter.hh", "src/main.cc"]}
{"id": "C126", "title": "filter-service on its own output changes nothing", "statement": "The output of filter-service can be filtered again: the second filter-service for the same service writes the same bytes and succeeds; filter-program and record-service for this service do on the output of filter-service exactly what they do on the original stream (exit code, output, messages, operations on the file, failures). The tables must conform to the standard, and a CAT must not be received before the first PAT: such a CAT is obeyed although its packet is dropped, and the second run does not know it.", "quantifier": "all streams, all tables, all options of the commands, all fragmentations", "why_tests_cant": "Relates two runs of the program on streams of any length.", "anchors": ["src/service_filter.hh", "src/main.cc"]}
{"id": "C127", "title": "Packets without content do not matter to the commands that print documents", "statement": "For scan-services, sync-clocks, collect-eits, collect-eitpf, collect-logos, filter-program-metadata, track-airtime and print-pes: a packet that carries nothing for the command (null packets, packets of PIDs the command does not listen to, packets that complete no table or section and carry no time stamp) can be inserted into or removed from the stream anywhere; exit code, documents and failures stay the same.", "quantifier": "all streams, all tables, all options of these commands, all fragmentations", "why_tests_cant": "Relates two runs of the program on streams of any length, for every position of the packet.", "anchors": ["src/service_scanner.hh", "src/pcr_synchronizer.hh", "src/eit_collector.hh", "src/eitpf_collector.hh", "src/logo_collector.hh", "src/program_metadata_filter.hh", "src/airtime_tracker.hh", "src/pes_printer.hh"]}
{"id": "C128", "title": "The same broadcast at another time is treated alike", "statement": "If every time in the stream (TOTs, start times of events) and every time in the arguments of filter-program is moved by the same amount, and the clock of the machine by any amount, then every command does the same: the same failures, exit code, bytes written and file operations, and the same documents with their times moved by that amount. For collect-eits, which by design looks at the time of day, the amount is a multiple of 24 hours.", "quantifier": "all streams, all tables, all commands and options (times representable in 64 bits), all amounts, all fragmentations", "why_tests_cant": "Relates two runs of the program on streams of any length for every amount; a test runs at a few dates and cannot see a dependence on the date.", "anchors": ["src/main.cc", "src/tsduck_helper.hh", "src/program_filter.hh", "src/service_recorder.hh", "src/pcr_synchronizer.hh", "src/eit_collector.hh", "src/airtime_tracker.hh", "src/pes_printer.hh"]}
{"id": "C129", "title": "What is given on the command line is what is used", "statement": "If one command is given, its flags are flags and docopt can read every option that should be a number as one, then the process runs that command with exactly these values on the named file (or standard input if there is no name or an empty one). If something that should be a number cannot be read as one, the process is refused at once, whatever there is to read, and nothing is written. If help is asked for, the help of the command is shown and nothing is read.", "quantifier": "all argument maps, all strings as values, all ways of reading numbers, all inputs", "why_tests_cant": "Quantifies over all strings given as values and all twelve commands; tests try a few.", "anchors": ["src/main.cc:1013-1047", "src/main.cc:1049-1294", "src/main.cc:1296-1449"]}
{"id": "C130", "title": "What the stream clock shows, always", "statement": "After any sequence of PCRs, TOTs and changes of the PCR PID the stream clock shows: the time of the last TOT plus what the PCR advanced since, if the clock follows a PCR and has had a TOT since it was switched or lost track; otherwise, that is before the first PCR, after a change of the PCR PID and after five PCR jumps in a row, the time of the last TOT plus what the local clock of the machine advanced since. All times in the messages of record-service follow this rule.", "quantifier": "all sequences of PCRs, TOTs and PCR PID changes, all local times", "why_tests_cant": "Quantifies over all interleavings of PCRs, TOTs, PID changes and jumps; tests replay a few.", "anchors": ["src/base.hh:147-264", "src/service_recorder.hh:81-119", "src/service_recorder.hh:251-326"]}
{"id": "C131", "title": "Repeated tables do not matter", "statement": "filter-service, filter-program and record-service do the same, byte for byte and message for message, whether or not tables are received again: any number of PATs, CATs, PMTs and EITs equal in content to the last one received of their kind (PAT; CAT; PMT of a service; EIT of a service) may arrive anywhere, even with a new version number. So it does not matter how often a broadcaster repeats its tables, nor that the demultiplexer reports a PMT again when its PID is added again.", "quantifier": "all streams, tables, numbers and places of repetitions, options, local times and results of file operations", "why_tests_cant": "Quantifies over all ways of repeating tables at all moments of all streams; a test repeats some table at some moment.", "anchors": ["src/service_filter.hh:115-290", "src/program_filter.hh:245-470", "src/service_recorder.hh:121-249"]}
{"id": "C132", "title": "What the exit code of a command says", "statement": "Whatever is read and whichever operations fail: scan-services and sync-clocks end with 0 exactly if they have printed one document, and with 1 if none. filter-service ends with 0 or 1. filter-program ends with 0, 1 or 222, and if it ends with 222 (try again) nothing has been written, or with --pre-streaming nothing but packets of the PAT. record-service either ends with 1, without a message and without a write to its file, or sends start first and stop last, and ends with 1 if the stop message reports a broken file. All other commands end with 0.", "quantifier": "all commands, arguments, inputs, table histories and results of system calls", "why_tests_cant": "The exit code is looked at after any input, with any failure of any system call; a test has one input and one failure.", "anchors": ["src/exit_code.hh", "src/packet_source.hh:26-43", "src/program_filter.hh:80-86", "src/service_filter.hh:63-72", "src/service_recorder.hh:56-79", "src/service_scanner.hh:41-57", "src/pcr_synchronizer.hh:36-69"]}
{"id": "C133", "title": "--pre-streaming only adds packets of the PAT in front", "statement": "If no write fails and filter-program ends normally without --pre-streaming, then with --pre-streaming and otherwise the same arguments and input it also ends normally, with the same exit code, and its output is some packets of the PAT of the service followed by exactly the output without the option.", "quantifier": "all arguments, inputs, table histories and short writes", "why_tests_cant": "Two runs are compared on arbitrary input; the option changes an early return in the middle of the waiting state, so the state kept for the start of the programme differs between the runs.", "anchors": ["src/program_filter.hh:107-192", "src/main.cc:1339-1349"]}
{"id": "C134", "title": "Options that select only select", "statement": "scan-services with --sids and --xsids ends exactly as without them and prints the selected services of the whole list. collect-eitpf --streaming with --sids, --present or --following prints exactly the documents that collect-eitpf --streaming prints for the selected services and sections, in the same order; collect-eits --streaming with --sids and --xsids likewise. Without --streaming both print an initial part of what they print with it.", "quantifier": "all inputs, section histories and lists of ids", "why_tests_cant": "Runs with different options are compared on arbitrary input; what is written depends on the versions and the progress kept for every service, and sections of services not asked for must not influence it.", "anchors": ["src/eitpf_collector.hh:38-139", "src/eit_collector.hh:308-424", "src/eit_collector.hh:459-590", "src/service_scanner.hh:150-210", "src/main.cc:1297-1326"]}
{"id": "C135", "title": "Every command line described by the usage is understood", "statement": "A command line described by the usage, with its parts in any order, that asks neither for help nor for the version runs the command it names with exactly the numbers, strings and flags given. All options the command needs are there, none is missing or of another kind, and --only-actual and --only-others, or --present and --following, never come together. If one of the numbers given cannot be read, whatever option it belongs to, the process ends before it reads the stream. A command line asking for help shows the help of the command named, or the usage.", "quantifier": "all command lines described by the usage, all readers of numbers", "why_tests_cant": "The usage describes infinitely many command lines; options of different commands share names, and whether args.at finds an entry of the right kind depends on all lines together.", "anchors": ["src/main.cc:50-81", "src/main.cc:1041-1294", "src/main.cc:1296-1420", "src/main.cc:1437-1448"]}
{"id": "C136", "title": "Commands on the same stream agree with each other", "statement": "On the same stream, what filter-program writes is what filter-service writes for the service, with packets left out and packets of PMTs put in, in the same order. What record-service writes to its ring file, one write after the other, is what filter-service writes from some packet on, as far as complete blocks of 8192 bytes go (less only if a file operation failed), and its exit code is the same unless a file operation failed. A service printed by scan-services is not missing for filter-service, filter-program and record-service, if all usable PATs of the stream list the same services.", "quantifier": "all streams, services, arguments, fragmentations of reads and writes, and results of file operations", "why_tests_cant": "A relation between complete runs of different commands on every stream.", "anchors": ["src/service_filter.hh:76-121", "src/program_filter.hh:88-246", "src/service_recorder.hh:81-249", "src/ring_file_sink.hh:97-168", "src/service_scanner.hh:60-160", "src/main.cc:1296-1420"]}
{"id": "C137", "title": "The size of the ring file does not matter for the recording", "statement": "If record-service ends normally on a stream without a failed file operation, it ends normally on the same stream with every other permitted --chunk-size, --num-chunks and --start-pos. If no file operation fails then either, the exit code is the same, the same bytes are written one after the other, and the event-start and event-end messages are the same (events, times, order) but for their positions, which are the offsets in the two ring files reached with the same number of recorded bytes.", "quantifier": "all streams, services, fragmentations of reads, results of file operations, and pairs of permitted geometries", "why_tests_cant": "A relation between two complete runs with arbitrary geometries; wrap-around and event boundaries can coincide in arbitrary ways.", "anchors": ["src/service_recorder.hh:81-326", "src/ring_file_sink.hh:52-168", "src/main.cc:1219-1264"]}
{"id": "C138", "title": "A later --wait-until never costs a programme", "statement": "If filter-program ends with --wait-until at some time, and not with the exit code 222, it behaves exactly the same (exit code, output) with every later time. If it ends without --wait-until, and not with 222, it behaves exactly the same with every time that no TOT in the stream exceeds. So the option decides only when to give up waiting, never what is written of a programme that starts.", "quantifier": "all streams, tables, options, read fragmentations and write results, and pairs of times", "why_tests_cant": "A relation between two complete runs for arbitrary pairs of limits and arbitrary interleavings of EIT, TOT, PMT and PCR packets.", "anchors": ["src/program_filter.hh:101-192", "src/program_filter.hh:416-489", "src/program_filter.hh:561-569", "src/main.cc:1186-1191"]}
{"id": "C139", "title": "The limits of seek-start decide only whether it seeks", "statement": "If seek-start ends normally on the same stream with two sets of limits, either the outputs are the same or one of them is the whole stream; so there is only one place to which it can seek. With the same --max-duration, a higher --max-packets (or none) gives the same output unless the lower one gave the whole stream.", "quantifier": "all streams, tables, services, limits, read fragmentations and short writes", "why_tests_cant": "A relation between two complete runs for all pairs of limits and all placements of PAT, PMT and PCR packets.", "anchors": ["src/start_seeker.hh:53-149", "src/start_seeker.hh:151-252", "src/main.cc:1276-1294"]}
{"id": "C140", "title": "A shorter --time-limit of collect-eits only cuts the output off", "statement": "If collect-eits ends normally with some time limit, it also does with any shorter one, with the same exit code, and what it prints then is the beginning of what it prints with the longer one; without the option the limit is 30 seconds.", "quantifier": "all streams, sections, TOTs, pairs of limits, --sids, --xsids, --streaming, --only-actual and --only-others", "why_tests_cant": "A relation between two complete runs for all pairs of limits and all streams; TOTs may go backwards, so the elapsed time is not monotone.", "anchors": ["src/eit_collector.hh:459-470", "src/eit_collector.hh:546-586", "src/main.cc:1104-1134"]}
{"id": "C141", "title": "track-airtime and filter-program-metadata --sid tell what filter-program-metadata tells", "statement": "On the same stream, filter-program-metadata with --sid prints exactly the documents about the service among those printed without, in order. track-airtime prints the airtime of the event from the documents of filter-program-metadata that list it as present or following, in order, without leaving one out; it ends before the last only after a document about the service that does not list the event, or after an EIT of the service without events.", "quantifier": "all streams, tables, services, events and read fragmentations", "why_tests_cant": "A relation between complete runs of two commands for all streams.", "anchors": ["src/program_metadata_filter.hh:33-83", "src/airtime_tracker.hh:32-108"]}
{"id": "C142", "title": "A larger end margin only adds packets at the end", "statement": "If filter-program is run on the same stream with a larger --end-margin and otherwise the same options, it writes the same bytes and possibly more after them, provided that the PCR does not start over between the two ends.", "quantifier": "all streams, tables, options, margins, lengths of writes and read fragmentations", "why_tests_cant": "A relation between two complete runs with different options, for all streams and margins.", "anchors": ["src/program_filter.hh:88-239", "src/program_filter.hh:491-557"]}
{"id": "C143", "title": "Larger margins only add packets before and after the programme", "statement": "If filter-program is run on the same stream with larger --start-margin and --end-margin and otherwise the same options, it writes, after what it adds before, the same packets as with the smaller margins, apart from the PAT, the PMT and the one packet with which the latter starts, and apart from which packets of the PMT are repeated; provided that the PCR does not start over between the two starts or the two ends.", "quantifier": "all streams, tables, options, margins, lengths of writes and read fragmentations", "why_tests_cant": "A relation between two complete runs with different options, for all streams and margins.", "anchors": ["src/program_filter.hh:88-239", "src/program_filter.hh:491-557"]}
{"id": "C144", "title": "It does not matter when the clock given to filter-program was taken", "statement": "If --clock-pcr and --clock-time of filter-program are replaced by another pair that says the same about the clock, modulo the period of the PCR, the command writes the same bytes and ends with the same exit code.", "quantifier": "all streams, tables, options, pairs of clocks, lengths of writes and read fragmentations", "why_tests_cant": "A relation between two complete runs with different options, for all streams and all shifts of the clock, including ones over several periods.", "anchors": ["src/program_filter.hh:43-63", "src/program_filter.hh:506-557", "src/program_filter.hh:314-414"]}
{"id": "C145", "title": "Component tags only take away packets of excluded streams", "statement": "Compared with the same command without --audio-tags and --video-tags, filter-program with them ends with the same exit code and, apart from the packets of PMTs, writes the same packets in the same order without some of them, each of which is on a PID that a PMT of the service gives to a stream the tags exclude.", "quantifier": "all streams, tables, options, lengths of writes and read fragmentations", "why_tests_cant": "A relation between two complete runs with different options: no start, end or PAT may move because of the tags, for any stream.", "anchors": ["src/program_filter.hh:227-246", "src/program_filter.hh:314-392", "src/main.cc:1075-1108"]}
{"id": "C146", "title": "record-service to the standard output works only below one chunk", "statement": "record-service with an empty --file refuses the same options as with a file; otherwise it does exactly what it would do with a file if the recording starts at position 0 and fewer bytes than one chunk are written, and aborts if not. It never ends normally in another way.", "quantifier": "all streams, tables, options, results of writes and read fragmentations", "why_tests_cant": "A relation between complete runs on two kinds of files, for recordings of every length.", "anchors": ["src/main.cc:919-933", "src/main.cc:961-1003", "src/ring_file_sink.hh:52-168", "src/main.cc:1357-1371"]}
{"id": "C147", "title": "filter-service gives the same stream no matter when it was started", "statement": "On a broadcast whose tables do not change, filter-service started later writes for the common packets what the one started earlier writes, except that packets may be missing until the PAT, the PMT and the CAT have come by again, and except for the continuity counters of the PAT packets. Nothing is written that the earlier one leaves out. Both exit with 0.", "quantifier": "all streams, starting points, tables, and deliveries of the tables to the two runs; all read and write fragmentations", "why_tests_cant": "A relation between two complete runs with different starting points, for streams of every length.", "anchors": ["src/service_filter.hh:74-116", "src/service_filter.hh:137-278", "src/main.cc:1357-1371"]}
{"id": "C148", "title": "scan-services gives the same answer no matter when it is started", "statement": "If all PATs, SDTs and NITs of a broadcast say the same, then scan-services prints the same document whenever it is started, if it succeeds; and it succeeds if a PAT, an SDT and a NIT come on their PIDs, in any order, and the PATs do not say that the NIT is elsewhere.", "quantifier": "all pairs of streams, orders and deliveries of the tables, options and read fragmentations", "why_tests_cant": "A relation between two complete runs on different streams.", "anchors": ["src/service_scanner.hh:41-57", "src/service_scanner.hh:60-160"]}
{"id": "C149", "title": "Handing over filter-program-metadata or track-airtime to a new process loses nothing", "statement": "If a stream is cut in two at a packet, then filter-program-metadata prints for the stream what it prints for the first piece followed by what it prints for the second, up to tables that the new process receives again; so does track-airtime, unless an EIT of the first piece does not list the event, in which case it prints what it prints for the first piece.", "quantifier": "all streams, cuts, deliveries of the tables, option values and read fragmentations", "why_tests_cant": "A relation between three complete runs, for every place of the cut.", "anchors": ["src/program_metadata_filter.hh:20-88", "src/airtime_tracker.hh:20-114"]}
{"id": "C150", "title": "filter-program gives the same programme no matter when it was started before it", "statement": "If the tables of a broadcast do not change and the PCRs are on the PID given with the clock, then filter-program gives the same output, packet by packet, with the same beginning and end, no matter how long before the programme it is started, as long as it has received a PAT, a PMT and an EIT that lists the event before the programme begins; only the counting of PAT packets may differ. It does not ask to try again.", "quantifier": "all pairs of streams of the broadcast, deliveries of the tables, options and sizes of PMTs", "why_tests_cant": "A relation between two complete runs, started at any two times, with arbitrary deliveries of tables.", "anchors": ["src/program_filter.hh:66-99", "src/program_filter.hh:107-246", "src/program_filter.hh:248-470", "src/program_filter.hh:491-569"]}
{"id": "C151", "title": "Recordings of the same broadcast contain the same data no matter when they were started", "statement": "If the tables of a broadcast do not change, then two recordings of a service by record-service, started at different times, with ring files of any sizes and starting positions, contain the same data: each writes to its file, in complete blocks of 8192 bytes, one and the same stream of packets from some packet on; the later one may only lack packets that come before it has received the tables of the service, and only the counting of PAT packets differs. Unless a file operation fails both end with 0.", "quantifier": "all broadcasts, pairs of starting times, deliveries of the tables, ring sizes and positions, results of file operations", "why_tests_cant": "A relation between two complete runs, with arbitrary streams, deliveries of tables and ring sizes.", "anchors": ["src/service_recorder.hh:56-105", "src/service_recorder.hh:251-326", "src/service_filter.hh:56-120", "src/ring_file_sink.hh:19-187"]}
{"id": "C152", "title": "track-airtime and filter-program-metadata tell the same behind filter-service", "statement": "filter-program-metadata and track-airtime print for the output of filter-service, whatever service it selects, exactly what they print for the stream itself, if no EIT is completed before filter-service has received a PAT. (An EIT before the first PAT is lost.)", "quantifier": "all streams, deliveries of tables, services of filter-service, services and events asked for", "why_tests_cant": "A relation between three complete runs, with arbitrary streams and deliveries of tables.", "anchors": ["src/program_metadata_filter.hh:20-88", "src/airtime_tracker.hh:20-114", "src/service_filter.hh:56-220"]}
{"id": "C153", "title": "scan-services behind filter-service lists the selected service, as for the whole stream", "statement": "If the PATs, SDTs and NITs of a stream do not change and scan-services finds services in the stream and in the output of filter-service, then for the output it lists exactly the service that filter-service selects, with the data it lists for the whole stream, or nothing if the service is not listed for the stream.", "quantifier": "all streams, deliveries of tables, services of filter-service, services asked for or excluded", "why_tests_cant": "A relation between three complete runs, with arbitrary streams and deliveries of tables.", "anchors": ["src/service_scanner.hh:24-244", "src/service_filter.hh:56-220"]}
{"id": "C154", "title": "collect-eits and collect-eitpf collect the same behind filter-service", "statement": "collect-eits and collect-eitpf print for the output of filter-service, whatever service it selects, exactly the documents they print for the stream itself, and end with the same exit code, if no EIT section or TOT is completed before filter-service has received a PAT. Without --streaming, collect-eits must have a positive time limit and collect-eitpf services asked for (otherwise they may end with the first packet).", "quantifier": "all streams, deliveries of sections and tables, services of filter-service, options of the commands", "why_tests_cant": "A relation between three complete runs, with arbitrary streams and deliveries of sections.", "anchors": ["src/eit_collector.hh:426-600", "src/eitpf_collector.hh:20-145", "src/service_filter.hh:56-220"]}
{"id": "C155", "title": "Restarting collect-eitpf --streaming loses nothing and repeats only what was current", "statement": "If collect-eitpf --streaming is stopped between two packets and started again, the two processes together print everything that a single process would have printed, in the same order: what the single process prints is what the first one prints, followed by a part, in order, of what the second one prints. Whatever the second one prints beyond that, the first one printed already, for the same service, section number and version.", "quantifier": "all streams, places of the handover between sections, deliveries of sections, services asked for, --present and --following", "why_tests_cant": "A relation between three complete runs, with arbitrary streams and sequences of versions.", "anchors": ["src/eitpf_collector.hh:20-145"]}
{"id": "C156", "title": "sync-clocks behind filter-service prints the clock of the selected service only", "statement": "For the output of filter-service sync-clocks prints no document, an empty one, or one with exactly one clock: that of the service that filter-service selects, which is also selected by --sids and --xsids. The PID of the clock is the PCR PID of a PMT of this service that is in the stream on the PID given by a PAT of the stream, its PCR is a PCR of the stream on this PID (unless the PID is 0), and its time is that of a TOT of the stream.", "quantifier": "all streams, deliveries of tables, services of filter-service, services asked for or excluded", "why_tests_cant": "A relation between the input of one command and the output of another, with arbitrary streams and deliveries of tables.", "anchors": ["src/pcr_synchronizer.hh:30-259", "src/service_filter.hh:56-220"]}
{"id": "C157", "title": "restarting collect-eits --streaming loses nothing", "statement": "With --streaming, collect-eits prints for a stream what it prints for the first packets of the stream, followed by a part, in the same order, of what it prints when started anew on the remaining packets; and whatever the new process prints in addition had been printed before, for the same service, table and section number (perhaps in an older version).", "quantifier": "all streams, all points of handover, deliveries of sections, services asked for or excluded, selections of the tables", "why_tests_cant": "A relation between the outputs of three runs over arbitrary streams and points of handover; the state of the collector at the handover is arbitrary.", "anchors": ["src/eit_collector.hh:30-605"]}
{"id": "C158", "title": "The output of filter-service contains no other service", "statement": "filter-service for another service, reading the output of filter-service, writes nothing; it ends with exit code 1, or with 0 if there is no input at all. It does not terminate abnormally. The same holds for filter-program for a program of another service, whenever it ends normally; record-service for another service, likewise, writes nothing to the file and reports only its start and its stop. (In the stream a CAT, or a PMT of the service selected first, is completed only after a PAT.)", "quantifier": "all streams, deliveries of tables, pairs of different services, options of filter-program and record-service, results of the file operations", "why_tests_cant": "A relation between the input of one command and the output of another, with arbitrary streams and deliveries of tables.", "anchors": ["src/service_filter.hh:56-220"]}
{"id": "C159", "title": "seek-start behind filter-service never fails its assertion about the PAT", "statement": "seek-start for a service, reading the output of filter-service for the same service, never terminates abnormally: each PAT in this output lists the service, as a comment in the code claims. (The PCRs of the stream are in range, the maximum duration is less than 10825 years, and a table starts at a packet already received.) The service must be the same: for another service, seek-start with a maximum duration terminates abnormally if there is any output. (In the stream a CAT, or a PMT of the service, is completed only after a PAT.)", "quantifier": "all streams, deliveries of tables, services, limits, results of reads and writes", "why_tests_cant": "The assertion relies on another command in the pipeline; whether that command ensures it depends on all streams and all states of both.", "anchors": ["src/start_seeker.hh:30-330", "src/service_filter.hh:56-220"]}
