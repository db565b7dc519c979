# Formal model of mirakc-arib: design

Source: `/repo` (mirakc/mirakc-arib, pinned commit).  Everything is in Lean 4
under `/verif/lean/Verif`.  Property ids refer to `/verif/properties.jsonl`.

## Layout

| directory | content |
|---|---|
| `Verif/Model/*.lean` | executable model, one file per source file; every definition cites file and lines |
| `Verif/Spec/*.lean` | small specifications, written without the model's helpers |
| `Verif/Proof/*.lean` | helper lemmas and invariants |
| `Verif/Props/*.lean` | the property theorems (`C01_…`), each with a concrete `example` meeting its hypotheses |
| `Verif/Tests/*.lean` | the project's own unit tests, evaluated on the model (see below) |

## Trusted base

* Lean 4.33.0 kernel.  Axioms: at most `propext`, `Classical.choice`,
  `Quot.sound` (checked with `#print axioms`; list at the end of this file).
  No `sorry`, no own axioms, no `native_decide`/`bv_decide`.
* The correspondence between the C++ text and the model definitions.  It is by
  reading; each model definition cites the lines it models and says where it
  simplifies.
* External code is not in the repository (vendor directories are empty) and is
  modelled by *oracles*: values that the theorems quantify over universally.

### Oracles (external behaviour, universally quantified)

| external code | model |
|---|---|
| `ts::SectionDemux` | Every step of a filter gets a packet together with an arbitrary list of tables (sections) completed by that packet.  The model keeps the set of demuxed PIDs (`addPID`/`removePID`); a listed table is handed to the handler only while its source PID is the packet's PID and is in the set.  Theorems hold for every such list, so they hold for every demux behaviour that respects the PID set. |
| table deserialisation (`ts::PAT`, `ts::PMT`, …) | tables are given in parsed form with an `isValid` flag |
| `ts::CyclingPacketizer` | an output item "packet i of table t on PID p, n-th packet made"; number of packets per table is an arbitrary function (`extra`).  Assumed: sections are completed before a new table is used, `removeAll` keeps the continuity counter, a one-service PAT fills one packet.  The packetizer of the PMT (src/program_filter.hh:578) is made without a stuffing policy, so TSDuck may put the beginning of the next copy of a section into the packet that completes one; this is not modelled: a cycle is assumed to end with the packet that completes the section, and "packet i of table t" is the i-th packet of a cycle, whatever else TSDuck puts into it |
| `BinaryTable::getFirstTSPacketIndex` | a field of the table; where needed, assumed: the packet was received before and has the table's PID (`Placed`), and a PMT starts after the PATs handled before it, because `addPID` starts the PID afresh (`Fresh`) |
| `ts::TSPacket::getPID/getPUSI/hasPCR/getPCR` | fields of the packet; PCR is `base*300+ext` with a 9 bit extension, so values above the legal maximum are possible |
| packets as bytes; demultiplexer behind the service filter | any `Codec` (bytes to packet, packet to bytes, PAT/PMT packet to bytes) that is `Faithful`: 188 bytes are kept, generated packets have 188 bytes, PAT packets are on PID 0 without PCR; any tables found that are `Demuxed`: completed by a packet of their PID, a PAT in a generated PAT packet is the table it was made of |
| `read`, `write`, `fsync`, `ftruncate`, `lseek` | arbitrary results per call (short counts, failures) |
| `ts::Time` | integer milliseconds; its text (print-pes) is any text of 23 characters; `CurrentLocalTime()` is an arbitrary reading per call |
| docopt, spdlog | any map from names to values (C129), or the one documented for the usage (`Model/Usage.lean`, C135), and any function that reads strings as numbers (`Model/Cli.lean`; the fork used also takes hexadecimal ones, see cli_tests.sh) / nothing |
| rapidjson | documents are trees, numbers integers; `Writer` as documented: no white space, escapes for quotes, backslashes and control characters, other bytes as they are (`Model/Json.lean`) |
| descriptors (`ts::DescriptorList`, `LibISDB::DescriptorBlock`) and ARIB strings | arbitrary results of decoding (`Documents.Decoders`): what each library makes of a descriptor loop, valid or not, with texts as bytes |
| LibISDB, cppcodec | any list of downloaded logos and any result per packet / any function as base64 encoder |
| `std::stoi` | modelled after the C++ standard (`Model/Options.lean`) |

Not modelled: logging, the decoding of ARIB strings and of single descriptors,
thread/process start-up, how docopt splits the words of a command line,
LibISDB logo download.  Integers: sizes are `Nat`, PCR and times are `Int`;
where C++ width matters (uint8/uint16 truncation, size_t underflow, int64
range) it is modelled explicitly and said so at the definition.

Abnormal termination (failed `MIRAKC_ARIB_ASSERT`, uncaught exception, read
outside a buffer, overflow of a signed product or sum of 64 bits) is a separate outcome (`Fault`) of the model functions;
"never aborts" theorems say the outcome is not reached.  Overflow is checked where options or
stream contents can cause it: seek-start, filter-program, `ClockBaseline`, the times given as arguments
(`kJstTzOffset + unix_time_ms`, tsduck_helper.hh:28; `C84_any`).  Not checked:
`event.duration * 1000` in the other commands (a duration has six BCD digits).
Nor is the overflow of `ts::Time` itself when a margin is added or subtracted
(src/program_filter.hh:494-495): it takes a margin near 2^63 ms, for which the product with 27000 that
follows as soon as the clock is known is reported as overflow anyway.

## Check of the model against the project's unit tests

The correspondence between code and model is by reading.  As a check of it, the tests in
`/repo/test` are transcribed to `Verif/Tests`: the input of a test is given to the model, and the kernel
evaluates that the model does what the test expects of the code (packets passed on with PID, continuity
counter and PCR; documents as JSON text; calls of the file; exit code; packets not read).  The
transcribed tests are all those of `base_test`, `tsduck_helper_test` (what is modelled), `packet_source_test`,
`ring_file_sink_test`, `start_seeker_test`, `program_filter_test`, `service_filter_test`, `service_scanner_test`,
`pcr_synchronizer_test`, `airtime_tracker_test`, `eitpf_collector_test`, `eit_collector_test`, `logo_collector_test`,
`service_recorder_test`, and those of `cli_tests.sh` except --version (twice: with the options read, and from the words of the command line on).  They all
pass.  These files are tests, not proofs: no property rests on them.

What TSDuck does between the XML text of a test and the calls is supplied by the transcription: a table fills one packet
(an EIT p/f is two sections in one packet), and is handed over again only if its version changed or its
PID was added again.  A continuity counter is the `content` of a packet of the model.

## Plan per property

| id | modelled | proof method |
|---|---|---|
| C01–C04 | `FileSource` with explicit buffer, positions, read oracle | refinement to a framing function on the whole byte string, induction on fuel; bounds as invariants |
| C05 | `FeedPackets` loop over an abstract sink | induction on packets |
| C06, C07 | `StdoutSink` with write oracle | invariant written++buffered = input; C07: duplicate write after transient error is possible, negation by witness, partial theorem for permanent errors |
| C08–C13 | `RingFileSink` with file model (content, offset, synced content) and oracle | invariant over packets; closed-form description of ring content |
| C14 | `ComparePcr` | full claim refuted by witness; partial: exact characterisation |
| C15 | `TimeToPcr`, `ConvertTimeToPcr`, with overflow of 64 bits | arithmetic, termination by measure; `Spec/Int64.lean` |
| C16, C17 | `Clock`, `ClockBaseline` | invariant over PCR/TOT events; second wrap refuted, partial for one wrap between TOTs |
| C18, C19 | conversions, `FormatPcr` | arithmetic, digit lemmas |
| C20–C25 | `ServiceFilter` | invariant linking the filter sets to the last accepted tables; C25 refuted (two witnesses), partial under stated conditions |
| C26–C33, C70, C71 | `ProgramFilter` | history invariant `run_spec`: event time, clock and PCR range as functions of the tables and packets received; C28, C31, C32, C70, C71 refuted by witness, partial |
| C34–C36, C72–C74 | `StartSeeker` | invariant: packets held back = input, PID sets, PAT index and end PCR as functions of the tables and packets received; C36, C72, C73, C74 refuted by witness, partial |
| C37–C42, C75, C76 | `ServiceRecorder` on top of `RingFileSink` and `Clock` | history invariant (clock, latest EIT, recording state as functions of the history); message-trace automaton as specification; ring properties reused through the stored packets; C42, C75 refuted by witness, partial |
| C43–C49, C77, C78 | `EitCollector`, its progress classes, `EitSection` | bitmap lemmas, invariant: every bitmap and version as a function of the sections written and TOTs received; C44–C47, C77, C78 refuted by witness, partial |
| C50, C51 | `EitpfCollector` | history invariant: the version maps as functions of the sections written; C51 refuted by two witnesses, partial |
| C52–C55, C79, C80 | `PcrSynchronizer` | history invariant: every member as a function of the tables and packets received; counting argument for the tables watched; C52, C53, C54, C79, C80 refuted by witness, partial |
| C56, C57 | `ServiceScanner` | history invariant: PAT, SDT and NIT held as functions of the tables received; C57 refuted by three witnesses, partial |
| C58, C59 | `AirtimeTracker`, `ProgramMetadataFilter` | output as function of the table history |
| C60, C81, C82 | `PesPrinter` | history invariant: every clock as a function of the PCRs and TOTs since the latest PMT naming it; all three refuted by witness, partial |
| C97, C98 | `PesPrinter`, the lines for tables and the PIDs looked at, for arbitrary PATs (`Spec/PesTables.lean`) | history invariant over the tables looked at |
| C61, C62 | `MakeEventsJsonValue` | encoder/decoder round trip; C62 refuted by witness, partial + exact characterisation |
| C63, C64 | `InsertPngChunks`, `OnLogoDownloaded` | list algebra; CRC-32 of the inserted chunks by kernel computation |
| C65, C66, C83–C85 | option parsing with a model of `std::stoi` | string induction, exact characterisation of accepted values; C66, C84, C85 refuted by witness, partial |
| C67–C69, C86–C89 | filter-service, filter-program, record-service, seek-start from bytes read to bytes written (`Model/Pipeline.lean`) | composition of the refinements above; a generic lemma about a sink behind the service filter |
| C90–C96, C99, C100 | all commands from argument values and read results to exit code, standard output and file operations (`Model/Main.lean`) | composition; C91 and C96 refuted by witness, partial |
| C101–C104 | the JSON documents and their text (`Model/Json.lean`, `Model/Documents.lean`) | round trip with a separate reader (`Spec/Json.lean`); documents against a description of the members (`Spec/Documents.lean`); C103 and C104 refuted by witness, partial |
| C105 | `ServiceFilter`, as C20–C25 | exact invariant (both directions) of the filter's and the demultiplexer's PID sets for arbitrary tables; `Spec/ServiceAborts.lean` |
| C106 | `PesPrinter`, as C60, C81, C97 | generic `Spec/Aborts.lean`: every source of packets leads to an error, iff a run over a prefix goes on and the next packet is bad; `Spec/PesAborts.lean` |
| C107 | `PcrSynchronizer`, as C52–C55 | exact invariant (both directions) of the demultiplexer's PID set and of the counters for arbitrary tables; `Spec/PcrSyncAborts.lean` |
| C108 | `EitCollector`, as C43–C49, C78 | a rule `Due` (what is to be written next) determines output and failure, `Spec/EitAborts.lean`; generic fold lemma `wrote_exact` |
| C109 | `EitpfCollector`, as C50, C51 | as C108; the end and `std::map::at` in terms of the services seen, in the order of the map |
| C110 | `StartSeeker`, as C34–C38, C74 | exact invariant of the demultiplexer's PID set and of the state for arbitrary tables; `Spec/SeekAborts.lean` |
| C111 | `ServiceRecorder`, as C37–C42, C80 | exact invariant of the demultiplexer's PID set and of the clock for arbitrary tables; `aborts_at` for an arbitrary sink; `Spec/RecordAborts.lean` |
| C112 | `ProgramFilter`, as C26–C33 | the invariants of C26–C33 (state as a function of the events), plus: the clock's PCR is in range once the event is known and the clock in sync; exact failure condition of each handler (including overflow of 64 bits in `UpdateEventTime` and `ConvertTimeToPcr`) and of `WaitReady`/`DoStreaming`; what is sent before the failure (`announced_exact`), so that sinks that refuse packets are covered; `Spec/ProgramAborts.lean` |
| C113 | `main` with all commands, as C93–C96 | C105–C112 carried through `sendAll` and the pipelines: which packet number of the input makes the second filter fail (`Pipeline.Fails`, `sf_run_snoc`, `pf_run_snoc`, `chain_fails`); `Spec/MainAborts.lean` |
| C114 | `MakeExtendedEventJsonValue(ts::DescriptorList)`, which no command calls | each entry as an action on the state (`push`), induction over entries and descriptors; reading outside of the payload is a fault; refuted by witness, partial, and for all inputs which of both happens (`C114_exact`); `Spec/ExtendedEvent.lean` |
| C115 | `ServiceRecorder`, as C37–C42, C75 | case analysis of `UpdateEventBoundary`/`WaitReady` on the exact invariants of C37–C42; message protocol as an automaton (`Phase`) |
| C116 | `StdoutSink`, as C06, C07 | `taken` (what a sequence of results of `write` takes of a block); induction over the packets with the exact contents of buffer and output; `Spec/StdoutSink.lean` |
| C117 | `ProgramFilter`, as C26–C33 | `run_spec`: the outcome of each packet as a function of the history |
| C118 | `StartSeeker`, as C34–C36 | `run_seeking`: the outcome of each packet as a function of the history |
| C119 | `PcrSynchronizer`, as C52–C54 | the state of the run as functions of the log (`Running`), membership of the map of clocks |
| C120 | `ServiceRecorder`, `RingFileSink`, as C08–C11 and C38; the file between sessions as a spec (`Spec/Resume.lean`: what was not synced may be lost) | the file at any prefix of the operations (`prefix_file`), induction over sessions |
| C121 | as C120 | C39 for the records, `prefix_file` for the contents |
| C122 | the text of the lines of `PesPrinter` (`Model/PesText.lean`), from the command line | round trip with a separate reader of the form in the help text (`Spec/PesText.lean`) |
| C123 | all commands of `Main.main` that write while they read | pairs of runs: every sink only appends to what it has written (`Grows`), the state after the longer input is reached from the one after the shorter (`Grows.feed`) |
| C124 | the options of `LoadOption` with sets | the filters ask only whether an id is a member (`*_congr`), the size of a set of ids depends only on its members |
| C125 | `ServiceFilter` in front of standard output, `ProgramFilter` or `ServiceRecorder` | the packet loop as a fold (`foldP`), the foreign packet leaves the state of the filter alone (`step_foreign`), invariant on the watched PIDs (`Few`) |
| C126 | as C125, two runs | the states of the filter in both runs differ at most in the order of the watched PIDs (`Same`, `run_again`); behind the filter only what it passes on matters (`foldP_sent`) |
| C127 | all of `main` for the commands that print documents | a packet on which `step` changes nothing can be skipped in any run of a sink with history, if the command has not stopped before (`foldP_idle`); per command the invariant "not done" and the PIDs watched |
| C128 | all of `main` | two runs related step by step (`Rel`, `SinkRel`, `feed_rel`): states equal except for the times, which differ by the amount; a clock without time is only related by its PCR (`ClockLater`); the conversion of arguments commutes with moving (`loadProgram_later`) |
| C129 | `main` from the result of docopt on (`Model/Cli.lean`): `ShowHelp`, `Init`, `MakePacketSource`, `MakePacketSink`, all `LoadOption` (an empty `--file`: C146) | each conversion is equivalent to a relation between string and value (`number_iff`, `maybeNumber_iff`, …); the parsing steps in the order of the code |
| C130 | `Clock`, `ClockBaseline` with `Now` before the clock is ready; the calls made by record-service | simulation of the clock by what matters of its calls (`View`), with the ticks counted without wrap-around |
| C131 | the commands with the service filter, as in C95 | a handler that absorbs repeated tables (`Absorbs`), its state reflecting every table in force; two runs side by side (`Follows`) |
| C132 | `main`, all commands | what holds while packets are taken, after the last and after the end (`Through`), composed along the chain of sinks |
| C133 | `main`, filter-program twice | simulation of the run without by the run with the option: the states agree except for the packets kept of the PAT, which no other function looks at (`keep`) |
| C134 | `main`, scan-services, collect-eits and collect-eitpf with different options | simulation: what is kept of the services asked for is the same in both runs (`Same`), other services do not touch it because keys of services are different; without --streaming the same calls are made until the end |
| C135 | `kUsage` (the lines of the usage as patterns of docopt, with the meaning docopt documents) and `main` on the result of docopt | bounds on how often a name occurs in the command lines of a pattern (`least`, `most`, induction over patterns); computed for each line and name; then C129 |
| C136 | `main` for scan-services, filter-service, filter-program and record-service on the same stream | run of the service filter on a prefix is a prefix; packets kept and passed on by the program filter are a subsequence (invariant with the packets of the pending PAT, induction over the stream); C40, C41, C93, C95 |
| C137 | `main` for record-service with two geometries | simulation of two recorders that differ in ring file and last boundary position only, induction over the history; positions by C09; no abort by `step_ok` of C42 carried over |
| C138 | `main` for filter-program with two values of `--wait-until` | two runs are equal until the stricter one stops before streaming; from there it refuses and the exit code is 222; induction over the packets through both filters |
| C139 | `main` for seek-start with two sets of limits | the tables evolve alike whatever is held; two runs hold the same packets until one sends; induction over the packets; C88 for the bytes |
| C140 | `main` for collect-eits with two time limits | the two collectors do the same with a packet, and the one with the longer limit continues when the other one does; induction over the packets |
| C141 | `main` for track-airtime and filter-program-metadata on the same stream | from C94: both are functions of the EITs received; the airtime of an EIT is computed from its metadata document |
| C142 | `main` for filter-program with two end margins | simulation of the two program filters: the states agree but for the times of the event and their PCRs; as long as the PCR does not start over, the smaller end is reached first (`reached_earlier`) |
| C143 | `main` for filter-program with two pairs of margins | the same simulation with a phase in which one filter waits and the other is streaming |
| C144 | `main` for filter-program with two pairs of PCR and time | simulation: the states are equal but for the clock; the two clocks map each time to the same PCR (`image_same`), and after a change of the PID of the PCR they are set to the same values |
| C145 | `main` for filter-program with tags and without | simulation: the states are equal but for the excluded PIDs and the packetizer of the PMT, of which only the PID and whether it has a table matter for anything else (`Alike`) |
| C146 | record-service with an empty `--file` (`Model/StdoutRecorder.lean`): `PosixFile::Sync`, `Trunc` and `Seek` abort on the standard output | both versions are equal until the first call of one of these functions (`Cut`, `SinkCut`), lifted through the filters; the bytes written equal the position in the chunk until then (`Begun`) |
| C147 | filter-service started later on the same broadcast; the tables delivered to the two runs are independent oracles, only their contents agree (`Steady`) | which packets are forwarded is a function of the latest tables (C20), those of a steady broadcast are determined once received (`latest_eq`, `known`); packet by packet comparison (`Joined`) |
| C148 | scan-services on two streams of one broadcast; the streams and the deliveries of the tables are independent | both results are characterised by the latest tables (C93); a sorted list is determined by its members (`sorted_ext`); success from C57 and C113 |
| C149 | filter-program-metadata and track-airtime on a stream and on its two pieces; the tables delivered in the second piece are those of the whole stream, with or without repeated ones (`Handover`) | from C94 for the three runs; the place at which track-airtime ends is unique (`ends_unique`) |
| C150 | two runs of the command, and of the program filter on the same packets (PAT packets may be counted differently) with independent deliveries of the tables (`Spec/Entered.lean`) | invariant `Inv` of the state on a steady broadcast; once everything is known the states differ only in the demux and the packets of the PAT (`eq_put`); then lockstep; for the command, both service filters treat each packet alike once they know the service (`Joined.both_at`, from C147), and what is read after the end of the programme does not matter (`run_extend`); `early_waiting`: no beginning before a PCR reaches it |
| C151 | two runs of record-service in worlds with different input, demux deliveries, ring files and results of file operations (no new model) | C136 (the recording is the output of filter-service from some packet on, in complete blocks) for both, and C147 (the two outputs of filter-service) |
| C152 | filter-program-metadata or track-airtime reading the output of filter-service, each with its own demultiplexer; the packets passed on complete the tables they complete in the stream (`Again`, as for C126; no new model) | induction over `Again`: the output is the stream with packets left out that bring no EIT; C94 for both runs |
| C153 | scan-services reading the output of filter-service, each with its own demultiplexer (`Again`, as for C126; no new model) | induction over `Again`: the tables of the output are those of the stream, the PATs restricted to the service; C93 (the entries in terms of the latest PAT, SDT, NIT) for both runs, and C148's uniqueness of sorted lists |
| C154 | collect-eits or collect-eitpf reading the output of filter-service; packets passed on as they are complete the sections they complete in the stream (`Repeats`, Verif/Spec/BehindEits.lean; no new model) | induction over `Repeats`: the output is the stream with packets left out that bring no EIT section and no TOT; a simulation: such packets do not change the state of the collectors nor end the run |
| C155 | collect-eitpf --streaming on a stream, on its first packets and on the rest (`SameSection`, Verif/Spec/EitpfHandover.lean; no new model); no section is spread over the handover | a simulation between the process that goes on and the new one: what the new one knows the other one knows too, and what only the other one knows it knew at the handover; an invariant: what is known has been printed |
| C156 | sync-clocks reading the output of filter-service; packets passed on as they are complete the tables they complete in the stream (`Again`; no new model) | from C52, C53: what sync-clocks has received is from the stream, but for the PATs, which list only the service selected |
| C157 | collect-eits --streaming on a stream, on its first packets and on the rest (`Unchanging`, `SamePlace`, `SameVersion`, Verif/Spec/EitsHandover.lean; no new model); no section is spread over the handover | from C108: what is written is determined by the rule `Due`; an invariant of two such histories: both know all that the new one has written |

When the code contradicts a property, the negation is proved with a concrete
witness (`…_false`), and what does hold is proved as `…_partial`.

## Disagreements between code and properties

| id | what the code does |
|---|---|
| C07 | `StdoutSink::Flush` keeps the whole buffer after a failed write, including bytes already written; a later flush writes them again |
| C14 | `ComparePcr` compensates a wrap of the right operand only; a PCR shortly after the wrap is "before" one shortly before it |
| C16 | `Clock` cannot tell one wrap from two (53 h without TOT); what it shows then is exact in `C16_any_wraps` |
| C17 | the jump counter survives an invalidation |
| C25 | `ServiceFilter` asserts on null packets when the null PID got into its PID set; further cases in the theorem |
| C28, C71 | consequences of C14: a programme whose end PCR is right before the wrap is not stopped; a programme joined after the wrap is not started |
| C142 | consequence of C14: if the PCR starts over between the end with the smaller and the end with the larger margin, the smaller one is not noticed and the larger margin gives a shorter output (`C142_claim_false`) |
| C157 | the collector keeps versions by the place in the segment, shared by all segments of a table (cf. C46): after a handover a changed section may be taken for known by the new process only (`C157_claim_false`) |
| C158 | filter-service, filter-program or record-service reading the output of filter-service for another service; packets passed on as they are complete the tables they complete in the stream (`Again`; no new model) | from C20, C22, C23, C105: the output begins with a PAT of the first service, at which the second filter stops; filter-program and record-service from C95, their service filter being the second filter |
| C159 | seek-start reading the output of filter-service; packets passed on as they are complete the tables they complete in the stream (`Again`; no new model) | from C113 and C110: the four causes of abnormal termination are excluded one by one, the missing service by what filter-service does with packets of PID 0 (C22); for another service the first packet is the cause (lemma of C158) |
| C31 | packets on the PCR PID bypass the black list when they carry no PCR, while the clock is not in sync, and at the start |
| C32 | `ProgramFilter` asserts when a PAT moves the PMT to another PID and a packet on that PID arrives before the new PMT is complete; a margin or clock time of more than 10825 years overflows a signed product (undefined behaviour); further cases in the theorem |
| C36 | consequence of C14: the maximum duration is missed if it ends right before the wrap |
| C72 | `StartSeeker::Seek` and `End` ignore refusals of packets held back; the rest of them is dropped, later packets are sent |
| C73 | without `--max-duration` its default 0 is used as a limit: output starts with the second PCR |
| C74 | `StartSeeker` asserts on a PAT without the service (its help text does not require filter-service in front of it) |
| C42 | `ServiceRecorder` (through `Clock::UpdatePcr`) asserts on a PCR with an extension of 300 or more; it asserts on a PAT without the service |
| C75 | `ServiceRecorder` does not open an event again that is extended (same event id) after it was over |
| C44 | `EitCollector` uses the low bits of the table id only: table 0x60 is taken for table 0x50 of the same service |
| C45 | `TableProgress::CheckCollected` leaves the last section of the segment out of the version check, so that section is never updated; versions are kept per place in the segment, not per section |
| C46 | for the same reason, segments of different versions are emitted with every repetition |
| C47 | "unused" marks of a segment are not withdrawn when a later section announces more sections |
| C77 | `CollectProgress::UpdateUnused` does not recompute completion |
| C62, C78 | `MakeEventsJsonValue` does not check the length of the descriptors against the data: a malformed event loop makes it read outside the section; every command that prints EIT is affected |
| C51 | `EitpfCollector::Done` compares the number of service triples with the number of service ids, and `following_versions_.at` throws if the maps have different keys; it waits for equal versions of both sections |
| C52 | `PcrSynchronizer::HandlePmt` does not check that the PMT is one of an audio/video service; with shared PMT PIDs it counts for another service |
| C53 | `PcrSynchronizer::HandleTime` overwrites the time while PCRs are being captured |
| C54, C79 | `PcrSynchronizer::HandleSdt` adds to `pmt_count_` for every SDT: with a repeated SDT the number of PMTs is never reached; after the TOT is watched, services of a new SDT are not waited for.  Without audio/video services, or if no service has a clock, the command reads the whole input and fails |
| C80 | `FormatPcr` (called for a log message) asserts on PCRs out of range |
| C57 | `ServiceScanner::HandleSdt` does not compare the stream id with the PAT that comes later; `HandlePat` clears the NIT with every PAT that has a network PID other than 0x10; the PID 0x10 is removed and never added again |
| C60 | `ClockBaseline::PcrToTime` has no compensation of wrap-arounds; `PesPrinter` uses it directly |
| C81 | `Clock::UpdatePcr` and `FormatPcr` assert on PCRs out of range |
| C82 | `PesPrinter::HandlePat` resets the PMTs also for a PAT that does not come on PID 0 |
| C66 | `SidSet::Add` drops strings like `0x0400` silently (an empty set means all services) and cuts numbers to 16 bits |
| C84 | `LoadOption` cuts ids and PIDs to 16 bits; a `--clock-time` or `--wait-until` within 9 hours of 2^63 ms overflows (`C84_any`) |
| C85 | `StartSeekerOption::max_packets` has 32 bits: 2^32 is taken for 0; negative limits are accepted; for a negative duration the limit is computed modulo 2^64 before it is taken modulo the period (`C36_limit`), and one of more than 10825 years is multiplied with overflow (C110) |
| C91 | `PosixFile` only logs that a file could not be opened, and `FileSource` takes a read error for the end of the stream: most commands end with 0 |
| C96 | `--only-actual` and `--only-others` may be given together, which `EitCollector` excludes by an assertion; otherwise the abnormal terminations are those listed for the single commands |
| C103 | filter-program-metadata and record-service do not show the extended texts of events, and show undefined times as numbers; the help texts promise the format of collect-eits |
| C114 | `MakeExtendedEventJsonValue(ts::DescriptorList)` (not called by a command) does not check the length of the items against the size of the descriptor and reads outside of it |
| C104 | the last message of record-service has the type "stop"; the help text says "end" |
| C70 | `WaitReady` ignores PCRs until the event time is known, so an earlier TOT is paired with a later PCR |

Not properties of their own, but observed: `StdoutSink` reports exit code 0 even
if writing failed; with `MIRAKC_ARIB_DISABLE_LOGGING` the assertion macros are
empty, so `assertFail` outcomes of the model are undetected in that build; a
programme with duration 0 and no end margin stops at once with exit code 0;
"reached the end PCR" before the start yields the sink's exit code, not 222; the example in
the help text of print-pes shows a PAT without its PID, and PCRs before the first PMT, which
are not printed.

## Axioms per theorem

From `#print axioms` on every theorem of MANIFEST.json (namespace `Mirakc.Props` left out).

* none (5): C14_claim_false, C17_claim_false, C84_claim_false, C85_claim_false, C114_any
* `Classical.choice`, `Quot.sound`, `propext` (269): C01_chunking_independent, C02_aligned_lossless, C03_only_genuine_packets, C04_no_fault, C05_packet_loop, C06_stdout_faithful, C07_stdout_failure_partial, C08_ring_content, C09_ring_position, C10_chunk_durable, C11_ring_bounded, C12_errors_reported, C13_no_assertion, C14_compare_pcr_partial, C15_time_to_pcr, C15_within, C15_program_filter, C16_claim_false, C16_clock_now_partial, C16_any_wraps, C17_jumps_partial, C17_any, C18_unix_jst, C19_format_pcr, C20_any_tables, C20_forward_iff, C20_tables, C21_intact, C21_downstream, C22_pat_rewritten, C23_missing_service, C23_exit_code, C24_time_limit, C25_no_abort_partial, C26_silent, C26_tables, C27_start, C28_stream_partial, C28_downstream, C28_no_wrap, C29_range, C30_exit_code, C30_stop, C31_claim_false, C31_selection_partial, C32_no_abort_partial, C33_resync, C34_output, C35_bounded, C36_transition_partial, C37_message_order, C38_chunks, C39_events_tile, C40_recorded, C40_tables, C41_reset, C42_claim_false, C42_no_abort_partial, C43_only_requested, C44_claim_false, C44_none_missed_partial, C45_claim_false, C45_updates_partial, C46_claim_false, C46_no_repetition_partial, C47_claim_false, C47_complete_partial, C48_end, C49_independent, C50_every_change_once, C51_end_claim_false, C51_end_partial, C51_no_abort_partial, C52_claim_false, C52_clocks_partial, C53_claim_false, C53_time_partial, C54_any_tables, C54_claim_false, C54_tables_partial, C55_exit_code, C56_services, C57_claim_false, C57_lost_nit_claim_false, C57_moved_back_claim_false, C57_finish_partial, C57_any_order_partial, C58_airtime, C59_metadata, C60_claim_false, C60_times_partial, C60_any, C61_events_decoded, C62_memory_safe_partial, C63_png, C64_logos, C65_tags, C66_claim_false, C66_sids_partial, C67_protected, C68_filter_service, C69_exit_code, C69_filter_program, C70_resync_partial, C71_start_partial, C72_refusal_partial, C73_packets_partial, C73_any, C74_no_abort_partial, C75_claim_false, C75_event_open_partial, C76_records, C77_claim_false, C77_ends_partial, C78_claim_false, C78_no_abort_partial, C79_claim_false, C79_complete_partial, C80_claim_false, C80_no_abort_partial, C81_claim_false, C81_stamps_partial, C82_claim_false, C82_followed_partial, C83_recorder_options, C84_any, C85_seeker_options_partial, C85_any, C86_filter_program, C87_record_service, C88_seek_start, C88_bytes, C89_record_service, C89_filter_program, C89_filter_service, C89_seek_start, C90_packets, C90_fragmentation, C91_unreadable_partial, C92_clock_options, C93_scan_services, C93_sync_clocks, C93_collect_eits, C93_collect_eitpf, C94_track_airtime, C94_program_metadata, C95_filter_service, C95_filter_program, C95_record_service, C95_seek_start, C96_both_flags, C96_claim_false, C96_no_abort_partial, C97_lines, C98_watched, C99_print_pes, C99_collect_logos, C100_collect_eits, C100_collect_eitpf, C101_lines, C101_utf8, C102_stdout, C103_claim_false, C103_events_partial, C103_messages_partial, C104_claim_false, C104_types_partial, C105_filter_service, C106_print_pes, C107_sync_clocks, C108_written, C108_collect_eits, C109_written, C109_collect_eitpf, C110_any_tables, C110_seek_start, C110_connected, C111_any_tables, C111_record_service, C112_any_tables, C112_filter_program, C112_connected, C112_any_sink, C113_abnormal, C114_safe_partial, C114_outside, C114_exact, C114_document, C115_event_boundaries, C116_stdout_exact, C117_packet_rule, C118_packet_rule, C119_document, C120_resume, C121_event_data, C122_text, C122_distinct, C123_live, C124_selection, C124_eitpf, C124_tags, C125_foreign, C126_idempotent, C126_pipeline, C127_idle_packets_partial, C128_later, C130_reading, C130_switched, C130_record_service, C131_filter_service, C131_filter_program, C131_record_service, C131_filter_service_received, C131_filter_program_received, C131_record_service_received, C132_exit_code, C132_retry, C133_pre_streaming, C134_scan_services, C134_collect_eitpf, C134_collect_eits, C135_runs, C135_says, C135_refused, C135_help, C136_filter_program, C136_record_service, C136_scan_services, C137_recorder, C137_record_service, C138_later, C138_without, C139_limits, C139_more_packets, C140_shorter, C141_metadata, C141_airtime, C142_end_margin_partial, C143_margins_partial, C144_clock, C145_tags, C145_tags_end, C146_stdout, C147_joined, C148_rescan, C148_found, C149_metadata, C149_airtime, C149_metadata_handover, C149_airtime_handover, C150_entered, C150_filter_program, C150_early, C150_ahead, C151_recordings, C152_metadata, C152_airtime, C153_scan, C154_collect_eits, C154_collect_eitpf, C155_collect_eitpf, C156_sync_clocks, C157_collect_eits_partial, C157_claim_false, C158_other_service, C158_filter_program, C158_record_service, C159_seek_start, C159_other_service
* `Quot.sound`, `propext` (23): C07_claim_false, C28_claim_false, C28_order, C29_other_eit, C32_claim_false, C36_limit, C51_claim_false, C62_claim_false, C70_claim_false, C71_claim_false, C84_ids_partial, C91_claim_false, C114_items, C126_early_cat, C127_first_packet, C128_time_of_day, C129_args, C129_refused, C129_help, C131_seek_start_differs, C142_claim_false, C143_claim_false, C152_early_eit
* `propext` (7): C25_claim_false, C34_downstream, C36_claim_false, C72_claim_false, C73_claim_false, C74_claim_false, C114_claim_false
