import Verif.Model.EitCollector
/-
Model of `EitpfCollector`, src/eitpf_collector.hh.

Simplified: as for `EitCollector`, the section is kept instead of the JSON document.
-/
namespace Mirakc.EitpfCollector
open Mirakc.EitCollector (DemuxCall)

/-- `EitpfCollectorOption`, src/eitpf_collector.hh:19-24. -/
structure Opt where
  sids : SidSet := []
  streaming : Bool := false
  present : Bool := true
  following : Bool := true
deriving DecidableEq

/-- `std::map<uint64_t, uint8_t>`: ordered by the key. -/
abbrev Versions := List (UInt64 × Fin 32)

/-- `versions[k] = v`. -/
def Versions.set (k : UInt64) (v : Fin 32) : Versions → Versions
  | [] => [(k, v)]
  | (k', v') :: l =>
    if k < k' then (k, v) :: (k', v') :: l
    else if k == k' then (k, v) :: l
    else (k', v') :: Versions.set k v l

/-- The different ids of a list. -/
def distinct : SidSet → SidSet
  | [] => []
  | s :: l => if l.contains s then distinct l else s :: distinct l

/-- `SidSet::size`, src/base.hh:58-60: the number of different ids. -/
def sidsSize (s : SidSet) : Nat := (distinct s).length

/-- Data members, src/eitpf_collector.hh:141-142. -/
structure St where
  present : Versions := []
  following : Versions := []
deriving DecidableEq

/-- `IsCollected`, src/eitpf_collector.hh:47-53. -/
def isCollected (e : EitSection) (vs : Versions) : Bool :=
  match vs.lookup e.serviceTriple with
  | none => false
  | some v => v == e.version

/-- The loop of `Done`, src/eitpf_collector.hh:67-71; `at` throws if there is no entry. -/
def sameVersions (following : Versions) : Versions → Except Fault Bool
  | [] => .ok true
  | (k, v) :: l =>
    match following.lookup k with
    | none => .error .uncaught
    | some v' => if v' != v then .ok false else sameVersions following l

/-- `Done`, src/eitpf_collector.hh:55-75. -/
def done (o : Opt) (s : St) : Except Fault Bool :=
  if o.streaming then .ok false
  else if o.present && s.present.length != sidsSize o.sids then .ok false
  else if o.following && s.following.length != sidsSize o.sids then .ok false
  else if o.present && o.following then sameVersions s.following s.present
  else .ok true

/-- `handleSection`, src/eitpf_collector.hh:77-132.  The second result is the section
written, if any. -/
def handleSection (o : Opt) (s : St) (x : Section) : Except Fault (St × Option EitSection) :=
  if !x.valid then .ok (s, none)
  else if x.tid != 0x4E then .ok (s, none)
  else if x.payload.length < EitSection.payloadFixedSize then .ok (s, none)
  else if x.next then .ok (s, none)
  else do
    let e ← EitSection.make x
    if !o.sids.isEmpty && !o.sids.contains e.sid then .ok (s, none)
    else if e.sectionNumber == 0 then
      if isCollected e s.present then .ok (s, none)
      else if o.present then do
        let _ ← makeJsonEit (fun _ => none) e
        .ok ({ s with present := s.present.set e.serviceTriple e.version }, some e)
      else .ok ({ s with present := s.present.set e.serviceTriple e.version }, none)
    else if e.sectionNumber == 1 then
      if isCollected e s.following then .ok (s, none)
      else if o.following then do
        let _ ← makeJsonEit (fun _ => none) e
        .ok ({ s with following := s.following.set e.serviceTriple e.version }, some e)
      else .ok ({ s with following := s.following.set e.serviceTriple e.version }, none)
    else .ok (s, none)

/-- A call from the demultiplexer; there is no table handler. -/
def handleEvent (o : Opt) (s : St) : SectionEvent → Except Fault (St × Option EitSection)
  | .sect x => handleSection o s x
  | .table _ => .ok (s, none)

/-- The calls made while a packet is fed. -/
def handleEvents (o : Opt) : List SectionEvent → St → Except Fault (St × List DemuxCall)
  | [], s => .ok (s, [])
  | e :: es, s => do
    let (s, out) ← handleEvent o s e
    let (s, calls) ← handleEvents o es s
    .ok (s, ⟨e, out⟩ :: calls)

/-- The PIDs watched, src/eitpf_collector.hh:32. -/
def watched : PidSet := [pidEit]

/-- `HandlePacket`, src/eitpf_collector.hh:38-44. -/
def step (o : Opt) (s : St) (i : SectionInput) : Except Fault (St × List DemuxCall × Bool) := do
  let (s, calls) ← handleEvents o (handedOver watched i) s
  let d ← done o s
  .ok (s, calls, !d)

/-- The collector with its history. -/
abbrev Hist := History SectionInput St (List DemuxCall)

/-- `EitpfCollector` as a sink.  `Start`, `End` and `GetExitCode` are those of
`PacketSink`, src/packet_sink.hh:13-24. -/
def sink (o : Opt) : Sink SectionInput Hist := historySink (step o) .ok fun _ => exitSuccess

end Mirakc.EitpfCollector
