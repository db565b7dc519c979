import Verif.Model.EventsJson
import Verif.Model.History
/-
Model of `EitCollector` and its progress classes, src/eit_collector.hh.

Simplified: loops over array elements are written as maps over lists; of the JSON
document made of a section, only the failure to make it matters here, so the section is
kept instead.
-/
namespace Mirakc.EitCollector

/-- `EitCollectorOption`, src/eit_collector.hh:23-30. -/
structure Opt where
  sids : SidSet := []
  xsids : SidSet := []
  timeLimit : Int := 30000
  streaming : Bool := false
  collectActual : Bool := true
  collectOthers : Bool := true
deriving DecidableEq

/-- `1 << i` for `i < 8`. -/
def mask (i : Nat) : UInt8 := 1 <<< UInt8.ofNat i

/-- `for (i = from; i < 8; ++i) u |= 1 << i;` -/
def orFrom (u : UInt8) (start : Nat) : UInt8 :=
  (List.range' start (8 - start)).foldl (fun u i => u ||| mask i) u

/-- `TableProgress`, src/eit_collector.hh:32-210; constructor 34-38.
`kNumSegments` is 32, `kNumSections` is 256. -/
structure TableProgress where
  collected : List UInt8 := List.replicate 32 0
  unused : List UInt8 := List.replicate 32 0
  versions : List UInt8 := List.replicate 256 0xFF
  completed : Bool := false
deriving DecidableEq

namespace TableProgress

/-- `Reset`, src/eit_collector.hh:42-48; the versions are kept. -/
def reset (p : TableProgress) : TableProgress :=
  { p with collected := p.collected.map fun _ => 0, unused := p.unused.map fun _ => 0,
           completed := false }

/-- `Unuse`, src/eit_collector.hh:50-55. -/
def unuse (p : TableProgress) : TableProgress :=
  { p with unused := p.unused.map fun _ => 0xFF, completed := true }

/-- `CheckCompleted`, src/eit_collector.hh:181-188. -/
def checkCompleted (p : TableProgress) : Bool :=
  (p.collected.zip p.unused).all fun (c, u) => (c ||| u) == 0xFF

/-- `Update`, src/eit_collector.hh:57-81.  `CheckConsistency` (149-179) is constantly
true. -/
def update (p : TableProgress) (e : EitSection) : TableProgress :=
  let unused := p.unused.mapIdx fun i u => if e.lastSegmentIndex + 1 ≤ i then 0xFF else u
  let unused := unused.modify e.segmentIndex fun u => orFrom u (e.lastSectionIndex + 1)
  let collected := p.collected.modify e.segmentIndex fun c => c ||| mask e.sectionIndex
  let versions := p.versions.mapIdx fun i v =>
    if e.sectionIndex ≤ i && i ≤ e.lastSectionIndex then UInt8.ofNat e.version.val else v
  let p := { p with collected := collected, unused := unused, versions := versions }
  { p with completed := p.checkCompleted }

/-- `ts::Time::Fields(timestamp).hour`: times are ms since midnight of some day. -/
def hour (t : Int) : Nat := ((t / 3600000) % 24).toNat

/-- `UpdateUnused`, src/eit_collector.hh:83-90. -/
def updateUnused (p : TableProgress) (t : Int) : TableProgress :=
  let unused := p.unused.mapIdx fun i u => if i < hour t / 3 then 0xFF else u
  let p := { p with unused := unused }
  { p with completed := p.checkCompleted }

/-- `CheckCollected`, src/eit_collector.hh:92-103. -/
def checkCollected (p : TableProgress) (e : EitSection) : Bool :=
  ((List.range' e.sectionIndex (e.lastSectionIndex - e.sectionIndex)).all fun i =>
    let v := p.versions.getD i 0xFF
    v != 0xFF && v == UInt8.ofNat e.version.val) &&
  (p.collected.getD e.segmentIndex 0 &&& mask e.sectionIndex) != 0

end TableProgress

/-- `TableGroupProgress`, src/eit_collector.hh:212-306; `lastTableIndex` is `none` for
-1.  `kNumTables` is 8.  The change counter is only shown. -/
structure GroupProgress where
  tables : List TableProgress := List.replicate 8 {}
  lastTableIndex : Option Nat := none
  completed : Bool := false
deriving DecidableEq

namespace GroupProgress

/-- `CheckConsistency`, src/eit_collector.hh:278-289. -/
def checkConsistency (g : GroupProgress) (e : EitSection) : Bool :=
  g.lastTableIndex == some e.lastTableIndex

/-- `CheckCompleted`, src/eit_collector.hh:291-298. -/
def checkCompleted (g : GroupProgress) : Bool := g.tables.all (·.completed)

/-- The first part of `Update`, src/eit_collector.hh:218-226. -/
def clear (g : GroupProgress) (e : EitSection) : GroupProgress :=
  { g with
    tables := (g.tables.map (·.reset)).mapIdx fun i t =>
      if e.lastTableIndex + 1 ≤ i then t.unuse else t,
    completed := false }

/-- `Update`, src/eit_collector.hh:217-232. -/
def update (g : GroupProgress) (e : EitSection) : GroupProgress :=
  let g := if g.checkConsistency e then g else g.clear e
  let g := { g with tables := g.tables.modify e.tableIndex (·.update e),
                    lastTableIndex := some e.lastTableIndex }
  { g with completed := g.checkCompleted }

/-- `UpdateUnused`, src/eit_collector.hh:234-237. -/
def updateUnused (g : GroupProgress) (t : Int) : GroupProgress :=
  let g := { g with tables := g.tables.modify 0 (·.updateUnused t) }
  { g with completed := g.checkCompleted }

/-- `CheckCollected`, src/eit_collector.hh:239-247. -/
def checkCollected (g : GroupProgress) (e : EitSection) : Bool :=
  match g.lastTableIndex with
  | none => false
  | some i =>
    if i != e.lastTableIndex then false
    else (g.tables.getD e.tableIndex {}).checkCollected e

/-- `IsCompleted`, src/eit_collector.hh:249-254. -/
def isCompleted (g : GroupProgress) : Bool :=
  match g.lastTableIndex with
  | none => true
  | some _ => g.completed

end GroupProgress

/-- `ServiceProgress`, src/eit_collector.hh:308-356. -/
structure ServiceProgress where
  basic : GroupProgress := {}
  extra : GroupProgress := {}
deriving DecidableEq

namespace ServiceProgress

/-- `Update`, src/eit_collector.hh:313-319. -/
def update (s : ServiceProgress) (e : EitSection) : ServiceProgress :=
  if e.isBasic then { s with basic := s.basic.update e } else { s with extra := s.extra.update e }

/-- `UpdateUnused`, src/eit_collector.hh:321-324. -/
def updateUnused (s : ServiceProgress) (t : Int) : ServiceProgress :=
  { basic := s.basic.updateUnused t, extra := s.extra.updateUnused t }

/-- `CheckCollected`, src/eit_collector.hh:326-331. -/
def checkCollected (s : ServiceProgress) (e : EitSection) : Bool :=
  if e.isBasic then s.basic.checkCollected e else s.extra.checkCollected e

/-- `IsCompleted`, src/eit_collector.hh:333-335. -/
def isCompleted (s : ServiceProgress) : Bool := s.basic.isCompleted && s.extra.isCompleted

end ServiceProgress

/-- `std::map<uint64_t, ServiceProgress>`; the order of the entries is only used for
showing the progress, here it is that of insertion. -/
abbrev Services := List (UInt64 × ServiceProgress)

/-- `services_[key].Update(eit)`: the entry is made if it does not exist. -/
def Services.update (l : Services) (k : UInt64) (e : EitSection) : Services :=
  match l with
  | [] => [(k, ({} : ServiceProgress).update e)]
  | (k', s) :: l => if k' == k then (k', s.update e) :: l else (k', s) :: Services.update l k e

/-- `CollectProgress`, src/eit_collector.hh:358-424. -/
structure Progress where
  services : Services := []
  completed : Bool := false
deriving DecidableEq

namespace Progress

/-- `CheckCompleted`, src/eit_collector.hh:411-418. -/
def checkCompleted (p : Progress) : Bool := p.services.all (·.2.isCompleted)

/-- `Update`, src/eit_collector.hh:363-366. -/
def update (p : Progress) (e : EitSection) : Progress :=
  let p := { p with services := p.services.update e.serviceTriple e }
  { p with completed := p.checkCompleted }

/-- `UpdateUnused`, src/eit_collector.hh:368-372; `completed_` is not recomputed. -/
def updateUnused (p : Progress) (t : Int) : Progress :=
  { p with services := p.services.map fun (k, s) => (k, s.updateUnused t) }

/-- `CheckCollected`, src/eit_collector.hh:374-379. -/
def checkCollected (p : Progress) (e : EitSection) : Bool :=
  match p.services.lookup e.serviceTriple with
  | none => false
  | some s => s.checkCollected e

end Progress

/-- Data members, src/eit_collector.hh:592-600.  `ts::Time` is initially 0. -/
structure St where
  hasTimestamp : Bool := false
  timestamp : Int := 0
  lastUpdated : Int := 0
  progress : Progress := {}
deriving DecidableEq

/-- `handleSection`, src/eit_collector.hh:473-521.  The second result is the section
written, if any. -/
def handleSection (o : Opt) (s : St) (x : Section) : Except Fault (St × Option EitSection) :=
  if !x.valid then .ok (s, none)
  else if (0x50 ≤ x.tid && x.tid ≤ 0x5F && !o.collectActual) ||
      (0x60 ≤ x.tid && x.tid ≤ 0x6F && !o.collectOthers) ||
      !(0x50 ≤ x.tid && x.tid ≤ 0x6F) then .ok (s, none)
  else if x.next then .ok (s, none)
  else if x.payload.length < EitSection.payloadFixedSize then .ok (s, none)
  else do
    let e ← EitSection.make x
    if !o.sids.isEmpty && !o.sids.contains e.sid then .ok (s, none)
    else if !o.xsids.isEmpty && o.xsids.contains e.sid then .ok (s, none)
    else if s.progress.checkCollected e then .ok (s, none)
    else
      -- WriteEitSection, UpdateProgress (src/eit_collector.hh:561-571); whether
      -- the document can be made does not depend on the decoding of dates
      let _ ← makeJsonEit (fun _ => none) e
      .ok ({ s with lastUpdated := s.timestamp, progress := s.progress.update e }, some e)

/-- `HandleTime`, src/eit_collector.hh:546-555. -/
def handleTime (s : St) (t : Int) : St :=
  let s := { s with timestamp := t, progress := s.progress.updateUnused t }
  if !s.hasTimestamp then { s with lastUpdated := s.timestamp, hasTimestamp := true } else s

/-- `handleTable` and `HandleTot`, src/eit_collector.hh:523-544. -/
def handleTable (s : St) (t : Table) : St :=
  match t.body with
  | .tot time => if t.valid then handleTime s time else s
  | _ => s

/-- A call from the demultiplexer, and the section written during it. -/
structure DemuxCall where
  event : SectionEvent
  out : Option EitSection
deriving DecidableEq

/-- A call from the demultiplexer. -/
def handleEvent (o : Opt) (s : St) : SectionEvent → Except Fault (St × Option EitSection)
  | .sect x => handleSection o s x
  | .table t => .ok (handleTable s t, none)

/-- The calls made while a packet is fed. -/
def handleEvents (o : Opt) : List SectionEvent → St → Except Fault (St × List DemuxCall)
  | [], s => .ok (s, [])
  | e :: es, s => do
    let (s, out) ← handleEvent o s e
    let (s, calls) ← handleEvents o es s
    .ok (s, ⟨e, out⟩ :: calls)

/-- `IsCompleted`, src/eit_collector.hh:573-578. -/
def isCompleted (o : Opt) (s : St) : Bool := if o.streaming then false else s.progress.completed

/-- `CheckTimeout`, src/eit_collector.hh:580-586. -/
def checkTimeout (o : Opt) (s : St) : Bool :=
  if o.streaming then false else decide (s.timestamp - s.lastUpdated ≥ o.timeLimit)

/-- The PIDs watched, src/eit_collector.hh:439-440. -/
def watched : PidSet := [pidTot, pidEit]

/-- `HandlePacket`, src/eit_collector.hh:459-470. -/
def step (o : Opt) (s : St) (i : SectionInput) : Except Fault (St × List DemuxCall × Bool) := do
  let (s, calls) ← handleEvents o (handedOver watched i) s
  .ok (s, calls, if isCompleted o s then false else if checkTimeout o s then false else true)

/-- The collector with its history. -/
abbrev Hist := History SectionInput St (List DemuxCall)

/-- The constructor, src/eit_collector.hh:431-441. -/
def init (o : Opt) : Except Fault Hist := do
  assertThat (o.collectActual || o.collectOthers)
  .ok { st := {} }

/-- `EitCollector` as a sink.  `Start` (src/eit_collector.hh:445-448) and `End` (450-457)
only log; `GetExitCode` is that of `PacketSink`, src/packet_sink.hh:22-24. -/
def sink (o : Opt) : Sink SectionInput Hist := historySink (step o) .ok fun _ => exitSuccess

end Mirakc.EitCollector
