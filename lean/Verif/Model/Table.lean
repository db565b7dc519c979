import Verif.Model.PacketSource
import Verif.Model.Clock
/-
Packets and tables as the filters see them, and the section demultiplexer.

TSDuck is not part of the repository.  `ts::TSPacket` is represented by the fields
the code reads; a `ts::BinaryTable` by its source PID, its validity after
deserialisation and its deserialised content; `ts::SectionDemux` by the set of PIDs
it was asked to watch.  Which tables a packet completes is not computed but given
together with the packet (`Input`), and every theorem quantifies over it.
-/
namespace Mirakc

/-- `ts::TSPacket`: `getPID()`, `getPUSI()`, `getPCR()` (`none`: no PCR or
`ts::INVALID_PCR`), `getPTS()`, `getDTS()`; `content` stands for all other bytes. -/
structure Packet where
  pid : Nat
  pusi : Bool := false
  pcr : Option Int := none
  pts : Option Int := none
  dts : Option Int := none
  content : Nat := 0
deriving DecidableEq

/-- `std::map<uint16_t, α>` and TSDuck's maps with integer keys: entries in
increasing key order. -/
structure OMap (α : Type) where
  entries : List (Nat × α)
  sorted : entries.Pairwise (fun a b => a.1 < b.1) := by decide
deriving DecidableEq

namespace OMap

/-- `find` / `at` / `operator[]` on an existing key. -/
def find? {α} (m : OMap α) (k : Nat) : Option α := m.entries.lookup k

/-- The keys in order. -/
def keys {α} (m : OMap α) : List Nat := m.entries.map (·.1)

/-- Erase all entries that do not satisfy `p`. -/
def filter {α} (m : OMap α) (p : Nat × α → Bool) : OMap α :=
  ⟨m.entries.filter p, m.sorted.filter p⟩

/-- The empty map. -/
def empty {α} : OMap α := ⟨[], .nil⟩

/-- `map[k] = v` on the entries. -/
def insertAt {α} (k : Nat) (v : α) : List (Nat × α) → List (Nat × α)
  | [] => [(k, v)]
  | (k', v') :: l =>
    if k < k' then (k, v) :: (k', v') :: l
    else if k = k' then (k, v) :: l
    else (k', v') :: insertAt k v l

theorem insertAt_mem {α} {k : Nat} {v : α} {l : List (Nat × α)} {x : Nat × α}
    (h : x ∈ insertAt k v l) : x = (k, v) ∨ x ∈ l := by
  induction l with
  | nil => simpa [insertAt] using h
  | cons y l ih =>
    unfold insertAt at h
    split at h
    · simpa using h
    · split at h
      · rcases List.mem_cons.1 h with h | h
        · exact .inl h
        · exact .inr (List.mem_cons_of_mem _ h)
      · rcases List.mem_cons.1 h with h | h
        · exact .inr (by simp [h])
        · rcases ih h with h | h
          · exact .inl h
          · exact .inr (List.mem_cons_of_mem _ h)

theorem insertAt_sorted {α} (k : Nat) (v : α) {l : List (Nat × α)}
    (hs : l.Pairwise (fun a b => a.1 < b.1)) : (insertAt k v l).Pairwise (fun a b => a.1 < b.1) := by
  induction l with
  | nil => exact List.pairwise_singleton _ _
  | cons y l ih =>
    obtain ⟨h1, h2⟩ := List.pairwise_cons.1 hs
    unfold insertAt
    split
    · next hk =>
      refine List.pairwise_cons.2 ⟨fun x hx => ?_, hs⟩
      rcases List.mem_cons.1 hx with rfl | hx
      · exact hk
      · exact Nat.lt_trans hk (h1 x hx)
    · split
      · next hk => exact List.pairwise_cons.2 ⟨fun x hx => by have := h1 x hx; omega, h2⟩
      · next hk1 hk2 =>
        refine List.pairwise_cons.2 ⟨fun x hx => ?_, ih h2⟩
        rcases insertAt_mem hx with rfl | hx
        · show _ < k; omega
        · exact h1 x hx

/-- `map[k] = v`. -/
def set {α} (m : OMap α) (k : Nat) (v : α) : OMap α :=
  ⟨insertAt k v m.entries, insertAt_sorted k v m.sorted⟩

/-- `size()`. -/
def size {α} (m : OMap α) : Nat := m.entries.length

end OMap

/-- `ts::PAT`; `rest` stands for the other fields. -/
structure Pat where
  tsId : Nat
  nitPid : Nat := 0x10
  /-- service id → PID of its PMT -/
  pmts : OMap Nat
  rest : Nat := 0
deriving DecidableEq

/-- A descriptor: tag, and the `ca_pid` that `ts::CADescriptor` yields for it;
`rest` stands for its other content. -/
structure Desc where
  tag : Nat
  caPid : Nat := 0x1FFF
  rest : Nat := 0
deriving DecidableEq

/-- `ts::DID_CA`. -/
def didCa : Nat := 0x09

/-- The `ca_pid`s visited by the loop `i = descs.search(DID_CA); while (i < size)
{ ...; i = descs.search(DID_CA, i + 1); }` (src/service_filter.hh:222-228, 250-256).
Simplified: the loop is written as a filter. -/
def caPids (descs : List Desc) : List Nat := (descs.filter (·.tag == didCa)).map (·.caPid)

/-- `ts::CAT`. -/
structure Cat where
  descs : List Desc
deriving DecidableEq

/-- `ts::PMT::Stream`: `isVideo()`, `isAudio()`, `isSubtitles()`, `getComponentTag()`,
`stream_type`; `rest` stands for everything else. -/
structure Stream where
  isVideo : Bool := false
  isAudio : Bool := false
  isSubtitles : Bool := false
  tag : Option Nat := none
  rest : Nat := 0
  streamType : Nat := 0
deriving DecidableEq

/-- `ts::PMT`; `rest` stands for the other fields. -/
structure Pmt where
  serviceId : Nat
  pcrPid : Nat
  descs : List Desc := []
  /-- PID → stream -/
  streams : OMap Stream
  rest : Nat := 0
deriving DecidableEq

/-- `ts::EIT::Event`: id, start time (JST, ms), duration in seconds. -/
structure Event where
  eventId : Nat
  startTime : Int
  duration : Int
  rest : Nat := 0
deriving DecidableEq

/-- `ts::EIT` (present/following actual). -/
structure Eit where
  serviceId : Nat
  tsId : Nat := 0
  onetwId : Nat := 0
  events : List Event
deriving DecidableEq

/-- `ts::SDT::ServiceEntry`: service type, name, and the logo transmission
descriptor if there is one (transmission type, logo id). -/
structure Service where
  serviceType : Nat
  name : String := ""
  logo : Option (Nat × Int) := none
deriving DecidableEq

/-- `ts::SDT` (actual). -/
structure Sdt where
  tsId : Nat
  onetwId : Nat
  services : OMap Service
deriving DecidableEq

/-- `ts::NIT` (actual): for each transport (`ts_id`, `original_network_id`) the
remote control key ids of its ARIB TS information descriptors, in order. -/
structure Nit where
  transports : List ((Nat × Nat) × List Nat)
deriving DecidableEq

/-- Deserialised content of a table, by table id. -/
inductive Body where
  | pat (t : Pat)
  | cat (t : Cat)
  | pmt (t : Pmt)
  | nit (t : Nit)
  | sdt (t : Sdt)
  | eit (t : Eit)
  /-- `ts::TOT`, its time (JST in ARIB) -/
  | tot (time : Int)
  | other
deriving DecidableEq

/-- `ts::BinaryTable`: source PID, validity of the deserialised table, content, the index of
the first packet of the table in the stream (`getFirstTSPacketIndex()`), and the `version` of
the deserialised table. -/
structure Table where
  sourcePid : Nat
  valid : Bool := true
  body : Body
  firstPacket : Nat := 0
  version : Nat := 0
deriving DecidableEq

/-- A packet with the tables that its arrival completes. -/
structure Input where
  packet : Packet
  tables : List Table := []
deriving DecidableEq

/-- Well-known PIDs of TSDuck. -/
def pidPat : Nat := 0x00
def pidCat : Nat := 0x01
def pidNit : Nat := 0x10
def pidSdt : Nat := 0x11
def pidEit : Nat := 0x12
def pidRst : Nat := 0x13
def pidTot : Nat := 0x14
def pidBit : Nat := 0x24
def pidCdt : Nat := 0x29

/-- `std::unordered_set<ts::PID>` and the PID set of `ts::SectionDemux`; only
membership matters. -/
abbrev PidSet := List Nat

/-- `addPID` / `insert`. -/
def PidSet.add (s : PidSet) (p : Nat) : PidSet := p :: s
/-- `removePID` / `erase`. -/
def PidSet.remove (s : PidSet) (p : Nat) : PidSet := s.filter (· != p)

/-- `demux_.feedPacket(packet)`: the tables completed by the packet are handed to
`handle` one by one, each only if it came from the packet's PID and that PID is
being watched at that moment.  The second result lists the tables handed over, in
order (the calls of `handleTable`). -/
def feedDemux {σ : Type} (watched : σ → PidSet) (handle : σ → Table → Except Fault σ)
    (pid : Nat) : List Table → σ → Except Fault (σ × List Table)
  | [], s => .ok (s, [])
  | t :: ts, s =>
    if t.sourcePid == pid && (watched s).contains pid then do
      let s ← handle s t
      let (s, log) ← feedDemux watched handle pid ts s
      .ok (s, t :: log)
    else
      feedDemux watched handle pid ts s

end Mirakc
