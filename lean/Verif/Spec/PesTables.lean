import Verif.Spec.PesPrinter
/-
Specification of print-pes: the tables that it looks at, and the lines that it prints for
them.
-/
namespace Mirakc.Spec.PesPrinter
open Mirakc.PesPrinter

/-- The tables looked at. -/
def looked (items : List (Line Input Did)) : List Table := items.flatMap (·.did.tables)

/-- The services followed and the PIDs of their PMTs: those of the latest PAT; none if it was
on another PID than 0. -/
def services (l : List Table) : List (Nat × Nat) :=
  match (l.filterMap patOf).getLast? with
  | some (0, pat) => pat.pmts.entries
  | _ => []

/-- The tables of the PID are looked at: it is that of a PMT of the services followed; or that
of PAT, CAT, EIT or TOT, and never was that of a PMT. -/
def Watched (l : List Table) (pid : Nat) : Prop :=
  (∃ sid, (sid, pid) ∈ services l) ∨
  pid ∈ [0x00, 0x01, 0x12, 0x14] ∧ ∀ l', l' <+: l → ∀ sid, (sid, pid) ∉ services l'

/-- `ts` are the tables of a packet of the PID, and those looked at were `seen`, one after the
other; before there were `l`. -/
inductive Looked (pid : Nat) : (l ts seen : List Table) → Prop where
  | nil (l) : Looked pid l [] []
  | look (l t ts seen) : Watched l pid → Looked pid (l ++ [t]) ts seen → Looked pid l (t :: ts) (t :: seen)
  | skip (l t ts seen) : ¬ Watched l pid → Looked pid l ts seen → Looked pid l (t :: ts) seen

/-- The latest PAT lists no services, and is on PID 0. -/
def Deserted (l : List Table) : Prop :=
  ∃ pat, (l.filterMap patOf).getLast? = some (0, pat) ∧ pat.pmts.entries = []

/-- What a stream of a PMT is. -/
def kind (st : Stream) : Kind :=
  match st.isAudio, st.isVideo, st.isSubtitles, st.tag with
  | true, _, _, _ => .audio
  | false, true, _, _ => .video
  | false, false, true, _ => .subtitle
  | false, false, false, none => .other
  | false, false, false, some tag =>
    if tag / 8 = 6 then .aribSubtitle else if tag / 8 = 7 then .aribSuperimposedText else .other

/-- What the stream on the PID is, by the latest PMT with the stream. -/
def streamKind (pid : Nat) (l : List Table) : Option Kind :=
  ((l.filterMap fun t => pmtOf (.tab t)).filterMap (·.streams.find? pid)).getLast?.map kind

/-- What is printed for a table, after the tables `l`. -/
def text (l : List Table) (t : Table) : List PLine :=
  match t.valid, t.body with
  | true, .pat pat =>
    { msg := .pat t.version t.sourcePid } :: pat.pmts.entries.map fun e => { msg := .service e.1 e.2 }
  | true, .cat _ => [{ msg := .cat t.version }]
  | true, .pmt pmt =>
    { msg := .pmt pmt.serviceId pmt.pcrPid t.version } ::
      pmt.streams.entries.map fun e => { msg := .stream e.1 (kind e.2) e.2.streamType }
  | true, .eit eit =>
    if eit.serviceId ∈ (services l).map (·.1) then
      { msg := .eit eit.serviceId t.version } :: eit.events.mapIdx fun n ev =>
        { msg := .event n ev.eventId ev.startTime (ev.startTime + 1000 * ev.duration) (ev.duration.tdiv 60) }
    else []
  | true, .tot time => [{ time := some time, msg := .tot }]
  | _, _ => []

/-- What is printed for the tables, one after the other. -/
def texts : (l ts : List Table) → List PLine
  | _, [] => []
  | l, t :: ts => text l t ++ texts (l ++ [t]) ts

end Mirakc.Spec.PesPrinter
