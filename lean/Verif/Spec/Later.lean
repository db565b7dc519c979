import Verif.Spec.Main
/-
Vocabulary for C128: the same broadcast at another time.
-/
namespace Mirakc.Spec.Main
open Mirakc.Main

/-- The event, `T` milliseconds later. -/
def laterEvent (T : Int) (e : Event) : Event := { e with startTime := e.startTime + T }
/-- The EIT, `T` milliseconds later. -/
def laterEit (T : Int) (e : Eit) : Eit := { e with events := e.events.map (laterEvent T) }
/-- The table, `T` milliseconds later: only EITs and TOTs have times. -/
def laterTable (T : Int) (t : Table) : Table :=
  { t with body := match t.body with
    | .eit e => .eit (laterEit T e)
    | .tot time => .tot (time + T)
    | b => b }
/-- What is completed by a packet for collect-eits; sections are printed, not interpreted. -/
def laterSection (T : Int) : SectionEvent → SectionEvent
  | .sect s => .sect s
  | .table t => .table (laterTable T t)

/-- The world, `T` milliseconds later by the time of the broadcast and `L` milliseconds later by the clock of
the machine. -/
def later (T L : Int) (w : World) : World :=
  { w with
    tables := fun n => (w.tables n).map (laterTable T)
    tables2 := fun n x => (w.tables2 n x).map (laterTable T)
    sections := fun n => (w.sections n).map (laterSection T)
    times := fun n => ((w.times n).1 + L, (w.times n).2.1 + L, (w.times n).2.2 + L) }

/-- The command, with its times `T` milliseconds later. -/
def laterCmd (T : Int) : Cmd → Cmd
  | .filterProgram a => .filterProgram { a with clockTime := a.clockTime + T, waitUntil := a.waitUntil.map (· + T) }
  | c => c

/-- A message of record-service, `T` milliseconds later. -/
def laterMsg (T : Int) : ServiceRecorder.Msg → ServiceRecorder.Msg
  | .start => .start
  | .stop r => .stop r
  | .chunk time pos => .chunk (time + T) pos
  | .eventStart e ev time pos => .eventStart (laterEit T e) (laterEvent T ev) (time + T) pos
  | .eventUpdate e ev time pos => .eventUpdate (laterEit T e) (laterEvent T ev) (time + T) pos
  | .eventEnd e ev time pos => .eventEnd (laterEit T e) (laterEvent T ev) (time + T) pos

/-- A line of print-pes, `T` milliseconds later. -/
def laterLine (T : Int) (l : PesPrinter.PLine) : PesPrinter.PLine :=
  { l with
    time := l.time.map (· + T)
    msg := match l.msg with
      | .event i eid start stop minutes => .event i eid (start + T) (stop + T) minutes
      | m => m }

/-- A document, `T` milliseconds later. -/
def laterDoc (T : Int) : Doc → Doc
  | .clocks l => .clocks (l.map fun c => { c with time := c.time + T })
  | .metadata m => .metadata { m with events := m.events.map fun e => { e with startTime := e.startTime + T } }
  | .airtime a => .airtime { a with startTime := a.startTime + T }
  | .message m => .message (laterMsg T m)
  | .line l => .line (laterLine T l)
  | d => d

/-- The result, `T` milliseconds later. -/
def laterEnded (T : Int) (e : Ended) : Ended := { e with docs := e.docs.map (laterDoc T) }

/-- The time on the JST time line is a signed number of 64 bits. -/
def Dated (t : Int) : Prop := -9223372036854775808 ≤ t + 32400000 ∧ t + 32400000 ≤ 9223372036854775807

/-- The command can be given both times; collect-eits also looks at the time of day. -/
def Movable (T : Int) : Cmd → Prop
  | .collectEits .. => T % 86400000 = 0
  | .filterProgram a => Dated a.clockTime ∧ Dated (a.clockTime + T) ∧
      ∀ t, a.waitUntil = some t → Dated t ∧ Dated (t + T)
  | _ => True

end Mirakc.Spec.Main
