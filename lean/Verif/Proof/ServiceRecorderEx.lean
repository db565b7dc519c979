import Verif.Proof.ServiceRecorderTotal
import Verif.Proof.Run
/-
Concrete recordings for the examples beside the properties of record-service.
-/
namespace Mirakc.Props
open Mirakc.ServiceRecorder Mirakc.Spec Mirakc.Spec.ServiceRecorder

namespace C37ex

/-- The command on a list of packets. -/
def exec (o : Opt) (results : List Int) (is : List ServiceRecorder.Input) :
    Except Fault (Nat × Hist) := do
  let h0 ← init o results
  feedPackets listSource (sink o) (is.length + 1) is h0

theorem recorded_iff {o : Opt} {results : List Int} {is : List ServiceRecorder.Input} {code : Nat}
    {h : Hist} : Recorded o results is code h ↔ exec o results is = .ok (code, h) := by
  constructor
  · rintro ⟨τ, src, t, fuel, h0, h1, h2, h3, h4⟩
    unfold exec
    rw [h3, ok_bind, ← feedPackets_list (sink o) h1 fuel h2]
    exact h4
  · intro h
    unfold exec at h
    obtain ⟨h0, h1, h2⟩ := bind_eq_ok h
    exact ⟨_, listSource, is, _, h0, listSource_yields is, Nat.lt_succ_self _, h1, h2⟩

/-- A computable condition on the outcome. -/
def check (P : Nat → Hist → Bool) : Except Fault (Nat × Hist) → Bool
  | .ok (c, h) => P c h
  | .error _ => false

theorem recorded_of_check {o : Opt} {results : List Int} {is : List ServiceRecorder.Input}
    {P : Nat → Hist → Bool} (h : check P (exec o results is) = true) :
    ∃ c h, Recorded o results is c h ∧ P c h = true := by
  cases he : exec o results is with
  | error e => rw [he] at h; cases h
  | ok r => exact ⟨r.1, r.2, recorded_iff.2 he, by rw [he] at h; exact h⟩

/-- Service 1; a ring of two chunks of 8192 bytes, starting at the second one. -/
def opt : Opt := { sid := 1, chunkSize := 8192, numChunks := 2, startPos := 8192 }
/-- The bytes of a packet. -/
def bytes : List UInt8 := 0x47 :: List.replicate 187 0
/-- The PAT. -/
def pat : Table := { sourcePid := 0, body := .pat { tsId := 7, pmts := ⟨[(1, 0x100)], by decide⟩ } }
/-- A PAT without the service. -/
def pat0 : Table := { sourcePid := 0, body := .pat { tsId := 7, pmts := ⟨[(2, 0x100)], by decide⟩ } }
/-- The PMT: PCR on 0x1ff. -/
def pmt : Table :=
  { sourcePid := 0x100, body := .pmt { serviceId := 1, pcrPid := 0x1ff, streams := ⟨[], by decide⟩ } }
/-- The TOT. -/
def tot : Table := { sourcePid := 0x14, body := .tot 5000 }
/-- An EIT with an event. -/
def eit (ev : Event) : Eit := { serviceId := 1, events := [ev] }
/-- Events: 1 lasts long, 2 ends at 5200 ms, 2' is 2 extended, 3 follows. -/
def ev1 : Event := { eventId := 1, startTime := 0, duration := 100 }
def ev2 : Event := { eventId := 2, startTime := 200, duration := 5 }
def ev2' : Event := { eventId := 2, startTime := 200, duration := 50 }
def ev3 : Event := { eventId := 3, startTime := 5200, duration := 0 }
/-- An input with a table. -/
def tab (t : Table) : ServiceRecorder.Input := { packet := { pid := t.sourcePid }, bytes := bytes, tables := [t] }
/-- An input with an EIT. -/
def evt (ev : Event) : ServiceRecorder.Input := tab { sourcePid := 0x12, body := .eit (eit ev) }
/-- An input with a PCR. -/
def pcr (x : Int) : ServiceRecorder.Input := { packet := { pid := 0x1ff, pcr := some x }, bytes := bytes }
/-- Another packet. -/
def data : ServiceRecorder.Input := { packet := { pid := 0x200 }, bytes := bytes }
/-- The recording becomes ready with the sixth packet. -/
def lead : List ServiceRecorder.Input :=
  [data, tab pat, tab pmt, pcr 0, tab tot, evt ev1]
/-- Event 1, a chunk, event 2 until it is over, its extension, event 3. -/
def stream : List ServiceRecorder.Input :=
  lead ++ List.replicate 44 data ++
    [evt ev2, data, pcr 8100000, evt ev2', data, evt ev3, data]
/-- The messages sent for it. -/
def sent : List Msg :=
  [.start, .chunk 5000 8192, .eventStart (eit ev1) ev1 5000 8192,
    .eventUpdate (eit ev1) ev1 5000 0, .chunk 5000 0,
    .eventEnd (eit ev1) ev1 5000 80, .eventStart (eit ev2) ev2 5000 80,
    .eventEnd (eit ev2) ev2 5200 456, .eventStart (eit ev3) ev3 5200 456, .stop false]

theorem run_stream : ∃ c h, Recorded opt (List.replicate 9 300000) stream c h ∧
    decide (c = 0 ∧ messages h.trace = sent ∧ h.items.length = 57 ∧ (stored h.items).length = 51) = true :=
  recorded_of_check (P := fun c h => decide (c = 0 ∧ messages h.trace = sent ∧ h.items.length = 57 ∧
    (stored h.items).length = 51)) (by decide +kernel)

/-- The file cannot be written: the first flush fails. -/
theorem run_broken : ∃ c h, Recorded opt [1, 0] stream c h ∧
    decide (c = 1 ∧ messages h.trace =
      [.start, .chunk 5000 8192, .eventStart (eit ev1) ev1 5000 8192, .stop true] ∧
      h.items.length = 50 ∧ (stored h.items).length = 44) = true :=
  recorded_of_check (P := fun c h => decide (c = 1 ∧ messages h.trace =
      [.start, .chunk 5000 8192, .eventStart (eit ev1) ev1 5000 8192, .stop true] ∧
      h.items.length = 50 ∧ (stored h.items).length = 44)) (by decide +kernel)

/-- The history entry of an input all of whose tables are handled. -/
def item (i : ServiceRecorder.Input) (stored : Bool) (out : List Msg := []) : Item :=
  ⟨i, i.tables, stored, out.map .msg, true⟩
/-- Event 2, over and then extended. -/
def extended : List ServiceRecorder.Input :=
  [tab pat, tab pmt, pcr 0, tab tot, evt ev2, pcr 8100000, evt ev2']
/-- The history before the extension. -/
def before : List Item :=
  [item (tab pat) false, item (tab pmt) false, item (pcr 0) false, item (tab tot) false,
    item (evt ev2) false [.chunk 5000 8192, .eventStart (eit ev2) ev2 5000 8192],
    item (pcr 8100000) true [.eventEnd (eit ev2) ev2 5200 8192]]
/-- The extension. -/
def last : Item := item (evt ev2') true

theorem run_extended : ∃ c h, Recorded opt [] extended c h ∧
    decide (h.items = before ++ last :: []) = true :=
  recorded_of_check (P := fun _ h => decide (h.items = before ++ last :: [])) (by decide +kernel)

theorem permitted : Permitted opt.chunkSize opt.numChunks opt.startPos := by
  refine ⟨?_, ?_, ?_, ?_, ?_, ?_, ?_⟩ <;> decide

theorem bytes_ok : ∀ i ∈ stream, i.bytes.length = 188 := by decide +kernel

end C37ex

end Mirakc.Props
