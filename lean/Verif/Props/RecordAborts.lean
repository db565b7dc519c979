import Verif.Proof.RecordAborts
import Verif.Props.ServiceRecorder
/-
Property C111: exactly which streams make record-service terminate abnormally.
-/
namespace Mirakc.Props
open Mirakc.Spec Mirakc.Spec.ServiceRecorder Mirakc.ServiceRecorder
open Mirakc.Spec.ServiceFilter (usablePat latest listed Missing)

/-- **C111**, tables: those looked at with a packet are determined by the tables looked at before,
whatever tables the stream has. -/
theorem C111_any_tables (o : Opt) (results : List Int) (is : List ServiceRecorder.Input) (code : Nat) (h : Hist)
    (hr : Recorded o results is code h) (a : List Item) (it : Item) (b : List Item) (e : h.items = a ++ it :: b) :
    Handed (Looked o.sid) it.input.packet.pid (received a) it.input.tables it.handled ∧
    ∀ log, Handed (Looked o.sid) it.input.packet.pid (received a) it.input.tables log → log = it.handled := by
  obtain ⟨τ, src, t, fuel, h0, hy, hf, hi, hr⟩ := hr
  obtain ⟨ok, r0, _, h | ⟨_, h, _⟩⟩ := session hy hf hi hr
  · rw [h.2.1] at e
    simp at e
  · have := (reach_track h).2 a it b e
    exact ⟨this, fun log h => h.unique this⟩

/-- **C111**.  record-service, started with permitted options, terminates abnormally exactly at the
first packet, before its end, that meets one of the conditions of `Unrecordable`, whatever the source
and whatever the results of the file operations. -/
theorem C111_record_service (o : Opt) (results : List Int) (is : List ServiceRecorder.Input)
    (hopt : Permitted o.chunkSize o.numChunks o.startPos) (hb : ∀ i ∈ is, i.bytes.length = 188) :
    ∃ h0, init o results = .ok h0 ∧
      (Aborts (sink o) h0 is ↔ ∃ pre i post code h, is = pre ++ i :: post ∧ Recorded o results pre code h ∧
        GoesOn h ∧ Unrecordable o.sid h.items i) := by
  obtain ⟨ok, r, r0, tr, ho, hinit, hstart⟩ := record_start results hopt
  refine ⟨_, hinit, ?_⟩
  rw [aborts_at (fun s => ⟨_, rfl⟩), hstart]
  cases ok with
  | false =>
    refine iff_of_false ?_ ?_
    · rintro (⟨f, h⟩ | ⟨s1, h, _⟩) <;> cases h
    · rintro ⟨pre, i, post, code, h, _, h1, h2, _⟩
      exact record_idle ho hinit h1 h2
  | true =>
    constructor
    · rintro (⟨f, h⟩ | ⟨s1, h, pre, i, post, s', rfl, hacc, hf⟩)
      · cases h
      · cases h
        obtain ⟨code, h, h1, h2, h3⟩ := (record_accepts ho hinit hstart pre
          (fun items => Unrecordable o.sid items i)).2 ⟨s', hacc,
            (record_refuses hopt ho hacc (fun j hj => hb j (by simp [hj])) (hb i (by simp))).1 hf⟩
        exact ⟨pre, i, post, code, h, rfl, h1, h2, h3⟩
    · rintro ⟨pre, i, post, code, h, rfl, h1, h2, h3⟩
      obtain ⟨s', hacc, hun⟩ := (record_accepts ho hinit hstart pre
        (fun items => Unrecordable o.sid items i)).1 ⟨code, h, h1, h2, h3⟩
      exact .inr ⟨_, rfl, pre, i, post, s', rfl, hacc,
        (record_refuses hopt ho hacc (fun j hj => hb j (by simp [hj])) (hb i (by simp))).2 hun⟩

namespace C111ex

/-- A PCR out of range, with the packets that lead to it. -/
def late : List ServiceRecorder.Input := C37ex.lead ++ [C37ex.pcr (2 ^ 33 * 300)]
/-- PCRs out of range before the PMT, and on another PID. -/
def other : List ServiceRecorder.Input :=
  [C37ex.pcr (2 ^ 33 * 300)] ++ C37ex.lead ++ [{ C37ex.pcr (2 ^ 33 * 300) with packet := { pid := 0x300, pcr := some (2 ^ 33 * 300) } }]
/-- A PAT without the service, on another PID. -/
def stray : ServiceRecorder.Input := { C37ex.tab C37ex.pat0 with packet := { pid := 0x300 } }

end C111ex

/-- Non-trivial cases for C111: a PCR of the service out of range while recording; a PAT without the
service; and streams which are recorded though they have such PCRs and PATs elsewhere. -/
example : ∃ h0, init C37ex.opt [] = .ok h0 ∧ Aborts (sink C37ex.opt) h0 C111ex.late ∧
    Aborts (sink C37ex.opt) h0 (C37ex.lead ++ [C37ex.tab C37ex.pat0]) ∧
    ¬ Aborts (sink C37ex.opt) h0 (C111ex.other ++ [C111ex.stray]) := by
  refine ⟨_, rfl, ?_, ?_, ?_⟩
  · exact aborts_of_check (by decide +kernel)
  · exact aborts_of_check (by decide +kernel)
  · exact not_aborts_of_check (by decide +kernel)

end Mirakc.Props
