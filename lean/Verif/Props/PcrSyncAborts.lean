import Verif.Proof.PcrSyncAborts
import Verif.Props.PcrSynchronizer
/-
Property C54 for arbitrary tables, and C107: exactly which streams make sync-clocks terminate
abnormally.
-/
namespace Mirakc.Props
open Mirakc.Spec Mirakc.Spec.PcrSynchronizer Mirakc.PcrSynchronizer

/-- **C54**, for arbitrary tables: of every packet read, exactly the tables are looked at that
`TablesOf` says; PMTs may share PIDs with each other or with other tables, and tables may be
repeated in any order. -/
theorem C54_any_tables (o : Opt) (is : List Input) (code : Nat) (h : Hist) (hr : Synced o is code h)
    (a b : List (Line Input (List Table))) (it : Line Input (List Table)) (hs : h.items = a ++ it :: b) :
    TablesOf o (log a) it.input it.did ∧ ∀ ts, TablesOf o (log a) it.input ts → ts = it.did := by
  obtain ⟨s, h1, _, _⟩ := synced hr
  obtain ⟨s1, s2, k1, k2, k3, k4⟩ := h1.split a it b hs
  have := (step_full (reach_full k1) ((reach_spec k1).1 k2).2 k3).1
  exact ⟨this, fun ts h => tablesOf_unique h this⟩

/-- Non-trivial cases for `C54_any_tables`: two services have their PMTs on the same PID; a TOT
that is not looked at. -/
example : (∃ h, Synced {} (C52ex.inputs C52ex.shared) 0 h ∧
      h.items = C52ex.shared.take 2 ++ C52ex.tab (C52ex.pmt 0x100 2 0x2ff) :: C52ex.shared.drop 3) ∧
    ∃ h, Synced {} (C52ex.inputs C52ex.items) 0 h ∧
      h.items = C52ex.items.take 3 ++ C52ex.skip (C52ex.tot 100) :: C52ex.items.drop 4 := by
  obtain ⟨h, h1, h2, _⟩ := C52ex.run_shared
  obtain ⟨h', h1', h2', _⟩ := C52ex.run_items
  exact ⟨⟨h, h1, by rw [h2]; rfl⟩, h', h1', by rw [h2']; rfl⟩

/-- **C107**.  sync-clocks terminates abnormally exactly at the first packet, before its end,
that cannot be processed: its PCR is out of range, and it is the first one to be captured for a
clock after a TOT.  All other streams are processed to the end. -/
theorem C107_sync_clocks (o : Opt) (is : List Input) :
    (Aborts (sink o) { st := {} } is ↔ StopsAt (sink o) {} (fun items i => Unsyncable o (log items) i) is) ∧
    ((∃ code h, Synced o is code h) ↔ ¬ StopsAt (sink o) {} (fun items i => Unsyncable o (log items) i) is) := by
  refine ⟨PcrSynchronizer.aborts, ?_⟩
  rw [← PcrSynchronizer.aborts]
  rcases aborts_or_ran (sink o) { st := {} } is with ⟨h1, h2⟩ | ⟨h1, h2⟩
  · exact ⟨fun h => absurd h h2, fun h => absurd h1 h⟩
  · exact ⟨fun _ => h1, fun _ => h2⟩

/-- Non-trivial cases for C107: a PCR out of range is no problem before the TOT and on another
PID, and it is one on the PID of the clock after the TOT. -/
example : (∃ code h, Synced {} (C52ex.inputs (C52ex.items.take 7 ++ [C52ex.pcr 0x1ff 2576980377600 true,
        C52ex.tab (C52ex.tot 32400000), C52ex.pcr 0x2ff 2576980377600 true])) code h) ∧
    StopsAt (sink {}) {} (fun items i => Unsyncable {} (log items) i)
      (C52ex.inputs (C52ex.items.take 8 ++ [C52ex.pcr 0x1ff 2576980377600 true])) := by
  rw [(C107_sync_clocks _ _).2, ← (C107_sync_clocks _ _).1, ← (C107_sync_clocks _ _).1]
  exact ⟨not_aborts_of_check (by decide +kernel), aborts_of_check (by decide +kernel)⟩

end Mirakc.Props
