import Verif.Spec.Reading
import Verif.Proof.Reading
import Verif.Props.ServiceRecorder
/-
C130: what the stream clock shows after any calls.
-/
namespace Mirakc.Props
open Mirakc.Spec Mirakc.Clock

/-- **C130**  After any calls with valid PCRs the clock shows the time told by `shown`: it follows the PCR if it
has a PCR and the time, and the local clock of the machine otherwise. -/
theorem C130_reading (ops : List Clock.Op) (hv : ValidPcrs ops) :
    ∃ c, ({} : Clock).run ops = .ok c ∧ ∀ l, c.now l = .ok ((view ops).shown l) := by
  obtain ⟨c, e, h⟩ := Views.run (c := {}) (v := {}) Views.init ops
    (fun p hp => by have := hv p hp; rw [two_pow] at this; exact this)
  exact ⟨c, e, h.now⟩

/-- **C130**, without PCR or TOT.  A clock that was switched to another PCR PID and has not seen both a PCR and
a TOT since shows the time of the last TOT, which may have come before, and what the local clock advanced since. -/
theorem C130_switched (before after : List Clock.Op) (pid : Nat) (hv : ValidPcrs (before ++ .setPid pid :: after))
    (hn : (∀ p, .pcr p ∉ after) ∨ ∀ t l, .time t l ∉ after) (a b : List Clock.Op) (t l : Int)
    (ht : before ++ .setPid pid :: after = a ++ .time t l :: b) (hb : ∀ t l, .time t l ∉ b) :
    ∃ c, ({} : Clock).run (before ++ .setPid pid :: after) = .ok c ∧ ∀ l', c.now l' = .ok (t + (l' - l)) := by
  obtain ⟨c, e, h⟩ := C130_reading _ hv
  refine ⟨c, e, fun l' => ?_⟩
  rw [h l']
  have h1 : (view (before ++ .setPid pid :: after)).tot = (t, l) := by
    rw [ht]; exact view_tot a b t l hb
  have h2 : ¬ ((view (before ++ .setPid pid :: after)).last.isSome = true ∧
      (view (before ++ .setPid pid :: after)).time = true) := view_unready before after pid hn
  rw [View.shown, if_neg h2, h1]

/-- **C130**, in record-service.  The stream time at a packet is what the PCRs, TOTs and PMTs of the service received
so far tell. -/
theorem C130_record_service (sid : Nat) (items : List ServiceRecorder.Item) (it : ServiceRecorder.Item)
    (hv : ValidPcrs (Spec.ServiceRecorder.clockCalls sid [] (items ++ [it]))) (now : Int) :
    Spec.ServiceRecorder.TimeIs sid items it now ↔
      now = (view (Spec.ServiceRecorder.clockCalls sid [] (items ++ [it]))).shown it.input.nowLocal := by
  obtain ⟨c, e, h⟩ := C130_reading _ hv
  constructor
  · rintro ⟨c', h1, h2⟩
    have : Clock.run {} (Spec.ServiceRecorder.clockCalls sid [] (items ++ [it])) = .ok c' := h1
    rw [e] at this; cases this
    rw [h] at h2; cases h2; rfl
  · rintro rfl
    exact ⟨c, e, h _⟩

/-- The clock loses track with the fifth jump, 3 seconds after the TOT; 4 seconds later, by the local clock, it shows
7 seconds. -/
example : ValidPcrs ([.setPid 1, .pcr 0, .time 1000 500] ++ [.pcr 20000000] ++ List.replicate 5 (.pcr 900000000)) ∧
    (∃ c, ({} : Clock).run ([.setPid 1, .pcr 0, .time 1000 500] ++ [.pcr 20000000] ++ List.replicate 4 (.pcr 900000000)) = .ok c ∧
      ∀ l, c.now l = .ok (1000 + 740)) ∧
    ∃ c, ({} : Clock).run ([.setPid 1, .pcr 0, .time 1000 500] ++ [.pcr 20000000] ++ List.replicate 5 (.pcr 900000000)) = .ok c ∧
      c.now 7500 = .ok 8000 := by
  refine ⟨by intro p hp; simp at hp; omega, ?_, ?_⟩
  · obtain ⟨c, e, h⟩ := C130_reading ([.setPid 1, .pcr 0, .time 1000 500] ++ [.pcr 20000000] ++ List.replicate 4 (.pcr 900000000))
      (by intro p hp; simp at hp; omega)
    exact ⟨c, e, fun l => by rw [h l]; rfl⟩
  · obtain ⟨c, e, h⟩ := C130_reading ([.setPid 1, .pcr 0, .time 1000 500] ++ [.pcr 20000000] ++ List.replicate 5 (.pcr 900000000))
      (by intro p hp; simp at hp; omega)
    exact ⟨c, e, by rw [h]; rfl⟩

/-- The PCR PID changes after a TOT; PCRs on the new PID do not matter until the next TOT. -/
example : ∃ c, ({} : Clock).run ([.setPid 1, .pcr 0, .time 1000 500] ++ .setPid 2 :: [.pcr 77, .pcr 10000000]) = .ok c ∧
    c.now 600 = .ok 1100 := by
  obtain ⟨c, e, h⟩ := C130_switched [.setPid 1, .pcr 0, .time 1000 500] [.pcr 77, .pcr 10000000] 2
    (by intro p hp; simp at hp; omega) (.inr (by simp)) [.setPid 1, .pcr 0] [.setPid 2, .pcr 77, .pcr 10000000] 1000 500
    rfl (by simp)
  exact ⟨c, e, h 600⟩

/-- In the recording of C37 the stream time at the last packet is 5300. -/
example : ValidPcrs (Spec.ServiceRecorder.clockCalls C37ex.opt.sid [] (C37ex.before ++ [C37ex.last])) ∧
    Spec.ServiceRecorder.TimeIs C37ex.opt.sid C37ex.before C37ex.last 5300 := by
  have hv : ValidPcrs (Spec.ServiceRecorder.clockCalls C37ex.opt.sid [] (C37ex.before ++ [C37ex.last])) := by
    have key : (Spec.ServiceRecorder.clockCalls C37ex.opt.sid [] (C37ex.before ++ [C37ex.last])).all
        (fun o => match o with | .pcr p => decide (0 ≤ p ∧ p < 2 ^ 33 * 300) | _ => true) = true := by decide +kernel
    intro p hp
    exact of_decide_eq_true (List.all_eq_true.1 key _ hp)
  exact ⟨hv, (C130_record_service _ _ _ hv _).2 (by decide +kernel)⟩

end Mirakc.Props
