import Verif.Proof.ServiceAborts
import Verif.Props.ServiceFilter
/-
Properties C20 for arbitrary tables, and C105: exactly which streams make filter-service terminate
abnormally.
-/
namespace Mirakc.Props
open Mirakc.Spec Mirakc.Spec.ServiceFilter Mirakc.ServiceFilter

/-- **C20**, tables, for arbitrary streams: with every packet, the tables received are those the
packet completes, as long as they are to be looked at. -/
theorem C20_any_tables (o : Opt) (is : List Input) (s : St) (pre : List Item) (it : Item)
    (post : List Item) (h : run o (init o) is = .ok (s, pre ++ it :: post)) :
    ∃ i, is[pre.length]? = some i ∧ i.packet = it.packet ∧
      Handed (Looked o.sid o.timeLimit) it.packet.pid (received pre) i.tables it.handled := by
  simpa using run_handed is _ _ [] _ (full_init o) h pre it post rfl

/-- **C105**.  filter-service terminates abnormally exactly at the first packet, before its end,
that meets one of the three conditions of `Aborts`. -/
theorem C105_filter_service (o : Opt) (is : List Input) :
    (∃ f, run o (init o) is = .error f) ↔ ∃ pre i post s items, is = pre ++ i :: post ∧
      run o (init o) pre = .ok (s, items) ∧ (∀ it ∈ items, it.act ≠ .stop) ∧
      Aborts o.sid o.timeLimit (received items) i := by
  simpa using run_exact is _ [] (full_init o) rfl

/-- Non-trivial case for C105 and C20: the PMT is moved to the PID of the CAT, CATs are received
there, then it is moved away, and a CAT after that is not looked at any more. -/
example : ∃ s items, run { sid := 1 } (init { sid := 1 }) [
      { packet := { pid := 0 }
        tables := [{ sourcePid := 0, body := .pat { tsId := 7, pmts := ⟨[(1, 1)], by decide⟩ } }] },
      { packet := { pid := 1 }, tables := [{ sourcePid := 1, body := .cat { descs := [] } }] },
      { packet := { pid := 0 }, tables := [C20ex.pat] },
      { packet := { pid := 1 }
        tables := [{ sourcePid := 1, body := .cat { descs := [{ tag := 9, caPid := 0x1FFF }] } }] },
      { packet := { pid := 0x1FFF } } ] = .ok (s, items) ∧
    items.map (·.handled.length) = [1, 1, 1, 0, 0] := ⟨_, _, rfl, by decide⟩

/-- The abnormal termination of C105 occurs: a null packet after a CAT with EMMs on the null PID. -/
example : ∃ s items, run { sid := 1 } (init { sid := 1 }) [
      { packet := { pid := 1 }
        tables := [{ sourcePid := 1, body := .cat { descs := [{ tag := 9, caPid := 0x1FFF }] } }] }]
      = .ok (s, items) ∧ (∀ it ∈ items, it.act ≠ .stop) ∧
    Aborts 1 none (received items) { packet := { pid := 0x1FFF } } :=
  ⟨_, _, rfl, by decide, [], .nil _, .inr ⟨by simp,
    .inr (.inl ⟨_, rfl, _, List.mem_singleton.2 rfl, rfl, rfl⟩), .inl rfl⟩⟩

end Mirakc.Props
