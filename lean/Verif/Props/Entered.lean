import Verif.Proof.Entered
import Verif.Props.ProgramFilter
/-
Property C150: filter-program started at different times before the programme.
-/
namespace Mirakc.Props
open Mirakc.ProgramFilter Mirakc.Spec Mirakc.Spec.Entered Mirakc.Spec.ProgramFilter
open Mirakc.Spec.ServiceFilter (usablePat validPmt validTot)
open Mirakc.Spec.EventsJson (Pairwise₂)

/-- **C150.**  Of a broadcast whose tables do not change, let one filter read `cs`, `ds` and `rs`, and another, started
at another time with the same options, `cs'`, `bs` and `rs'`, of which `bs` and `rs'` are the packets of `ds` and `rs`, but
for the counting of the packets of the PAT; which tables the demultiplexers deliver with which packets may differ.  If both have received the
tables of the programme, and the packets of a PAT, before it begins, then both make the same of each packet from there
on: the same output, beginning and end.  Neither of them ends with a request to try again. -/
theorem C150_entered (extra : Pmt → Nat) (o : Opt) (P : Nat) (m : Pmt) (ev : Event) (T : Table → Prop)
    (hS : Steady o P m ev T) (cs cs' ds bs rs rs' : List Input) (hT : ∀ i ∈ cs ++ ds ++ rs, ∀ t ∈ i.tables, T t)
    (hT' : ∀ i ∈ cs' ++ bs ++ rs', ∀ t ∈ i.tables, T t)
    (hd : Pairwise₂ (fun i j => Alike i.packet j.packet) ds bs) (hr : Pairwise₂ (fun i j => Alike i.packet j.packet) rs rs')
    (hk : Known o (received (cs ++ ds))) (hk' : Known o (received (cs' ++ bs)))
    (hp : ∃ i ∈ ds, i.packet.pid = 0 ∧ i.packet.pusi = true)
    (z z' : St) (items items' : List Item) (h : run extra o (init o) (cs ++ ds ++ rs) = .ok (z, items))
    (h' : run extra o (init o) (cs' ++ bs ++ rs') = .ok (z', items')) (hw : Waiting (items.take (cs ++ ds).length))
    (hw' : Waiting (items'.take (cs' ++ bs).length)) :
    Pairwise₂ AlikeItem (items.drop (cs ++ ds).length) (items'.drop (cs' ++ bs).length) ∧
      Pairwise₂ AlikeOut (sent (items.drop (cs ++ ds).length)) (sent (items'.drop (cs' ++ bs).length)) ∧
      z.retry = false ∧ z'.retry = false := by
  obtain ⟨h1, h2⟩ := Mirakc.Entered.entered hS hT hT' hd hr hk hk' hp h h' hw hw'
  refine ⟨h1, ?_, h2⟩
  revert h1
  generalize items.drop (cs ++ ds).length = a
  generalize items'.drop (cs' ++ bs).length = b
  intro h1
  induction h1 with
  | nil => exact .nil
  | cons x _ ih =>
    rw [sent, sent, List.flatMap_cons, List.flatMap_cons]
    exact Mirakc.Entered.pw_append x.2.2 ih

namespace C150ex
open C26ex (pat pmt eit pcr pmt0 opt one)

/-- The first packets. -/
def cs : List Input := C26ex.stream.take 5
/-- Other packets that the other filter has read. -/
def cs' : List Input := [{ packet := { pid := 0x1234 } }]
/-- The packets that both read before the programme; the first filter gets no tables, because nothing has changed. -/
def ds : List Input :=
  [ { packet := { pid := 0, pusi := true, content := 2 } }, { packet := { pid := 0x100 } },
    { packet := { pid := 0x12 } }, { packet := pcr 100000000 } ]
/-- The other filter gets them; and its packets of the PAT are counted differently. -/
def bs : List Input :=
  [ { packet := { pid := 0, pusi := true, content := 3 }, tables := [pat] }, { packet := { pid := 0x100 }, tables := [pmt] },
    { packet := { pid := 0x12 }, tables := [eit] }, { packet := pcr 100000000 } ]
/-- The programme. -/
def rs : List Input := C26ex.stream.drop 5
/-- The tables. -/
def T (t : Table) : Prop := t = pat ∨ t = pmt ∨ t = eit

theorem steady : Steady opt 0x100 pmt0 { eventId := 5, startTime := 10000, duration := 10 } T where
  pid := by decide
  pat t p ht hp q hq := by
    rcases ht with rfl | rfl | rfl
    · simp [usablePat, pat] at hp
      subst hp
      simpa [opt] using hq
    · simp [usablePat, pmt] at hp
    · simp [usablePat, eit] at hp
  pmt t p ht hp := by
    rcases ht with rfl | rfl | rfl
    · simp [validPmt, pat] at hp
    · simp [validPmt, pmt] at hp
      exact ⟨hp.2.symm, rfl⟩
    · simp [validPmt, eit] at hp
  clock := rfl
  eit t es e ht hp he := by
    rcases ht with rfl | rfl | rfl
    · simp [serviceEit, pat] at hp
    · simp [serviceEit, pmt] at hp
    · simp [serviceEit, eit] at hp
      rw [← hp.2] at he
      simp [listedIn, opt] at he
      exact he.symm
  calm t ht h := by
    rcases ht with rfl | rfl | rfl
    · simp [Cancels, serviceEit, validTot, pat] at h
    · simp [Cancels, serviceEit, validTot, pmt] at h
    · simp [Cancels, serviceEit, validTot, eit, listedIn, opt] at h

theorem tables_T : (∀ i ∈ cs ++ ds ++ rs, ∀ t ∈ i.tables, T t) ∧ ∀ i ∈ cs' ++ bs ++ rs, ∀ t ∈ i.tables, T t := by
  constructor <;> (unfold T; decide +kernel)

theorem known : Known opt (received (cs ++ ds)) ∧ Known opt (received (cs' ++ bs)) := by
  have e1 : received (cs ++ ds) = [pat, pmt, eit] := by decide +kernel
  have e2 : received (cs' ++ bs) = [pat, pmt, eit] := by decide +kernel
  rw [e1, e2]
  have : Known opt [pat, pmt, eit] :=
    ⟨⟨[pat], [pmt, eit], rfl, ⟨pat, by simp, by decide⟩, pmt, by simp, by decide +kernel⟩, eit, by simp, rfl,
      [{ eventId := 5, startTime := 10000, duration := 10 }], by decide +kernel, by decide +kernel⟩
  exact ⟨this, this⟩

theorem alike : Pairwise₂ (fun i j : Input => Alike i.packet j.packet) ds bs ∧
    Pairwise₂ (fun i j : Input => Alike i.packet j.packet) rs rs := by
  refine ⟨.cons ⟨rfl, rfl, rfl, fun h => absurd rfl h⟩ (.cons ⟨rfl, rfl, rfl, fun _ => rfl⟩
    (.cons ⟨rfl, rfl, rfl, fun _ => rfl⟩ (.cons ⟨rfl, rfl, rfl, fun _ => rfl⟩ .nil))), ?_⟩
  generalize rs = l
  induction l with
  | nil => exact .nil
  | cons i l ih => exact .cons ⟨rfl, rfl, rfl, fun _ => rfl⟩ ih

/-- The history before the programme. -/
def idle (is : List Input) : List Item := is.map fun i => C26ex.item i
/-- The rest of the history, with the packet of the PAT sent at the beginning. -/
def last (n : Nat) : List Item :=
  C26ex.item { packet := pcr 270001000 } [.orig { pid := 0, pusi := true, content := n }, .pmt 0x100 C26ex.pmt1 0 0,
    .orig (pcr 270001000)] :: C26ex.rest

theorem runs : (∃ s, run one opt (init opt) (cs ++ ds ++ rs) = .ok (s, idle (cs ++ ds) ++ last 2)) ∧
    ∃ s, run one opt (init opt) (cs' ++ bs ++ rs) = .ok (s, idle (cs' ++ bs) ++ last 3) :=
  ⟨ok_of_eval (by decide +kernel), ok_of_eval (by decide +kernel)⟩

end C150ex

open C150ex in
/-- Non-trivial case for C150: the programme begins after the tables have been received by both. -/
example : Steady C26ex.opt 0x100 C26ex.pmt0 { eventId := 5, startTime := 10000, duration := 10 } T ∧
    (∀ i ∈ cs ++ ds ++ rs, ∀ t ∈ i.tables, T t) ∧ (∀ i ∈ cs' ++ bs ++ rs, ∀ t ∈ i.tables, T t) ∧
    Known C26ex.opt (received (cs ++ ds)) ∧ Known C26ex.opt (received (cs' ++ bs)) ∧
    (∃ i ∈ ds, i.packet.pid = 0 ∧ i.packet.pusi = true) ∧
    ∃ z z' items items', run C26ex.one C26ex.opt (init C26ex.opt) (cs ++ ds ++ rs) = .ok (z, items) ∧
      run C26ex.one C26ex.opt (init C26ex.opt) (cs' ++ bs ++ rs) = .ok (z', items') ∧
      Waiting (items.take (cs ++ ds).length) ∧ Waiting (items'.take (cs' ++ bs).length) ∧
      (sent (items.drop (cs ++ ds).length)).length = 5 := by
  obtain ⟨⟨z, h⟩, z', h'⟩ := runs
  refine ⟨steady, tables_T.1, tables_T.2, known.1, known.2, ⟨_, List.mem_cons_self, rfl, rfl⟩, z, z', _, _, h, h', ?_, ?_,
    by decide +kernel⟩
  · have : (idle (cs ++ ds) ++ last 2).take (cs ++ ds).length = idle (cs ++ ds) := by decide +kernel
    rw [this]
    intro it hit
    obtain ⟨i, _, rfl⟩ := List.mem_map.1 hit
    exact ⟨rfl, by simp [C26ex.item]⟩
  · have : (idle (cs' ++ bs) ++ last 3).take (cs' ++ bs).length = idle (cs' ++ bs) := by decide +kernel
    rw [this]
    intro it hit
    obtain ⟨i, _, rfl⟩ := List.mem_map.1 hit
    exact ⟨rfl, by simp [C26ex.item]⟩

end Mirakc.Props
