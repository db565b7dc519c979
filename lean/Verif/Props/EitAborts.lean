import Verif.Proof.EitAborts
import Verif.Props.EitCollector
import Verif.Props.EitpfCollector
/-
Properties C108, C109: exactly what collect-eits and collect-eitpf write, and exactly which streams
make them terminate abnormally.
-/
namespace Mirakc.Props
open Mirakc.Spec

/-- **C108**, what is written: the sections and tables looked at are those of the packets with the
PIDs of the EIT and the TOT, in their order; going through them, every section that is due is
written, and no other.  This determines the output. -/
theorem C108_written (o : EitCollector.Opt) (is : List SectionInput) (code : Nat) (h : EitCollector.Hist)
    (hr : Spec.EitCollector.Collected o is code h) :
    Wrote (Spec.EitCollector.Due o) [] (h.items.flatMap fun it => delivered [0x12, 0x14] it.input)
      ((Spec.EitCollector.calls h.items).filterMap (·.out)) ∧
    ∀ l, Wrote (Spec.EitCollector.Due o) [] (h.items.flatMap fun it => delivered [0x12, 0x14] it.input) l →
      l = (Spec.EitCollector.calls h.items).filterMap (·.out) := by
  have := EitCollector.reach_wrote (EitCollector.Collected.reach hr).1
  rw [EitCollector.sections_of_calls] at this
  exact ⟨this, fun l hl => wrote_unique (Due := Spec.EitCollector.Due o) (fun _ _ _ _ h h' => EitCollector.due_unique (o := o) h h') this hl⟩

/-- **C108**, abnormal termination: without any kind of sections to collect, collect-eits terminates
at once; otherwise it does so exactly at the first packet, before its end, with a section that is
due when its turn comes, but whose event loop is malformed. -/
theorem C108_collect_eits (o : EitCollector.Opt) (is : List SectionInput) :
    (o.collectActual = false ∧ o.collectOthers = false → ∃ f, EitCollector.init o = .error f) ∧
    (o.collectActual = true ∨ o.collectOthers = true →
      EitCollector.init o = .ok { st := {} } ∧
      (Aborts (EitCollector.sink o) { st := {} } is ↔
        StopsAt (EitCollector.sink o) {} (fun items i => Unwritable (Spec.EitCollector.Due o)
          ((Spec.EitCollector.calls items).filterMap (·.out)) (delivered [0x12, 0x14] i)) is) ∧
      ((∃ code h, Spec.EitCollector.Collected o is code h) ↔
        ¬ StopsAt (EitCollector.sink o) {} (fun items i => Unwritable (Spec.EitCollector.Due o)
          ((Spec.EitCollector.calls items).filterMap (·.out)) (delivered [0x12, 0x14] i)) is)) := by
  constructor
  · rintro ⟨h1, h2⟩
    exact ⟨_, (C78_no_abort_partial o).2 ⟨h1, h2⟩⟩
  · intro ho
    have hinit : EitCollector.init o = .ok { st := {} } := by
      unfold EitCollector.init
      rw [show (o.collectActual || o.collectOthers) = true by simpa using ho]
      rfl
    have hc : ∀ code h, Spec.EitCollector.Collected o is code h ↔ Ran (EitCollector.sink o) { st := {} } is code h := by
      intro code h
      constructor
      · rintro ⟨h0, k1, k2⟩
        rw [hinit] at k1
        cases k1
        exact k2
      · exact fun k => ⟨_, hinit, k⟩
    simp only [← EitCollector.sections_of_calls, hc]
    refine ⟨hinit, EitCollector.aborts, ?_⟩
    rw [← EitCollector.aborts]
    rcases aborts_or_ran (EitCollector.sink o) { st := {} } is with ⟨h1, h2⟩ | ⟨h1, h2⟩
    · exact ⟨fun h => absurd h h2, fun h => absurd h1 h⟩
    · exact ⟨fun _ => h1, fun _ => h2⟩

/-- Non-trivial cases for C108: a malformed section aborts the collection when it is due, and not
when it is taken for the repetition of another. -/
example : (∃ code h, Spec.EitCollector.Collected { streaming := true } [C43ex.feed [C78ex.good], C43ex.feed [C78ex.bad]] code h) ∧
    StopsAt (EitCollector.sink { streaming := true }) {} (fun items i => Unwritable (Spec.EitCollector.Due { streaming := true })
          ((Spec.EitCollector.calls items).filterMap (·.out)) (delivered [0x12, 0x14] i))
      [C43ex.tot 3, C43ex.feed [C43ex.sec 101 0x51 1 0 0 0 0x51, C78ex.bad], C43ex.tot 3] := by
  rw [((C108_collect_eits _ _).2 (.inl rfl)).2.2, ← ((C108_collect_eits _ _).2 (.inl rfl)).2.1,
    ← ((C108_collect_eits _ _).2 (.inl rfl)).2.1]
  exact ⟨not_aborts_of_check (by decide +kernel), aborts_of_check (by decide +kernel)⟩

/-- Non-trivial case for `C108_written`. -/
example : ∃ h, Spec.EitCollector.Collected C43ex.opt (C43ex.inputs C43ex.items) 0 h ∧
    2 ≤ ((Spec.EitCollector.calls h.items).filterMap (·.out)).length := by
  obtain ⟨h, h1, h2⟩ := C43ex.run_items
  exact ⟨h, h1, by rw [h2]; decide +kernel⟩

/-- **C109**, what is written: as with C108; and the end, for arbitrary services: collecting ends
after a packet exactly if there are as many services as ids asked for, and their versions agree. -/
theorem C109_written (o : EitpfCollector.Opt) (is : List SectionInput) (code : Nat) (h : EitpfCollector.Hist)
    (hr : Spec.EitpfCollector.Collected o is code h) :
    (Wrote (Spec.EitpfCollector.Due o) [] (h.items.flatMap fun it => delivered [0x12] it.input)
      (Spec.EitpfCollector.written (Spec.EitCollector.calls h.items)) ∧
    ∀ l, Wrote (Spec.EitpfCollector.Due o) [] (h.items.flatMap fun it => delivered [0x12] it.input) l →
      l = Spec.EitpfCollector.written (Spec.EitCollector.calls h.items)) ∧
    ∀ a it b, h.items = a ++ it :: b →
      (it.more = false ↔ Spec.EitpfCollector.Ended o (Spec.EitpfCollector.written (Spec.EitCollector.calls (a ++ [it])))) := by
  have hreach := (EitpfCollector.Collected.reach hr).1
  have := EitpfCollector.reach_wrote hreach
  exact ⟨⟨this, fun l hl => wrote_unique (Due := Spec.EitpfCollector.Due o) (fun _ _ _ _ h h' => EitpfCollector.due_unique (o := o) h h') this hl⟩,
    fun a it b e => (EitpfCollector.reach_ended hreach e).1⟩

/-- **C109**, abnormal termination: collect-eitpf does so exactly at the first packet, before its
end, with a section that is due when its turn comes, but whose event loop is malformed; or after
which the number of services is right, but they are not the same for present and following
sections. -/
theorem C109_collect_eitpf (o : EitpfCollector.Opt) (is : List SectionInput) :
    (Aborts (EitpfCollector.sink o) { st := {} } is ↔
      StopsAt (EitpfCollector.sink o) {} (fun items i => Spec.EitpfCollector.Uncollectable o
        (Spec.EitpfCollector.written (Spec.EitCollector.calls items)) i) is) ∧
    ((∃ code h, Spec.EitpfCollector.Collected o is code h) ↔
      ¬ StopsAt (EitpfCollector.sink o) {} (fun items i => Spec.EitpfCollector.Uncollectable o
        (Spec.EitpfCollector.written (Spec.EitCollector.calls items)) i) is) := by
  refine ⟨EitpfCollector.aborts, ?_⟩
  rw [← EitpfCollector.aborts]
  rcases aborts_or_ran (EitpfCollector.sink o) { st := {} } is with ⟨h1, h2⟩ | ⟨h1, h2⟩
  · exact ⟨fun h => absurd h h2, fun h => absurd h1 h⟩
  · exact ⟨fun _ => h1, fun _ => h2⟩

/-- Non-trivial cases for C109: different services with the same id abort the collection, unless a
service before them has not the same versions. -/
example : (∃ code h, Spec.EitpfCollector.Collected { sids := [101, 102] }
      [C50ex.feed [C50ex.sec 4 1 101 1 0, C50ex.sec 4 1 101 2 1, C50ex.sec 4 1 102 1 0, C50ex.sec 4 2 102 1 1]] code h) ∧
    StopsAt (EitpfCollector.sink { sids := [101, 102] }) {} (fun items i => Spec.EitpfCollector.Uncollectable { sids := [101, 102] }
        (Spec.EitpfCollector.written (Spec.EitCollector.calls items)) i)
      [C50ex.feed [C50ex.sec 4 1 101 1 0, C50ex.sec 4 1 101 1 1], C50ex.feed [C50ex.sec 4 1 102 1 0, C50ex.sec 4 2 102 1 1]] := by
  rw [(C109_collect_eitpf _ _).2, ← (C109_collect_eitpf _ _).1, ← (C109_collect_eitpf _ _).1]
  exact ⟨not_aborts_of_check (by decide +kernel), aborts_of_check (by decide +kernel)⟩

/-- Non-trivial case for `C109_written`: collecting ends with the last packet. -/
example : ∃ h a it, Spec.EitpfCollector.Collected C51ex.opt (C50ex.inputs C51ex.items) 0 h ∧ h.items = a ++ [it] ∧
    it.more = false ∧ 2 ≤ (Spec.EitpfCollector.written (Spec.EitCollector.calls h.items)).length := by
  obtain ⟨h, h1, h2⟩ := C51ex.run_items
  exact ⟨h, C51ex.items.take 2, _, h1, by rw [h2]; rfl, rfl, by rw [h2]; decide +kernel⟩

end Mirakc.Props
