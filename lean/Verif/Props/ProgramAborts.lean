import Verif.Proof.ProgramAborts
import Verif.Proof.StopsAt
import Verif.Proof.MainAborts
import Verif.Props.ProgramFilter
/-
Property C112: exactly which streams make filter-program terminate abnormally.
-/
namespace Mirakc.Props
open Mirakc.Spec Mirakc.Spec.ProgramFilter Mirakc.ProgramFilter
open Mirakc.Spec.ServiceFilter (usablePat validPmt latest listed Missing)

/-- **C112**, tables: those looked at with a packet are determined by the tables looked at before,
whatever tables the stream has. -/
theorem C112_any_tables (extra : Pmt → Nat) (o : Opt) (is : List Input) (hp : PcrNotOnPat o is) (s : St)
    (pre : List Item) (it : Item) (post : List Item) (h : run extra o (init o) is = .ok (s, pre ++ it :: post)) :
    ∃ i, is[pre.length]? = some i ∧ i.packet = it.packet ∧
      Handed (Looked o.sid) it.packet.pid (tables (events pre)) i.tables it.handled ∧
      ∀ log, Handed (Looked o.sid) it.packet.pid (tables (events pre)) i.tables log → log = it.handled := by
  obtain ⟨i, h1, h2, h3⟩ := run_handed is _ _ [] _ (full_init extra o) (free_init hp) h pre it post rfl
  rw [List.nil_append] at h3
  exact ⟨i, h1, h2, h3, fun log h => h.unique h3⟩

/-- **C112**.  filter-program terminates abnormally exactly at the first packet, before its end, that
meets one of the conditions of `Unfilterable`. -/
theorem C112_filter_program (extra : Pmt → Nat) (o : Opt) (is : List Input) (hp : PcrNotOnPat o is) :
    (∃ f, run extra o (init o) is = .error f) ↔ ∃ pre i post s items, is = pre ++ i :: post ∧
      run extra o (init o) pre = .ok (s, items) ∧ (∀ it ∈ items, it.more = true) ∧ Unfilterable o items i := by
  simpa using run_exact is _ [] (full_init extra o) (free_init hp)

/-- **C112**, connected to a sink that takes every packet: the same holds for the two together,
whatever the source. -/
theorem C112_connected {σ : Type} (extra : Pmt → Nat) (o : Opt) (is : List Input) (hp : PcrNotOnPat o is)
    (snk : Sink Out σ) (d : σ) (h1 : ∀ d, ∃ d', snk.start d = .ok (true, d'))
    (h2 : ∀ d p, ∃ d', snk.handle d p = .ok (true, d')) (h3 : ∀ d, ∃ d', snk.finish d = .ok d') :
    Aborts (sink extra o snk) (init o, d) is ↔ ∃ pre i post s items, is = pre ++ i :: post ∧
      run extra o (init o) pre = .ok (s, items) ∧ (∀ it ∈ items, it.more = true) ∧ Unfilterable o items i := by
  rw [← C112_filter_program extra o is hp, aborts_list]
  have hsend : ∀ l d, ∃ d', sendAll snk l d = .ok (true, d') := by
    intro l
    induction l with
    | nil => exact fun d => ⟨d, rfl⟩
    | cons x l ih =>
      intro d
      obtain ⟨d1, e1⟩ := h2 d x
      obtain ⟨d2, e2⟩ := ih d1
      exact ⟨d2, by simp only [sendAll, e1, ok_bind, if_true, e2]⟩
  have loop : ∀ (is : List Input) (s : St) (d : σ) (fuel : Nat), is.length < fuel →
      ((∃ f, feedLoop listSource (sink extra o snk) fuel is (s, d) = .error f) ↔ ∃ f, run extra o s is = .error f) := by
    intro is
    induction is with
    | nil =>
      intro s d fuel hl
      cases fuel with
      | zero => simp at hl
      | succ n => constructor <;> (rintro ⟨f, h⟩; cases h)
    | cons i is ih =>
      intro s d fuel hl
      cases fuel with
      | zero => simp at hl
      | succ n =>
        cases hs : step extra o s i with
        | error f =>
          obtain ⟨d1, e1⟩ := hsend (announced o s i) d
          refine iff_of_true ⟨f, ?_⟩ ⟨f, ?_⟩
          · simp only [feedLoop, listSource, sink, ok_bind, hs, e1, if_true]
            rfl
          · simp only [run, hs]
            rfl
        | ok r =>
          obtain ⟨s1, log, outs, more⟩ := r
          obtain ⟨d1, e1⟩ := hsend outs d
          cases more with
          | false =>
            refine iff_of_false ?_ ?_
            · simp only [feedLoop, listSource, sink, ok_bind, hs, e1, Bool.and_false, Bool.false_eq_true, if_false]
              rintro ⟨_, h⟩; cases h
            · simp only [run, hs, ok_bind, Bool.false_eq_true, if_false]
              rintro ⟨_, h⟩; cases h
          | true =>
            have := ih s1 d1 n (by simpa using hl)
            have e : feedLoop listSource (sink extra o snk) (n + 1) (i :: is) (s, d) =
                feedLoop listSource (sink extra o snk) n is (s1, d1) := by
              simp only [feedLoop, listSource, sink, ok_bind, hs, e1, Bool.and_self, if_true]
            rw [e, this]
            simp only [run, hs, ok_bind, if_true]
            cases run extra o s1 is with
            | error f => exact ⟨fun _ => ⟨f, rfl⟩, fun _ => ⟨f, rfl⟩⟩
            | ok r => constructor <;> (rintro ⟨f, h⟩; cases h)
  obtain ⟨d1, e1⟩ := h1 d
  have e2 : (sink extra o snk).start (init o, d) = .ok (true, init o, d1) := by simp only [sink, e1, ok_bind]
  rw [← loop is (init o) d1 (is.length + 1) (by omega)]
  unfold feedPackets
  simp only [e2, ok_bind, if_true]
  cases feedLoop listSource (sink extra o snk) (is.length + 1) is (init o, d1) with
  | error f => exact iff_of_true ⟨f, rfl⟩ ⟨f, rfl⟩
  | ok r =>
    obtain ⟨_, s2, d2⟩ := r
    obtain ⟨d4, e4⟩ := h3 d2
    refine iff_of_false ?_ (by rintro ⟨_, h⟩; cases h)
    rintro ⟨f, hf⟩
    simp only [ok_bind, sink, e4] at hf
    cases hf

/-- A sink that takes every packet, and a stream. -/
example : ∃ snk : Sink Out (List Out), (∀ d, ∃ d', snk.start d = .ok (true, d')) ∧
    (∀ d p, ∃ d', snk.handle d p = .ok (true, d')) ∧ (∀ d, ∃ d', snk.finish d = .ok d') ∧
    PcrNotOnPat { C26ex.opt with preStreaming := true } C26ex.stream := by
  refine ⟨{ start := fun d => .ok (true, d), handle := fun d p => .ok (true, d ++ [p]), finish := .ok, exitCode := fun _ => 0 },
    fun d => ⟨d, rfl⟩, fun d p => ⟨d ++ [p], rfl⟩, fun d => ⟨d, rfl⟩, fun _ => .inr fun i hi t ht pmt hv => ?_⟩
  simp only [C26ex.stream, List.mem_cons, List.not_mem_nil, or_false] at hi
  rcases hi with rfl | rfl | rfl | rfl | rfl | rfl | rfl | rfl | rfl | rfl | rfl <;> simp only [List.mem_singleton, List.not_mem_nil] at ht
  · subst ht; cases hv
  · subst ht; cases hv; decide
  · subst ht; cases hv

namespace C112ex

/-- A PAT that moves the PMT. -/
def moved : Table := { sourcePid := 0, body := .pat { tsId := 7, pmts := ⟨[(1, 0x101)], by decide⟩ } }
/-- The PMT on the other PID. -/
def pmt : Table := { C26ex.pmt with sourcePid := 0x101 }
/-- A PCR out of range. -/
def big : Int := 2 ^ 33 * 300

end C112ex

open C112ex in
/-- Non-trivial cases for C112: the PMT is moved while streaming, and a packet of the new PID is to be
replaced before, or together with, the new PMT; a PCR out of range in the options, when the EIT is
received; one in the stream, before or after the EIT. -/
example :
    (∃ f, run C26ex.one C26ex.opt (init C26ex.opt) (C26ex.stream.take 6 ++
      [{ packet := { pid := 0 }, tables := [moved] }, { packet := { pid := 0x101 } }]) = .error f) ∧
    (∃ r, run C26ex.one C26ex.opt (init C26ex.opt) (C26ex.stream.take 6 ++
      [{ packet := { pid := 0 }, tables := [moved] }, { packet := { pid := 0x101 }, tables := [C112ex.pmt] }]) = .ok r) ∧
    (∃ f, run C26ex.one { C26ex.opt with clockPcr := big } (init { C26ex.opt with clockPcr := big })
      (C26ex.stream.take 3) = .error f) ∧
    (∃ r, run C26ex.one { C26ex.opt with clockPcr := big } (init { C26ex.opt with clockPcr := big })
      (C26ex.stream.take 2 ++ [{ packet := C26ex.pcr big }]) = .ok r) ∧
    (∃ r, run C26ex.one C26ex.opt (init C26ex.opt)
      (C26ex.stream.take 2 ++ [{ packet := C26ex.pcr big }]) = .ok r) ∧
    (∃ f, run C26ex.one C26ex.opt (init C26ex.opt)
      (C26ex.stream.take 3 ++ [{ packet := C26ex.pcr big }]) = .error f) := by
  refine ⟨⟨.assertFail, error_of_eval (by decide +kernel)⟩, ?_, ⟨.assertFail, error_of_eval (by decide +kernel)⟩, ?_, ?_,
    ⟨.assertFail, error_of_eval (by decide +kernel)⟩⟩
  all_goals
    exact Exists.imp (fun _ h => h.1) (ok_of_check (P := fun _ => true) (by decide +kernel))

/-- Further cases: a margin with which the end of the event does not fit 64 bits, when the EIT is received;
one with which the PCR of the end does not fit, at the same packet;
and one that is a little shorter, with which it does. -/
example :
    run C26ex.one { C26ex.opt with endMargin := 2 ^ 63 - 1 } (init { C26ex.opt with endMargin := 2 ^ 63 - 1 })
      (C26ex.stream.take 3) = .error .overflow ∧
    run C26ex.one { C26ex.opt with endMargin := 341700000000000 } (init { C26ex.opt with endMargin := 341700000000000 })
      (C26ex.stream.take 3) = .error .overflow ∧
    ∃ r, run C26ex.one { C26ex.opt with endMargin := 341500000000000 } (init { C26ex.opt with endMargin := 341500000000000 })
      (C26ex.stream.take 3) = .ok r := by
  refine ⟨error_of_eval (by decide +kernel), error_of_eval (by decide +kernel), ?_⟩
  exact Exists.imp (fun _ h => h.1) (ok_of_check (P := fun _ => true) (by decide +kernel))

/-- **C112**, any sink that never fails itself: connected to it, the filter terminates abnormally exactly if the
packet is such, and the sink took everything that was sent before.  If the failure is noticed after
the packets of the PAT were sent, the sink has to take these, too. -/
theorem C112_any_sink {σ : Type} (extra : Pmt → Nat) (o : Opt) (is : List Input) (hp : PcrNotOnPat o is)
    (snk : Sink Out σ) (d d1 : σ) (h1 : snk.start d = .ok (true, d1))
    (h2 : ∀ d p, ∃ r, snk.handle d p = .ok r) (h3 : ∀ d, ∃ d', snk.finish d = .ok d') :
    Aborts (sink extra o snk) (init o, d) is ↔ ∃ pre i post s items pats d2, is = pre ++ i :: post ∧
      run extra o (init o) pre = .ok (s, items) ∧ (∀ it ∈ items, it.more = true) ∧
      (FailsAtOnce o items i ∧ pats = [] ∨ FailsAtStart o items i pats) ∧
      Accepts snk d1 (sent items ++ pats) d2 := by
  have hsend : ∀ l d, ∃ r, ProgramFilter.sendAll snk l d = .ok r := by
    intro l
    induction l with
    | nil => exact fun d => ⟨_, rfl⟩
    | cons x l ih =>
      intro d
      obtain ⟨⟨ok, d1⟩, e1⟩ := h2 d x
      cases ok with
      | false => exact ⟨(false, d1), by simp only [sendAll, e1, ok_bind, Bool.false_eq_true, if_false]⟩
      | true =>
        obtain ⟨r, e2⟩ := ih d1
        exact ⟨r, by simp only [sendAll, e1, ok_bind, if_true, e2]⟩
  rw [Mirakc.Pipeline.aborts_fails is (s1 := (init o, d1)) (by simp only [sink, h1, ok_bind]) (by
    rintro cs ⟨s', d'⟩ _
    obtain ⟨d2, e⟩ := h3 d'
    exact ⟨(s', d2), by simp only [sink, e, ok_bind]⟩)]
  have key : ∀ pre i post s items d2, is = pre ++ i :: post → run extra o (init o) pre = .ok (s, items) →
      (∀ it ∈ items, it.more = true) → Accepts snk d1 (sent items) d2 →
      ((∃ f, (sink extra o snk).handle (s, d2) i = .error f) ↔
        ∃ pats d3, (FailsAtOnce o items i ∧ pats = [] ∨ FailsAtStart o items i pats) ∧ Accepts snk d2 pats d3) := by
    intro pre i post s items d2 he hr hm ha
    have hfree : PcrNotOnPat o (pre ++ [i]) := fun hps => by
      have hsub : ∀ j ∈ pre ++ [i], j ∈ is := by
        intro j hj
        rw [he]
        rcases List.mem_append.1 hj with hj | hj
        · simp [hj]
        · rw [List.mem_singleton] at hj; simp [hj]
      exact (hp hps).imp (fun h j hj => h j (hsub j hj)) (fun h j hj => h j (hsub j hj))
    obtain ⟨hF, hP⟩ := run_full pre [i] _ _ [] items (full_init extra o) (free_init hfree) hr hm
    rw [List.nil_append] at hF hP
    have hst := (step_exact hF hP.head).1
    have hann := announced_exact hF hP.head
    have hh : (∃ f, (sink extra o snk).handle (s, d2) i = .error f) ↔
        (∃ f, step extra o s i = .error f) ∧ ∃ d3, Accepts snk d2 (announced o s i) d3 := by
      simp only [sink]
      cases hs : step extra o s i with
      | error f =>
        obtain ⟨⟨ok, d3⟩, h4⟩ := hsend (announced o s i) d2
        simp only [h4, ok_bind]
        cases ok with
        | true => exact iff_of_true ⟨f, rfl⟩ ⟨⟨f, rfl⟩, d3, Mirakc.Pipeline.accepts_of_sendAll h4⟩
        | false =>
          refine iff_of_false (by rintro ⟨_, h⟩; cases h) ?_
          rintro ⟨_, d4, h5⟩
          rw [Mirakc.Pipeline.sendAll_accepts h5] at h4
          cases h4
      | ok r =>
        refine iff_of_false ?_ (by rintro ⟨⟨_, h⟩, _⟩; cases h)
        obtain ⟨s1, log, outs, more⟩ := r
        obtain ⟨r, h4⟩ := hsend outs d2
        simp only [h4, ok_bind]
        rintro ⟨_, h⟩
        cases h
    rw [hh, hst]
    constructor
    · rintro ⟨hu, d3, h⟩
      by_cases ho : FailsAtOnce o items i
      · exact ⟨[], d2, .inl ⟨ho, rfl⟩, .nil⟩
      · rcases hu with hu | ⟨pats, hu⟩
        · exact absurd hu ho
        · rw [hann.2 ho pats hu] at h
          exact ⟨pats, d3, .inr hu, h⟩
    · rintro ⟨pats, d3, hu, h⟩
      by_cases ho : FailsAtOnce o items i
      · exact ⟨.inl ho, d2, by rw [hann.1 ho]; exact .nil⟩
      · rcases hu with ⟨hu, _⟩ | hu
        · exact absurd hu ho
        · exact ⟨.inr ⟨pats, hu⟩, d3, by rw [hann.2 ho pats hu]; exact h⟩
  constructor
  · rintro ⟨pre, i, post, ⟨s, d2⟩, he, ha, hf⟩
    obtain ⟨items, g1, g2, g3⟩ := Mirakc.Pipeline.pf_accepts.1 ha
    obtain ⟨pats, d3, k1, k2⟩ := (key pre i post s items d2 he g1 g2 g3).1 hf
    exact ⟨pre, i, post, s, items, pats, d3, he, g1, g2, k1, Mirakc.Pipeline.accepts_append g3 k2⟩
  · rintro ⟨pre, i, post, s, items, pats, d3, he, g1, g2, k1, k2⟩
    obtain ⟨d2, a1, a2⟩ := Mirakc.Pipeline.accepts_split k2
    exact ⟨pre, i, post, (s, d2), he, Mirakc.Pipeline.pf_accepts.2 ⟨items, g1, g2, a1⟩,
      (key pre i post s items d2 he g1 g2 a1).2 ⟨pats, d3, k1, a2⟩⟩

namespace C112ex

/-- The PMT is moved, and the programme starts before the new PMT is received. -/
def early : List Input :=
  C26ex.stream.take 5 ++ [{ packet := { pid := 0, pusi := true, content := 2 }, tables := [moved] },
    { packet := { pid := 0, content := 3 } }, { packet := C26ex.pcr 270001000 }]

/-- A sink that takes `n` packets and then refuses. -/
def takes (n : Nat) : Sink Out (List Out) where
  start d := .ok (true, d)
  handle d p := .ok (decide (d.length < n), d ++ [p])
  finish := .ok
  exitCode _ := 7

end C112ex

open C112ex in
/-- The two packets of the PAT are sent before the filter fails; a sink that refuses the second one
prevents that, and the exit code is that of the sink. -/
example :
    (∃ f, run C26ex.one C26ex.opt (init C26ex.opt) early = .error f) ∧
    (∃ f, feedPackets listSource (sink C26ex.one C26ex.opt (takes 2)) 9 early (init C26ex.opt, []) = .error f) ∧
    ∃ s, feedPackets listSource (sink C26ex.one C26ex.opt (takes 1)) 9 early (init C26ex.opt, []) =
      .ok (7, s, [.orig { pid := 0, pusi := true, content := 2 }, .orig { pid := 0, content := 3 }]) := by
  refine ⟨⟨.assertFail, error_of_eval (by decide +kernel)⟩, ⟨.assertFail, error_of_eval (by decide +kernel)⟩, ?_⟩
  obtain ⟨⟨c, s, l⟩, h, hk⟩ := ok_of_check (r := feedPackets listSource (sink C26ex.one C26ex.opt (takes 1)) 9 early (init C26ex.opt, []))
    (P := fun r => decide (r.1 = 7 ∧ r.2.2 = [.orig { pid := 0, pusi := true, content := 2 }, .orig { pid := 0, content := 3 }]))
    (by decide +kernel)
  have hk := of_decide_eq_true hk
  exact ⟨s, by rw [h]; obtain ⟨rfl, rfl⟩ := hk; rfl⟩

end Mirakc.Props
