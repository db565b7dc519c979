import Verif.Proof.SeekAborts
import Verif.Proof.StopsAt
import Verif.Props.StartSeeker
/-
Property C110: exactly which streams make seek-start terminate abnormally.
-/
namespace Mirakc.Props
open Mirakc.Spec Mirakc.Spec.StartSeeker Mirakc.StartSeeker
open Mirakc.Spec.ServiceFilter (usablePat validPmt latest Missing)

/-- **C110**, tables: those looked at with a packet are determined by the tables looked at before,
whatever tables the stream has. -/
theorem C110_any_tables (o : Opt) (is : List Input) (s : St)
    (pre : List Item) (it : Item) (post : List Item) (h : run o init is = .ok (s, pre ++ it :: post)) :
    ∃ i, is[pre.length]? = some i ∧ i.packet = it.packet ∧
      Handed (Looked o.sid) it.packet.pid (received pre) i.tables it.handled ∧
      ∀ log, Handed (Looked o.sid) it.packet.pid (received pre) i.tables log → log = it.handled := by
  obtain ⟨i, h1, h2, h3⟩ := run_handed is _ _ [] _ (state_init o) h pre it post rfl
  rw [List.nil_append] at h3
  exact ⟨i, h1, h2, h3, fun log h => h.unique h3⟩

/-- **C110**.  seek-start terminates abnormally exactly at the first packet that meets one of the
conditions of `Unseekable`. -/
theorem C110_seek_start (o : Opt) (is : List Input) :
    (∃ f, run o init is = .error f) ↔ ∃ pre i post s items, is = pre ++ i :: post ∧
      run o init pre = .ok (s, items) ∧ Unseekable o items i := by
  simpa using run_exact is _ [] (state_init o)

/-- **C110**, connected to a sink that takes every packet: the same holds for the two together,
whatever the source. -/
theorem C110_connected {σ : Type} (o : Opt) (is : List Input)
    (snk : Sink Packet σ) (d : σ) (h1 : ∀ d, ∃ d', snk.start d = .ok (true, d'))
    (h2 : ∀ d p, ∃ d', snk.handle d p = .ok (true, d')) (h3 : ∀ d, ∃ d', snk.finish d = .ok d') :
    Aborts (sink o snk) (init, d) is ↔ ∃ pre i post s items, is = pre ++ i :: post ∧
      run o init pre = .ok (s, items) ∧ Unseekable o items i := by
  rw [← C110_seek_start o is, aborts_list]
  have hsend : ∀ l d, ∃ d', sendAll snk l d = .ok (true, d') := by
    intro l
    induction l with
    | nil => exact fun d => ⟨d, rfl⟩
    | cons x l ih =>
      intro d
      obtain ⟨d1, e1⟩ := h2 d x
      obtain ⟨d2, e2⟩ := ih d1
      exact ⟨d2, by simp only [sendAll, e1, ok_bind, if_true, e2]⟩
  have hperf : ∀ act d, ∃ d', perform snk d act = .ok (true, d') := by
    intro act d
    cases act with
    | hold => exact ⟨d, rfl⟩
    | lead q l =>
      obtain ⟨d1, e1⟩ := h2 d q
      obtain ⟨d2, e2⟩ := hsend l d1
      exact ⟨d2, by simp only [perform, e1, ok_bind, e2]⟩
    | burst l =>
      obtain ⟨d2, e2⟩ := hsend l d
      exact ⟨d2, by simp only [perform, ok_bind, e2]⟩
    | pass p => exact h2 d p
  have loop : ∀ (is : List Input) (s : St) (d : σ) (fuel : Nat), is.length < fuel →
      ((∃ f, feedLoop listSource (sink o snk) fuel is (s, d) = .error f) ↔ ∃ f, run o s is = .error f) := by
    intro is
    induction is with
    | nil =>
      intro s d fuel hl
      cases fuel with
      | zero => simp at hl
      | succ n => constructor <;> (rintro ⟨f, h⟩; cases h)
    | cons i is ih =>
      intro s d fuel hl
      cases fuel with
      | zero => simp at hl
      | succ n =>
        cases hs : step o s i with
        | error f =>
          refine iff_of_true ⟨f, ?_⟩ ⟨f, ?_⟩
          · simp only [feedLoop, listSource, sink, ok_bind, hs]
            rfl
          · simp only [run, hs]
            rfl
        | ok r =>
          obtain ⟨s1, log, act⟩ := r
          obtain ⟨d1, e1⟩ := hperf act d
          have := ih s1 d1 n (by simpa using hl)
          have e : feedLoop listSource (sink o snk) (n + 1) (i :: is) (s, d) =
              feedLoop listSource (sink o snk) n is (s1, d1) := by
            simp only [feedLoop, listSource, sink, ok_bind, hs, e1, if_true]
          rw [e, this]
          have hrun : run o s (i :: is) = (run o s1 is).bind fun r => .ok (r.1, ⟨i.packet, log, act⟩ :: r.2) := by
            simp only [run, hs, ok_bind]
            rfl
          rw [hrun]
          cases run o s1 is with
          | error f => exact ⟨fun _ => ⟨f, rfl⟩, fun _ => ⟨f, rfl⟩⟩
          | ok r => constructor <;> (rintro ⟨f, h⟩; cases h)
  obtain ⟨d1, e1⟩ := h1 d
  have e2 : (sink o snk).start (init, d) = .ok (true, init, d1) := by simp only [sink, e1, ok_bind]
  rw [← loop is init d1 (is.length + 1) (by omega)]
  unfold feedPackets
  simp only [e2, ok_bind, if_true]
  cases feedLoop listSource (sink o snk) (is.length + 1) is (init, d1) with
  | error f => exact iff_of_true ⟨f, rfl⟩ ⟨f, rfl⟩
  | ok r =>
    obtain ⟨_, s2, d2⟩ := r
    obtain ⟨d3, e3⟩ := hsend s2.packets d2
    obtain ⟨d4, e4⟩ := h3 d3
    refine iff_of_false ?_ (by rintro ⟨_, h⟩; cases h)
    rintro ⟨f, hf⟩
    simp only [ok_bind, sink, e3, e4] at hf
    cases hf

/-- A sink that takes every packet. -/
example : ∃ snk : Sink Packet (List Packet), (∀ d, ∃ d', snk.start d = .ok (true, d')) ∧
    (∀ d p, ∃ d', snk.handle d p = .ok (true, d')) ∧ (∀ d, ∃ d', snk.finish d = .ok d') :=
  ⟨{ start := fun d => .ok (true, d), handle := fun d p => .ok (true, d ++ [p]), finish := .ok, exitCode := fun _ => 0 },
    fun d => ⟨d, rfl⟩, fun d p => ⟨d ++ [p], rfl⟩, fun d => ⟨d, rfl⟩⟩

namespace C110ex

/-- A PAT without services. -/
def empty (k : Nat) : Table := { C34ex.pat k with body := .pat { tsId := 7, pmts := .empty } }
/-- A PCR out of range as the first one. -/
def first : List Item :=
  [ ⟨{ pid := 0 }, [C34ex.pat 0], .hold⟩, ⟨{ pid := 0x100 }, [C34ex.pmt C34ex.pmt0 1], .hold⟩,
    ⟨C34ex.pcr (2 ^ 33 * 300), [], .hold⟩ ]

end C110ex

/-- Non-trivial cases for C110: a PCR out of range is no problem as the first one, nor after the
start was found; and then a PAT without the service is not looked at. -/
example : (∃ s, run C34ex.opt init (C34ex.inputs C110ex.first) = .ok (s, C110ex.first)) ∧
    ∃ s, run C34ex.opt init (C34ex.inputs (C34ex.hist ++ [C34ex.trans]) ++
        [⟨C34ex.pcr (2 ^ 33 * 300), []⟩, ⟨{ pid := 0 }, [C110ex.empty 7]⟩]) =
      .ok (s, C34ex.hist ++ [C34ex.trans, ⟨C34ex.pcr (2 ^ 33 * 300), [], .pass (C34ex.pcr (2 ^ 33 * 300))⟩,
        ⟨{ pid := 0 }, [], .pass { pid := 0 }⟩]) :=
  ⟨ok_of_eval (by decide +kernel), ok_of_eval (by decide +kernel)⟩

/-- A PCR in range is a problem as the first one if the duration is too long. -/
example : (∃ s, run { sid := 1, maxDuration := 341606371735363 } init (C34ex.inputs (C36ex.hist.take 2)) =
      .ok (s, C36ex.hist.take 2)) ∧
    Unseekable { sid := 1, maxDuration := 341606371735363 } (C36ex.hist.take 2) ⟨C34ex.pcr 5, []⟩ ∧
    run { sid := 1, maxDuration := 341606371735363 } init (C34ex.inputs (C36ex.hist.take 2) ++ [⟨C34ex.pcr 5, []⟩]) =
      .error .overflow := by
  refine ⟨ok_of_eval (by decide +kernel), ⟨[], .nil _, .inr (.inr (.inl ⟨?_, ?_, ?_, ?_, ⟨5, C34ex.pmt0, rfl, by decide, rfl, rfl⟩, ?_⟩))⟩,
    error_of_eval (by decide +kernel)⟩
  · intro x hx
    simp [C36ex.hist] at hx
    rcases hx with rfl | rfl <;> rfl
  · rintro ⟨k, _, t, ⟨a, b, e, _⟩, _⟩
    simp at e
  · simp [Full]
  · rintro ⟨x, a, j, b, e, ⟨_, _, _, _, hy⟩, _⟩
    have hj : j ∈ a ++ j :: b := by simp
    rw [← e] at hj
    simp [C36ex.hist] at hj
    rcases hj with rfl | rfl <;> cases hy
  · simp [DurationFits]

/-- It is a problem as the second PCR while seeking; and so is a PAT without the service. -/
example : (∃ s, run C34ex.opt init (C34ex.inputs C34ex.hist) = .ok (s, C34ex.hist)) ∧
    Unseekable C34ex.opt C34ex.hist ⟨C34ex.pcr (2 ^ 33 * 300), []⟩ ∧
    Unseekable C34ex.opt C34ex.hist ⟨{ pid := 0 }, [C110ex.empty 5]⟩ := by
  have hn : ∀ k, ¬ TransitionAt C34ex.opt C34ex.hist ⟨C34ex.pcr (2 ^ 33 * 300), [], .hold⟩ k := by
    rintro k ⟨_, t, ⟨a, b, e, _⟩, _⟩
    simp at e
  have hnever : Never 1 (received C34ex.hist) := by
    intro a t b e
    have e : [C34ex.pat 0, C34ex.pmt C34ex.pmt0 1, C34ex.pat 3] = a ++ t :: b := e
    rcases a with _ | ⟨_, _ | ⟨_, _ | ⟨_, a⟩⟩⟩ <;> simp at e
    · obtain ⟨rfl, _⟩ := e; exact not_transition rfl
    · obtain ⟨rfl, rfl, _⟩ := e
      rintro ⟨p, p', h, _⟩
      cases h
    · obtain ⟨rfl, rfl, rfl, _⟩ := e; exact not_transition rfl
  refine ⟨ok_of_eval (by decide +kernel), ⟨[], .nil _, .inr (.inr (.inr ⟨?_, fun ⟨k, h⟩ => hn k h, ?_, ⟨1000, ?_⟩, 2 ^ 33 * 300, ?_,
    .inr (by decide)⟩))⟩, ⟨[C110ex.empty 5], .take ⟨rfl, .inl ⟨hnever, .inr (.inl ⟨rfl, ?_⟩)⟩⟩ (.nil _),
    .inl ⟨_, List.mem_singleton.2 rfl, { tsId := 7, pmts := .empty }, rfl, ?_⟩⟩⟩
  · intro x hx
    simp [C34ex.hist] at hx
    rcases hx with rfl | rfl | rfl | rfl | rfl <;> rfl
  · simp [Full, C34ex.opt, C34ex.hist]
  · refine ⟨C34ex.hist.take 2, C34ex.hist[2], C34ex.hist.drop 3, rfl, ⟨C34ex.pmt0, rfl, by decide, rfl, rfl⟩, ?_⟩
    intro a j b e y ⟨_, _, _, _, hy⟩
    have hj : j ∈ a ++ j :: b := by simp
    rw [← e] at hj
    simp [C34ex.hist] at hj
    rcases hj with rfl | rfl <;> cases hy
  · exact ⟨C34ex.pmt0, rfl, by decide, rfl, rfl⟩
  · decide +kernel
  · intro pid h
    simp [OMap.empty] at h

end Mirakc.Props
