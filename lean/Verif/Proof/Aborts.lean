import Verif.Proof.Pipeline
/-
The chains of commands with a standard output whose writes may fail.
-/
namespace Mirakc.Pipeline
open Mirakc.Spec Mirakc.Spec.Pipeline

/-- A sink that handles all packets of a kind, in all states of a kind. -/
structure Robust {P σ : Type} (snk : Sink P σ) (Q : P → Prop) (I : σ → Prop) : Prop where
  handle : ∀ s p, I s → Q p → ∃ ok s', snk.handle s p = .ok (ok, s') ∧ I s'
  finish : ∀ s, I s → ∃ s', snk.finish s = .ok s'

theorem Robust.consumes {P σ : Type} {snk : Sink P σ} {Q : P → Prop} {I : σ → Prop} (h : Robust snk Q I) :
    ∀ (ps : List P) (s : σ), I s → (∀ p ∈ ps, Q p) → ∃ cs s', Consumes snk s ps cs s' ∧ I s' := by
  intro ps
  induction ps with
  | nil => intro s hs _; exact ⟨_, _, .eof, hs⟩
  | cons p ps ih =>
    intro s hs hq
    obtain ⟨ok, s1, h1, h2⟩ := h.handle s p hs (hq p (by simp))
    cases ok with
    | false => exact ⟨_, _, .refuse h1, h2⟩
    | true =>
      obtain ⟨cs, s', h3, h4⟩ := ih s1 h2 (fun q hq' => hq q (by simp [hq']))
      exact ⟨_, _, .accept h1 h3, h4⟩

theorem Robust.via {P Q' σ : Type} {snk : Sink P σ} {Q : P → Prop} {I : σ → Prop} (h : Robust snk Q I)
    (f : Q' → P) : Robust (via (fun _ => f) snk) (fun q => Q (f q)) (fun s => I s.2) where
  handle s p hs hp := by
    obtain ⟨ok, s', h1, h2⟩ := h.handle s.2 (f p) hs hp
    exact ⟨ok, (s.1 + 1, s'), by simp only [Pipeline.via, h1, ok_bind], h2⟩
  finish s hs := by
    obtain ⟨s', h1⟩ := h.finish s.2 hs
    exact ⟨(s.1, s'), by simp only [Pipeline.via, h1, ok_bind]⟩

/-- Standard output. -/
theorem stdout_robust : Robust StdoutSink.sink (fun p => p.length = 188)
    (fun s => s.buf.length ≤ 16384) where
  handle s p hs hp := by
    have hB : StdoutSink.bufferSize = 16384 := rfl
    have hP : pktSize = 188 := rfl
    simp only [StdoutSink.sink, StdoutSink.handlePacket]
    split
    · rename_i hc
      exact ⟨true, _, rfl, by simp only [List.length_append]; omega⟩
    · rename_i hc
      have hlen : (s.buf ++ p.take (StdoutSink.bufferSize - s.buf.length)).length = StdoutSink.bufferSize := by
        simp only [List.length_append, List.length_take]; omega
      rw [assert_of (decide_eq_true hlen)]
      simp only [ok_bind]
      unfold StdoutSink.flush
      split
      · rename_i out ws hw
        simp only [hw, if_true]
        split
        · exact ⟨true, _, rfl, by simp only [List.length_drop]; omega⟩
        · exact ⟨true, _, rfl, by simp⟩
      · rename_i out ws hw
        simp only [hw]
        exact ⟨false, _, rfl, by simp only [hlen]; omega⟩
  finish s _ := ⟨_, rfl⟩

section
open ProgramFilter Mirakc.Spec.ProgramFilter

theorem sendAll_robust {σ : Type} {snk : Sink Out σ} {Q : Out → Prop} {I : σ → Prop} (h : Robust snk Q I) :
    ∀ (xs : List Out) (d : σ), I d → (∀ x ∈ xs, Q x) → ∃ ok d', sendAll snk xs d = .ok (ok, d') ∧ I d' := by
  intro xs
  induction xs with
  | nil => intro d hd _; exact ⟨true, d, rfl, hd⟩
  | cons x xs ih =>
    intro d hd hq
    obtain ⟨ok, d1, h1, h2⟩ := h.handle d x hd (hq x (by simp))
    cases ok with
    | false => exact ⟨false, d1, by simp [sendAll, h1], h2⟩
    | true =>
      obtain ⟨ok, d2, h3, h4⟩ := ih d1 h2 (fun y hy => hq y (by simp [hy]))
      exact ⟨ok, d2, by simp [sendAll, h1, h3], h4⟩

theorem pf_robust {σ : Type} {extra : Pmt → Nat} {o : Opt} {snk : Sink Out σ} {Q : Out → Prop} {I : σ → Prop}
    (hs : Robust snk Q I) : ∀ {is : List Input} {s f : St} {items : List Item} {d : σ},
    run extra o s is = .ok (f, items) → I d → (∀ x ∈ sent items, Q x) →
    ∃ cs s' d', Consumes (sink extra o snk) (s, d) is cs (s', d') ∧ I d' := by
  intro is
  induction is with
  | nil => intro s f items d _ hd _; exact ⟨_, _, _, .eof, hd⟩
  | cons i is ih =>
    intro s f items d h hd hq
    obtain ⟨s1, log, outs, more, h1, h⟩ := run_cons h
    have ho : ∀ x ∈ outs, Q x := by
      intro x hx
      rcases h with ⟨rfl, rfl, rfl⟩ | ⟨rfl, rest, h2, rfl⟩ <;> exact hq x (by simp [sent, hx])
    obtain ⟨ok, d1, g1, g2⟩ := sendAll_robust hs outs d hd ho
    by_cases hk : (ok && more) = true
    · obtain ⟨rfl, rfl⟩ : ok = true ∧ more = true := by simpa using hk
      rcases h with ⟨hf, _, _⟩ | ⟨_, rest, h2, rfl⟩
      · cases hf
      · obtain ⟨cs, s', d', h3, h4⟩ := ih h2 g2 (fun x hx => hq x (by
          have : x ∈ outs ++ sent rest := by simp [hx]
          simpa [sent] using this))
        exact ⟨_, s', d', .accept (s' := (s1, d1)) (by rw [handle_of_ok h1 g1]; rfl) h3, h4⟩
    · have hk : (ok && more) = false := by simpa using hk
      exact ⟨_, s1, d1, .refuse (by rw [handle_of_ok h1 g1, hk]), g2⟩

end

section
open StartSeeker Mirakc.Spec.StartSeeker

theorem seek_sendAll_robust {σ : Type} {snk : Sink Packet σ} {Q : Packet → Prop} {I : σ → Prop}
    (h : Robust snk Q I) : ∀ (xs : List Packet) (d : σ), I d → (∀ x ∈ xs, Q x) →
    ∃ ok d', StartSeeker.sendAll snk xs d = .ok (ok, d') ∧ I d' := by
  intro xs
  induction xs with
  | nil => intro d hd _; exact ⟨true, d, rfl, hd⟩
  | cons x xs ih =>
    intro d hd hq
    obtain ⟨ok, d1, h1, h2⟩ := h.handle d x hd (hq x (by simp))
    cases ok with
    | false => exact ⟨false, d1, by simp [StartSeeker.sendAll, h1], h2⟩
    | true =>
      obtain ⟨ok, d2, h3, h4⟩ := ih d1 h2 (fun y hy => hq y (by simp [hy]))
      exact ⟨ok, d2, by simp [StartSeeker.sendAll, h1, h3], h4⟩

theorem perform_robust {σ : Type} {snk : Sink Packet σ} {Q : Packet → Prop} {I : σ → Prop}
    (h : Robust snk Q I) (act : StartSeeker.Act) (d : σ) (hd : I d) (hq : ∀ x ∈ Act.out act, Q x) :
    ∃ ok d', perform snk d act = .ok (ok, d') ∧ I d' := by
  cases act with
  | hold => exact ⟨_, _, rfl, hd⟩
  | lead q l =>
    obtain ⟨ok, d1, h1, h2⟩ := h.handle d q hd (hq q (by simp [Act.out]))
    obtain ⟨ok', d2, h3, h4⟩ := seek_sendAll_robust h l d1 h2 (fun x hx => hq x (by simp [Act.out, hx]))
    exact ⟨true, d2, by simp only [perform, h1, ok_bind, h3], h4⟩
  | burst l =>
    obtain ⟨ok', d2, h3, h4⟩ := seek_sendAll_robust h l d hd (fun x hx => hq x (by simp [Act.out, hx]))
    exact ⟨true, d2, by simp only [perform, ok_bind, h3], h4⟩
  | pass p => exact h.handle d p hd (hq p (by simp [Act.out]))

theorem seek_robust {σ : Type} {o : StartSeeker.Opt} {snk : Sink Packet σ} {Q : Packet → Prop} {I : σ → Prop}
    (hs : Robust snk Q I) : ∀ {is : List Input} {s f : StartSeeker.St} {items : List StartSeeker.Item} {d : σ},
    StartSeeker.run o s is = .ok (f, items) → I d → (∀ q ∈ s.packets, Q q) → (∀ i ∈ is, Q i.packet) →
    ∃ cs s' d', Consumes (StartSeeker.sink o snk) (s, d) is cs (s', d') ∧ I d' ∧ ∀ q ∈ s'.packets, Q q := by
  intro is
  induction is with
  | nil => intro s f items d _ hd hp _; exact ⟨_, _, _, .eof, hd, hp⟩
  | cons i is ih =>
    intro s f items d h hd hp hi
    simp only [StartSeeker.run] at h
    obtain ⟨⟨s1, log, act⟩, h1, h⟩ := bind_eq_ok h
    obtain ⟨⟨s2, its⟩, h2, h⟩ := bind_eq_ok h
    have hone : StartSeeker.run o s [i] = .ok (s1, [⟨i.packet, log, act⟩]) := by
      simp [StartSeeker.run, h1]
    obtain ⟨k1, k2⟩ := seek_sent hp (fun j hj => hi j (by simp at hj; simp [hj])) hone
    obtain ⟨ok, d1, g1, g2⟩ := perform_robust hs act d hd (fun x hx => k1 x (by simpa [sent] using hx))
    cases ok with
    | false => exact ⟨_, s1, d1, .refuse (by simp [StartSeeker.sink, h1, g1]), g2, k2⟩
    | true =>
      obtain ⟨cs, s', d', h3, h4⟩ := ih h2 g2 k2 (fun j hj => hi j (by simp [hj]))
      exact ⟨_, s', d', .accept (s' := (s1, d1)) (by simp [StartSeeker.sink, h1, g1]) h3, h4⟩

end

end Mirakc.Pipeline
