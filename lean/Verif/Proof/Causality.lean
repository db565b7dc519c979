import Verif.Proof.MainAborts
/-
Lemmas: what a command writes grows with its input.
-/
namespace Mirakc.Main
open Mirakc.Pipeline Mirakc.Spec Mirakc.Spec.Main Mirakc.Spec.Pipeline

theorem consumes_of_list {P σ : Type} (snk : Sink P σ) :
    ∀ (ps : List P) (fuel : Nat) (s : σ) (t : List P) (s' : σ), ps.length < fuel →
      feedLoop listSource snk fuel ps s = .ok (t, s') → ∃ cs, Consumes snk s ps cs s' := by
  intro ps fuel s t s' hf h
  exact feedLoop_consumes listSource snk (listSource_yields ps) fuel s t s' hf h

/-- What is written grows with every packet. -/
def Grows {P σ X : Type} (snk : Sink P σ) (μ : σ → List X) : Prop :=
  ∀ s p ok s', snk.handle s p = .ok (ok, s') → μ s <+: μ s'

theorem Grows.consumes {P σ X : Type} {snk : Sink P σ} {μ : σ → List X} (hg : Grows snk μ)
    {s : σ} {ps cs : List P} {s' : σ} (h : Consumes snk s ps cs s') : μ s <+: μ s' := by
  induction h with
  | eof => exact List.prefix_refl _
  | refuse h => exact hg _ _ _ _ h
  | accept h _ ih => exact (hg _ _ _ _ h).trans ih

/-- Two runs on inputs one of which continues the other. -/
theorem Grows.consumes_append {P σ X : Type} {snk : Sink P σ} {μ : σ → List X} (hg : Grows snk μ)
    {s : σ} {ps cs : List P} {a : σ} (h : Consumes snk s ps cs a) (qs ds : List P) (b : σ)
    (h' : Consumes snk s (ps ++ qs) ds b) : μ a <+: μ b := by
  induction h generalizing ds with
  | eof => exact hg.consumes h'
  | @refuse s s1 p ps h =>
    cases h' with
    | refuse h2 => rw [h] at h2; cases h2; exact List.prefix_refl _
    | accept h2 _ => rw [h] at h2; cases h2
  | @accept s s1 s2 p ps cs h _ ih =>
    cases h' with
    | refuse h2 => rw [h] at h2; cases h2
    | accept h2 h3 => rw [h] at h2; cases h2; exact ih _ h3

theorem Grows.feed {P σ X : Type} {snk : Sink P σ} {μ : σ → List X} (hg : Grows snk μ)
    {s : σ} {ps qs : List P} {c c' : Nat} {a b : σ}
    (h : feedPackets listSource snk (ps.length + 1) ps s = .ok (c, a))
    (h' : feedPackets listSource snk ((ps ++ qs).length + 1) (ps ++ qs) s = .ok (c', b)) :
    (a = b) ∨ ∃ a0 b0, snk.finish a0 = .ok a ∧ snk.finish b0 = .ok b ∧ μ a0 <+: μ b0 := by
  unfold feedPackets at h h'
  obtain ⟨⟨ok, s1⟩, h1, h2⟩ := bind_ok_iff.1 h
  rw [h1] at h'
  cases ok with
  | false =>
    left
    cases h2; cases h'; rfl
  | true =>
    right
    obtain ⟨⟨t, a0⟩, h3, h4⟩ := bind_ok_iff.1 (show (feedLoop listSource snk (ps.length + 1) ps s1 >>= fun x =>
      snk.finish x.2 >>= fun s => Except.ok (snk.exitCode s, s)) = _ from h2)
    obtain ⟨⟨t', b0⟩, h3', h4'⟩ := bind_ok_iff.1
      (show (feedLoop listSource snk ((ps ++ qs).length + 1) (ps ++ qs) s1 >>= fun x =>
      snk.finish x.2 >>= fun s => Except.ok (snk.exitCode s, s)) = _ from h')
    obtain ⟨a1, h5, h6⟩ := bind_ok_iff.1 h4
    obtain ⟨b1, h5', h6'⟩ := bind_ok_iff.1 h4'
    cases h6; cases h6'
    obtain ⟨cs, hc⟩ := consumes_of_list snk ps _ _ _ _ (Nat.lt_succ_self _) h3
    obtain ⟨ds, hd⟩ := consumes_of_list snk (ps ++ qs) _ _ _ _ (Nat.lt_succ_self _) h3'
    exact ⟨a0, b0, h5, h5', hg.consumes_append hc qs ds b0 hd⟩

theorem grows_via {P Q σ X : Type} {f : Nat → Q → P} {snk : Sink P σ} {μ : σ → List X}
    (hg : Grows snk μ) : Grows (via f snk) fun s => μ s.2 := by
  intro s p ok s' h
  obtain ⟨⟨ok1, d⟩, h1, h2⟩ := bind_ok_iff.1 h
  cases h2
  exact hg _ _ _ _ h1

theorem grows_serviceFilter {σ X : Type} {o : ServiceFilter.Opt} {snk : Sink ServiceFilter.Out σ}
    {μ : σ → List X} (hg : Grows snk μ) : Grows (ServiceFilter.sink o snk) fun s => μ s.2 := by
  intro s p ok s' h
  obtain ⟨⟨f, l, act⟩, h1, h2⟩ := bind_ok_iff.1 h
  cases act with
  | stop => cases h2; exact List.prefix_refl _
  | drop => cases h2; exact List.prefix_refl _
  | send x =>
    obtain ⟨⟨ok1, d⟩, h3, h4⟩ := bind_ok_iff.1 h2
    cases h4
    exact hg _ _ _ _ h3

theorem grows_sendAll {σ X : Type} {snk : Sink ProgramFilter.Out σ} {μ : σ → List X}
    (hg : Grows snk μ) : ∀ (xs : List ProgramFilter.Out) (d : σ) (ok : Bool) (d' : σ),
      ProgramFilter.sendAll snk xs d = .ok (ok, d') → μ d <+: μ d'
  | [], d, ok, d', h => by cases h; exact List.prefix_refl _
  | x :: xs, d, ok, d', h => by
    obtain ⟨⟨ok1, d1⟩, h1, h2⟩ := bind_ok_iff.1 h
    cases ok1 with
    | false => cases h2; exact hg _ _ _ _ h1
    | true => exact (hg _ _ _ _ h1).trans (grows_sendAll hg xs d1 ok d' h2)

theorem grows_programFilter {σ X : Type} {extra : Pmt → Nat} {o : ProgramFilter.Opt}
    {snk : Sink ProgramFilter.Out σ} {μ : σ → List X} (hg : Grows snk μ) :
    Grows (ProgramFilter.sink extra o snk) fun s => μ s.2 := by
  intro s p ok s' h
  simp only [ProgramFilter.sink] at h
  split at h
  · obtain ⟨⟨ok1, d⟩, h1, h2⟩ := bind_ok_iff.1 h
    cases h2
    exact grows_sendAll hg _ _ _ _ h1
  · obtain ⟨⟨ok1, d⟩, h1, h2⟩ := bind_ok_iff.1 h
    cases ok1 with
    | false => cases h2; exact grows_sendAll hg _ _ _ _ h1
    | true => cases h2

theorem grows_history {ι σ α X : Type} {step : σ → ι → Except Fault (σ × α × Bool)}
    {finish : σ → Except Fault σ} {exitCode : σ → Nat} (f : Line ι α → List X) :
    Grows (historySink step finish exitCode) fun h => h.items.flatMap f := by
  intro s p ok s' h
  obtain ⟨⟨s1, a, more⟩, h1, h2⟩ := bind_ok_iff.1 h
  cases h2
  simp

theorem grows_recorder {o : ServiceRecorder.Opt} : Grows (ServiceRecorder.sink o) fun h => h.trace := by
  intro s p ok s' h
  obtain ⟨⟨s1, it⟩, h1, h2⟩ := bind_ok_iff.1 h
  cases h2
  exact List.prefix_append _ _

/-- What has been written when the buffer is flushed. -/
def flushed (s : StdoutSink.St) : List UInt8 := (StdoutSink.flush s).2.out

theorem writeLoop_out (buf : List UInt8) : ∀ (ws : List Int) (n : Nat) (out : List UInt8),
    out <+: (StdoutSink.writeLoop buf n out ws).2.1
  | [], n, out => List.prefix_append _ _
  | w :: ws, n, out => by
    simp only [StdoutSink.writeLoop]
    split
    · split
      · exact List.prefix_refl _
      · exact (List.prefix_append _ _).trans (writeLoop_out buf ws _ _)
    · exact List.prefix_refl _

theorem writeLoop_append (a b : List UInt8) : ∀ (ws : List Int) (n : Nat) (out : List UInt8),
    n ≤ a.length →
    (StdoutSink.writeLoop a n out ws).2.1 <+: (StdoutSink.writeLoop (a ++ b) n out ws).2.1
  | [], n, out, hn => by
    simp only [StdoutSink.writeLoop]
    rw [List.drop_append_of_le_length hn, ← List.append_assoc]
    exact List.prefix_append _ _
  | w :: ws, n, out, hn => by
    simp only [StdoutSink.writeLoop]
    by_cases h1 : n < a.length
    · have h1' : n < (a ++ b).length := by rw [List.length_append]; omega
      simp only [if_pos h1, if_pos h1']
      by_cases h2 : w < 0
      · simp only [if_pos h2]; exact List.prefix_refl _
      · simp only [if_neg h2]
        by_cases h3 : w.toNat ≤ a.length - n
        · have e1 : min w.toNat (a.length - n) = w.toNat := by omega
          have e2 : min w.toNat ((a ++ b).length - n) = w.toNat := by simp; omega
          rw [e1, e2]
          have e3 : ((a ++ b).drop n).take w.toNat = (a.drop n).take w.toNat := by
            rw [List.drop_append_of_le_length hn, List.take_append_of_le_length (by simp; omega)]
          rw [e3]
          exact writeLoop_append a b ws _ _ (by omega)
        · have e1 : min w.toNat (a.length - n) = a.length - n := by omega
          rw [e1]
          have e4 : (StdoutSink.writeLoop a (n + (a.length - n))
              (out ++ (a.drop n).take (a.length - n)) ws).2.1 = out ++ a.drop n := by
            have : n + (a.length - n) = a.length := by omega
            rw [this, List.take_of_length_le (by simp)]
            cases ws with
            | nil => simp [StdoutSink.writeLoop]
            | cons x xs => simp [StdoutSink.writeLoop]
          rw [e4]
          refine List.IsPrefix.trans ?_ (writeLoop_out (a ++ b) ws _ _)
          rw [List.drop_append_of_le_length hn, List.take_append]
          rw [List.take_of_length_le (l := a.drop n) (by simp; omega), ← List.append_assoc]
          exact List.prefix_append _ _
    · rw [if_neg h1]
      exact (writeLoop_out (a ++ b) (w :: ws) n out)

theorem flush_out (s : StdoutSink.St) :
    (StdoutSink.flush s).2.out = (StdoutSink.writeLoop s.buf 0 s.out s.writes).2.1 := by
  unfold StdoutSink.flush
  generalize StdoutSink.writeLoop s.buf 0 s.out s.writes = r
  obtain ⟨ok, out, ws⟩ := r
  cases ok <;> rfl

theorem out_flushed (s : StdoutSink.St) : s.out <+: flushed s := by
  unfold flushed
  rw [flush_out]
  exact writeLoop_out _ _ _ _

theorem flushed_append (s : StdoutSink.St) (p : List UInt8) :
    flushed s <+: flushed { s with buf := s.buf ++ p } := by
  unfold flushed
  rw [flush_out, flush_out]
  exact writeLoop_append _ _ _ _ _ (Nat.zero_le _)

theorem grows_stdout : Grows StdoutSink.sink flushed := by
  intro s p ok s' h
  simp only [StdoutSink.sink, StdoutSink.handlePacket] at h
  split at h
  · cases h; exact flushed_append s p
  · obtain ⟨u, _, h2⟩ := bind_ok_iff.1 h
    generalize hs : ({ s with buf := s.buf ++ p.take (StdoutSink.bufferSize - s.buf.length) } :
      StdoutSink.St) = s1 at h2
    have hp : flushed s <+: (StdoutSink.flush s1).2.out := by
      rw [← hs]; exact flushed_append s _
    generalize StdoutSink.flush s1 = r at h2 hp
    obtain ⟨ok1, s2⟩ := r
    dsimp only at h2 hp
    refine hp.trans ?_
    split at h2
    · split at h2
      · obtain ⟨u, _, h4⟩ := bind_ok_iff.1 h2
        cases h4
        exact out_flushed ({ s2 with buf := p.drop (StdoutSink.bufferSize - s.buf.length) })
      · cases h2; exact out_flushed _
    · cases h2; exact out_flushed _

/-- The worlds differ only in the input. -/
theorem feed_grows {w w' : World} {ps qs : List (List UInt8)} (hr : Reads w ps) (hr' : Reads w' (ps ++ qs))
    {σ X : Type} {snk : Sink (List UInt8) σ} {μ : σ → List X} (hg : Grows snk μ) {s : σ}
    {c c' : Nat} {a b : σ} (h : feed w snk s = .ok (c, a)) (h' : feed w' snk s = .ok (c', b)) :
    (a = b) ∨ ∃ a0 b0, snk.finish a0 = .ok a ∧ snk.finish b0 = .ok b ∧ μ a0 <+: μ b0 := by
  rw [feed_eq hr] at h
  rw [feed_eq hr'] at h'
  exact hg.feed (mapError_ok_iff.1 h) (mapError_ok_iff.1 h')

theorem finish_via {P Q σ : Type} {f : Nat → Q → P} {snk : Sink P σ} {s s' : Nat × σ}
    (h : (via f snk).finish s = .ok s') : snk.finish s.2 = .ok s'.2 := by
  obtain ⟨d, h1, h2⟩ := bind_ok_iff.1 h
  cases h2; exact h1

theorem finish_serviceFilter {σ : Type} {o : ServiceFilter.Opt} {snk : Sink ServiceFilter.Out σ}
    {s s' : ServiceFilter.St × σ} (h : (ServiceFilter.sink o snk).finish s = .ok s') :
    snk.finish s.2 = .ok s'.2 := by
  obtain ⟨d, h1, h2⟩ := bind_ok_iff.1 h
  cases h2; exact h1

theorem finish_programFilter {σ : Type} {extra : Pmt → Nat} {o : ProgramFilter.Opt}
    {snk : Sink ProgramFilter.Out σ}
    {s s' : ProgramFilter.St × σ} (h : (ProgramFilter.sink extra o snk).finish s = .ok s') :
    snk.finish s.2 = .ok s'.2 := by
  obtain ⟨d, h1, h2⟩ := bind_ok_iff.1 h
  cases h2; exact h1

theorem finish_stdout {s s' : StdoutSink.St} (h : StdoutSink.sink.finish s = .ok s') :
    s'.out = flushed s := by
  cases h; rfl

theorem finish_history {ι σ α : Type} {step : σ → ι → Except Fault (σ × α × Bool)}
    {finish : σ → Except Fault σ} {exitCode : σ → Nat} {h h' : History ι σ α}
    (hf : (historySink step finish exitCode).finish h = .ok h') : h'.items = h.items := by
  obtain ⟨d, h1, h2⟩ := bind_ok_iff.1 hf
  cases h2; rfl

theorem finish_recorder {o : ServiceRecorder.Opt} {h h' : ServiceRecorder.Hist}
    (hf : (ServiceRecorder.sink o).finish h = .ok h') :
    h'.trace = h.trace ++ [.msg (.stop h.st.ring.broken)] := by
  cases hf; rfl

/-- The history of a command that looks at packets or sections. -/
theorem history_grows {w w' : World} {ps qs : List (List UInt8)} (hr : Reads w ps)
    (hr' : Reads w' (ps ++ qs)) {ι σ α X : Type} {step : σ → ι → Except Fault (σ × α × Bool)}
    {finish : σ → Except Fault σ} {exitCode : σ → Nat} {f : Nat → List UInt8 → ι}
    (g : Line ι α → List X) {s : Nat × History ι σ α} {c c' : Nat} {a b : Nat × History ι σ α}
    (h : feed w (via f (historySink step finish exitCode)) s = .ok (c, a))
    (h' : feed w' (via f (historySink step finish exitCode)) s = .ok (c', b)) :
    a.2.items.flatMap g <+: b.2.items.flatMap g := by
  rcases feed_grows hr hr' (grows_via (grows_history g)) h h' with e | ⟨a0, b0, h1, h2, h3⟩
  · rw [e]; exact List.prefix_refl _
  · rw [finish_history (finish_via h1), finish_history (finish_via h2)]
    exact h3

end Mirakc.Main
