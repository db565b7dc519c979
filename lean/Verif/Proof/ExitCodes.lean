import Verif.Proof.Foreign
import Verif.Proof.StdoutSink
import Verif.Spec.ExitCodes
/-
Lemmas: the exit codes of the commands.
-/
namespace Mirakc.ExitCodes
open Mirakc.Main Mirakc.Pipeline Mirakc.Spec.ExitCodes

/-- What holds while packets of a kind (`G`) are taken (`J`), after the last packet (`K`), and after the end (`L`). -/
structure Through {P σ : Type} (snk : Sink P σ) (G : P → Prop) (J K L : σ → Prop) : Prop where
  jk : ∀ s, J s → K s
  handle : ∀ s p ok s', G p → J s → snk.handle s p = .ok (ok, s') → K s' ∧ (ok = true → J s')
  finish : ∀ s s', K s → snk.finish s = .ok s' → L s'

theorem feedLoop_through {P τ σ : Type} {src : Source P τ} {snk : Sink P σ} {G : P → Prop} {J K L : σ → Prop}
    (hg : ∀ t p t', src.next t = .ok (some p, t') → G p) (H : Through snk G J K L) : ∀ (fuel : Nat) (t : τ) (s : σ) (r : τ × σ), J s →
    feedLoop src snk fuel t s = .ok r → K r.2
  | 0, _, _, _, _, h => by cases h
  | fuel + 1, t, s, r, hj, h => by
    unfold feedLoop at h
    obtain ⟨⟨p, t1⟩, h0, h⟩ := bind_ok_iff.1 h
    cases p with
    | none => cases h; exact H.jk _ hj
    | some p =>
      obtain ⟨⟨ok, s1⟩, h1, h⟩ := bind_ok_iff.1 h
      have := H.handle _ _ _ _ (hg _ _ _ h0) hj h1
      cases ok with
      | true => exact feedLoop_through hg H fuel t1 s1 r (this.2 rfl) h
      | false => cases h; exact this.1

theorem copy_length {t t' : FileSource.St} {p : List UInt8} (h : FileSource.copyPacket t = .ok (some p, t')) :
    p.length = 188 := by
  unfold FileSource.copyPacket at h
  split at h
  · next hl =>
    obtain ⟨_, _, h⟩ := bind_ok_iff.1 h
    cases h
    rw [List.length_take, List.length_drop]
    simp only [pktSize] at *
    omega
  · cases h

/-- The source delivers packets of 188 bytes. -/
theorem next_length {t t' : FileSource.St} {p : List UInt8} (h : FileSource.source.next t = .ok (some p, t')) :
    p.length = 188 := by
  change FileSource.getNextPacket t = _ at h
  unfold FileSource.getNextPacket at h
  obtain ⟨⟨ok, t1⟩, _, h⟩ := bind_ok_iff.1 h
  cases ok with
  | false => cases h
  | true =>
    obtain ⟨b, _, h⟩ := bind_ok_iff.1 h
    split at h
    · exact copy_length h
    · obtain ⟨⟨ok, t2⟩, _, h⟩ := bind_ok_iff.1 h
      cases ok with
      | false => cases h
      | true =>
        obtain ⟨_, _, h⟩ := bind_ok_iff.1 h
        obtain ⟨_, _, h⟩ := bind_ok_iff.1 h
        exact copy_length h

/-- The exit code, and what holds at the end. -/
theorem feed_through {σ : Type} {w : World} {snk : Sink (List UInt8) σ} {s0 : σ} {G : List UInt8 → Prop} {J K L : σ → Prop}
    (hg : ∀ p, p.length = 188 → G p) (H : Through snk G J K L) (h0 : ∀ s, snk.start s0 = .ok (true, s) → J s) {code : Nat} {s : σ}
    (h : feed w snk s0 = .ok (code, s)) :
    (code = 1 ∧ snk.start s0 = .ok (false, s)) ∨ (code = snk.exitCode s ∧ L s) := by
  unfold feed at h
  rw [mapError_ok_iff] at h
  unfold exec feedPackets at h
  obtain ⟨⟨ok, s1⟩, h1, h⟩ := bind_ok_iff.1 h
  cases ok with
  | false =>
    cases h
    exact Or.inl ⟨rfl, h1⟩
  | true =>
    obtain ⟨⟨t, s2⟩, h2, h⟩ := bind_ok_iff.1 h
    obtain ⟨s3, h3, h⟩ := bind_ok_iff.1 h
    cases h
    have := feedLoop_through (fun _ _ _ h => hg _ (next_length h)) H _ _ _ _ (h0 _ h1) h2
    exact Or.inr ⟨rfl, H.finish _ _ this h3⟩

/-- The same with nothing in particular to hold. -/
theorem feed_code {σ : Type} {w : World} {snk : Sink (List UInt8) σ} {s0 : σ} {code : Nat} {s : σ}
    (h : feed w snk s0 = .ok (code, s)) :
    (code = 1 ∧ snk.start s0 = .ok (false, s)) ∨ (code = snk.exitCode s ∧ ∃ s1, snk.finish s1 = .ok s) := by
  refine feed_through (G := fun _ => True) (fun _ _ => trivial) (J := fun _ => True) (K := fun _ => True) (L := fun s => ∃ s1, snk.finish s1 = .ok s)
    ⟨fun _ _ => trivial, fun _ _ _ _ _ _ _ => ⟨trivial, fun _ => trivial⟩, fun s s' _ h => ⟨s, h⟩⟩ (fun _ _ => trivial) h

theorem Through.via {P Q σ : Type} {snk : Sink P σ} {G : P → Prop} {J K L : σ → Prop} (H : Through snk G J K L)
    (f : Nat → Q → P) : Through (via f snk) (fun q => ∀ n, G (f n q)) (fun s => J s.2) (fun s => K s.2) (fun s => L s.2) where
  jk _ h := H.jk _ h
  handle s q ok s' hg hj h := by
    obtain ⟨⟨o, d⟩, h1, h⟩ := bind_ok_iff.1 h
    cases h
    exact H.handle _ _ _ _ (hg _) hj h1
  finish s s' hk h := by
    obtain ⟨d, h1, h⟩ := bind_ok_iff.1 h
    cases h
    exact H.finish _ _ hk h1

theorem sends_what {o : ServiceFilter.Opt} {s f : ServiceFilter.St} {i : Input} {log : List Table} {x : ServiceFilter.Out}
    (h : ServiceFilter.step o s i = .ok (f, log, .send x)) : (∃ t n, x = .pat t n) ∨ x = .orig i.packet := by
  unfold ServiceFilter.step at h
  obtain ⟨⟨s1, log1⟩, _, h⟩ := bind_ok_iff.1 h
  dsimp only at h
  split at h
  · cases h
  · split at h
    · cases h
    · split at h
      · split at h
        · cases h
        · cases h; exact Or.inl ⟨_, _, rfl⟩
      · obtain ⟨_, _, h⟩ := bind_ok_iff.1 h
        cases h; exact Or.inr rfl

theorem Through.service {σ : Type} {snk : Sink ServiceFilter.Out σ} {G : ServiceFilter.Out → Prop}
    {J K L : σ → Prop} (H : Through snk G J K L) (hp : ∀ t n, G (.pat t n)) (o : ServiceFilter.Opt) :
    Through (ServiceFilter.sink o snk) (fun i => G (.orig i.packet)) (fun s => J s.2) (fun s => K s.2) (fun s => L s.2) where
  jk _ h := H.jk _ h
  handle s q ok s' hg hj h := by
    obtain ⟨⟨f, log, act⟩, hstep, h⟩ := bind_ok_iff.1 h
    cases act with
    | stop => cases h; exact ⟨H.jk _ hj, fun h => by cases h⟩
    | drop => cases h; exact ⟨H.jk _ hj, fun _ => hj⟩
    | send x =>
      obtain ⟨⟨o, d⟩, h1, h⟩ := bind_ok_iff.1 h
      cases h
      refine H.handle _ _ _ _ ?_ hj h1
      rcases sends_what hstep with ⟨t, n, rfl⟩ | rfl
      · exact hp t n
      · exact hg
  finish s s' hk h := by
    obtain ⟨d, h1, h⟩ := bind_ok_iff.1 h
    cases h
    exact H.finish _ _ hk h1

/-! The program filter. -/

/-- The table handlers do not look at these. -/
def Flags (s s' : ProgramFilter.St) : Prop := s'.streaming = s.streaming ∧ s'.retry = s.retry

section
open ProgramFilter

theorem range_flags {s s' : ProgramFilter.St} (h : updatePcrRange s = .ok s') : Flags s s' := by
  unfold updatePcrRange at h
  obtain ⟨_, _, h⟩ := bind_ok_iff.1 h
  obtain ⟨_, _, h⟩ := bind_ok_iff.1 h
  obtain ⟨_, _, h⟩ := bind_ok_iff.1 h
  obtain ⟨_, _, h⟩ := bind_ok_iff.1 h
  obtain ⟨_, _, h⟩ := bind_ok_iff.1 h
  cases h
  exact ⟨rfl, rfl⟩

theorem clockPcr_flags {s s' : ProgramFilter.St} {x : Int} (h : updateClockPcr s x = .ok s') : Flags s s' := by
  unfold updateClockPcr at h
  obtain ⟨_, _, h⟩ := bind_ok_iff.1 h
  dsimp only at h
  split at h
  · have := range_flags h
    exact ⟨this.1, this.2⟩
  · cases h; exact ⟨rfl, rfl⟩

theorem clockTime_flags {s s' : ProgramFilter.St} {x : Int} (h : updateClockTime s x = .ok s') : Flags s s' := by
  unfold updateClockTime at h
  obtain ⟨_, _, h⟩ := bind_ok_iff.1 h
  dsimp only at h
  split at h
  · have := range_flags h
    exact ⟨this.1, this.2⟩
  · cases h; exact ⟨rfl, rfl⟩

theorem event_flags {o : Opt} {s s' : ProgramFilter.St} {e : Event} (h : updateEventTime o s e = .ok s') : Flags s s' := by
  unfold updateEventTime at h
  obtain ⟨_, _, h⟩ := bind_ok_iff.1 h
  obtain ⟨_, _, h⟩ := bind_ok_iff.1 h
  dsimp only at h
  split at h
  · have := range_flags h
    exact ⟨this.1, this.2⟩
  · cases h; exact ⟨rfl, rfl⟩

theorem sync_flags {s s' : ProgramFilter.St} {x : Int} (h : syncClock s x = .ok s') : Flags s s' := by
  unfold syncClock at h
  split at h
  · exact clockPcr_flags h
  · cases h; exact ⟨rfl, rfl⟩

theorem table_flags {o : Opt} {s s' : ProgramFilter.St} {t : Table} (h : handleTable o s t = .ok s') : Flags s s' := by
  unfold handleTable at h
  split at h
  · unfold handlePat at h
    repeat' split at h
    all_goals first | (cases h; exact ⟨rfl, rfl⟩) | cases h
  · unfold handlePmt at h
    dsimp only at h
    repeat' split at h
    all_goals first | (cases h; exact ⟨rfl, rfl⟩) | cases h
  · unfold handleEit at h
    repeat' split at h
    all_goals first | exact event_flags h | (cases h; exact ⟨rfl, rfl⟩)
  · next time _ =>
    unfold handleTot at h
    dsimp only at h
    have hc : Flags s (if (!s.streaming) = true then checkTimeLimit o s time else s) := by
      split
      · unfold checkTimeLimit
        repeat' split
        all_goals exact ⟨rfl, rfl⟩
      · exact ⟨rfl, rfl⟩
    split at h
    · cases h; exact ⟨rfl, rfl⟩
    · generalize (if (!s.streaming) = true then checkTimeLimit o s time else s) = s1 at h hc
      split at h
      · cases h; exact hc
      · have := clockTime_flags h
        exact ⟨this.1.trans hc.1, this.2.trans hc.2⟩
  · cases h; exact ⟨rfl, rfl⟩

theorem tables_flags {o : Opt} {s s' : ProgramFilter.St} {pid : Nat} {ts log : List Table}
    (h : feedDemux St.demux (handleTable o) pid ts s = .ok (s', log)) : Flags s s' :=
  feedDemux_inv (fun a _ => Flags s a) (fun _ _ _ _ hI _ _ h =>
    have := table_flags h
    ⟨this.1.trans hI.1, this.2.trans hI.2⟩) ts s s' log [] ⟨rfl, rfl⟩ h

theorem next_flags {extra : Pmt → Nat} {s : ProgramFilter.St} {r : Out × ProgramFilter.St}
    (h : nextPmt extra s = .ok r) : Flags s r.2 := by
  unfold nextPmt at h
  obtain ⟨_, _, h⟩ := bind_ok_iff.1 h
  obtain ⟨_, _, h⟩ := bind_ok_iff.1 h
  cases h
  exact ⟨rfl, rfl⟩

theorem cycle_flags {extra : Pmt → Nat} : ∀ (fuel : Nat) (s : ProgramFilter.St) (r : List Out × ProgramFilter.St),
    sendCycle extra fuel s = .ok r → Flags s r.2
  | 0, _, _, h => by cases h
  | fuel + 1, s, r, h => by
    unfold sendCycle at h
    obtain ⟨⟨x, s1⟩, h1, h⟩ := bind_ok_iff.1 h
    have f1 := next_flags h1
    dsimp only at h
    split at h
    · cases h; exact f1
    · obtain ⟨⟨xs, s2⟩, h2, h⟩ := bind_ok_iff.1 h
      cases h
      have f2 := cycle_flags fuel _ _ h2
      exact ⟨f2.1.trans f1.1, f2.2.trans f1.2⟩

theorem save_flags (s : ProgramFilter.St) (p : Packet) : Flags s (savePat s p) := by
  unfold savePat; split <;> exact ⟨rfl, rfl⟩

/-- Before the programme starts: "try again" only without a packet; only the PAT is passed on. -/
theorem waitStart_flags {o : Opt} {s s' : ProgramFilter.St} {p : Packet} {outs : List Out} {more : Bool}
    (h : waitStart o s p = .ok (s', some (outs, more))) :
    s'.streaming = s.streaming ∧ (s'.retry = s.retry ∨ (outs = [] ∧ more = false)) ∧
      (outs = [] ∨ (outs = [.orig p] ∧ p.pid = 0 ∧ o.preStreaming = true)) := by
  unfold waitStart at h
  split at h
  · cases h; exact ⟨rfl, Or.inr ⟨rfl, rfl⟩, Or.inl rfl⟩
  · split at h
    · next hp =>
      cases h
      simp only [Bool.and_eq_true, beq_iff_eq, pidPat] at hp
      exact ⟨rfl, Or.inl rfl, Or.inr ⟨rfl, hp.1, hp.2⟩⟩
    · have f1 := save_flags s p
      dsimp only at h
      split at h
      · cases h; exact ⟨f1.1, Or.inl f1.2, Or.inl rfl⟩
      · split at h
        · cases h; exact ⟨f1.1, Or.inl f1.2, Or.inl rfl⟩
        · split at h
          · cases h; exact ⟨f1.1, Or.inl f1.2, Or.inl rfl⟩
          · obtain ⟨s2, h2, h⟩ := bind_ok_iff.1 h
            have f2 := sync_flags h2
            have f : Flags s s2 := ⟨f2.1.trans f1.1, f2.2.trans f1.2⟩
            split at h
            · cases h; exact ⟨f.1, Or.inl f.2, Or.inl rfl⟩
            · obtain ⟨c, _, h⟩ := bind_ok_iff.1 h
              split at h
              · cases h; exact ⟨f.1, Or.inl f.2, Or.inl rfl⟩
              · obtain ⟨c, _, h⟩ := bind_ok_iff.1 h
                split at h
                · cases h; exact ⟨f.1, Or.inl f.2, Or.inl rfl⟩
                · obtain ⟨_, _, h⟩ := bind_ok_iff.1 h
                  cases h

theorem waitStart_none {o : Opt} {s s' : ProgramFilter.St} {p : Packet}
    (h : waitStart o s p = .ok (s', none)) : Flags s s' := by
  unfold waitStart at h
  split at h
  · cases h
  · split at h
    · cases h
    · have f1 := save_flags s p
      dsimp only at h
      split at h
      · cases h
      · split at h
        · cases h
        · split at h
          · cases h
          · obtain ⟨s2, h2, h⟩ := bind_ok_iff.1 h
            have f2 := sync_flags h2
            split at h
            · cases h
            · obtain ⟨c, _, h⟩ := bind_ok_iff.1 h
              split at h
              · cases h
              · obtain ⟨c, _, h⟩ := bind_ok_iff.1 h
                split at h
                · cases h
                · obtain ⟨_, _, h⟩ := bind_ok_iff.1 h
                  cases h
                  exact ⟨f2.1.trans f1.1, f2.2.trans f1.2⟩

theorem forward_flags {extra : Pmt → Nat} {s : ProgramFilter.St} {p : Packet} {r : ProgramFilter.St × List Out × Bool}
    (h : forward extra s p = .ok r) : Flags s r.1 := by
  unfold forward at h
  split at h
  · obtain ⟨⟨x, s1⟩, h1, h⟩ := bind_ok_iff.1 h
    cases h
    exact next_flags h1
  · split at h <;> (cases h; exact ⟨rfl, rfl⟩)

theorem streaming_flags {extra : Pmt → Nat} {s : ProgramFilter.St} {p : Packet} {r : ProgramFilter.St × List Out × Bool}
    (h : doStreaming extra s p = .ok r) : Flags s r.1 := by
  unfold doStreaming at h
  split at h
  · cases h; exact ⟨rfl, rfl⟩
  · split at h
    · split at h
      · cases h; exact ⟨rfl, rfl⟩
      · obtain ⟨s2, h2, h⟩ := bind_ok_iff.1 h
        have f := sync_flags h2
        split at h
        · cases h; exact f
        · obtain ⟨c, _, h⟩ := bind_ok_iff.1 h
          split at h
          · cases h; exact f
          · have := forward_flags h
            exact ⟨this.1.trans f.1, this.2.trans f.2⟩
    · exact forward_flags h

/-- A packet at the program filter: it passes something else than the PAT on only if it is streaming afterwards, and
then it does not ask for another try. -/
theorem step_flags {extra : Pmt → Nat} {o : Opt} {s s' : ProgramFilter.St} {i : Input} {log : List Table}
    {outs : List Out} {more : Bool} (hr : s.retry = false) (h : step extra o s i = .ok (s', log, outs, more)) :
    (s'.streaming = true ∧ s'.retry = false) ∨
      (s'.streaming = false ∧ s.streaming = false ∧ (s'.retry = false ∨ (outs = [] ∧ more = false)) ∧
        (outs = [] ∨ (outs = [.orig i.packet] ∧ i.packet.pid = 0 ∧ o.preStreaming = true))) := by
  unfold step at h
  obtain ⟨⟨s1, log1⟩, h1, h⟩ := bind_ok_iff.1 h
  have f := tables_flags h1
  dsimp only at h
  split at h
  · next hs =>
    obtain ⟨⟨s2, outs2, ok2⟩, h2, h⟩ := bind_ok_iff.1 h
    cases h
    have g := streaming_flags h2
    exact Or.inl ⟨g.1.trans hs, g.2.trans (f.2.trans hr)⟩
  · next hs =>
    obtain ⟨⟨s2, outs2, ok2⟩, h2, h⟩ := bind_ok_iff.1 h
    cases h
    unfold waitReady at h2
    obtain ⟨⟨s3, x⟩, h3, h2⟩ := bind_ok_iff.1 h2
    have hs1 : s1.streaming = false := by simpa using hs
    cases x with
    | none =>
      have g := waitStart_none h3
      dsimp only at h2
      obtain ⟨⟨pmts, s4⟩, h4, h2⟩ := bind_ok_iff.1 h2
      cases h2
      have k := cycle_flags _ _ _ h4
      refine Or.inl ⟨rfl, ?_⟩
      show s4.retry = false
      refine k.2.trans ?_
      have : s3.retry = false := g.2.trans (f.2.trans hr)
      split <;> exact this
    | some x =>
      obtain ⟨a, b⟩ := x
      cases h2
      obtain ⟨g1, g2, g3⟩ := waitStart_flags h3
      refine Or.inr ⟨g1.trans hs1, f.1.symm.trans hs1, ?_, ?_⟩
      · rcases g2 with g2 | g2
        · exact Or.inl (g2.trans (f.2.trans hr))
        · exact Or.inr g2
      · rcases g3 with g3 | ⟨g3, g4, g5⟩
        · exact Or.inl g3
        · exact Or.inr ⟨g3, g4, g5⟩

/-- The program filter and what comes behind: until it is streaming, only packets of the PAT are passed on, and
"try again" is only said then. -/
theorem Through.program {σ : Type} {snk : Sink Out σ} {G : Packet → Prop} {J L : σ → Prop} {extra : Pmt → Nat} {o : Opt}
    (hs : ∀ d p d', G p → o.preStreaming = true → p.pid = 0 → J d → snk.handle d (.orig p) = .ok (true, d') → J d')
    (hf : ∀ d d', J d → snk.finish d = .ok d' → L d') :
    Through (ProgramFilter.sink extra o snk) (fun i => G i.packet)
      (fun s => s.1.retry = false ∧ (s.1.streaming = false → J s.2))
      (fun s => s.1.retry = true → J s.2) (fun s => s.1.retry = true → L s.2) where
  jk s h hr := by rw [h.1] at hr; cases hr
  handle s i ok s' hg hj h := by
    obtain ⟨hr, hj⟩ := hj
    unfold ProgramFilter.sink at h
    dsimp only at h
    split at h
    · next f log outs more he =>
      obtain ⟨⟨ok1, d⟩, h1, h⟩ := bind_ok_iff.1 h
      cases h
      rcases step_flags hr he with ⟨g1, g2⟩ | ⟨g1, g2, g3, g4⟩
      · refine ⟨fun hr => ?_, fun _ => ⟨g2, fun hs => ?_⟩⟩
        · rw [g2] at hr; cases hr
        · rw [g1] at hs; cases hs
      · have hd := hj g2
        refine ⟨fun hr => ?_, fun hm => ?_⟩
        · rcases g3 with g3 | ⟨rfl, _⟩
          · rw [g3] at hr; cases hr
          · cases h1; exact hd
        · simp only [Bool.and_eq_true] at hm
          refine ⟨?_, fun _ => ?_⟩
          · rcases g3 with g3 | ⟨_, g3⟩
            · exact g3
            · rw [g3] at hm; cases hm.2
          · rcases g4 with rfl | ⟨rfl, hp, ho⟩
            · cases h1; exact hd
            · unfold sendAll at h1
              obtain ⟨⟨ok2, d2⟩, h2, h1⟩ := bind_ok_iff.1 h1
              cases ok2 with
              | true => cases h1; exact hs _ _ _ hg ho hp hd h2
              | false => cases h1; cases hm.1
    · obtain ⟨⟨ok1, d⟩, h1, h⟩ := bind_ok_iff.1 h
      cases ok1 with
      | true => cases h
      | false =>
        cases h
        exact ⟨fun h => (by rw [hr] at h; cases h), fun h => (by cases h)⟩
  finish s s' hk h := by
    obtain ⟨d, h1, h⟩ := bind_ok_iff.1 h
    cases h
    exact fun hr => hf _ _ (hk hr) h1

end

/-- Packets of the PAT were passed on to standard output. -/
def PatSt (w : World) (o : ProgramFilter.Opt) (d : StdoutSink.St) : Prop :=
  ∃ ps : List Packet, (∀ p ∈ ps, p.pid = 0 ∧ o.preStreaming = true) ∧
    StdoutSink.Inv w.write (ps.map w.codec.bytes).flatten d

/-- Packets of the PAT are on standard output. -/
def PatOut (w : World) (o : ProgramFilter.Opt) (d : StdoutSink.St) : Prop :=
  ∃ ps : List Packet, (∀ p ∈ ps, p.pid = 0 ∧ o.preStreaming = true) ∧ d.out <+: (ps.map w.codec.bytes).flatten

theorem pat_through {w : World} {o : ProgramFilter.Opt}
    {G : Packet → Prop} (hb : o.preStreaming = true → ∀ p, G p → (w.codec.bytes p).length = 188) :
    Through (ProgramFilter.sink w.extra o (via (fun _ => programBytes w.codec) StdoutSink.sink)) (fun i => G i.packet)
      (fun s => s.1.retry = false ∧ (s.1.streaming = false → PatSt w o s.2.2))
      (fun s => s.1.retry = true → PatSt w o s.2.2) (fun s => s.1.retry = true → PatOut w o s.2.2) := by
  refine Through.program (σ := Nat × StdoutSink.St) (J := fun d => PatSt w o d.2) (L := fun d => PatOut w o d.2) ?_ ?_
  · intro d p d' hg ho hp ⟨ps, h1, h2⟩ h
    obtain ⟨⟨ok, x⟩, h3, h⟩ := bind_ok_iff.1 h
    cases h
    have := StdoutSink.handle_spec h2 (w.codec.bytes p) (hb ho p hg)
    change StdoutSink.handlePacket d.2 (w.codec.bytes p) = _ at h3
    rw [h3] at this
    rcases this with ⟨_, he, hi⟩ | ⟨_, he, _⟩
    · cases he
      refine ⟨ps ++ [p], ?_, by simpa using hi⟩
      intro q hq
      rcases List.mem_append.1 hq with hq | hq
      · exact h1 q hq
      · cases List.mem_singleton.1 hq; exact ⟨hp, ho⟩
    · cases he
  · intro d d' ⟨ps, h1, h2⟩ h
    obtain ⟨x, h3, h⟩ := bind_ok_iff.1 h
    cases h
    cases h3
    refine ⟨ps, h1, ?_⟩
    rw [← h2.eq]
    obtain ⟨used, ⟨rest, _, _, h5⟩ | ⟨rest, k, v, _, _, _, _, h5⟩⟩ := StdoutSink.flush_spec d.2
    · show (StdoutSink.flush d.2).2.out <+: _
      rw [h5]
      exact List.prefix_refl _
    · show (StdoutSink.flush d.2).2.out <+: _
      rw [h5]
      exact (List.prefix_append_right_inj _).2 (List.take_prefix _ _)

/-- filter-program: "try again" only with packets of the PAT. -/
theorem filterProgram_code {w : World} {o : ProgramFilter.Opt}
    (hb : o.preStreaming = true → Spec.Pipeline.Faithful w.codec) {e : Ended}
    (h : Main.filterProgram w o = .ok e) :
    e.code = 0 ∨ e.code = 1 ∨ (e.code = 222 ∧
      ∃ ps : List Packet, (∀ p ∈ ps, p.pid = 0 ∧ o.preStreaming = true) ∧ e.bytes <+: (ps.map w.codec.bytes).flatten) := by
  unfold Main.filterProgram at h
  obtain ⟨⟨code, n, f, m, s, k, d⟩, h1, h⟩ := bind_ok_iff.1 h
  cases h
  have H := (((pat_through (w := w) (o := o)
      (G := fun p => o.preStreaming = true → (w.codec.bytes p).length = 188) (fun h p hp => hp h)).via
    (between w.codec w.tables2)).service (fun t n _ hp => by
      have hF := hb hp
      show (w.codec.bytes (w.codec.packet (w.codec.patBytes t n))).length = 188
      rw [hF.keep _ (hF.pat t n)]
      exact hF.pat t n) { sid := o.sid }).via (input w.codec w.tables)
  rcases feed_through (fun b hl _ _ hp => by
      show (w.codec.bytes (w.codec.packet b)).length = 188
      rw [(hb hp).keep b hl]; exact hl) H (fun s hs => by
    cases hs
    exact ⟨rfl, fun _ => ⟨[], by simp, StdoutSink.inv_init _⟩⟩) h1 with ⟨rfl, _⟩ | ⟨hc, hL⟩
  · exact Or.inr (Or.inl rfl)
  · have hc' : code = if (if s.retry then exitRetry else exitSuccess) == exitSuccess then
        (if f.error then exitFailure else (if s.retry then exitRetry else exitSuccess))
        else (if s.retry then exitRetry else exitSuccess) := hc
    cases hr : s.retry with
    | true =>
      rw [hr] at hc'
      exact Or.inr (Or.inr ⟨hc', hL hr⟩)
    | false =>
      rw [hr] at hc'
      cases he : f.error with
      | true => rw [he] at hc'; exact Or.inr (Or.inl hc')
      | false => rw [he] at hc'; exact Or.inl hc'

theorem filterProgram_code' {w : World} {o : ProgramFilter.Opt} {e : Ended}
    (h : Main.filterProgram w o = .ok e) : e.code = 0 ∨ e.code = 1 ∨ e.code = 222 := by
  unfold Main.filterProgram at h
  obtain ⟨⟨code, n, f, m, s, k, d⟩, h1, h⟩ := bind_ok_iff.1 h
  cases h
  rcases feed_code h1 with ⟨rfl, _⟩ | ⟨hc, _⟩
  · exact Or.inr (Or.inl rfl)
  · have hc' : code = if (if s.retry then exitRetry else exitSuccess) == exitSuccess then
        (if f.error then exitFailure else (if s.retry then exitRetry else exitSuccess))
        else (if s.retry then exitRetry else exitSuccess) := hc
    cases hr : s.retry <;> cases he : f.error <;> rw [hr, he] at hc'
    · exact Or.inl hc'
    · exact Or.inr (Or.inl hc')
    · exact Or.inr (Or.inr hc')
    · exact Or.inr (Or.inr hc')

theorem filterService_code {w : World} {o : ServiceFilter.Opt} {e : Ended}
    (h : Main.filterService w o = .ok e) : e.code = 0 ∨ e.code = 1 := by
  unfold Main.filterService at h
  obtain ⟨⟨code, n, f, m, d⟩, h1, h⟩ := bind_ok_iff.1 h
  cases h
  rcases feed_code h1 with ⟨rfl, _⟩ | ⟨hc, _⟩
  · exact Or.inr rfl
  · have hc' : code = if f.error then 1 else 0 := hc
    cases he : f.error with
    | true => rw [he] at hc'; exact Or.inr hc'
    | false => rw [he] at hc'; exact Or.inl hc'

/-- A command that never fails. -/
theorem history_code {ι σ α : Type} {w : World} {f : Nat → List UInt8 → ι} {step : σ → ι → Except Fault (σ × α × Bool)}
    {fin : σ → Except Fault σ} {code : σ → Nat} {s0 : Nat × History ι σ α} {c n : Nat} {h : History ι σ α}
    (hf : feed w (via f (historySink step fin code)) s0 = .ok (c, n, h)) : c = code h.st ∧ ∃ s, fin s = .ok h.st := by
  rcases feed_code hf with ⟨_, hs⟩ | ⟨hc, s1, hs⟩
  · cases hs
  · obtain ⟨d, h1, hs⟩ := bind_ok_iff.1 hs
    cases hs
    obtain ⟨t, h2, h1⟩ := bind_ok_iff.1 h1
    cases h1
    exact ⟨hc, _, h2⟩

/-- A document is made at the end only. -/
theorem Through.history {ι σ α : Type} {step : σ → ι → Except Fault (σ × α × Bool)} {fin : σ → Except Fault σ}
    {code : σ → Nat} {J L : σ → Prop} (hs : ∀ s i r, J s → step s i = .ok r → J r.1)
    (hf : ∀ s s', J s → fin s = .ok s' → L s') :
    Through (historySink step fin code) (fun _ => True) (fun h => J h.st) (fun h => J h.st) (fun h => L h.st) where
  jk _ h := h
  handle s i ok s' _ hj h := by
    obtain ⟨⟨t, a, more⟩, h1, h⟩ := bind_ok_iff.1 h
    cases h
    exact ⟨hs _ _ _ hj h1, fun _ => hs _ _ _ hj h1⟩
  finish s s' hk h := by
    obtain ⟨t, h1, h⟩ := bind_ok_iff.1 h
    cases h
    exact hf _ _ hk h1

theorem scan_table {s s' : ServiceScanner.St} {t : Table} (h : ServiceScanner.handleTable s t = .ok s') :
    s'.out = s.out := by
  unfold ServiceScanner.handleTable at h
  split at h
  · cases h
    unfold ServiceScanner.handlePat
    dsimp only
    repeat' split
    all_goals rfl
  · cases h
    unfold ServiceScanner.handleNit
    split <;> rfl
  · cases h
    unfold ServiceScanner.handleSdt
    repeat' split
    all_goals rfl
  · cases h; rfl

theorem scanServices_code {w : World} {o : ServiceScanner.Opt} {e : Ended} (h : Main.scanServices w o = .ok e) :
    (e.code = 0 ∧ ∃ l, e.docs = [.services l]) ∨ (e.code = 1 ∧ e.docs = []) := by
  unfold Main.scanServices at h
  obtain ⟨⟨code, n, s⟩, h1, h⟩ := bind_ok_iff.1 h
  cases h
  have H := (Through.history (step := ServiceScanner.step) (fin := ServiceScanner.finish o)
    (code := ServiceScanner.exitCode) (J := fun s => s.out = none)
    (L := fun s => (ServiceScanner.completed s = true ∧ ∃ l, s.out = some l) ∨
        (ServiceScanner.completed s = false ∧ s.out = none)) ?_ ?_).via (packet w)
  · rcases feed_through (fun _ _ _ => trivial) H (fun s hs => by cases hs; rfl) h1 with ⟨_, hs⟩ | ⟨hc, ⟨hL, l, hl⟩ | ⟨hL, hl⟩⟩
    · cases hs
    · have hc' : code = if !ServiceScanner.completed s.st then 1 else 0 := hc
      rw [hL] at hc'
      exact Or.inl ⟨hc', l, by show s.st.out.toList.map Doc.services = _; rw [hl]; rfl⟩
    · have hc' : code = if !ServiceScanner.completed s.st then 1 else 0 := hc
      rw [hL] at hc'
      exact Or.inr ⟨hc', by show s.st.out.toList.map Doc.services = _; rw [hl]; rfl⟩
  · intro s i r hj hs
    unfold ServiceScanner.step at hs
    obtain ⟨⟨s1, log⟩, h2, hs⟩ := bind_ok_iff.1 hs
    have : s1.out = none := feedDemux_inv (fun a _ => a.out = none) (fun _ _ _ _ hI _ _ h => (scan_table h).trans hI)
      _ _ _ _ [] hj h2
    dsimp only at hs
    split at hs <;> (cases hs; exact this)
  · intro s s' hj hs
    unfold ServiceScanner.finish at hs
    split at hs
    · next hc => cases hs; exact Or.inr ⟨by simpa using hc, hj⟩
    · next hc => cases hs; exact Or.inl ⟨by cases hd : ServiceScanner.completed s with
        | true => exact hd
        | false => rw [hd] at hc; simp at hc, _, rfl⟩

theorem count_out (sdt : Sdt) : ∀ (l : List (Nat × Nat)) (s : PcrSynchronizer.St),
    (PcrSynchronizer.countPmts sdt l s).out = s.out
  | [], _ => rfl
  | (sid, pid) :: l, s => by
    unfold PcrSynchronizer.countPmts
    split
    · exact count_out sdt l s
    · split
      · exact count_out sdt l s
      · exact count_out sdt l _

theorem sync_table {o : PcrSynchronizer.Opt} {s s' : PcrSynchronizer.St} {t : Table}
    (h : PcrSynchronizer.handleTable o s t = .ok s') : s'.out = s.out := by
  unfold PcrSynchronizer.handleTable at h
  split at h
  · cases h
    unfold PcrSynchronizer.handlePat PcrSynchronizer.resetStates
    dsimp only
    repeat' split
    all_goals rfl
  · cases h
    unfold PcrSynchronizer.handlePmt
    dsimp only
    repeat' split
    all_goals rfl
  · cases h
    unfold PcrSynchronizer.handleSdt
    split
    · rfl
    · exact count_out _ _ _
  · cases h
    unfold PcrSynchronizer.handleTot
    split <;> rfl
  · cases h; rfl

theorem syncClocks_code {w : World} {o : PcrSynchronizer.Opt} {e : Ended} (h : Main.syncClocks w o = .ok e) :
    (e.code = 0 ∧ ∃ l, e.docs = [.clocks l]) ∨ (e.code = 1 ∧ e.docs = []) := by
  unfold Main.syncClocks at h
  obtain ⟨⟨code, n, s⟩, h1, h⟩ := bind_ok_iff.1 h
  cases h
  have H := (Through.history (step := PcrSynchronizer.step o) (fin := PcrSynchronizer.finish)
    (code := PcrSynchronizer.exitCode) (J := fun s => s.out = none)
    (L := fun s => (s.done = true ∧ ∃ l, s.out = some l) ∨ (s.done = false ∧ s.out = none)) ?_ ?_).via (packet w)
  · rcases feed_through (fun _ _ _ => trivial) H (fun s hs => by cases hs; rfl) h1 with ⟨_, hs⟩ | ⟨hc, ⟨hL, l, hl⟩ | ⟨hL, hl⟩⟩
    · cases hs
    · have hc' : code = if !s.st.done then 1 else 0 := hc
      rw [hL] at hc'
      exact Or.inl ⟨hc', l, by show s.st.out.toList.map Doc.clocks = _; rw [hl]; rfl⟩
    · have hc' : code = if !s.st.done then 1 else 0 := hc
      rw [hL] at hc'
      exact Or.inr ⟨hc', by show s.st.out.toList.map Doc.clocks = _; rw [hl]; rfl⟩
  · intro s i r hj hs
    unfold PcrSynchronizer.step at hs
    have key : ∀ {pid s1 log}, feedDemux PcrSynchronizer.St.demux (PcrSynchronizer.handleTable o) pid i.tables s = .ok (s1, log) →
        s1.out = none := fun h2 =>
      feedDemux_inv (fun a _ => a.out = none) (fun _ _ _ _ hI _ _ h => (sync_table h).trans hI) _ _ _ _ [] hj h2
    dsimp only at hs
    split at hs
    · cases hs; exact hj
    · obtain ⟨⟨s1, log⟩, h2, hs⟩ := bind_ok_iff.1 hs
      have := key h2
      dsimp only at hs
      split at hs
      · cases hs; exact this
      · split at hs
        · split at hs
          · cases hs; exact this
          · obtain ⟨_, _, hs⟩ := bind_ok_iff.1 hs
            split at hs <;> (cases hs; exact this)
        · cases hs; exact this
  · intro s s' hj hs
    unfold PcrSynchronizer.finish at hs
    split at hs
    · next hc => cases hs; exact Or.inr ⟨by simpa using hc, hj⟩
    · next hc => cases hs; exact Or.inl ⟨by simpa using hc, _, rfl⟩

/-- The first message is "start", and it was sent. -/
def Begun (h : ServiceRecorder.Hist) : Prop := ∃ ms, messages h.trace = .message .start :: ms

theorem messages_append (a b : List ServiceRecorder.Tr) : messages (a ++ b) = messages a ++ messages b := by
  simp [messages]

theorem messages_ops (l : List RingFileSink.Op) : messages (l.map .op) = [] := by
  unfold messages
  rw [List.filterMap_map, List.filterMap_eq_nil_iff]
  intro a _; rfl

theorem operations_ops (l : List RingFileSink.Op) : operations (l.map .op) = l := by
  unfold operations
  rw [List.filterMap_map]
  exact List.filterMap_some

theorem recorder_through (o : ServiceRecorder.Opt) :
    Through (ServiceRecorder.sink o) (fun _ => True) Begun Begun
      (fun h => ∃ ms, messages h.trace = .message .start :: ms ++ [.message (.stop h.st.ring.broken)]) where
  jk _ h := h
  handle s i ok s' _ hj h := by
    obtain ⟨⟨t, it⟩, h1, h⟩ := bind_ok_iff.1 h
    cases h
    obtain ⟨ms, hm⟩ := hj
    have : Begun { st := t, items := s.items ++ [it], trace := s.trace ++ it.out } :=
      ⟨ms ++ messages it.out, by show messages (s.trace ++ it.out) = _; rw [messages_append, hm]; rfl⟩
    exact ⟨this, fun _ => this⟩
  finish s s' hk h := by
    cases h
    obtain ⟨ms, hm⟩ := hk
    refine ⟨ms, ?_⟩
    show messages (s.trace ++ [.msg (.stop s.st.ring.broken)]) = _
    rw [messages_append, hm]; rfl

theorem call_log (op : RingFileSink.Op) (s : RingFileSink.St) :
    (RingFileSink.call op s).2.log = s.log ++ [if (RingFileSink.call op s).1 then op else .failed] := by
  unfold RingFileSink.call
  split
  · rfl
  · split <;> rfl

theorem load_pre {a : Options.ProgramArgs} {o : ProgramFilter.Opt} (h : Options.loadProgramFilter a = .ok o) :
    o.preStreaming = a.preStreaming := by
  unfold Options.loadProgramFilter at h
  obtain ⟨_, _, h⟩ := bind_ok_iff.1 h
  obtain ⟨_, _, h⟩ := bind_ok_iff.1 h
  obtain ⟨_, _, h⟩ := bind_ok_iff.1 h
  obtain ⟨_, _, h⟩ := bind_ok_iff.1 h
  cases h
  rfl

theorem recorder_start {o : ServiceRecorder.Opt} {results : List Int} {h0 h : ServiceRecorder.Hist} {ok : Bool}
    (hi : ServiceRecorder.init o results = .ok h0) (h1 : ServiceRecorder.start o h0 = .ok (ok, h)) :
    (ok = true ∧ Begun h) ∨ (ok = false ∧ messages h.trace = [] ∧ ∀ b, .write b ∉ operations h.trace) := by
  unfold ServiceRecorder.init at hi
  obtain ⟨r0, hr, hi⟩ := bind_ok_iff.1 hi
  cases hi
  have hl : r0.log = [] := by
    unfold RingFileSink.new at hr
    obtain ⟨_, _, hr⟩ := bind_ok_iff.1 hr
    obtain ⟨_, _, hr⟩ := bind_ok_iff.1 hr
    obtain ⟨_, _, hr⟩ := bind_ok_iff.1 hr
    obtain ⟨_, _, hr⟩ := bind_ok_iff.1 hr
    obtain ⟨_, _, hr⟩ := bind_ok_iff.1 hr
    cases hr; rfl
  unfold ServiceRecorder.start at h1
  have h1 : ((if o.startPos ≠ 0 then RingFileSink.setPosition r0 o.startPos else .ok (true, r0)) >>= fun x =>
      if x.1 = true then
        .ok (true, ({ st := { ring := x.2 }, trace := [] ++ (x.2.log.drop r0.log.length).map .op ++ [.msg .start] } : ServiceRecorder.Hist))
      else .ok (false, { st := { ring := x.2 }, trace := [] ++ (x.2.log.drop r0.log.length).map .op })) =
      Except.ok (ok, h) := by
    split at h1 <;> rename_i hp
    · rw [if_pos hp]; exact h1
    · rw [if_neg hp]; exact h1
  obtain ⟨⟨ok1, r1⟩, h2, h1⟩ := bind_ok_iff.1 h1
  dsimp only at h1
  cases ok1 with
  | true =>
    cases h1
    left
    refine ⟨rfl, [], ?_⟩
    show messages ([] ++ _ ++ [.msg .start]) = _
    rw [messages_append, List.nil_append, messages_ops]; rfl
  | false =>
    cases h1
    right
    refine ⟨rfl, ?_, fun b hb => ?_⟩
    · show messages ([] ++ _) = _
      rw [List.nil_append, messages_ops]
    · change _ ∈ operations ([] ++ _) at hb
      rw [List.nil_append, operations_ops] at hb
      split at h2
      · unfold RingFileSink.setPosition at h2
        obtain ⟨_, _, h2⟩ := bind_ok_iff.1 h2
        obtain ⟨_, _, h2⟩ := bind_ok_iff.1 h2
        obtain ⟨_, _, h2⟩ := bind_ok_iff.1 h2
        obtain ⟨_, _, h2⟩ := bind_ok_iff.1 h2
        have hc := call_log (.seek o.startPos) r0
        rw [hl] at hc
        generalize hg : RingFileSink.call (.seek o.startPos) r0 = g at *
        obtain ⟨g1, g2⟩ := g
        cases g1 with
        | true => cases h2
        | false =>
          cases h2
          rw [hc, hl] at hb
          simp at hb
      · cases h2

theorem recordService_code {w : World} {o : ServiceRecorder.Opt} {e : Ended} (h : Main.recordService w o = .ok e) :
    (e.code = 1 ∧ e.docs = [] ∧ ∀ b, .write b ∉ e.ops) ∨
      ∃ ms broken, e.docs = .message .start :: ms ++ [.message (.stop broken)] ∧
        (e.code = 1 ∨ (e.code = 0 ∧ broken = false)) := by
  unfold Main.recordService at h
  obtain ⟨h0, hi, h⟩ := bind_ok_iff.1 h
  rw [mapError_ok_iff] at hi
  obtain ⟨⟨code, n, f, m, s⟩, h1, h⟩ := bind_ok_iff.1 h
  cases h
  have H := (((recorder_through o).via (betweenRec w.codec w.tables2 w.times)).service (fun _ _ _ => trivial) { sid := o.sid }).via (input w.codec w.tables)
  have hst : ∀ ok a, (Pipeline.recordService w.codec w.tables w.tables2 w.times o).start
      (0, ServiceFilter.init { sid := o.sid }, 0, h0) = .ok (ok, a) → ServiceRecorder.start o h0 = .ok (ok, a.2.2.2) := by
    intro ok a ha
    obtain ⟨⟨a1, d1⟩, hs1, e1⟩ := bind_ok_iff.1 ha
    cases e1
    obtain ⟨⟨a2, d2⟩, hs2, e2⟩ := bind_ok_iff.1 hs1
    cases e2
    obtain ⟨⟨a3, d3⟩, hs3, e3⟩ := bind_ok_iff.1 hs2
    cases e3
    exact hs3
  rcases feed_through (fun _ _ _ _ => trivial) H (fun s hs => by
      rcases recorder_start hi (hst _ _ hs) with ⟨_, h⟩ | ⟨h, _⟩
      · exact h
      · cases h) h1 with ⟨rfl, hs⟩ | ⟨hc, ms, hL⟩
  · left
    rcases recorder_start hi (hst _ _ hs) with ⟨h, _⟩ | ⟨_, h2, h3⟩
    · cases h
    · exact ⟨rfl, h2, h3⟩
  · right
    refine ⟨ms, _, hL, ?_⟩
    have hc' : code = if (if s.st.ring.broken then exitFailure else exitSuccess) == exitSuccess then
        (if f.error then exitFailure else (if s.st.ring.broken then exitFailure else exitSuccess))
        else (if s.st.ring.broken then exitFailure else exitSuccess) := hc
    show code = 1 ∨ (code = 0 ∧ s.st.ring.broken = false)
    cases hr : s.st.ring.broken with
    | true => rw [hr] at hc'; exact Or.inl hc'
    | false =>
      rw [hr] at hc'
      cases he : f.error with
      | true => rw [he] at hc'; exact Or.inl hc'
      | false => rw [he] at hc'; exact Or.inr ⟨hc', rfl⟩

theorem seekStart_code {w : World} {o : StartSeeker.Opt} {e : Ended} (h : Main.seekStart w o = .ok e) : e.code = 0 := by
  unfold Main.seekStart at h
  obtain ⟨⟨code, n, f, m, d⟩, h1, h⟩ := bind_ok_iff.1 h
  cases h
  rcases feed_code h1 with ⟨_, hs⟩ | ⟨hc, _⟩
  · cases hs
  · exact hc

theorem code_says {w : World} {cmd : Cmd} {e : Ended} (h : main w cmd = .ok e) : Says cmd e := by
  cases cmd with
  | scanServices a b =>
    obtain ⟨_, _, h⟩ := bind_ok_iff.1 h
    obtain ⟨_, _, h⟩ := bind_ok_iff.1 h
    exact scanServices_code h
  | syncClocks a b =>
    obtain ⟨_, _, h⟩ := bind_ok_iff.1 h
    obtain ⟨_, _, h⟩ := bind_ok_iff.1 h
    exact syncClocks_code h
  | collectEits a b c d f g =>
    obtain ⟨_, _, h⟩ := bind_ok_iff.1 h
    obtain ⟨_, _, h⟩ := bind_ok_iff.1 h
    obtain ⟨⟨code, n, s⟩, h1, h⟩ := bind_ok_iff.1 h
    cases h
    exact (history_code h1).1
  | collectEitpf a b c d =>
    obtain ⟨_, _, h⟩ := bind_ok_iff.1 h
    obtain ⟨⟨code, n, s⟩, h1, h⟩ := bind_ok_iff.1 h
    cases h
    exact (history_code h1).1
  | collectLogos =>
    obtain ⟨⟨code, n, s⟩, h1, h⟩ := bind_ok_iff.1 h
    cases h
    exact (history_code h1).1
  | filterService a => exact filterService_code h
  | filterProgram a =>
    obtain ⟨o, ho, h⟩ := bind_ok_iff.1 h
    have hp := load_pre (mapError_ok_iff.1 ho)
    cases hpre : a.preStreaming with
    | true =>
      rcases filterProgram_code' h with h | h | h
      · exact Or.inl h
      · exact Or.inr (Or.inl h)
      · exact Or.inr (Or.inr ⟨h, fun h => by rw [hpre] at h; cases h⟩)
    | false =>
      have hn : o.preStreaming = false := hp.trans hpre
      rcases filterProgram_code (fun h => by rw [hn] at h; cases h) h with h | h | ⟨h, ps, h1, h2⟩
      · exact Or.inl h
      · exact Or.inr (Or.inl h)
      · refine Or.inr (Or.inr ⟨h, fun _ => ?_⟩)
        cases ps with
        | nil => exact List.prefix_nil.1 h2
        | cons p ps =>
          have := (h1 p (by simp)).2
          rw [hn] at this; cases this
  | filterProgramMetadata a =>
    obtain ⟨⟨code, n, s⟩, h1, h⟩ := bind_ok_iff.1 h
    cases h
    exact (history_code h1).1
  | recordService a b c d =>
    obtain ⟨_, _, h⟩ := bind_ok_iff.1 h
    exact recordService_code h
  | trackAirtime a b =>
    obtain ⟨⟨code, n, s⟩, h1, h⟩ := bind_ok_iff.1 h
    cases h
    exact (history_code h1).1
  | seekStart a b c =>
    obtain ⟨_, _, h⟩ := bind_ok_iff.1 h
    exact seekStart_code h
  | printPes =>
    obtain ⟨⟨code, n, s⟩, h1, h⟩ := bind_ok_iff.1 h
    cases h
    exact (history_code h1).1

end Mirakc.ExitCodes
