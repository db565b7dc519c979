import Verif.Model.StdoutRecorder
import Verif.Proof.Geometry
import Verif.Proof.ExitCodes
/-
Lemmas: recording to the standard output.
-/
namespace Mirakc.StdoutRecorder
open Mirakc.Main Mirakc.Pipeline Mirakc.Spec.Main Mirakc.Spec.Pipeline Mirakc.Spec

/-! Two computations that are equal, or of which the second fails. -/

/-- The computations are equal and the result is fine, or the second fails and the result of the first is over the
limit. -/
def Cut {α : Type} (F O : α → Prop) (x y : Except Fault α) : Prop :=
  (y = x ∧ ∀ r, x = .ok r → F r) ∨ (y = .error .assertFail ∧ ∀ r, x = .ok r → O r)

theorem Cut.bind {α β : Type} {F O : α → Prop} {F' O' : β → Prop} {x y : Except Fault α} {f g : α → Except Fault β}
    (h : Cut F O x y) (h1 : ∀ a, F a → Cut F' O' (f a) (g a)) (h2 : ∀ a r, O a → f a = .ok r → O' r) :
    Cut F' O' (x >>= f) (y >>= g) := by
  rcases h with ⟨rfl, h⟩ | ⟨rfl, h⟩
  · cases y with
    | error e => exact Or.inl ⟨rfl, fun _ h => by cases h⟩
    | ok a => exact h1 a (h a rfl)
  · refine Or.inr ⟨rfl, fun r hr => ?_⟩
    obtain ⟨a, ha, hr⟩ := bind_ok_iff.1 hr
    exact h2 a r (h a ha) hr

theorem Cut.same {α : Type} {F O : α → Prop} {x : Except Fault α} (h : ∀ r, x = .ok r → F r) : Cut F O x x :=
  Or.inl ⟨rfl, h⟩

theorem Cut.ok {α : Type} {F O : α → Prop} {a : α} (h : F a) : Cut F O (.ok a) (.ok a) :=
  Cut.same fun r hr => by cases hr; exact h

/-- The second sink is the first, except that handling a packet may fail. -/
structure SinkCut {P σ : Type} (I F O : σ → Prop) (k k' : Sink P σ) : Prop where
  fine : ∀ s, I s → F s
  start : ∀ s, k'.start s = k.start s
  started : ∀ s r, I s → k.start s = .ok r → I r.2
  handle : ∀ s p, I s → Cut (fun r => (r.1 = true → I r.2) ∧ F r.2) (fun r => O r.2) (k.handle s p) (k'.handle s p)
  over : ∀ s p r, O s → k.handle s p = .ok r → O r.2
  finish : ∀ s, k'.finish s = k.finish s
  finished : ∀ s s', F s → k.finish s = .ok s' → F s'
  overEnd : ∀ s s', O s → k.finish s = .ok s' → O s'
  exitCode : ∀ s, k'.exitCode s = k.exitCode s

section
variable {P σ : Type} {I F O : σ → Prop} {k k' : Sink P σ}

theorem foldP_over (h : SinkCut I F O k k') : ∀ (ps : List P) (s s' : σ), O s → foldP k ps s = .ok s' → O s'
  | [], _, _, ho, hs => by cases hs; exact ho
  | p :: ps, s, s', ho, hs => by
    obtain ⟨⟨ok, s1⟩, h1, hs⟩ := bind_ok_iff.1 hs
    have ho1 := h.over _ _ _ ho h1
    cases ok with
    | false => cases hs; exact ho1
    | true => exact foldP_over h ps _ _ ho1 hs

theorem foldP_cut (h : SinkCut I F O k k') : ∀ (ps : List P) (s : σ), I s → Cut F O (foldP k ps s) (foldP k' ps s)
  | [], _, hi => Cut.ok (h.fine _ hi)
  | p :: ps, s, hi => by
    refine Cut.bind (h.handle s p hi) (fun r hr => ?_) (fun r s' ho hs => ?_)
    · obtain ⟨ok, s1⟩ := r
      cases ok with
      | false => exact Cut.ok hr.2
      | true => exact foldP_cut h ps s1 (hr.1 rfl)
    · obtain ⟨ok, s1⟩ := r
      cases ok with
      | false => cases hs; exact ho
      | true => exact foldP_over h ps _ _ ho hs

theorem around_cut (h : SinkCut I F O k k') (ps : List P) {s : σ} (hi : I s) :
    Cut (fun r => F r.2) (fun r => O r.2) (around k s (foldP k ps)) (around k' s (foldP k' ps)) := by
  unfold around
  rw [h.start]
  refine Cut.bind (F := fun r => I r.2) (O := fun _ => False) (Cut.same fun r hr => h.started _ _ hi hr) (fun r hr => ?_)
    (fun _ _ ho => ho.elim)
  obtain ⟨ok, s1⟩ := r
  cases ok with
  | false => exact Cut.ok (h.fine _ hr)
  | true =>
    refine Cut.bind (foldP_cut h ps s1 hr) (fun s2 hf => ?_) (fun s2 r ho hs => ?_)
    · rw [h.finish]
      refine Cut.bind (F := F) (O := fun _ => False) (Cut.same fun r hr => h.finished _ _ hf hr) (fun s3 hf => ?_)
        (fun _ _ ho => ho.elim)
      rw [h.exitCode]
      exact Cut.ok hf
    · obtain ⟨s3, h3, hs⟩ := bind_ok_iff.1 hs
      cases hs
      exact h.overEnd _ _ ho h3

theorem via_cut {Q : Type} (h : SinkCut I F O k k') (f : Nat → Q → P) :
    SinkCut (fun s => I s.2) (fun s => F s.2) (fun s => O s.2) (via f k) (via f k') where
  fine s hs := h.fine _ hs
  start s := by simp only [via, h.start]
  started s r hi hr := by
    obtain ⟨⟨ok, d⟩, h1, hr⟩ := bind_ok_iff.1 hr
    cases hr
    exact h.started _ _ hi h1
  handle s q hi := by
    refine Cut.bind (h.handle s.2 (f s.1 q) hi) (fun r hr => ?_) (fun r t ho ht => ?_)
    · obtain ⟨ok, d⟩ := r
      exact Cut.ok hr
    · cases ht; exact ho
  over s q r ho hr := by
    obtain ⟨⟨ok, d⟩, h1, hr⟩ := bind_ok_iff.1 hr
    cases hr
    exact h.over _ _ _ ho h1
  finish s := by simp only [via, h.finish]
  finished s s' hf hr := by
    obtain ⟨d, h1, hr⟩ := bind_ok_iff.1 hr
    cases hr
    exact h.finished _ _ hf h1
  overEnd s s' hf hr := by
    obtain ⟨d, h1, hr⟩ := bind_ok_iff.1 hr
    cases hr
    exact h.overEnd _ _ hf h1
  exitCode s := h.exitCode _

end

theorem service_cut {σ : Type} {I F O : σ → Prop} {k k' : Sink ServiceFilter.Out σ} (h : SinkCut I F O k k')
    (o : ServiceFilter.Opt) :
    SinkCut (fun s => I s.2) (fun s => F s.2) (fun s => O s.2) (ServiceFilter.sink o k) (ServiceFilter.sink o k') where
  fine s hs := h.fine _ hs
  start s := by simp only [ServiceFilter.sink, h.start]
  started s r hi hr := by
    obtain ⟨⟨ok, d⟩, h1, hr⟩ := bind_ok_iff.1 hr
    cases hr
    exact h.started _ _ hi h1
  handle s i hi := by
    refine Cut.bind (F := fun _ => True) (O := fun _ => False) (Cut.same fun _ _ => trivial) (fun r _ => ?_)
      (fun _ _ ho => ho.elim)
    obtain ⟨f, log, act⟩ := r
    cases act with
    | stop => exact Cut.ok ⟨fun _ => hi, h.fine _ hi⟩
    | drop => exact Cut.ok ⟨fun _ => hi, h.fine _ hi⟩
    | send x =>
      refine Cut.bind (h.handle s.2 x hi) (fun r hr => ?_) (fun r t ho ht => ?_)
      · obtain ⟨ok, d⟩ := r
        exact Cut.ok hr
      · cases ht; exact ho
  over s i r ho hr := by
    obtain ⟨⟨f, log, act⟩, hstep, hr⟩ := bind_ok_iff.1 hr
    cases act with
    | stop => cases hr; exact ho
    | drop => cases hr; exact ho
    | send x =>
      obtain ⟨⟨ok, d⟩, h1, hr⟩ := bind_ok_iff.1 hr
      cases hr
      exact h.over _ _ _ ho h1
  finish s := by simp only [ServiceFilter.sink, h.finish]
  finished s s' hf hr := by
    obtain ⟨d, h1, hr⟩ := bind_ok_iff.1 hr
    cases hr
    exact h.finished _ _ hf h1
  overEnd s s' hf hr := by
    obtain ⟨d, h1, hr⟩ := bind_ok_iff.1 hr
    cases hr
    exact h.overEnd _ _ hf h1
  exitCode s := by simp only [ServiceFilter.sink, h.exitCode]

/-! The ring file. -/

section
open Mirakc.RingFileSink (Op St bufferSize)

theorem bufferSize_eq : bufferSize = 8192 := rfl

/-- The first chunk is not complete yet. -/
structure Begun (C : Nat) (s : St) : Prop where
  chunk : s.chunkSize = C
  ring : C ≤ s.ringSize
  size : C % 8192 = 0
  mult : s.chunkPos % 8192 = 0
  less : s.chunkPos < C
  pos : s.ringPos = s.chunkPos + s.buf.length
  log : (written s.log).length = s.chunkPos

theorem written_mono {a b : List Op} (h : a <+: b) : (written a).length ≤ (written b).length := by
  obtain ⟨c, rfl⟩ := h
  rw [RingFileSink.written_append, List.length_append]
  omega

theorem written_snoc (a : List Op) (o : Op) : (written (a ++ [o])).length =
    (written a).length + (match o with | .write b => b.length | _ => 0) := by
  rw [RingFileSink.written_append, List.length_append]
  cases o <;> simp [written]

theorem writeLoop_written {buf : List UInt8} (hb : buf.length = 8192) : ∀ (rs : List Int) (n : Nat) (log : List Op) (_ : n ≤ 8192)
    (r : Bool × List Int × List Op), RingFileSink.writeLoop buf n log rs = r →
    (r.1 = true → (written r.2.2).length + n = (written log).length + 8192) ∧
    (r.1 = false → (written r.2.2).length + n < (written log).length + 8192)
  | [], n, log, hn, r, h => by
    unfold RingFileSink.writeLoop at h
    rw [bufferSize_eq] at h
    split at h
    · subst h
      refine ⟨fun _ => ?_, fun h => by cases h⟩
      rw [written_snoc]
      simp only [List.length_drop]
      omega
    · subst h
      exact ⟨fun _ => by dsimp only; omega, fun h => by cases h⟩
  | x :: rs, n, log, hn, r, h => by
    unfold RingFileSink.writeLoop at h
    rw [bufferSize_eq] at h
    split at h
    · split at h
      · subst h
        refine ⟨(fun h => by cases h), fun _ => ?_⟩
        rw [written_snoc]
        dsimp only
        omega
      · have := writeLoop_written hb rs _ _ (by omega) r h
        rw [written_snoc] at this
        simp only [List.length_take, List.length_drop] at this
        constructor
        · intro hr
          have := this.1 hr
          omega
        · intro hr
          have := this.2 hr
          omega
    · subst h
      exact ⟨fun _ => by dsimp only; omega, fun h => by cases h⟩

theorem assert_cases (b : Prop) [Decidable b] : (b ∧ assertThat (decide b) = .ok ()) ∨ (¬ b ∧ assertThat (decide b) = .error .assertFail) := by
  unfold assertThat
  by_cases h : b <;> simp [h]

theorem endChunk_cut {C : Nat} {s : St} (h1 : s.chunkSize = C) (h2 : s.chunkPos + 8192 ≠ C) :
    endChunk s = RingFileSink.endChunk s ∧
      ∀ r, RingFileSink.endChunk s = .ok r → r = (true, { s with chunkPos := s.chunkPos + 8192 }) ∧ s.chunkPos + 8192 < C := by
  unfold endChunk RingFileSink.endChunk
  rw [bufferSize_eq]
  dsimp only
  rcases assert_cases (s.chunkPos + 8192 ≤ s.chunkSize) with ⟨h, e⟩ | ⟨h, e⟩
  · rw [e, ok_bind, ok_bind, if_neg (by omega), if_neg (by omega)]
    refine ⟨rfl, fun r hr => ?_⟩
    cases hr
    exact ⟨rfl, by omega⟩
  · rw [e]
    exact ⟨rfl, fun r hr => by cases hr⟩

theorem endChunk_end {C : Nat} {s : St} (h1 : s.chunkSize = C) (h2 : s.chunkPos + 8192 = C) :
    endChunk s = .error .assertFail := by
  unfold endChunk
  rw [bufferSize_eq]
  dsimp only
  rcases assert_cases (s.chunkPos + 8192 ≤ s.chunkSize) with ⟨h, e⟩ | ⟨h, e⟩
  · rw [e, ok_bind, if_pos (by omega)]
    rcases assert_cases (s.ringPos ≠ 0) with ⟨h, e⟩ | ⟨h, e⟩
    · rw [e, ok_bind]
      rcases assert_cases (s.ringPos % s.chunkSize = 0) with ⟨h, e⟩ | ⟨h, e⟩
      · rw [e, ok_bind]; rfl
      · rw [e]; rfl
    · rw [e]; rfl
  · rw [e]; rfl

/-- The results for a packet. -/
abbrev Kept (C : Nat) (r : Bool × St) : Prop := (r.1 = true → Begun C r.2) ∧ (written r.2.log).length < C

theorem flush_cut {C : Nat} {s : St} (h : Begun C s) :
    Cut (Kept C) (fun r => C ≤ (written r.2.log).length) (RingFileSink.flush s) (flush s) := by
  unfold flush RingFileSink.flush
  rw [bufferSize_eq]
  rcases assert_cases (s.buf.length = 8192) with ⟨hb, e⟩ | ⟨hb, e⟩
  · rw [e, ok_bind, ok_bind]
    have hw := writeLoop_written hb s.results 0 s.log (by omega) _ rfl
    have hl := h.log
    have := h.size
    have := h.mult
    have := h.less
    have := h.pos
    have := h.ring
    have hc := h.chunk
    generalize RingFileSink.writeLoop s.buf 0 s.log s.results = r at hw
    obtain ⟨ok, rs, log⟩ := r
    cases ok with
    | false =>
      have := hw.2 rfl
      refine Cut.ok ⟨(fun h => by cases h), ?_⟩
      dsimp only at this ⊢
      omega
    | true =>
      have hw := hw.1 rfl
      dsimp only at hw ⊢
      by_cases hend : s.chunkPos + 8192 = C
      · right
        rw [endChunk_end (s := { s with buf := [], results := rs, log := log }) hc hend]
        refine ⟨rfl, fun r hr => ?_⟩
        obtain ⟨⟨ok, s2⟩, h2, hr⟩ := bind_ok_iff.1 hr
        have h3 := written_mono (RingFileSink.endChunk_log h2)
        dsimp only at hr h3
        split at hr
        · have h4 := written_mono (RingFileSink.endRing_log s2)
          cases hr
          omega
        · cases hr
          dsimp only
          omega
      · obtain ⟨e1, e2⟩ := endChunk_cut (s := { s with buf := [], results := rs, log := log }) hc hend
        rw [e1]
        refine Cut.bind (O := fun _ => False) (Cut.same e2) (fun r hr => ?_) (fun _ _ ho => ho.elim)
        obtain ⟨rfl, hr⟩ := hr
        dsimp only at hr
        simp only [if_true]
        unfold endRing RingFileSink.endRing
        dsimp only
        rw [if_neg (by omega), if_neg (by omega)]
        refine Cut.ok ⟨fun _ => ⟨hc, h.ring, h.size, ?_, hr, ?_, ?_⟩, ?_⟩
        · dsimp only; omega
        · dsimp only [List.length_nil]; omega
        · dsimp only; omega
        · dsimp only; omega
  · rw [e]
    exact Or.inl ⟨rfl, fun r hr => by cases hr⟩

theorem fill_begun {C : Nat} {s s' : St} {data : List UInt8} {n : Nat} (h : Begun C s)
    (hf : RingFileSink.fillBuffer s data = .ok (n, s')) : Begun C s' := by
  unfold RingFileSink.fillBuffer at hf
  obtain ⟨_, _, hf⟩ := bind_ok_iff.1 hf
  obtain ⟨_, _, hf⟩ := bind_ok_iff.1 hf
  cases hf
  refine ⟨h.chunk, h.ring, h.size, h.mult, h.less, ?_, h.log⟩
  have := h.pos
  simp only [List.length_append, List.length_take]
  omega

theorem handleLoop_cut {C : Nat} : ∀ (fuel : Nat) (s : St) (p : List UInt8), Begun C s →
    Cut (Kept C) (fun r => C ≤ (written r.2.log).length) (RingFileSink.handleLoop fuel s p) (handleLoop fuel s p)
  | 0, _, _, _ => Or.inl ⟨rfl, fun r hr => by cases hr⟩
  | fuel + 1, s, p, h => by
    unfold handleLoop RingFileSink.handleLoop
    refine Cut.bind (F := fun r => Begun C r.2) (O := fun _ => False) (Cut.same fun r hr => fill_begun h hr) (fun r hr => ?_)
      (fun _ _ ho => ho.elim)
    obtain ⟨n, s1⟩ := r
    dsimp only
    have fin : ∀ r : Bool × St, C ≤ (written r.2.log).length → ∀ t,
        (if r.1 = true then
          if (p.drop n).length > 0 then RingFileSink.handleLoop fuel r.2 (p.drop n) else .ok (true, r.2)
        else .ok (false, { r.2 with broken := true })) = .ok t → C ≤ (written t.2.log).length := by
      intro r ho t ht
      split at ht
      · split at ht
        · exact Nat.le_trans ho (written_mono (RingFileSink.handleLoop_log _ ht))
        · cases ht; exact ho
      · cases ht; exact ho
    have go : ∀ r : Bool × St, Kept C r → Cut (Kept C) (fun r => C ≤ (written r.2.log).length)
        (if r.1 = true then
          if (p.drop n).length > 0 then RingFileSink.handleLoop fuel r.2 (p.drop n) else .ok (true, r.2)
        else .ok (false, { r.2 with broken := true }))
        (if r.1 = true then
          if (p.drop n).length > 0 then handleLoop fuel r.2 (p.drop n) else .ok (true, r.2)
        else .ok (false, { r.2 with broken := true })) := by
      intro r hr
      by_cases h1 : r.1 = true
      · rw [if_pos h1, if_pos h1]
        by_cases h2 : (p.drop n).length > 0
        · rw [if_pos h2, if_pos h2]
          exact handleLoop_cut fuel _ _ (hr.1 h1)
        · rw [if_neg h2, if_neg h2]
          exact Cut.ok ⟨fun _ => hr.1 h1, hr.2⟩
      · rw [if_neg h1, if_neg h1]
        exact Cut.ok ⟨(fun h => by cases h), hr.2⟩
    by_cases hb : s1.buf.length = bufferSize
    · rw [if_pos hb, if_pos hb]
      exact Cut.bind (flush_cut hr) go fun r t ho ht => fin r ho t ht
    · rw [if_neg hb, if_neg hb]
      exact go (true, s1) ⟨fun _ => hr, by have h1 := hr.log; have h2 := hr.less; dsimp only at h1 h2 ⊢; omega⟩

end

/-! The recorder. -/

section
open Mirakc.ServiceRecorder

theorem operations_append (a b : List Tr) : operations (a ++ b) = operations a ++ operations b := by
  simp [operations]

theorem expand_ops {s : ServiceRecorder.St} {l : Int} {ops : List RingFileSink.Op} {tr : List Tr}
    (h : expand s l ops = .ok tr) : operations tr = ops := by
  obtain ⟨now, h, _⟩ := expand_spec h
  exact expandTo_fileOps h

theorem updateEit_ring {s s1 : ServiceRecorder.St} {b : Bool} {e : Option Eit} (h : updateEit s = .ok (b, e, s1)) :
    s1.ring = s.ring := by
  unfold updateEit at h
  split at h
  · cases h; rfl
  · obtain ⟨_, _, h⟩ := bind_ok_iff.1 h
    obtain ⟨_, _, h⟩ := bind_ok_iff.1 h
    dsimp only at h
    split at h <;> (cases h; rfl)

theorem updateEvent_ring {s s1 : ServiceRecorder.St} {now : Int} {b : Bool} {e n : Option Eit} {out : List Tr}
    (h : updateEvent s now b e n = .ok (s1, out)) : s1.ring = s.ring ∧ operations out = [] := by
  unfold updateEvent at h
  split at h
  · split at h
    · obtain ⟨_, _, h⟩ := bind_ok_iff.1 h
      obtain ⟨_, _, h⟩ := bind_ok_iff.1 h
      cases h; exact ⟨rfl, rfl⟩
    · obtain ⟨_, _, h⟩ := bind_ok_iff.1 h
      dsimp only at h
      repeat' (first | (cases h; exact ⟨rfl, rfl⟩) | split at h)
  · split at h
    · obtain ⟨_, _, h⟩ := bind_ok_iff.1 h
      cases h; exact ⟨rfl, rfl⟩
    · cases h; exact ⟨rfl, rfl⟩

theorem prepare_ring {o : Opt} {s s1 : ServiceRecorder.St} {i : ServiceRecorder.Input} {out : List Tr}
    (h : onPreparing o s i = .ok (s1, out)) : s1.ring = s.ring ∧ operations out = [] := by
  rcases prepare_spec h with ⟨_, rfl, rfl⟩ | ⟨_, e, ev, now, _, _, _, _, _, ⟨_, rfl, rfl⟩ | ⟨_, rfl, rfl⟩⟩ <;>
    exact ⟨rfl, rfl⟩

/-- Everything done with the file is seen. -/
def Logged (h : Hist) : Prop := operations h.trace = h.st.ring.log

/-- Recording, and the first chunk is not complete yet. -/
def IRec (C : Nat) (h : Hist) : Prop := Logged h ∧ Begun C h.st.ring
def FRec (C : Nat) (h : Hist) : Prop := Logged h ∧ (written h.st.ring.log).length < C
def ORec (C : Nat) (h : Hist) : Prop := Logged h ∧ C ≤ (written h.st.ring.log).length

theorem onRecording_cut {C : Nat} {s : ServiceRecorder.St} {i : ServiceRecorder.Input} (hi : Begun C s.ring) :
    Cut (fun r => r.2.1.ring.log = s.ring.log ++ operations r.2.2 ∧ Kept C (r.1, r.2.1.ring))
      (fun r => r.2.1.ring.log = s.ring.log ++ operations r.2.2 ∧ C ≤ (written r.2.1.ring.log).length)
      (ServiceRecorder.onRecording s i) (onRecording s i) := by
  unfold onRecording ServiceRecorder.onRecording
  refine Cut.bind (F := fun _ => True) (O := fun _ => False) (Cut.same fun _ _ => trivial) (fun now _ => ?_)
    (fun _ _ ho => ho.elim)
  refine Cut.bind (F := fun r => r.2.2.ring = s.ring) (O := fun _ => False) (Cut.same fun _ h => updateEit_ring h)
    (fun r hr => ?_) (fun _ _ ho => ho.elim)
  obtain ⟨b, e, s1⟩ := r
  dsimp only at hr ⊢
  refine Cut.bind (F := fun r => r.1.ring = s.ring ∧ operations r.2 = []) (O := fun _ => False)
    (Cut.same fun _ h => by rw [← hr]; exact updateEvent_ring h) (fun r hr => ?_) (fun _ _ ho => ho.elim)
  obtain ⟨s2, out⟩ := r
  obtain ⟨h2, h3⟩ := hr
  dsimp only at h2 h3 ⊢
  rw [h2]
  have hlog : ∀ r, RingFileSink.handlePacket s.ring i.bytes = .ok r →
      r.2.log = s.ring.log ++ r.2.log.drop s.ring.log.length := fun r h => RingFileSink.handlePacket_log h
  have hc : Cut (fun r => Kept C r ∧ r.2.log = s.ring.log ++ r.2.log.drop s.ring.log.length)
      (fun r => C ≤ (written r.2.log).length ∧ r.2.log = s.ring.log ++ r.2.log.drop s.ring.log.length)
      (RingFileSink.handlePacket s.ring i.bytes) (handlePacket s.ring i.bytes) := by
    rcases handleLoop_cut 3 s.ring i.bytes hi with ⟨h, k⟩ | ⟨h, k⟩
    · exact Or.inl ⟨h, fun r hr => ⟨k r hr, hlog r hr⟩⟩
    · exact Or.inr ⟨h, fun r hr => ⟨k r hr, hlog r hr⟩⟩
  refine Cut.bind hc (fun r hr => ?_) (fun r t ho ht => ?_)
  · obtain ⟨ok, ring⟩ := r
    refine Cut.bind (F := fun ops => operations ops = ring.log.drop s.ring.log.length) (O := fun _ => False)
      (Cut.same fun _ h => expand_ops h) (fun ops hops => Cut.ok ⟨?_, hr.1⟩) (fun _ _ ho => ho.elim)
    dsimp only
    rw [operations_append, h3, hops, List.nil_append]
    exact hr.2
  · obtain ⟨ops, h4, ht⟩ := bind_ok_iff.1 ht
    cases ht
    refine ⟨?_, ho.1⟩
    dsimp only
    rw [operations_append, h3, expand_ops h4, List.nil_append]
    exact ho.2

theorem onRecording_log {s s' : ServiceRecorder.St} {i : ServiceRecorder.Input} {ok : Bool} {out : List Tr}
    (h : ServiceRecorder.onRecording s i = .ok (ok, s', out)) : s'.ring.log = s.ring.log ++ operations out := by
  unfold ServiceRecorder.onRecording at h
  obtain ⟨now, _, h⟩ := bind_ok_iff.1 h
  obtain ⟨⟨b, e, s1⟩, h1, h⟩ := bind_ok_iff.1 h
  obtain ⟨⟨s2, out'⟩, h2, h⟩ := bind_ok_iff.1 h
  obtain ⟨⟨ok', ring⟩, h3, h⟩ := bind_ok_iff.1 h
  obtain ⟨ops, h4, h⟩ := bind_ok_iff.1 h
  cases h
  have h1 := updateEit_ring h1
  obtain ⟨h2, h5⟩ := updateEvent_ring h2
  have h3 := RingFileSink.handlePacket_log h3
  dsimp only at h2 h4 h3 ⊢
  rw [operations_append, h5, expand_ops h4, List.nil_append, ← h1, ← h2]
  exact h3

theorem step_cut {C : Nat} {o : Opt} {s : ServiceRecorder.St} {i : ServiceRecorder.Input} (hi : Begun C s.ring) :
    Cut (fun r => r.1.ring.log = s.ring.log ++ operations r.2.out ∧ Kept C (r.2.more, r.1.ring))
      (fun r => r.1.ring.log = s.ring.log ++ operations r.2.out ∧ C ≤ (written r.1.ring.log).length)
      (ServiceRecorder.step o s i) (step o s i) := by
  unfold step ServiceRecorder.step
  refine Cut.bind (F := fun r => r.ring = s.ring) (O := fun _ => False) (Cut.same fun _ h => (Geometry.tick_recording h).2.1)
    (fun s1 h1 => ?_) (fun _ _ ho => ho.elim)
  refine Cut.bind (F := fun r => r.1.ring = s.ring) (O := fun _ => False)
    (Cut.same fun _ h => (Geometry.feed_recording h).2.1.trans h1) (fun r hr => ?_) (fun _ _ ho => ho.elim)
  obtain ⟨s2, log⟩ := r
  dsimp only at hr ⊢
  split
  · rw [← hr]
    refine Cut.bind (onRecording_cut (by rw [hr]; exact hi)) (fun r hr => ?_) (fun r t ho ht => ?_)
    · obtain ⟨ok, s3, out⟩ := r
      exact Cut.ok hr
    · cases ht; exact ho
  · refine Cut.bind (F := fun r => r.1.ring = s.ring ∧ operations r.2 = []) (O := fun _ => False)
      (Cut.same fun _ h => by rw [← hr]; exact prepare_ring h) (fun r hr => ?_) (fun _ _ ho => ho.elim)
    obtain ⟨s3, out⟩ := r
    obtain ⟨h3, h4⟩ := hr
    dsimp only at h3 h4
    refine Cut.ok ⟨?_, fun _ => ?_, ?_⟩
    · dsimp only; rw [h3, h4, List.append_nil]
    · dsimp only; rw [h3]; exact hi
    · dsimp only; rw [h3]; have := hi.log; have := hi.less; omega

theorem step_log {o : Opt} {s : ServiceRecorder.St} {i : ServiceRecorder.Input} {r : ServiceRecorder.St × Item}
    (h : ServiceRecorder.step o s i = .ok r) : r.1.ring.log = s.ring.log ++ operations r.2.out := by
  unfold ServiceRecorder.step at h
  obtain ⟨s1, h1, h⟩ := bind_ok_iff.1 h
  obtain ⟨⟨s2, log⟩, h2, h⟩ := bind_ok_iff.1 h
  have h3 := (Geometry.feed_recording h2).2.1.trans (Geometry.tick_recording h1).2.1
  dsimp only at h
  split at h
  · obtain ⟨⟨ok, s3, out⟩, h4, h⟩ := bind_ok_iff.1 h
    cases h
    have := onRecording_log h4
    rw [h3] at this
    exact this
  · obtain ⟨⟨s3, out⟩, h4, h⟩ := bind_ok_iff.1 h
    cases h
    obtain ⟨h5, h6⟩ := prepare_ring h4
    dsimp only
    rw [h5, h6, h3, List.append_nil]

theorem start_same {o : Opt} (ho : o.startPos = 0) (h : Hist) : start o h = ServiceRecorder.start o h := by
  unfold start ServiceRecorder.start
  rw [if_neg (by simp [ho]), if_neg (by simp [ho])]

theorem start_zero {o : Opt} (ho : o.startPos = 0) (h : Hist) :
    ServiceRecorder.start o h = .ok (true, { h with trace := h.trace ++ [.msg .start] }) := by
  unfold ServiceRecorder.start
  rw [if_neg (by simp [ho])]
  simp [ok_bind]

theorem recorder_cut {C : Nat} {o : Opt} (ho : o.startPos = 0) :
    SinkCut (IRec C) (FRec C) (ORec C) (ServiceRecorder.sink o) (sink o) where
  fine s h := ⟨h.1, by have := h.2.log; have := h.2.less; omega⟩
  start s := start_same ho s
  started s r hi hr := by
    have hr : ServiceRecorder.start o s = .ok r := hr
    rw [start_zero ho] at hr
    cases hr
    refine ⟨?_, hi.2⟩
    show operations (s.trace ++ [.msg .start]) = _
    rw [operations_append, hi.1]
    exact List.append_nil _
  handle s i hi := by
    refine Cut.bind (step_cut hi.2) (fun r hr => ?_) (fun r t ho ht => ?_)
    · obtain ⟨s1, it⟩ := r
      obtain ⟨h1, h2⟩ := hr
      have hl : Logged { st := s1, items := s.items ++ [it], trace := s.trace ++ it.out } := by
        unfold Logged
        dsimp only at h1 ⊢
        rw [operations_append, hi.1, h1]
      exact Cut.ok ⟨fun h => ⟨hl, h2.1 h⟩, hl, h2.2⟩
    · cases ht
      refine ⟨?_, ho.2⟩
      unfold Logged
      dsimp only
      rw [operations_append, hi.1, ho.1]
  over s i r ho hr := by
    obtain ⟨⟨s1, it⟩, h1, hr⟩ := bind_ok_iff.1 hr
    cases hr
    have h1 := step_log h1
    dsimp only at h1
    refine ⟨?_, ?_⟩
    · unfold Logged
      dsimp only
      rw [operations_append, ho.1, h1]
    · dsimp only
      rw [h1]
      exact Nat.le_trans ho.2 (written_mono (List.prefix_append _ _))
  finish s := rfl
  finished s s' hf h := by
    cases h
    refine ⟨?_, hf.2⟩
    show operations (s.trace ++ [_]) = _
    rw [operations_append, hf.1]
    exact List.append_nil _
  overEnd s s' hf h := by
    cases h
    refine ⟨?_, hf.2⟩
    show operations (s.trace ++ [_]) = _
    rw [operations_append, hf.1]
    exact List.append_nil _
  exitCode s := rfl

theorem init_begun {o : Opt} {results : List Int} {h : Hist} (hi : init o results = .ok h) : IRec o.chunkSize h := by
  obtain ⟨r, hr, hi⟩ := bind_ok_iff.1 hi
  cases hi
  unfold RingFileSink.new at hr
  obtain ⟨_, h1, hr⟩ := bind_ok_iff.1 hr
  obtain ⟨_, _, hr⟩ := bind_ok_iff.1 hr
  obtain ⟨_, h3, hr⟩ := bind_ok_iff.1 hr
  obtain ⟨_, _, hr⟩ := bind_ok_iff.1 hr
  obtain ⟨_, h5, hr⟩ := bind_ok_iff.1 hr
  have h1 := of_decide_eq_true (assert_ok h1)
  have h3 := of_decide_eq_true (assert_ok h3)
  have h5 := of_decide_eq_true (assert_ok h5)
  cases hr
  exact ⟨rfl, rfl, Nat.le_mul_of_pos_right _ h3, h5, rfl, h1, rfl, rfl⟩

end

/-! The command. -/

theorem Cut.ends {α β : Type} {F O : α → Prop} {x y : Except Fault α} (c : Cut F O x y) (f : α → β) {x' y' : Except Stop β}
    (hx : x' = (x.mapError .fault >>= fun r => .ok (f r))) (hy : y' = (y.mapError .fault >>= fun r => .ok (f r))) :
    (y' = x' ∧ ∀ e, x' = .ok e → ∃ r, F r ∧ e = f r) ∨
    (y' = .error (.fault .assertFail) ∧ ∀ e, x' = .ok e → ∃ r, O r ∧ e = f r) := by
  subst hx hy
  rcases c with ⟨rfl, h⟩ | ⟨rfl, h⟩
  · refine Or.inl ⟨rfl, fun e he => ?_⟩
    obtain ⟨r, hr, he⟩ := bind_ok_iff.1 he
    cases he
    exact ⟨r, h r (mapError_ok_iff.1 hr), rfl⟩
  · refine Or.inr ⟨rfl, fun e he => ?_⟩
    obtain ⟨r, hr, he⟩ := bind_ok_iff.1 he
    cases he
    exact ⟨r, h r (mapError_ok_iff.1 hr), rfl⟩

/-- What is left of a recording. -/
def left (r : Nat × ServiceFilter.St × Nat × ServiceRecorder.Hist) : Ended :=
  { code := r.1, docs := messages r.2.2.2.trace, ops := operations r.2.2.2.trace }

theorem record_around {w : World} {ps : List (List UInt8)} (hr : Reads w ps) {o : ServiceRecorder.Opt} {h0 : ServiceRecorder.Hist}
    (hi : ServiceRecorder.init o w.file = .ok h0) (k : Sink ServiceRecorder.Input ServiceRecorder.Hist) :
    (do
      let h0 ← (ServiceRecorder.init o w.file).mapError .fault
      let (code, _, _, _, h) ← Main.feed w (via (input w.codec w.tables) (ServiceFilter.sink { sid := o.sid }
        (via (betweenRec w.codec w.tables2 w.times) k))) (0, ServiceFilter.init { sid := o.sid }, 0, h0)
      .ok { code := code, docs := messages h.trace, ops := operations h.trace } : Except Stop Ended) =
    ((around (ServiceFilter.sink { sid := o.sid } (via (betweenRec w.codec w.tables2 w.times) k))
      (ServiceFilter.init { sid := o.sid }, 0, h0)
      (foldP (ServiceFilter.sink { sid := o.sid } (via (betweenRec w.codec w.tables2 w.times) k))
        (seen (input w.codec w.tables) 0 ps))).mapError .fault >>= fun r => .ok (left r)) := by
  rw [hi]
  exact feed_around hr (input w.codec w.tables) (ServiceFilter.sink { sid := o.sid }
    (via (betweenRec w.codec w.tables2 w.times) k)) (ServiceFilter.init { sid := o.sid }, 0, h0)
    (fun r => Except.ok (ε := Stop) (left r))

theorem record_zero {w : World} {ps : List (List UInt8)} (hr : Reads w ps) {o : ServiceRecorder.Opt} (ho : o.startPos = 0) :
    (recordService w o = Main.recordService w o ∧
      ∀ e, Main.recordService w o = .ok e → (written e.ops).length < o.chunkSize) ∨
    (recordService w o = .error (.fault .assertFail) ∧
      ∀ e, Main.recordService w o = .ok e → o.chunkSize ≤ (written e.ops).length) := by
  cases hi : ServiceRecorder.init o w.file with
  | error f =>
    have e1 : Main.recordService w o = .error (.fault f) := by
      unfold Main.recordService
      rw [hi]
      rfl
    have e2 : recordService w o = .error (.fault f) := by
      unfold recordService
      rw [hi]
      rfl
    rw [e1, e2]
    exact Or.inl ⟨rfl, fun e he => by cases he⟩
  | ok h0 =>
    have H := service_cut (via_cut (recorder_cut (C := o.chunkSize) ho) (betweenRec w.codec w.tables2 w.times))
      { sid := o.sid }
    have c := around_cut H (seen (input w.codec w.tables) 0 ps) (s := (ServiceFilter.init { sid := o.sid }, 0, h0))
      (by show IRec _ h0; exact init_begun hi)
    have e1 := record_around hr hi (ServiceRecorder.sink o)
    have e2 := record_around hr hi (sink o)
    change Main.recordService w o = _ at e1
    change recordService w o = _ at e2
    rcases c.ends left e1 e2 with ⟨h1, h2⟩ | ⟨h1, h2⟩
    · refine Or.inl ⟨h1, fun e he => ?_⟩
      obtain ⟨r, ⟨hl, hw⟩, rfl⟩ := h2 e he
      have hl : operations r.2.2.2.trace = _ := hl
      unfold left
      dsimp only
      rw [hl]
      exact hw
    · refine Or.inr ⟨h1, fun e he => ?_⟩
      obtain ⟨r, ⟨hl, hw⟩, rfl⟩ := h2 e he
      have hl : operations r.2.2.2.trace = _ := hl
      unfold left
      dsimp only
      rw [hl]
      exact hw

theorem not_refused {w : World} {ps : List (List UInt8)} (hr : Reads w ps) {o : ServiceRecorder.Opt} {r : Options.Refusal} :
    Main.recordService w o ≠ .error (.refused r) := by
  intro h
  cases hi : ServiceRecorder.init o w.file with
  | error f =>
    have e1 : Main.recordService w o = .error (.fault f) := by
      unfold Main.recordService
      rw [hi]
      rfl
    rw [e1] at h
    cases h
  | ok h0 =>
    have e1 := record_around hr hi (ServiceRecorder.sink o)
    change Main.recordService w o = _ at e1
    rw [e1] at h
    revert h
    generalize around _ _ _ = x
    cases x <;> (intro h; cases h)

theorem setPosition_fails (s : RingFileSink.St) (pos : Nat) : setPosition s pos = .error .assertFail := by
  unfold setPosition
  rcases assert_cases (pos ≤ 2 ^ 63 - 1) with ⟨_, e⟩ | ⟨_, e⟩ <;> rw [e] <;> try rfl
  rcases assert_cases (pos % RingFileSink.bufferSize = 0) with ⟨_, e⟩ | ⟨_, e⟩ <;> rw [e] <;> try rfl
  rcases assert_cases (pos < s.ringSize) with ⟨_, e⟩ | ⟨_, e⟩ <;> rw [e] <;> try rfl
  rcases assert_cases (pos % s.chunkSize = 0) with ⟨_, e⟩ | ⟨_, e⟩ <;> rw [e] <;> rfl

theorem init_error {o : ServiceRecorder.Opt} {results : List Int} {f : Fault}
    (h : ServiceRecorder.init o results = .error f) : f = .assertFail := by
  unfold ServiceRecorder.init RingFileSink.new at h
  rcases assert_cases (o.chunkSize > 0) with ⟨_, e⟩ | ⟨_, e⟩ <;> rw [e] at h
  · rcases assert_cases (o.chunkSize ≤ RingFileSink.maxChunkSize) with ⟨_, e⟩ | ⟨_, e⟩ <;> rw [e] at h
    · rcases assert_cases (o.numChunks > 0) with ⟨_, e⟩ | ⟨_, e⟩ <;> rw [e] at h
      · rcases assert_cases (o.numChunks ≤ RingFileSink.maxNumChunks) with ⟨_, e⟩ | ⟨_, e⟩ <;> rw [e] at h
        · rcases assert_cases (o.chunkSize % RingFileSink.bufferSize = 0) with ⟨_, e⟩ | ⟨_, e⟩ <;> rw [e] at h <;> cases h
          rfl
        · cases h; rfl
      · cases h; rfl
    · cases h; rfl
  · cases h; rfl

theorem record_later {w : World} {ps : List (List UInt8)} (hr : Reads w ps) {o : ServiceRecorder.Opt} (ho : o.startPos ≠ 0) :
    recordService w o = .error (.fault .assertFail) := by
  cases hi : ServiceRecorder.init o w.file with
  | error f =>
    unfold recordService
    rw [hi, init_error hi]
    rfl
  | ok h0 =>
    have e := record_around hr hi (sink o)
    change recordService w o = _ at e
    have hs : ∀ h, (sink o).start h = .error .assertFail := by
      intro h
      show start o h = _
      unfold start
      rw [if_pos ho, setPosition_fails]
      rfl
    rw [e]
    unfold around
    have : (ServiceFilter.sink { sid := o.sid } (via (betweenRec w.codec w.tables2 w.times) (sink o))).start
        (ServiceFilter.init { sid := o.sid }, 0, h0) = .error .assertFail := by
      unfold ServiceFilter.sink via
      dsimp only
      rw [hs]
      rfl
    rw [this]
    rfl

end Mirakc.StdoutRecorder
