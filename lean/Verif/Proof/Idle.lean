import Verif.Spec.Idle
import Verif.Proof.Foreign
/-
Lemmas: packets that do not matter to the commands that print documents.
-/
namespace Mirakc.Main
open Mirakc.Pipeline Mirakc.Spec Mirakc.Spec.Main Mirakc.Spec.Pipeline

section Skip
variable {ι σ α β : Type} {step : σ → ι → Except Fault (σ × α × Bool)} {finish : σ → Except Fault σ}
  {exitCode : σ → Nat} (view : α → List β)

/-- The state and what is seen of the history. -/
def digest (h : History ι σ α) : σ × List β := (h.st, h.items.flatMap fun l => view l.did)

/-- The packet loop depends on the state only. -/
theorem foldP_digest : ∀ (c : List ι) (h1 h2 : History ι σ α), digest view h1 = digest view h2 →
    (foldP (historySink step finish exitCode) c h1).map (digest view) =
      (foldP (historySink step finish exitCode) c h2).map (digest view)
  | [], h1, h2, e => by simp only [foldP, Except.map, e]
  | x :: c, h1, h2, e => by
    have e1 : h1.st = h2.st := congrArg Prod.fst e
    have e2 : (h1.items.flatMap fun l => view l.did) = h2.items.flatMap fun l => view l.did := congrArg Prod.snd e
    simp only [foldP, historySink, e1]
    cases step h2.st x with
    | error f => rfl
    | ok r =>
      obtain ⟨s, a, more⟩ := r
      have e3 : digest view (History.mk (ι := ι) s (h1.items ++ [⟨x, a, more⟩])) =
          digest view (History.mk s (h2.items ++ [⟨x, a, more⟩])) := by
        simp only [digest, List.flatMap_append, e2]
      cases more with
      | false => exact congrArg Except.ok e3
      | true => exact foldP_digest c _ _ e3

/-- A packet that changes nothing can be left out. -/
theorem foldP_idle {R Q : σ → Prop} {i : ι} (c : List ι)
    (hi : ∀ s, Q s → ∃ a, step s i = .ok (s, a, true) ∧ view a = [])
    (hq : ∀ s j s' a, R s → step s j = .ok (s', a, true) → Q s') (hr : ∀ s, Q s → R s) :
    ∀ (a : List ι) (h : History ι σ α), R h.st → (Q h.st ∨ a ≠ []) →
    (foldP (historySink step finish exitCode) (a ++ i :: c) h).map (digest view) =
      (foldP (historySink step finish exitCode) (a ++ c) h).map (digest view)
  | [], h, _, hQ => by
    obtain ⟨a, h1, h2⟩ := hi h.st (hQ.resolve_right (· rfl))
    have : foldP (historySink step finish exitCode) (i :: c) h =
        foldP (historySink step finish exitCode) c ⟨h.st, h.items ++ [⟨i, a, true⟩]⟩ := by
      simp only [foldP, historySink, h1]; rfl
    rw [List.nil_append, List.nil_append, this]
    exact foldP_digest view c _ _ (by simp [digest, h2])
  | x :: a, h, hR, _ => by
    have : ∀ l, foldP (historySink step finish exitCode) (x :: l) h =
        (step h.st x >>= fun r => if r.2.2 = true then
          foldP (historySink step finish exitCode) l ⟨r.1, h.items ++ [⟨x, r.2.1, r.2.2⟩]⟩
          else .ok ⟨r.1, h.items ++ [⟨x, r.2.1, r.2.2⟩]⟩) := by
      intro l
      simp only [foldP, historySink]
      cases step h.st x <;> rfl
    rw [List.cons_append, List.cons_append, this, this]
    cases hs : step h.st x with
    | error f => rfl
    | ok r =>
      obtain ⟨s, d, more⟩ := r
      cases more with
      | false => rfl
      | true =>
        have hQ := hq _ _ _ _ hR hs
        exact foldP_idle c hi hq hr a _ (hr _ hQ) (.inl hQ)

/-- What the command does, in terms of the packet loop. -/
theorem around_digest (h : History ι σ α) (l : List ι) :
    (around (historySink step finish exitCode) h (foldP (historySink step finish exitCode) l)).map
      (fun r => (r.1, digest view r.2)) =
    ((foldP (historySink step finish exitCode) l h).map (digest view) >>= fun d => do
      let s ← finish d.1
      .ok (exitCode s, s, d.2)) := by
  unfold around
  show Except.map _ (foldP _ l h >>= fun x => _) = _
  cases foldP (historySink step finish exitCode) l h with
  | error e => rfl
  | ok t =>
    show Except.map _ ((finish t.st >>= fun s => _) >>= fun x => _) = (finish t.st >>= fun s => _)
    cases finish t.st <;> rfl

end Skip

/-- Two runs of a command whose result is made of the digest. -/
theorem feed_idle {w w' : World} {ι σ α β : Type} {step : σ → ι → Except Fault (σ × α × Bool)}
    {finish : σ → Except Fault σ} {exitCode : σ → Nat} (view : α → List β)
    {ps ps' : List (List UInt8)} (hr : Reads w ps) (hr' : Reads w' ps') (f f' : Nat → List UInt8 → ι)
    (h : History ι σ α) (k : Nat × σ × List β → Except Stop Ended)
    (he : (foldP (historySink step finish exitCode) (seen f 0 ps) h).map (digest view) =
      (foldP (historySink step finish exitCode) (seen f' 0 ps') h).map (digest view)) :
    (feed w (via f (historySink step finish exitCode)) (0, h) >>= fun r => k (r.1, digest view r.2.2)) =
      (feed w' (via f' (historySink step finish exitCode)) (0, h) >>= fun r => k (r.1, digest view r.2.2)) := by
  have key : ∀ {w : World} {ps : List (List UInt8)} (f : Nat → List UInt8 → ι), Reads w ps →
      (feed w (via f (historySink step finish exitCode)) (0, h) >>= fun r => k (r.1, digest view r.2.2)) =
        (((around (historySink step finish exitCode) h
          (foldP (historySink step finish exitCode) (seen f 0 ps))).map (fun r => (r.1, digest view r.2))).mapError .fault
          >>= k) := by
    intro w ps f hr
    rw [feed_around hr f _ h (fun r => k (r.1, digest view r.2))]
    cases around (historySink step finish exitCode) h (foldP (historySink step finish exitCode) (seen f 0 ps)) <;> rfl
  rw [key f hr, key f' hr', around_digest, around_digest, he]

/-- What is left of the packets. -/
theorem seen_lacking {ι : Type} (f f' : Nat → List UInt8 → ι) (a c : List (List UInt8)) (b : List UInt8)
    (hf : ∀ k q, f' k q = dropNth (fun k => f k q) a.length k) :
    seen f 0 (a ++ b :: c) = seen f 0 a ++ f a.length b :: seen f (a.length + 1) c ∧
    seen f' 0 (a ++ c) = seen f 0 a ++ seen f (a.length + 1) c := by
  constructor
  · rw [seen_append, Nat.zero_add]; rfl
  · rw [seen_append]
    congr 1
    · refine seen_congr _ _ a 0 0 fun k hk q => ?_
      rw [Nat.zero_add, hf, dropNth, if_pos hk]
    · refine seen_congr _ _ c _ _ fun k _ q => ?_
      have : ¬ 0 + a.length + k < a.length := by omega
      rw [hf, dropNth, if_neg this, show 0 + a.length + k + 1 = a.length + 1 + k by omega]

/-- Both together. -/
theorem feed_lacking {w w' : World} {ι σ α β : Type} {step : σ → ι → Except Fault (σ × α × Bool)}
    {finish : σ → Except Fault σ} {exitCode : σ → Nat} (view : α → List β) {R Q : σ → Prop}
    {a c : List (List UInt8)} {b : List UInt8} (hr : Reads w (a ++ b :: c)) (hr' : Reads w' (a ++ c))
    (f f' : Nat → List UInt8 → ι) (hf : ∀ k q, f' k q = dropNth (fun k => f k q) a.length k)
    (hi : ∀ s, Q s → ∃ d, step s (f a.length b) = .ok (s, d, true) ∧ view d = [])
    (hq : ∀ s j s' d, R s → step s j = .ok (s', d, true) → Q s') (hR : ∀ s, Q s → R s)
    (h : History ι σ α) (h0 : R h.st) (h1 : Q h.st ∨ a ≠ []) (k : Nat × σ × List β → Except Stop Ended) :
    (feed w (via f (historySink step finish exitCode)) (0, h) >>= fun r => k (r.1, digest view r.2.2)) =
      (feed w' (via f' (historySink step finish exitCode)) (0, h) >>= fun r => k (r.1, digest view r.2.2)) := by
  refine feed_idle view hr hr' f f' h k ?_
  obtain ⟨e1, e2⟩ := seen_lacking f f' a c b hf
  rw [e1, e2]
  refine foldP_idle view _ hi hq hR _ h h0 (h1.imp id fun ha => ?_)
  cases a with
  | nil => exact absurd rfl ha
  | cons x a => simp [seen]

end Mirakc.Main

namespace Mirakc.Main
open Mirakc.Pipeline Mirakc.Spec Mirakc.Spec.Main Mirakc.Spec.Pipeline

theorem packet_lacking (w : World) (n : Nat) (op : Bool) (rd : List (Option (List UInt8))) (k : Nat) (q : List UInt8) :
    packet (lacking w n op rd) k q = dropNth (fun k => packet w k q) n k := by
  by_cases h : k < n <;> simp [packet, input, lacking, dropNth, h]

theorem sections_lacking (w : World) (n : Nat) (op : Bool) (rd : List (Option (List UInt8))) (k : Nat) (q : List UInt8) :
    sections (lacking w n op rd) k q = dropNth (fun k => sections w k q) n k := by
  by_cases h : k < n <;> simp [sections, lacking, dropNth, h]

/-- What the demultiplexer does with the packet. -/
theorem demux_idle {w : World} {n : Nat} {b : List UInt8} {σ : Type} {watched : σ → PidSet}
    {handle : σ → Table → Except Fault σ} {s : σ}
    (h : (w.codec.packet b).pid ∉ watched s ∨ ∀ t ∈ w.tables n, t.sourcePid ≠ (w.codec.packet b).pid) :
    feedDemux watched handle (packet w n b).packet.pid (packet w n b).tables s = .ok (s, []) :=
  feedDemux_none _ h.symm

theorem handedOver_none {watched : PidSet} {i : SectionInput}
    (h : i.packet.pid ∉ watched ∨ ∀ e ∈ i.events, e.pid ≠ i.packet.pid) : handedOver watched i = [] := by
  refine List.filter_eq_nil_iff.2 fun e he hc => ?_
  rw [Bool.and_eq_true, beq_iff_eq, List.contains_iff_mem] at hc
  rcases h with h | h
  · exact h hc.2
  · exact h e he hc.1

section
variable {w : World} {a c : List (List UInt8)} {b : List UInt8} (hr : Reads w (a ++ b :: c)) {op : Bool}
  {rd : List (Option (List UInt8))} (hr' : Reads (lacking w a.length op rd) (a ++ c))
include hr hr'

theorem scan_idle (o : ServiceScanner.Opt) (hi : ∀ t ∈ w.tables a.length, t.sourcePid ≠ (w.codec.packet b).pid) :
    scanServices w o = scanServices (lacking w a.length op rd) o := by
  have key := feed_lacking (step := ServiceScanner.step) (finish := ServiceScanner.finish o)
    (exitCode := ServiceScanner.exitCode) (fun _ => ([] : List Unit)) (R := fun s => ServiceScanner.completed s = false)
    (Q := fun s => ServiceScanner.completed s = false) hr hr' (packet w) (packet (lacking w a.length op rd))
    (fun k q => packet_lacking w _ op rd k q)
    (fun s hs => ⟨(), by
      simp only [ServiceScanner.step]
      rw [demux_idle (.inr hi)]
      show (if ServiceScanner.completed s then _ else _) = _
      rw [hs]; rfl, rfl⟩)
    (fun s j s' d _ h => by
      obtain ⟨⟨s1, log⟩, _, h⟩ := bind_ok_iff.1 h
      simp only at h
      cases hc : ServiceScanner.completed s1 with
      | true => rw [hc] at h; cases h
      | false => rw [hc] at h; cases h; exact hc)
    (fun _ h => h) { st := {} } rfl (.inl rfl)
    (fun r => .ok { code := r.1, docs := r.2.1.out.toList.map .services })
  exact key

theorem sync_idle (o : PcrSynchronizer.Opt) (hi : (w.codec.packet b).pid = 0x1FFF ∨
      (∀ t ∈ w.tables a.length, t.sourcePid ≠ (w.codec.packet b).pid) ∧ (w.codec.packet b).pcr = none) :
    syncClocks w o = syncClocks (lacking w a.length op rd) o := by
  have key := feed_lacking (step := PcrSynchronizer.step o) (finish := PcrSynchronizer.finish)
    (exitCode := PcrSynchronizer.exitCode) (fun _ => ([] : List Unit)) (R := fun s => s.done = false)
    (Q := fun s => s.done = false) hr hr' (packet w) (packet (lacking w a.length op rd))
    (fun k q => packet_lacking w _ op rd k q)
    (fun s hs => ⟨[], by
      simp only [PcrSynchronizer.step]
      rcases hi with hi | ⟨hi, hp⟩
      · have : ((packet w a.length b).packet.pid == pidNull) = true := beq_iff_eq.2 hi
        rw [if_pos this]
      · split
        · rfl
        · rw [demux_idle (.inr hi)]
          have hp : (packet w a.length b).packet.pcr = none := hp
          simp [bind, Except.bind, hs, hp]
          , rfl⟩)
    (fun s j s' d hs h => by
      simp only [PcrSynchronizer.step] at h
      split at h
      · cases h; exact hs
      · obtain ⟨r, _, h⟩ := bind_ok_iff.1 h
        split at h
        · cases h
        · next hd =>
          split at h
          · split at h
            · cases h; exact Bool.eq_false_iff.2 hd
            · obtain ⟨_, _, h⟩ := bind_ok_iff.1 h
              split at h
              · cases h
              · cases h; exact Bool.eq_false_iff.2 hd
          · cases h; exact Bool.eq_false_iff.2 hd)
    (fun _ h => h) { st := {} } rfl (.inl rfl)
    (fun r => .ok { code := r.1, docs := r.2.1.out.toList.map .clocks })
  exact key

theorem metadata_idle (o : ProgramMetadataFilter.Opt) (hi : (w.codec.packet b).pid ≠ 0x12 ∨
      ∀ t ∈ w.tables a.length, t.sourcePid ≠ (w.codec.packet b).pid) :
    filterProgramMetadata w o = filterProgramMetadata (lacking w a.length op rd) o := by
  have hw : ∀ s t s', ProgramMetadataFilter.handleTable o s t = .ok s' → s.demux = [pidEit] → s'.demux = [pidEit] := by
    intro s t s' h hs
    simp only [ProgramMetadataFilter.handleTable] at h
    split at h
    · cases h
      simp only [ProgramMetadataFilter.handleEit]
      split
      · exact hs
      · split
        · exact hs
        · split <;> exact hs
    · cases h; exact hs
  have key := feed_lacking (step := ProgramMetadataFilter.step o) (finish := .ok)
    (exitCode := fun _ => exitSuccess) (fun d => d) (R := fun s => s.demux = [pidEit])
    (Q := fun s => s.demux = [pidEit]) hr hr' (packet w) (packet (lacking w a.length op rd))
    (fun k q => packet_lacking w _ op rd k q)
    (fun s hs => ⟨[], by
      simp only [ProgramMetadataFilter.step]
      rw [demux_idle (hi.imp (fun h => by rw [hs]; exact fun hm => h (List.mem_singleton.1 hm)) id)]
      simp [bind, Except.bind], rfl⟩)
    (fun s j s' d hs h => by
      obtain ⟨⟨s1, log⟩, h1, h⟩ := bind_ok_iff.1 h
      cases h
      exact feedDemux_inv (fun s _ => s.demux = [pidEit]) (fun s t s' _ hs _ _ h => hw s t s' h hs) _ _ _ _ [] hs h1)
    (fun _ h => h) { st := {} } rfl (.inl rfl)
    (fun r => .ok { code := r.1, docs := r.2.2.map .metadata })
  exact key

theorem airtime_idle (o : AirtimeTracker.Opt) (hi : (w.codec.packet b).pid ≠ 0x12 ∨
      ∀ t ∈ w.tables a.length, t.sourcePid ≠ (w.codec.packet b).pid) :
    trackAirtime w o = trackAirtime (lacking w a.length op rd) o := by
  have hw : ∀ s t s', AirtimeTracker.handleTable o s t = .ok s' → s.demux = [pidEit] → s'.demux = [pidEit] := by
    intro s t s' h hs
    simp only [AirtimeTracker.handleTable] at h
    split at h
    · cases h
      simp only [AirtimeTracker.handleEit]
      repeat' split
      all_goals exact hs
    · cases h; exact hs
  have key := feed_lacking (step := AirtimeTracker.step o) (finish := .ok)
    (exitCode := fun _ => exitSuccess) (fun d => d) (R := fun s => s.demux = [pidEit] ∧ s.done = false)
    (Q := fun s => s.demux = [pidEit] ∧ s.done = false) hr hr' (packet w) (packet (lacking w a.length op rd))
    (fun k q => packet_lacking w _ op rd k q)
    (fun s hs => ⟨[], by
      simp only [AirtimeTracker.step]
      rw [demux_idle (hi.imp (fun h => by rw [hs.1]; exact fun hm => h (List.mem_singleton.1 hm)) id)]
      simp [bind, Except.bind, hs.2], rfl⟩)
    (fun s j s' d hs h => by
      obtain ⟨⟨s1, log⟩, h1, h⟩ := bind_ok_iff.1 h
      simp only at h
      cases hd : s1.done with
      | true => rw [hd] at h; cases h
      | false =>
        rw [hd] at h; cases h
        exact ⟨feedDemux_inv (fun s _ => s.demux = [pidEit]) (fun s t s' _ hs _ _ h => hw s t s' h hs) _ _ _ _ []
          hs.1 h1, hd⟩)
    (fun _ h => h) { st := {} } ⟨rfl, rfl⟩ (.inl ⟨rfl, rfl⟩)
    (fun r => .ok { code := r.1, docs := r.2.2.map .airtime })
  exact key

theorem pes_idle (hi : ∀ t ∈ w.tables a.length, t.sourcePid ≠ (w.codec.packet b).pid)
    (hc : (w.codec.packet b).pcr = none) (hp : (w.codec.packet b).pts = none) (hd : (w.codec.packet b).dts = none) :
    printPes w = printPes (lacking w a.length op rd) := by
  have key := feed_lacking (step := PesPrinter.step) (finish := .ok)
    (exitCode := fun _ => exitSuccess) (fun d => d.lines) (R := fun s => s.done = false)
    (Q := fun s => s.done = false) hr hr' (packet w) (packet (lacking w a.length op rd))
    (fun k q => packet_lacking w _ op rd k q)
    (fun s hs => ⟨⟨[], []⟩, by
      have e1 : (packet w a.length b).packet.pcr = none := hc
      have e2 : (packet w a.length b).packet.pts = none := hp
      have e3 : (packet w a.length b).packet.dts = none := hd
      simp only [PesPrinter.step, PesPrinter.handlePcr, PesPrinter.handleStamp, e1, e2, e3, bind, Except.bind]
      rw [demux_idle (.inr hi)]
      simp [hs], rfl⟩)
    (fun s j s' d hs h => by
      obtain ⟨s1, _, h⟩ := bind_ok_iff.1 h
      obtain ⟨s2, _, h⟩ := bind_ok_iff.1 h
      obtain ⟨s3, _, h⟩ := bind_ok_iff.1 h
      obtain ⟨⟨s4, log⟩, _, h⟩ := bind_ok_iff.1 h
      simp only at h
      cases hd : s4.done with
      | true => rw [hd] at h; cases h
      | false => rw [hd] at h; cases h; exact hd)
    (fun _ h => h) { st := {} } rfl (.inl rfl)
    (fun r => .ok { code := r.1, docs := r.2.2.map .line })
  exact key

theorem logos_idle (hi : w.logos a.length = { logos := [], result := true }) :
    collectLogos w = collectLogos (lacking w a.length op rd) := by
  have key := feed_lacking (step := LogoCollector.step w.base64) (finish := .ok)
    (exitCode := fun _ => exitSuccess) (fun d => d) (R := fun _ => True)
    (Q := fun _ => True) hr hr' (fun n _ => w.logos n) (fun n _ => (lacking w a.length op rd).logos n)
    (fun k q => rfl)
    (fun s _ => ⟨[], by simp only [hi]; rfl, rfl⟩)
    (fun _ _ _ _ _ _ => trivial)
    (fun _ h => h) { st := () } trivial (.inl trivial)
    (fun r => .ok { code := r.1, docs := r.2.2.map .logo })
  exact key

theorem eits_idle (o : EitCollector.Opt) (hi : (w.codec.packet b).pid ≠ 0x12 ∧ (w.codec.packet b).pid ≠ 0x14 ∨
      ∀ e ∈ w.sections a.length, e.pid ≠ (w.codec.packet b).pid)
    (ha : o.streaming = true ∨ 0 < o.timeLimit ∨ a ≠ []) :
    collectEits w o = collectEits (lacking w a.length op rd) o := by
  have hn : handedOver EitCollector.watched (sections w a.length b) = [] :=
    handedOver_none (hi.imp (fun h => by
      intro hm
      rcases List.mem_cons.1 hm with hm | hm
      · exact h.2 hm
      · exact h.1 (List.mem_singleton.1 hm)) id)
  have key := fun st : EitCollector.St => fun h0 : (EitCollector.isCompleted o st = false ∧
      EitCollector.checkTimeout o st = false) ∨ a ≠ [] => feed_lacking (step := EitCollector.step o) (finish := .ok)
    (exitCode := fun _ => exitSuccess) (fun d => d.filterMap (·.out)) (R := fun _ => True)
    (Q := fun s => EitCollector.isCompleted o s = false ∧ EitCollector.checkTimeout o s = false) hr hr'
    (sections w) (sections (lacking w a.length op rd))
    (fun k q => sections_lacking w _ op rd k q)
    (fun s hs => ⟨[], by
      simp only [EitCollector.step, hn, EitCollector.handleEvents, bind, Except.bind]
      rw [hs.1, hs.2]; rfl, rfl⟩)
    (fun s j s' d _ h => by
      obtain ⟨⟨s1, log⟩, _, h⟩ := bind_ok_iff.1 h
      simp only at h
      cases h1 : EitCollector.isCompleted o s1 with
      | true => rw [h1] at h; cases h
      | false =>
        cases h2 : EitCollector.checkTimeout o s1 with
        | true => rw [h1, h2] at h; cases h
        | false => rw [h1, h2] at h; cases h; exact ⟨h1, h2⟩)
    (fun _ _ => trivial) { st := st } trivial h0
    (fun r => .ok { code := r.1, docs := eitDocs w r.2.2 })
  have hs : (EitCollector.isCompleted o {} = false ∧ EitCollector.checkTimeout o {} = false) ∨ a ≠ [] := by
    rcases ha with h | h | h
    · exact .inl (by simp [EitCollector.isCompleted, EitCollector.checkTimeout, h])
    · refine .inl ⟨?_, ?_⟩
      · simp only [EitCollector.isCompleted]; split <;> rfl
      · simp only [EitCollector.checkTimeout]
        split
        · rfl
        · exact decide_eq_false (by show ¬ ((0 : Int) - 0 ≥ _); omega)
    · exact .inr h
  unfold collectEits EitCollector.init
  cases assertThat (o.collectActual || o.collectOthers) with
  | error e => rfl
  | ok u =>
    simp only [List.filterMap_flatMap]
    exact key {} hs

theorem eitpf_idle (o : EitpfCollector.Opt) (hi : (w.codec.packet b).pid ≠ 0x12 ∨
      ∀ e ∈ w.sections a.length, e.pid ≠ (w.codec.packet b).pid)
    (ha : o.streaming = true ∨ (o.present || o.following) = true ∧ o.sids ≠ [] ∨ a ≠ []) :
    collectEitpf w o = collectEitpf (lacking w a.length op rd) o := by
  have hn : handedOver EitpfCollector.watched (sections w a.length b) = [] :=
    handedOver_none (hi.imp (fun h hm => h (List.mem_singleton.1 hm)) id)
  have hs : EitpfCollector.done o {} = .ok false ∨ a ≠ [] := by
    rcases ha with h | ⟨h1, h2⟩ | h
    · exact .inl (by simp [EitpfCollector.done, h])
    · refine .inl ?_
      have : ((0 : Nat) != EitpfCollector.sidsSize o.sids) = true := by
        rw [bne_iff_ne]
        intro h
        have hd : ∀ l : SidSet, l ≠ [] → EitpfCollector.distinct l ≠ [] := by
          intro l
          induction l with
          | nil => exact fun h => absurd rfl h
          | cons x l ih =>
            intro _
            simp only [EitpfCollector.distinct]
            split
            · next hc => exact ih (by rintro rfl; simp at hc)
            · simp
        exact hd _ h2 (List.eq_nil_of_length_eq_zero h.symm)
      simp only [EitpfCollector.done, List.length_nil, this, Bool.and_true]
      revert h1
      cases o.streaming <;> cases o.present <;> cases o.following <;> simp
    · exact .inr h
  have key := feed_lacking (step := EitpfCollector.step o) (finish := .ok)
    (exitCode := fun _ => exitSuccess) (fun d => d.filterMap (·.out)) (R := fun _ => True)
    (Q := fun s => EitpfCollector.done o s = .ok false) hr hr'
    (sections w) (sections (lacking w a.length op rd))
    (fun k q => sections_lacking w _ op rd k q)
    (fun s hs => ⟨[], by
      simp only [EitpfCollector.step, hn, EitpfCollector.handleEvents, bind, Except.bind, hs]; rfl, rfl⟩)
    (fun s j s' d _ h => by
      obtain ⟨⟨s1, log⟩, _, h⟩ := bind_ok_iff.1 h
      obtain ⟨dn, h1, h⟩ := bind_ok_iff.1 h
      cases dn with
      | true => cases h
      | false => cases h; exact h1)
    (fun _ _ => trivial) { st := {} } trivial hs
    (fun r => .ok { code := r.1, docs := eitDocs w r.2.2 })
  unfold collectEitpf
  simp only [List.filterMap_flatMap]
  exact key

end
end Mirakc.Main
