import Verif.Props.Pcr
import Verif.Proof.Main
import Verif.Props.ServiceScanner
import Verif.Props.PcrSynchronizer
import Verif.Props.EitCollector
import Verif.Props.EitpfCollector
import Verif.Props.EitReporters
import Verif.Props.Pipeline
/-
Properties of the whole program.
-/
namespace Mirakc.Props
open Mirakc.Pipeline (via input)
open Mirakc.Main Mirakc.Spec Mirakc.Spec.Main Mirakc.Spec.Pipeline

namespace C90ex
open C68ex (raw clk codec)

/-- The packets of a stream: PAT, SDT, NIT, PMT and TOT, a PCR, EITs. -/
def ps : List (List UInt8) :=
  [ raw 0 0 1, raw 0x11 0 2, raw 0x10 0 3, raw 0x100 0 4, raw 0x14 0 5, clk 0x1ff 900100, raw 0x12 0 6,
    raw 0x12 1 7, raw 0x12 2 8 ]
/-- The tables completed by its packets. -/
def tables : Nat → List Table
  | 0 => [C56ex.pat 0x10]
  | 1 => [C52ex.sdt 0x01 0xC0]
  | 2 => [C56ex.nit 0x10 3]
  | 3 => [C52ex.pmt 0x100 1 0x1ff]
  | 4 => [C52ex.tot 32400000]
  | 6 => [C58ex.eit 1 [⟨4, 0, 60, 0⟩, ⟨5, 32400000, 60, 0⟩]]
  | 7 => [C58ex.eit 2 [⟨7, 0, 60, 0⟩]]
  | 8 => [C58ex.eit 1 [⟨6, 0, 60, 0⟩]]
  | _ => []
/-- The sections completed by its packets. -/
def sections : Nat → List SectionEvent
  | 6 => [.sect (C50ex.sec 4 1 101 1 0), .sect (C50ex.sec 4 1 102 1 0)]
  | 7 => [.sect (C43ex.sec 102 0x50 1 0 0 0 0x50)]
  | 8 => [.sect (C43ex.sec 101 0x60 1 0 0 0 0x60), .sect (C50ex.sec 4 1 101 1 1)]
  | _ => []
/-- The stream is read in two parts, not at packet boundaries. -/
def world : World where
  codec := codec
  tables := tables
  tables2 := fun _ _ => []
  sections := sections
  logos := fun _ => { logos := [], result := true }
  times := fun _ => (0, 0, 0)
  extra := fun _ => 0
  base64 := fun _ => ""
  mjd := fun _ => none
  opened := true
  read := [some (ps.flatten.take 500), some (ps.flatten.drop 500)]
  write := []
  file := []
/-- The stream is read in one part, then there is an error. -/
def read' : List (Option (List UInt8)) := [some ps.flatten, none, some ps.flatten]

theorem fits : Fits world := by
  intro r hr
  have : ∀ r ∈ world.read, (r.getD []).length ≤ 16384 := by decide +kernel
  exact this _ hr
theorem fits' : Fits { world with read := read' } := by
  intro r hr
  have : ∀ r ∈ read', (r.getD []).length ≤ 16384 := by decide +kernel
  exact this _ hr
theorem contents_world : contents world = ps.flatten := by decide +kernel
theorem contents_read' : contents { world with read := read' } = ps.flatten := by decide +kernel
theorem reads : Reads world ps := ⟨fits, by
  rw [contents_world]; exact Mirakc.Pipeline.packets_flatten (by decide +kernel)⟩
theorem reads' : Reads { world with read := read' } ps := ⟨fits', by
  rw [contents_read']; exact Mirakc.Pipeline.packets_flatten (by decide +kernel)⟩

/-- What sync-clocks prints. -/
def clock : PcrSynchronizer.ClockEntry := ⟨4, 7, 1, 0x1ff, 270030000, 0⟩
/-- Shorthand for spelled-out runs. -/
theorem eval {r : Except Stop Ended} {e : Ended}
    (h : (match r with | .ok a => decide (a = e) | .error _ => false) = true) : r = .ok e := by
  cases r with
  | error f => cases h
  | ok a => exact congrArg _ (of_decide_eq_true h)
theorem sync : main world (.syncClocks (some [['1']]) none) = .ok { code := 0, docs := [.clocks [clock]] } :=
  eval (by decide +kernel)
theorem numbers (sid : List Char) (v : Nat) (h : Spec.Options.Denotes sid v) (hv : v < 65536) :
    Numbers (some [sid]) := by
  intro l hl s hs
  cases hl
  rw [List.mem_singleton] at hs
  subst hs
  exact ⟨v, h, by omega, by omega⟩
theorem denotes (s : List Char) (h : s ≠ []) (hd : ∀ c ∈ s, 48 ≤ c.toNat ∧ c.toNat ≤ 57) :
    Spec.Options.Denotes s (Spec.Options.decimal s) :=
  ⟨[], [], s, 1, by simp, by simp, .none, h, hd, by simp, by omega⟩
theorem denotes1 : Spec.Options.Denotes ['1'] (1 : Nat) := denotes _ (by simp) (by decide)
theorem denotes3 : Spec.Options.Denotes ['3'] (3 : Nat) := denotes _ (by simp) (by decide)
theorem denotes101 : Spec.Options.Denotes ['1', '0', '1'] (101 : Nat) := denotes _ (by simp) (by decide)
theorem numbers_none : Numbers none := by intro l hl; cases hl

end C90ex

/-- **C90.**  What a command does depends on its input only through the packets found in
it. -/
theorem C90_packets (w : World) (opened : Bool) (read : List (Option (List UInt8)))
    (ps : List (List UInt8)) (h : Reads w ps)
    (h' : Reads { w with opened := opened, read := read } ps) (cmd : Cmd) :
    main w cmd = main { w with opened := opened, read := read } cmd := by
  have hf : ∀ {σ : Type} (snk : Sink (List UInt8) σ) (s : σ), feed w snk s =
      feed { w with opened := opened, read := read } snk s := fun snk s => feed_congr h h' snk s
  cases cmd with
  | scanServices => simp only [main, scanServices, hf]; rfl
  | syncClocks => simp only [main, syncClocks, hf]; rfl
  | collectEits => simp only [main, collectEits, hf]; rfl
  | collectEitpf => simp only [main, collectEitpf, hf]; rfl
  | collectLogos => simp only [main, collectLogos, hf]
  | filterService => simp only [main, Main.filterService, hf]
  | filterProgram => simp only [main, Main.filterProgram, hf]
  | filterProgramMetadata => simp only [main, filterProgramMetadata, hf]; rfl
  | recordService => simp only [main, Main.recordService, hf]
  | trackAirtime => simp only [main, trackAirtime, hf]; rfl
  | seekStart => simp only [main, Main.seekStart, hf]
  | printPes => simp only [main, printPes, hf]; rfl

example : ∃ w opened read ps cmd e, Reads w ps ∧ Reads { w with opened := opened, read := read } ps ∧
    read ≠ w.read ∧ main w cmd = .ok e ∧ e.docs ≠ [] :=
  ⟨C90ex.world, true, C90ex.read', _, _, _, C90ex.reads, C90ex.reads', by decide +kernel, C90ex.sync, by simp⟩

/-- **C90.**  What a command does depends on the bytes of its input, not on how they are
read; an error while reading is the same as the end of the input. -/
theorem C90_fragmentation (w : World) (read : List (Option (List UInt8)))
    (h : Fits w) (h' : Fits { w with read := read })
    (hs : contents { w with read := read } = contents w) (cmd : Cmd) :
    main { w with read := read } cmd = main w cmd := by
  obtain ⟨ps, hp⟩ := reads_exist h
  exact (C90_packets w w.opened read ps hp ⟨h', by
    show Packets (contents { w with read := read }) ps
    rw [hs]; exact hp.2⟩ cmd).symm

example : ∃ w read cmd e, Fits w ∧ Fits { w with read := read } ∧
    contents { w with read := read } = contents w ∧ read ≠ w.read ∧ main w cmd = .ok e ∧ e.docs ≠ [] :=
  ⟨C90ex.world, C90ex.read', _, _, C90ex.fits, C90ex.fits',
    C90ex.contents_read'.trans C90ex.contents_world.symm, by decide +kernel, C90ex.sync, by simp⟩

/-- **C91.**  The exit code tells that the input could not be opened. -/
def C91_claim : Prop := ∀ w cmd e, w.opened = false → main w cmd = .ok e → e.code ≠ 0

/-- **C91** does not hold: filter-service ends with 0. -/
theorem C91_claim_false : ¬ C91_claim := by
  intro h
  exact h { C90ex.world with opened := false } (.filterService (some 1)) { code := 0 } rfl
    (C90ex.eval (by decide +kernel)) rfl

/-- **C91**, what holds: then nothing is written to standard output except that
record-service announces its start and its end, and the exit code is 1 for scan-services
and sync-clocks, and for record-service if it cannot position its file, but 0 otherwise. -/
theorem C91_unreadable_partial (w : World) (cmd : Cmd) (e : Ended) (hw : w.opened = false)
    (h : main w cmd = .ok e) :
    e.bytes = [] ∧
    (records cmd = false → e.docs = []) ∧
    (records cmd = true → ¬ NotPositioned w cmd →
      e.docs = [.message .start, .message (.stop false)]) ∧
    (NotPositioned w cmd → e.docs = [] ∧ e.code = 1) ∧
    (printsOnce cmd = true → e.code = 1) ∧
    (printsOnce cmd = false → ¬ NotPositioned w cmd → e.code = 0) := by
  have hf := fun {σ : Type} (snk : Sink (List UInt8) σ) (s : σ) => feed_unopened hw snk s
  have hnp : records cmd = false → ¬ NotPositioned w cmd := by
    rintro h ⟨h1, _⟩
    cases cmd <;> first | cases h1; done | cases h
  have other : ∀ {e : Ended}, records cmd = false → e.bytes = [] → e.docs = [] →
      (printsOnce cmd = true → e.code = 1) → (printsOnce cmd = false → e.code = 0) →
      e.bytes = [] ∧ (records cmd = false → e.docs = []) ∧
      (records cmd = true → ¬ NotPositioned w cmd →
        e.docs = [.message .start, .message (.stop false)]) ∧
      (NotPositioned w cmd → e.docs = [] ∧ e.code = 1) ∧
      (printsOnce cmd = true → e.code = 1) ∧
      (printsOnce cmd = false → ¬ NotPositioned w cmd → e.code = 0) := by
    intro e h1 h2 h3 h4 h5
    exact ⟨h2, fun _ => h3, fun h => (by rw [h1] at h; cases h), fun h => absurd h (hnp h1), h4,
      fun h _ => h5 h⟩
  cases cmd with
  | scanServices a b =>
    simp only [main, scanServices, hf, bind_ok_iff, mapError_ok_iff] at h
    obtain ⟨_, _, _, _, ⟨code, n, x⟩, h1, h2⟩ := h
    cases h1; cases h2
    exact other rfl rfl rfl (fun _ => rfl) (by intro h; cases h)
  | syncClocks a b =>
    simp only [main, syncClocks, hf, bind_ok_iff, mapError_ok_iff] at h
    obtain ⟨_, _, _, _, ⟨code, n, x⟩, h1, h2⟩ := h
    cases h1; cases h2
    exact other rfl rfl rfl (fun _ => rfl) (by intro h; cases h)
  | collectEits =>
    simp only [main, collectEits, hf, bind_ok_iff, mapError_ok_iff, EitCollector.init] at h
    obtain ⟨_, _, _, ⟨_, _, h0⟩, ⟨code, n, x⟩, h1, h2⟩ := h
    cases h0; cases h1; cases h2
    exact other rfl rfl rfl (by intro h; cases h) (fun _ => rfl)
  | collectEitpf =>
    simp only [main, collectEitpf, hf, bind_ok_iff, mapError_ok_iff] at h
    obtain ⟨_, _, ⟨code, n, x⟩, h1, h2⟩ := h
    cases h1; cases h2
    exact other rfl rfl rfl (by intro h; cases h) (fun _ => rfl)
  | collectLogos =>
    simp only [main, collectLogos, hf, bind_ok_iff, mapError_ok_iff] at h
    obtain ⟨⟨code, n, x⟩, h1, h2⟩ := h
    cases h1; cases h2
    exact other rfl rfl rfl (by intro h; cases h) (fun _ => rfl)
  | filterService =>
    simp only [main, Main.filterService, hf, bind_ok_iff, mapError_ok_iff] at h
    obtain ⟨⟨code, n, x⟩, h1, h2⟩ := h
    cases h1; cases h2
    exact other rfl (flush_empty _) rfl (by intro h; cases h) (fun _ => rfl)
  | filterProgram =>
    simp only [main, Main.filterProgram, hf, bind_ok_iff, mapError_ok_iff] at h
    obtain ⟨_, _, ⟨code, n, x⟩, h1, h2⟩ := h
    cases h1; cases h2
    exact other rfl (flush_empty _) rfl (by intro h; cases h) (fun _ => rfl)
  | filterProgramMetadata =>
    simp only [main, filterProgramMetadata, hf, bind_ok_iff, mapError_ok_iff] at h
    obtain ⟨⟨code, n, x⟩, h1, h2⟩ := h
    cases h1; cases h2
    exact other rfl rfl rfl (by intro h; cases h) (fun _ => rfl)
  | recordService sid size num pos =>
    simp only [main, Main.recordService, hf, bind_ok_iff, mapError_ok_iff] at h
    obtain ⟨o, ho, h0, hi, ⟨code, n, f, m, x⟩, h1, h2⟩ := h
    cases h2
    obtain ⟨r, hr, hi⟩ := bind_ok_iff.1 hi
    cases hi
    have hb : r.broken = false ∧ r.results = w.file ∧ r.log = [] := by
      simp only [RingFileSink.new, bind_ok_iff] at hr
      obtain ⟨_, _, _, _, _, _, _, _, _, _, hr⟩ := hr
      cases hr; exact ⟨rfl, rfl, rfl⟩
    have hpos : positions (.recordService sid size num pos) = true ↔ o.startPos ≠ 0 := by
      rw [loadRecorder_startPos ho]
      cases pos with
      | none => simp [positions]
      | some p => simp [positions]
    refine ⟨rfl, (by intro h; cases h), ?_⟩
    by_cases hz : o.startPos = 0
    · have hn : ¬ NotPositioned w (.recordService sid size num pos) := fun h => hpos.1 h.1 hz
      simp only [feedPackets, Pipeline.recordService, via, ServiceFilter.sink,
        ServiceRecorder.sink, ServiceRecorder.start, hz] at h1
      cases h1
      refine ⟨fun _ _ => ?_, fun h => absurd h hn, (by intro h; cases h), fun _ _ => ?_⟩
      · simp [messages, hb.1]
      · show (if _ then _ else _) = 0
        simp [RingFileSink.sink, hb.1, exitSuccess, ServiceFilter.init]
    · have hsp : ∀ ok r', RingFileSink.setPosition r o.startPos = .ok (ok, r') →
          r'.broken = false ∧
          (ok = false ↔ NotPositioned w (.recordService sid size num pos)) := by
        intro ok r' h
        simp only [RingFileSink.setPosition, bind_ok_iff] at h
        obtain ⟨_, _, _, _, _, _, _, _, h⟩ := h
        simp only [RingFileSink.call, hb.2.1] at h
        have e : NotPositioned w (.recordService sid size num pos) ↔
            ∃ x xs, w.file = x :: xs ∧ x ≤ 0 := ⟨fun h => h.2, fun h => ⟨hpos.2 hz, h⟩⟩
        rw [e]
        cases hw : w.file with
        | nil =>
          rw [hw] at h
          simp only [if_true, Except.ok.injEq, Prod.mk.injEq] at h
          obtain ⟨rfl, rfl⟩ := h
          exact ⟨hb.1, by simp⟩
        | cons x xs =>
          rw [hw] at h
          dsimp only at h
          by_cases hx : x > 0
          · simp only [hx, if_true, Except.ok.injEq, Prod.mk.injEq] at h
            obtain ⟨rfl, rfl⟩ := h
            refine ⟨hb.1, ?_⟩
            simp; omega
          · simp only [hx, if_false, Except.ok.injEq, Prod.mk.injEq, Bool.false_eq_true] at h
            obtain ⟨rfl, rfl⟩ := h
            refine ⟨hb.1, ?_⟩
            simp; omega
      simp only [feedPackets, Pipeline.recordService, via, ServiceFilter.sink,
        ServiceRecorder.sink, ServiceRecorder.start, hz, ne_eq, not_false_eq_true, if_true] at h1
      cases hsr : RingFileSink.setPosition r o.startPos with
      | error f => rw [hsr] at h1; cases h1
      | ok v =>
        obtain ⟨ok, r'⟩ := v
        rw [hsr] at h1
        obtain ⟨q1, q2⟩ := hsp ok r' hsr
        have hops : ∀ l : List RingFileSink.Op, messages (l.map .op) = [] := by
          intro l; induction l with
          | nil => rfl
          | cons x l ih => simpa [messages] using ih
        have happ : ∀ a b, messages (a ++ b) = messages a ++ messages b :=
          fun a b => List.filterMap_append
        cases ok with
        | true =>
          have hn : ¬ NotPositioned w (.recordService sid size num pos) := by
            intro h; cases q2.2 h
          cases h1
          refine ⟨fun _ _ => ?_, fun h => absurd h hn, (by intro h; cases h), fun _ _ => ?_⟩
          · show messages ([] ++ _ ++ [.msg .start] ++ [.msg (.stop r'.broken)]) = _
            rw [happ, happ, happ, hops, q1]; rfl
          · show (if _ then _ else _) = 0
            simp [RingFileSink.sink, q1, exitSuccess, ServiceFilter.init]
        | false =>
          have hn := q2.1 rfl
          cases h1
          refine ⟨fun _ h => absurd hn h, fun _ => ⟨?_, ?_⟩, (by intro h; cases h), fun _ h => absurd hn h⟩
          · show messages ([] ++ _) = _
            rw [happ, hops]; rfl
          · rfl
  | trackAirtime =>
    simp only [main, trackAirtime, hf, bind_ok_iff, mapError_ok_iff] at h
    obtain ⟨⟨code, n, x⟩, h1, h2⟩ := h
    cases h1; cases h2
    exact other rfl rfl rfl (by intro h; cases h) (fun _ => rfl)
  | seekStart =>
    simp only [main, Main.seekStart, hf, bind_ok_iff, mapError_ok_iff] at h
    obtain ⟨_, _, ⟨code, n, x⟩, h1, h2⟩ := h
    cases h1; cases h2
    exact other rfl (flush_empty _) rfl (by intro h; cases h) (fun _ => rfl)
  | printPes =>
    simp only [main, printPes, hf, bind_ok_iff, mapError_ok_iff] at h
    obtain ⟨⟨code, n, x⟩, h1, h2⟩ := h
    cases h1; cases h2
    exact other rfl rfl rfl (by intro h; cases h) (fun _ => rfl)

example : ∃ w cmd e, w.opened = false ∧ main w cmd = .ok e ∧ printsOnce cmd = false ∧
    ¬ NotPositioned w cmd ∧ e.docs ≠ [] :=
  ⟨{ C90ex.world with opened := false }, .recordService 1 8192 10 none,
    { code := 0, docs := [.message .start, .message (.stop false)] }, rfl,
    C90ex.eval (by decide +kernel), rfl, (by rintro ⟨h, _⟩; cases h), by simp⟩

example : ∃ w cmd e, w.opened = false ∧ main w cmd = .ok e ∧ NotPositioned w cmd :=
  ⟨{ C90ex.world with opened := false, file := [-1] }, .recordService 1 8192 10 (some 8192),
    { code := 1, ops := [.failed] }, rfl, C90ex.eval (by decide +kernel), rfl, -1, [], rfl, by decide⟩

/-- **C93**, scan-services.  If --sids and --xsids are given numbers, it prints exactly the
services of C56 that are selected by the values given, or nothing and fails. -/
theorem C93_scan_services (w : World) (ps : List (List UInt8)) (hr : Reads w ps)
    (sids xsids : Option (List (List Char))) (ha : Numbers sids) (hb : Numbers xsids) (e : Ended)
    (h : main w (.scanServices sids xsids) = .ok e) :
    (e.code = 1 ∧ e.docs = []) ∨
    (e.code = 0 ∧ ∃ es, e.docs = [.services es] ∧
      es.Pairwise (fun a b => a.sid < b.sid) ∧
      ∃ n pat sdt nit o, (∀ sid, Spec.ServiceScanner.Selected o sid ↔ Asked sids xsids sid) ∧
        (let ts := received ((seen (arrived w.codec w.tables) 0 ps).take n)
         Spec.ServiceScanner.latestPat ts = some pat ∧ Spec.ServiceScanner.latestSdt ts = some sdt ∧
         Spec.ServiceScanner.latestNit ts = some nit) ∧
        ∀ x, x ∈ es ↔ Spec.ServiceScanner.IsEntry o pat sdt nit x) := by
  simp only [main, scanServices, bind_ok_iff] at h
  obtain ⟨a, h1, b, h2, ⟨code, n, x⟩, h3, h4⟩ := h
  cases h4
  have hran := ran_of_feed hr h3
  have hsel : ∀ sid, Spec.ServiceScanner.Selected { sids := a, xsids := b } sid ↔ Asked sids xsids sid :=
    asked_iff ha hb h1 h2
  obtain ⟨_, _, hpre, hend⟩ := ServiceScanner.scanned hran
  rcases hend with ⟨k1, k2, _⟩ | ⟨k1, k2, _⟩
  · exact .inl ⟨k1, by simp [k2]⟩
  · obtain ⟨pat, sdt, nit, c1, c2, c3, c4, c5⟩ := C56_services _ _ _ _ _ hran k2
    refine .inr ⟨k1, _, by simp only [k2]; rfl, c4, (Spec.ServiceScanner.consumed x).length, pat, sdt, nit,
      _, hsel, ?_, c5⟩
    rw [List.prefix_iff_eq_take] at hpre
    exact hpre ▸ ⟨c1, c2, c3⟩

example : ∃ w ps sids xsids e, Reads w ps ∧ Numbers sids ∧ Numbers xsids ∧
    main w (.scanServices sids xsids) = .ok e ∧ e.docs ≠ [] :=
  ⟨C90ex.world, _, some [['1']], some [['3']],
    { code := 0, docs := [.services [⟨4, 7, 1, "", 1, -1, some 3⟩]] }, C90ex.reads,
    C90ex.numbers _ 1 C90ex.denotes1 (by decide), C90ex.numbers _ 3 C90ex.denotes3 (by decide),
    C90ex.eval (by decide +kernel), by simp⟩

private theorem logged_packet {w : World} {ps : List (List UInt8)} {o : PcrSynchronizer.Opt} {code : Nat}
    {x : PcrSynchronizer.Hist}
    (h : Spec.PcrSynchronizer.Synced o (seen (packet w) 0 ps) code x) {p : Packet}
    (hp : .pkt p ∈ Spec.PcrSynchronizer.log x.items) : ∃ b ∈ ps, w.codec.packet b = p := by
  obtain ⟨s, h1, h2, _⟩ := PcrSynchronizer.synced h
  unfold Spec.PcrSynchronizer.log at hp
  obtain ⟨it, hit, hp⟩ := List.mem_flatMap.1 hp
  simp only [List.mem_append, List.mem_map, List.mem_singleton, reduceCtorEq, and_false, exists_false,
    false_or, Spec.PcrSynchronizer.Ev.pkt.injEq] at hp
  obtain ⟨n, b, hb, e⟩ := Mirakc.Pipeline.mem_seen (h2.subset (List.mem_map_of_mem hit))
  exact ⟨b, hb, by rw [hp, e]; rfl⟩

/-- **C93**, sync-clocks.  If --sids and --xsids are given numbers, only clocks of services
selected by the values given are printed. -/
theorem C93_sync_clocks (w : World) (ps : List (List UInt8)) (hr : Reads w ps)
    (sids xsids : Option (List (List Char))) (ha : Numbers sids) (hb : Numbers xsids) (e : Ended)
    (h : main w (.syncClocks sids xsids) = .ok e) :
    (e.code = 1 ∧ e.docs = []) ∨
    (e.code = 0 ∧ ∃ es, e.docs = [.clocks es] ∧ es.Pairwise (fun a b => a.sid < b.sid) ∧
      ∀ x ∈ es, Asked sids xsids x.sid ∧
        ∃ b ∈ ps, (w.codec.packet b).pid = x.pid ∧ (w.codec.packet b).pcr = some x.pcr) := by
  simp only [main, syncClocks, bind_ok_iff] at h
  obtain ⟨a, h1, b, h2, ⟨code, n, x⟩, h3, h4⟩ := h
  cases h4
  have hran := ran_of_feed hr h3
  rcases (C55_exit_code _ _ _ _ hran).1 with ⟨k1, es, k2⟩ | ⟨k1, k2, _⟩
  · obtain ⟨c1, c2⟩ := C52_clocks_partial _ _ _ _ _ hran k2
    refine .inr ⟨k1, es, by simp only [k2]; rfl, c1, fun y hy => ?_⟩
    obtain ⟨⟨_, hs, _⟩, _, ⟨l1, p, l2, hl, _, hp, hv, _⟩, _⟩ := c2 y hy
    refine ⟨(asked_iff ha hb h1 h2 _).1 hs, ?_⟩
    obtain ⟨b, hb, e⟩ := logged_packet hran (p := p) (by rw [hl]; simp)
    exact ⟨b, hb, e ▸ hp, e ▸ hv⟩
  · exact .inl ⟨k1, by simp [k2]⟩

example : ∃ w ps sids xsids e, Reads w ps ∧ Numbers sids ∧ Numbers xsids ∧
    main w (.syncClocks sids xsids) = .ok e ∧ e.docs ≠ [] :=
  ⟨C90ex.world, _, _, _, _, C90ex.reads, C90ex.numbers _ 1 C90ex.denotes1 (by decide), C90ex.numbers_none,
    C90ex.sync, by simp⟩

/-- **C92.**  The clock that sync-clocks prints can be given to filter-program as it is:
filter-program takes its PID, its PCR, which is a PCR of the stream within the range of
PCRs, and the time of the last TOT of the stream, and it can convert every time within 9500 years to
a PCR with it without an assertion failing. -/
theorem C92_clock_options (w : World) (ps : List (List UInt8)) (hr : Reads w ps)
    (sids xsids : Option (List (List Char))) (e : Ended) (h : main w (.syncClocks sids xsids) = .ok e)
    (es : List PcrSynchronizer.ClockEntry) (hes : .clocks es ∈ e.docs) (x : PcrSynchronizer.ClockEntry)
    (hx : x ∈ es) (hn : x.sid < 65536 ∧ x.pid < 65536) (a : Options.ProgramArgs)
    (ha : a.sid = x.sid ∧ a.clockPid = x.pid ∧ a.clockPcr = x.pcr ∧ a.clockTime = x.time)
    (o : ProgramFilter.Opt) (ho : Options.loadProgramFilter a = .ok o) :
    o.sid = x.sid ∧ o.clockPid = x.pid ∧ o.clockPcr = x.pcr ∧
    (0 ≤ x.pcr ∧ x.pcr < 2 ^ 33 * 300) ∧
    (∃ b ∈ ps, (w.codec.packet b).pid = x.pid ∧ (w.codec.packet b).pcr = some x.pcr) ∧
    (∃ n < ps.length, ∃ t ∈ w.tables n, t.valid = true ∧ t.body = .tot o.clockTime) ∧
    ∀ t : Int, (t - o.clockTime).natAbs ≤ 3 * 10 ^ 14 →
      ∃ r, ProgramFilter.convertTimeToPcr (ProgramFilter.init o) t = .ok r ∧
      0 ≤ r ∧ r < 2 ^ 33 * 300 ∧ (2 ^ 33 * 300) ∣ (r - (x.pcr + (t - o.clockTime) * 27000)) := by
  simp only [main, syncClocks, bind_ok_iff] at h
  obtain ⟨a1, h1, b1, h2, ⟨code, n, y⟩, h3, h4⟩ := h
  cases h4
  have hran := ran_of_feed hr h3
  have hout : y.st.out = some es := by
    simp only [List.mem_map, Doc.clocks.injEq, Option.mem_toList] at hes
    obtain ⟨es', k1, rfl⟩ := hes
    exact k1
  obtain ⟨_, _, ⟨l1, p, l2, hl, hcap⟩, _⟩ := (C52_clocks_partial _ _ _ _ _ hran hout).2 x hx
  have htime := (C53_time_partial _ _ _ _ _ hran hout x hx).1
  obtain ⟨b, hb, eb⟩ := logged_packet hran (p := p) (by rw [hl]; simp)
  obtain ⟨s, k1, k2, k3⟩ := PcrSynchronizer.synced hran
  obtain ⟨kv, kt⟩ := PcrSynchronizer.reach_valid k1
  have hpcr : 0 ≤ x.pcr ∧ x.pcr < 2 ^ 33 * 300 := by
    rcases k3 with ⟨_, k, _⟩ | ⟨_, k, _⟩
    · rw [hout] at k; cases k
    · rw [hout] at k
      cases k
      obtain ⟨v, _, m2, m3⟩ := PcrSynchronizer.mem_clocks.1 hx
      have := (isValidPcr_iff _).1 (kv _ _ m2)
      rw [m3]
      constructor <;> simp only <;> omega
  obtain ⟨t, ht, hto⟩ : ∃ t, .tab t ∈ Spec.PcrSynchronizer.log y.items ∧
      Spec.PcrSynchronizer.totOf (.tab t) = some (Spec.PcrSynchronizer.latestTot (Spec.PcrSynchronizer.log y.items)) := by
    have hne : (Spec.PcrSynchronizer.log y.items).filterMap Spec.PcrSynchronizer.totOf ≠ [] := by
      rw [hl, List.filterMap_append]
      obtain ⟨_, _, _, ⟨_, hk⟩, _⟩ := hcap
      intro hn
      have hn := (List.append_eq_nil_iff.1 hn).1
      unfold Spec.PcrSynchronizer.sinceChange at hk
      split at hk
      · exact hk hn
      · apply hk
        rw [List.filterMap_eq_nil_iff] at hn ⊢
        intro x hx
        unfold Spec.PcrSynchronizer.sincePat at hx
        rw [List.mem_reverse] at hx
        exact hn x (by simpa using (List.takeWhile_sublist _).subset hx)
    have hm := List.getLast_mem hne
    obtain ⟨ev, h5, h6⟩ := List.mem_filterMap.1 hm
    have h7 : Spec.PcrSynchronizer.latestTot (Spec.PcrSynchronizer.log y.items) = List.getLast _ hne := by
      unfold Spec.PcrSynchronizer.latestTot
      rw [List.getLast?_eq_some_getLast hne]; rfl
    rw [h7]
    cases ev with
    | pkt p => cases h6
    | tab t => exact ⟨t, h5, h6⟩
  have hot : o.clockTime = Spec.PcrSynchronizer.latestTot (Spec.PcrSynchronizer.log y.items) ∧
      o.sid = x.sid ∧ o.clockPid = x.pid ∧ o.clockPcr = x.pcr := by
    unfold Options.loadProgramFilter at ho
    obtain ⟨_, hct, ho⟩ := bind_ok_iff.1 ho
    obtain ⟨_, _, ho⟩ := bind_ok_iff.1 ho
    obtain ⟨_, _, ho⟩ := bind_ok_iff.1 ho
    obtain ⟨_, _, ho⟩ := bind_ok_iff.1 ho
    obtain rfl := (Options.toJst_ok hct).1
    cases ho
    obtain ⟨e1, e2, e3, e4⟩ := ha
    refine ⟨?_, ?_, ?_, e3⟩
    · show unixToJst a.clockTime = _
      rw [e4, htime, unixToJst, jstTzOffset]; omega
    · show Options.toUint16 a.sid = _
      rw [e1, Options.toUint16]; omega
    · show Options.toUint16 a.clockPid = _
      rw [e2, Options.toUint16]; omega
  refine ⟨hot.2.1, hot.2.2.1, hot.2.2.2, hpcr, ⟨b, hb, eb ▸ hcap.2.1, eb ▸ hcap.2.2.1⟩, ?_, fun q hq => ?_⟩
  · unfold Spec.PcrSynchronizer.log at ht
    obtain ⟨it, hit, ht⟩ := List.mem_flatMap.1 ht
    simp only [List.mem_append, List.mem_map, List.mem_singleton, reduceCtorEq, or_false,
      Spec.PcrSynchronizer.Ev.tab.injEq, exists_eq_right] at ht
    obtain ⟨m, b', h8, _, h9⟩ := mem_seen_lt (k2.subset (List.mem_map_of_mem hit))
    refine ⟨m, by omega, t, ?_, ?_⟩
    · have := kt it hit t ht
      rw [h9] at this
      exact this
    · rw [hot.1]
      unfold Spec.PcrSynchronizer.totOf at hto
      split at hto
      · rename_i e; cases e; cases hto; exact ⟨rfl, rfl⟩
      · cases hto
  · have hv : 0 ≤ o.clockPcr ∧ o.clockPcr < 2 ^ 33 * 300 := by rw [hot.2.2.2]; exact hpcr
    obtain ⟨r, q1, q2, q3, q4⟩ := (C15_program_filter (ProgramFilter.init o) rfl rfl hv q).1
      (C15_within _ _ _ hv hq)
    refine ⟨r, q1, q2, q3, ?_⟩
    rw [← hot.2.2.2]; exact q4

example : ∃ w ps sids xsids e es x a o, Reads w ps ∧ main w (.syncClocks sids xsids) = .ok e ∧
    .clocks es ∈ e.docs ∧ x ∈ es ∧ (x.sid < 65536 ∧ x.pid < 65536) ∧
    (a.sid = x.sid ∧ a.clockPid = x.pid ∧ a.clockPcr = x.pcr ∧ a.clockTime = x.time) ∧
    Options.loadProgramFilter a = .ok o :=
  ⟨C90ex.world, _, _, _, _, _, C90ex.clock,
    { sid := 1, eid := 5, clockPid := 0x1ff, clockPcr := 270030000, clockTime := 0 }, _, C90ex.reads, C90ex.sync,
    .head _, .head _, by decide, ⟨rfl, rfl, rfl, rfl⟩, rfl⟩

private theorem eits_flatMap (is : List Input) : EitReporters.eits is = is.flatMap fun i => EitReporters.eits [i] := by
  induction is with
  | nil => rfl
  | cons i is ih =>
    rw [List.flatMap_cons, ← ih]
    simp [EitReporters.eits, received]

private theorem did_flatMap {β : Type} {f : Eit → Option β} (l : List (Line Input (List β)))
    (h : ∀ x ∈ l, x.did = (EitReporters.eits [x.input]).filterMap f) :
    l.flatMap (·.did) = (EitReporters.eits (l.map (·.input))).filterMap f := by
  induction l with
  | nil => rfl
  | cons x l ih =>
    rw [List.flatMap_cons, ih fun y hy => h y (by simp [hy]), h x (by simp), List.map_cons,
      ← List.filterMap_append]
    congr 1
    simp [EitReporters.eits, received]

/-- **C94**, track-airtime.  For a service and an event given by their numbers, it prints
the airtime of the event in every EIT p/f of the service that lists it, and ends with 0, at
the first packet after which the EIT of the service does not list the event. -/
theorem C94_track_airtime (w : World) (ps : List (List UInt8)) (hr : Reads w ps) (sid eid : Nat)
    (hs : sid < 65536) (he : eid < 65536) (e : Ended) (h : main w (.trackAirtime sid eid) = .ok e) :
    let o : AirtimeTracker.Opt := { sid := sid, eid := eid }
    let is := seen (arrived w.codec w.tables) 0 ps
    e.code = 0 ∧ ∃ n, n ≤ is.length ∧
      e.docs = ((EitReporters.eits (is.take n)).filterMap (EitReporters.info o)).map .airtime ∧
      (∀ x ∈ EitReporters.eits (is.take (n - 1)), ¬ EitReporters.Gone o x) ∧
      ((n = is.length ∧ ∀ x ∈ EitReporters.eits is, ¬ EitReporters.Gone o x) ∨
       ∃ x ∈ EitReporters.eits (is.take n), EitReporters.Gone o x) := by
  intro o is
  have ho : loadAirtime sid eid = o := by
    simp only [loadAirtime, Options.toUint16, o, AirtimeTracker.Opt.mk.injEq]
    constructor <;> omega
  simp only [main, trackAirtime, bind_ok_iff, ho] at h
  obtain ⟨⟨code, m, x⟩, h3, h4⟩ := h
  cases h4
  have hran : EitReporters.Tracked o is code x := ran_of_feed hr h3
  obtain ⟨k1, k2, k3⟩ := (C58_airtime o is).2 code x hran
  have hd := did_flatMap x.items k2
  rcases k3 with ⟨k3, k4⟩ | ⟨before, i, after, k3, k4, k5, y, k6, k7⟩
  · refine ⟨k1, is.length, Nat.le_refl _, ?_, ?_, .inl ⟨rfl, k4⟩⟩
    · show (x.items.flatMap (·.did)).map _ = _
      rw [hd, k3, List.take_length]
    · intro y hy
      refine k4 y ?_
      rw [eits_flatMap] at hy ⊢
      obtain ⟨i, hi, hy⟩ := List.mem_flatMap.1 hy
      exact List.mem_flatMap.2 ⟨i, List.mem_of_mem_take hi, hy⟩
  · have e1 : is.take (before.length + 1) = before ++ [i] := by
      rw [k3, show before ++ i :: after = (before ++ [i]) ++ after by simp,
        show before.length + 1 = (before ++ [i]).length by simp, List.take_left]
    refine ⟨k1, before.length + 1, ?_, ?_, ?_, .inr ⟨y, ?_, k7⟩⟩
    · rw [k3]; simp
    · show (x.items.flatMap (·.did)).map _ = _
      rw [hd, k4, e1]
    · rw [Nat.add_sub_cancel, k3, List.take_left]; exact k5
    · rw [e1, eits_flatMap]
      exact List.mem_flatMap.2 ⟨i, by simp, k6⟩

example : ∃ w ps e, Reads w ps ∧ main w (.trackAirtime 1 5) = .ok e ∧ e.docs ≠ [] :=
  ⟨C90ex.world, _, { code := 0, docs := [.airtime ⟨4, 7, 1, 5, 0, 60000⟩] }, C90ex.reads,
    C90ex.eval (by decide +kernel), by simp⟩

/-- **C94**, filter-program-metadata.  For a service given by its number, it prints the events
of every EIT p/f of the service that has events, in order, to the end of the stream.  Without
--sid, or for --sid=0, it does that for all services. -/
theorem C94_program_metadata (w : World) (ps : List (List UInt8)) (hr : Reads w ps) (sid : Option Nat)
    (hs : ∀ v, sid = some v → v < 65536) (e : Ended)
    (h : main w (.filterProgramMetadata (sid.map fun v : Nat => (v : Int))) = .ok e) :
    e.code = 0 ∧ e.docs = ((EitReporters.eits (seen (arrived w.codec w.tables) 0 ps)).filterMap
      (EitReporters.metadata { sid := sid.getD 0 })).map .metadata := by
  have ho : loadMetadata (sid.map fun v : Nat => (v : Int)) = { sid := sid.getD 0 } := by
    cases sid with
    | none => rfl
    | some v =>
      have := hs v rfl
      have : Options.toUint16 (v : Int) = v := by rw [Options.toUint16]; omega
      show ({ sid := Options.toUint16 (v : Int) } : ProgramMetadataFilter.Opt) = _
      rw [this]; rfl
  simp only [main, filterProgramMetadata, bind_ok_iff, ho] at h
  obtain ⟨⟨code, m, x⟩, h3, h4⟩ := h
  cases h4
  have hran := ran_of_feed hr h3
  obtain ⟨k1, k2, k3⟩ := (C59_metadata _ _).2 code x hran
  refine ⟨k1, ?_⟩
  show (x.items.flatMap (·.did)).map _ = _
  rw [did_flatMap x.items k3, k2]; rfl

example : ∃ w ps e, Reads w ps ∧ main w (.filterProgramMetadata (some 2)) = .ok e ∧ e.docs ≠ [] :=
  ⟨C90ex.world, _, { code := 0, docs := [.metadata ⟨4, 7, 2, [⟨7, -32400000, 60000, 0⟩]⟩] }, C90ex.reads,
    C90ex.eval (by decide +kernel), by simp⟩

private theorem mem_eitDocs {w : World} {es : List EitSection} {d : Doc} (h : d ∈ eitDocs w es)
    {P : Section → Prop} (hes : ∀ x ∈ es, ∃ s, P s ∧ Spec.EitCollector.Shows x s) :
    ∃ s, P s ∧ ShowsSection d s := by
  obtain ⟨x, h1, h2⟩ := List.mem_filterMap.1 h
  obtain ⟨s, h3, h4, h5, h6, h7, _⟩ := hes x h1
  refine ⟨s, h3, ?_⟩
  cases h8 : makeJsonEit w.mjd x with
  | error f => rw [h8] at h2; cases h2
  | ok j =>
    rw [h8] at h2
    cases h2
    obtain ⟨_, _, h9⟩ := bind_ok_iff.1 h8
    cases h9
    exact ⟨_, rfl, h4, h5, h6, h7⟩

/-- **C93**, collect-eits.  If --sids and --xsids are given numbers, every document shows an
EIT schedule section of the stream, valid now, of a service selected by the values given; with
--only-actual, of the stream itself, with --only-others, of another stream. -/
theorem C93_collect_eits (w : World) (ps : List (List UInt8)) (hr : Reads w ps)
    (sids xsids : Option (List (List Char))) (ha : Numbers sids) (hb : Numbers xsids)
    (timeLimit : Option Int) (streaming onlyActual onlyOthers : Bool) (e : Ended)
    (h : main w (.collectEits sids xsids timeLimit streaming onlyActual onlyOthers) = .ok e) :
    e.code = 0 ∧ ∀ d ∈ e.docs, ∃ x, ((∃ n < ps.length, .sect x ∈ w.sections n) ∧
      x.valid = true ∧ x.next = false ∧ Asked sids xsids x.ext.toNat ∧
        ((0x50 ≤ x.tid.toNat ∧ x.tid.toNat ≤ 0x5F ∧ onlyOthers = false) ∨
         (0x60 ≤ x.tid.toNat ∧ x.tid.toNat ≤ 0x6F ∧ onlyActual = false))) ∧ ShowsSection d x := by
  simp only [main, collectEits, loadEits, bind_ok_iff] at h
  obtain ⟨o, ⟨a, h1, b, h2, ho⟩, h0, hi, ⟨code, m, y⟩, h3, h4⟩ := h
  cases h4
  cases ho
  rw [mapError_ok_iff] at hi
  have hran := ran_of_feed hr h3
  have hc : Spec.EitCollector.Collected _ _ code y := ⟨h0, hi, hran⟩
  refine ⟨(EitCollector.Collected.reach hc).2.1, fun d hd => mem_eitDocs hd fun x hx => ?_⟩
  obtain ⟨c, hx, he⟩ := List.mem_filterMap.1 hx
  obtain ⟨it, hit, hc'⟩ := List.mem_flatMap.1 hx
  obtain ⟨s, k1, k2, k3, _, k5, k6⟩ := C43_only_requested _ _ _ _ hc it hit c hc' x he
  obtain ⟨n, q, q1, _, q2⟩ := mem_seen_lt k2
  obtain ⟨r1, r2, r3, _, r5, r6⟩ := k5
  obtain ⟨_, _, la⟩ := sidSet_spec ha h1
  obtain ⟨_, _, lb⟩ := sidSet_spec hb h2
  simp only [List.map_eq_nil_iff, mem_ofNat la] at r5
  simp only [mem_ofNat lb] at r6
  refine ⟨s, ⟨⟨n, by omega, ?_⟩, r1, r2, (asked_iff ha hb h1 h2 _).1 ⟨r5, r6⟩, ?_⟩, k6⟩
  · rw [q2] at k3; exact k3
  · simpa using r3

example : ∃ w ps sids xsids e, Reads w ps ∧ Numbers sids ∧ Numbers xsids ∧
    main w (.collectEits sids xsids none true false true) = .ok e ∧ e.docs ≠ [] :=
  ⟨C90ex.world, _, some [['1', '0', '1']], none,
    { code := 0, docs := [.eit ⟨4, 0x4010, 101, 0x60, 0, 0, 0, 1, []⟩] }, C90ex.reads,
    C90ex.numbers _ 101 C90ex.denotes101 (by decide), C90ex.numbers_none,
    C90ex.eval (by decide +kernel), by simp⟩

/-- **C93**, collect-eitpf.  If --sids is given numbers, every document shows an EIT p/f section of
the stream itself, valid now, of a service selected by the values given: with --present that of
the present event, with --following that of the following event, else of one of the two. -/
theorem C93_collect_eitpf (w : World) (ps : List (List UInt8)) (hr : Reads w ps)
    (sids : Option (List (List Char))) (ha : Numbers sids) (streaming present following : Bool) (e : Ended)
    (h : main w (.collectEitpf sids streaming present following) = .ok e) :
    e.code = 0 ∧ ∀ d ∈ e.docs, ∃ x, ((∃ n < ps.length, .sect x ∈ w.sections n) ∧
      x.valid = true ∧ x.next = false ∧ Asked sids none x.ext.toNat ∧ x.tid.toNat = 0x4E ∧
        ((x.number.toNat = 0 ∧ following = false) ∨ (x.number.toNat = 1 ∧ present = false))) ∧
      ShowsSection d x := by
  simp only [main, collectEitpf, loadEitpf, bind_ok_iff] at h
  obtain ⟨o, ⟨a, h1, ho⟩, ⟨code, m, y⟩, h3, h4⟩ := h
  cases h4
  cases ho
  have hran : Spec.EitpfCollector.Collected _ _ code y := ran_of_feed hr h3
  refine ⟨(EitpfCollector.Collected.reach hran).2.1, fun d hd => mem_eitDocs hd fun x hx => ?_⟩
  obtain ⟨c, hx, he⟩ := List.mem_filterMap.1 hx
  obtain ⟨it, hit, hc'⟩ := List.mem_flatMap.1 hx
  obtain ⟨g1, g2⟩ := C50_every_change_once _ _ _ _ hran
  obtain ⟨pre, post, hs⟩ := List.append_of_mem hx
  obtain ⟨s, k1, k5, k6⟩ := (g2 pre post c hs).1 x he
  obtain ⟨k2, k3, k4⟩ := g1 it hit
  have k3 : .sect s ∈ it.input.events := by
    by_cases hp : it.input.packet.pid = 0x12
    · have : c.event ∈ it.did.map (·.event) := List.mem_map_of_mem hc'
      rw [k3 hp, k1] at this
      exact (List.mem_filter.1 this).1
    · rw [k4 hp] at hc'; cases hc'
  obtain ⟨n, q, q1, _, q2⟩ := mem_seen_lt k2
  obtain ⟨⟨r1, r2, r3, _, r5⟩, r6⟩ := k5
  obtain ⟨_, _, la⟩ := sidSet_spec ha h1
  simp only [List.map_eq_nil_iff, mem_ofNat la] at r5
  refine ⟨s, ⟨⟨n, by omega, ?_⟩, r1, r2, (asked_iff (b := none) ha (by intro l hl; cases hl) h1 rfl _).1
    ⟨r5, by simp⟩, r3, ?_⟩, k6⟩
  · rw [q2] at k3; exact k3
  · simpa [Spec.EitpfCollector.Wanted] using r6

example : ∃ w ps sids e, Reads w ps ∧ Numbers sids ∧
    main w (.collectEitpf sids true false false) = .ok e ∧ e.docs.length = 2 :=
  ⟨C90ex.world, _, some [['1', '0', '1']],
    { code := 0, docs := [.eit ⟨4, 1, 101, 0x4E, 0, 1, 1, 1, []⟩, .eit ⟨4, 1, 101, 0x4E, 1, 1, 1, 1, []⟩] }, C90ex.reads,
    C90ex.numbers _ 101 C90ex.denotes101 (by decide), C90ex.eval (by decide +kernel), by simp⟩

end Mirakc.Props
