import Verif.Props.MainFilters
import Verif.Props.LogoCollector
import Verif.Props.PesPrinter
/-
Properties of the whole program: abnormal termination.
-/
namespace Mirakc.Props
open Mirakc.Pipeline (via input)
open Mirakc.Main Mirakc.Spec Mirakc.Spec.Main Mirakc.Spec.Pipeline
open Mirakc.Options (toUint16)

/-- The claim: however it is called and whatever it reads, the process ends normally, or it
refuses its arguments. -/
def C96_claim : Prop :=
  ∀ (w : World) (cmd : Cmd) (ps : List (List UInt8)), Faithful w.codec → Demuxed w.codec w.tables2 →
    Reads w ps → (∃ e, main w cmd = .ok e) ∨ ∃ r, ∀ w', main w' cmd = .error (.refused r)

/-- The claim is false: collect-eits with both --only flags aborts, whatever the input. -/
theorem C96_both_flags (w : World) (timeLimit : Option Int) (streaming : Bool) :
    main w (.collectEits none none timeLimit streaming true true) = .error (.fault .assertFail) := by
  rw [main]
  change Main.collectEits w { sids := [], xsids := [], timeLimit := timeLimit.getD 30000, streaming := streaming, collectActual := false, collectOthers := false } = _
  rw [Main.collectEits, (C78_no_abort_partial _).2 ⟨rfl, rfl⟩]
  rfl

theorem C96_claim_false : ¬ C96_claim := by
  intro h
  rcases h C95ex.world (.collectEits none none none false true true) C68ex.ps C68ex.faithful C68ex.demuxed
    C95ex.reads with ⟨e, he⟩ | ⟨r, hr⟩
  · rw [C96_both_flags] at he; cases he
  · have := hr C95ex.world
    rw [C96_both_flags] at this; cases this

private theorem id_eq {v : Int} {n : Nat} (h : Id v n) : toUint16 v = n := by
  obtain ⟨rfl, h⟩ := h
  unfold toUint16
  omega

private theorem feed_ok {P σ : Type} {w : World} {ps : List (List UInt8)} (hr : Reads w ps)
    {f : Nat → List UInt8 → P} {snk : Sink P σ} {s0 : σ} {r : Nat × σ}
    (h : feedPackets listSource snk (ps.length + 1) (seen f 0 ps) s0 = .ok r) :
    ∃ n, feed w (via f snk) (0, s0) = .ok (r.1, n, r.2) := by
  obtain ⟨code, s⟩ := r
  have hy := listSource_yields (seen f 0 ps)
  have hl : (seen f 0 ps).length < ps.length + 1 := by rw [Mirakc.Pipeline.seen_length]; omega
  rw [feed_eq hr]
  simp only [mapError_ok_iff]
  rcases Mirakc.Pipeline.feedPackets_cases hy hl h with ⟨h1, h2⟩ | ⟨s1, s2, cs, h1, h2, h3, h4⟩
  · exact ⟨0, by
      simp only [feedPackets, via, h1, ok_bind, Bool.false_eq_true, if_false, h2]; rfl⟩
  · obtain ⟨ys, _, hc⟩ := Mirakc.Pipeline.consumes_via h2
    refine ⟨0 + ys.length, ?_⟩
    have := Mirakc.Pipeline.feedPackets_of (listSource_yields ps) (Nat.lt_succ_self _)
      (snk := via f snk) (s := (0, s0)) (by simp only [via, h1, ok_bind]) hc
      (s' := (0 + ys.length, s)) (by simp only [via, h3, ok_bind])
    rw [this]
    simp only [via, h4]

private def OnlyRefuses {α : Type} (x : Except Stop α) : Prop := ∀ s, x = .error s → ∃ r, s = .refused r

private theorem only_mapError {α : Type} (x : Except Options.Refusal α) : OnlyRefuses (x.mapError .refused) := by
  intro s h
  cases x with
  | error r => cases h; exact ⟨r, rfl⟩
  | ok a => cases h

private theorem only_bind {α β : Type} {x : Except Stop α} {k : α → Except Stop β} (hx : OnlyRefuses x)
    (hk : ∀ a, OnlyRefuses (k a)) : OnlyRefuses (x >>= k) := by
  intro s h
  cases x with
  | error r => cases h; exact hx s rfl
  | ok a => exact hk a s h

private theorem only_ok {α : Type} (a : α) : OnlyRefuses (.ok a : Except Stop α) := by
  intro s h; cases h

private theorem after {α : Type} {x : Except Stop α} (hx : OnlyRefuses x) {k : World → α → Except Stop Ended}
    {w : World} (h : ∀ a, x = .ok a →
      (∃ e, k w a = .ok e) ∨ ∃ r, ∀ w', k w' a = .error (.refused r)) :
    (∃ e, (x >>= k w) = .ok e) ∨ ∃ r, ∀ w', (x >>= k w') = .error (.refused r) := by
  cases x with
  | error s =>
    obtain ⟨r, rfl⟩ := hx s rfl
    exact .inr ⟨r, fun _ => rfl⟩
  | ok a => exact h a rfl

/-- **C96.**  With benign arguments and input the process ends normally, or it refuses its
arguments, and then it does so whatever the input.  Reads and writes may fail. -/
theorem C96_no_abort_partial (w : World) (cmd : Cmd) (ps : List (List UInt8)) (hc : Faithful w.codec)
    (hd : Demuxed w.codec w.tables2) (hr : Reads w ps) (hb : Benign w ps cmd) :
    (∃ e, main w cmd = .ok e) ∨ ∃ r, ∀ w', main w' cmd = .error (.refused r) := by
  have hlen : ∀ {P : Type} (f : Nat → List UInt8 → P), (seen f 0 ps).length = ps.length :=
    fun f => Mirakc.Pipeline.seen_length f ps 0
  have hls : ∀ {P : Type} (f : Nat → List UInt8 → P), Yields listSource (seen f 0 ps) (seen f 0 ps) :=
    fun f => listSource_yields _
  have sids : ∀ x, OnlyRefuses (sidSet x) := fun x => only_mapError _
  cases cmd with
  | scanServices a b =>
    refine after (x := sidSet a) (k := fun w' x => sidSet b >>= fun y => Main.scanServices w' { sids := x, xsids := y })
      (sids a) (fun x _ => after (x := sidSet b) (k := fun w' y => Main.scanServices w' { sids := x, xsids := y })
      (sids b) (fun y _ => .inl ?_))
    obtain ⟨r, h⟩ := (C57_finish_partial { sids := x, xsids := y } (seen (packet w) 0 ps)).1 _ listSource _
      (ps.length + 1) (hls _) (by rw [hlen]; omega)
    obtain ⟨n, g⟩ := feed_ok hr h
    exact ⟨_, bind_ok_iff.2 ⟨_, g, rfl⟩⟩
  | syncClocks a b =>
    refine after (x := sidSet a) (k := fun w' x => sidSet b >>= fun y => Main.syncClocks w' { sids := x, xsids := y })
      (sids a) (fun x _ => after (x := sidSet b) (k := fun w' y => Main.syncClocks w' { sids := x, xsids := y })
      (sids b) (fun y _ => .inl ?_))
    obtain ⟨code, h, hs⟩ := C80_no_abort_partial { sids := x, xsids := y } (seen (packet w) 0 ps) (by
      intro i hi v hv
      obtain ⟨n, b, hb', rfl⟩ := Mirakc.Pipeline.mem_seen hi
      exact hb b hb' v hv)
    have hs := ran_iff.1 hs
    rw [hlen] at hs
    obtain ⟨n, g⟩ := feed_ok hr hs
    exact ⟨_, bind_ok_iff.2 ⟨_, g, rfl⟩⟩
  | collectEits a b tl st oa oo =>
    refine after (x := loadEits a b tl st oa oo) (k := Main.collectEits)
      (only_bind (sids a) fun _ => only_bind (sids b) fun _ => only_ok _) (fun o ho => ?_)
    rw [loadEits, bind_ok_iff] at ho
    obtain ⟨x, _, ho⟩ := ho
    rw [bind_ok_iff] at ho
    obtain ⟨y, _, ho⟩ := ho
    cases ho
    obtain ⟨h1, h2⟩ := hb
    obtain ⟨h0, h, g1, g2⟩ := (C78_no_abort_partial { sids := x.map UInt16.ofNat, xsids := y.map UInt16.ofNat, timeLimit := tl.getD 30000, streaming := st, collectActual := !oo, collectOthers := !oa }).1 (by
        rcases h1 with rfl | rfl <;> simp)
      (seen (sections w) 0 ps) (by
        intro i hi x hx hq
        obtain ⟨n, b, hn, _, rfl⟩ := mem_seen_lt hi
        exact h2 n (by omega) x hx hq.2.2.2.1) _ listSource _ (ps.length + 1) (hls _) (by rw [hlen]; omega)
    obtain ⟨n, g3⟩ := feed_ok hr g2
    exact .inl ⟨_, bind_ok_iff.2 ⟨h0, mapError_ok_iff.2 g1, bind_ok_iff.2 ⟨_, g3, rfl⟩⟩⟩
  | collectEitpf a st pr fo =>
    refine after (x := loadEitpf a st pr fo) (k := Main.collectEitpf)
      (only_bind (sids a) fun _ => only_ok _) (fun o ho => ?_)
    rw [loadEitpf, bind_ok_iff] at ho
    obtain ⟨x, _, ho⟩ := ho
    cases ho
    obtain ⟨h1, h2⟩ := hb
    obtain ⟨h, g⟩ := C51_no_abort_partial { sids := x.map UInt16.ofNat, streaming := st, following := !pr, present := !fo }
      (seen (sections w) 0 ps) (by
        intro i hi x hx hq
        obtain ⟨n, b, hn, _, rfl⟩ := mem_seen_lt hi
        exact h1 n (by omega) x hx hq.1.2.2.2.1) (by
        rcases h2 with rfl | rfl | rfl | h2
        · simp
        · simp
        · simp
        · right; right; right
          intro i hi j hj x y hx hy ax ay e
          obtain ⟨n, b, hn, _, rfl⟩ := mem_seen_lt hi
          obtain ⟨m, b', hm, _, rfl⟩ := mem_seen_lt hj
          exact h2 n (by omega) m (by omega) x y hx hy ax.2.2.1 ay.2.2.1 e) _ listSource _ (ps.length + 1) (hls _) (by rw [hlen]; omega)
    obtain ⟨n, g3⟩ := feed_ok hr g
    exact .inl ⟨_, bind_ok_iff.2 ⟨_, g3, rfl⟩⟩
  | collectLogos =>
    obtain ⟨_, _, _, _, hl⟩ := C64_logos
    obtain ⟨r, hrun⟩ := (hl w.base64 (seen (fun n _ => w.logos n) 0 ps)).1 _ listSource _ (ps.length + 1) (hls _)
      (by rw [hlen]; omega)
    obtain ⟨n, g3⟩ := feed_ok hr hrun
    exact .inl ⟨_, bind_ok_iff.2 ⟨_, g3, rfl⟩⟩
  | filterService sid =>
    obtain ⟨s, h1, h2⟩ := hb
    have e : Options.loadServiceFilter sid = { sid := s } := by
      cases sid with
      | none =>
        have : s = 0 := by have := h1.1; simp only [Option.getD_none] at this; omega
        rw [this]; rfl
      | some v => simp only [Options.loadServiceFilter, id_eq (show Id v s from h1)]
    obtain ⟨x, hx⟩ := C89_filter_service w.codec hc w.tables s _ ps _ (reading hr) w.write h2
    rw [main, e, Main.filterService, feed_exec.2 hx]
    exact .inl ⟨_, rfl⟩
  | filterProgram a =>
    refine after (x := (Options.loadProgramFilter a).mapError .refused) (k := Main.filterProgram)
      (only_mapError _) (fun o ho => .inl ?_)
    rw [mapError_ok_iff] at ho
    obtain ⟨h1, h2, h8, s, h3, h4, h9, pmtPid, h5, h6, h7⟩ := hb
    simp only [Options.loadProgramFilter] at ho
    obtain ⟨ct, hct, ho⟩ := bind_ok_iff.1 ho
    obtain ⟨au, _, ho⟩ := bind_ok_iff.1 ho
    obtain ⟨vi, _, ho⟩ := bind_ok_iff.1 ho
    obtain ⟨wu, _, ho⟩ := bind_ok_iff.1 ho
    obtain rfl := (Options.toJst_ok hct).1
    rw [id_eq h3] at ho
    have hsid : o.sid = s := by cases ho; rfl
    have hpcr : o.clockPcr = a.clockPcr := by cases ho; rfl
    have htime : Near o.clockTime ∧ Near o.startMargin ∧ Near o.endMargin := by cases ho; exact h8
    rw [← hsid] at h4 h6 h7 h9
    rw [← hpcr] at h2
    obtain ⟨x, hx⟩ := C89_filter_program w.codec hc w.tables w.tables2 hd w.extra o _ ps _ (reading hr) w.write
      pmtPid h5 h2 htime h9 h1 h4 h6 h7
    exact ⟨_, bind_ok_iff.2 ⟨_, feed_exec.2 hx, rfl⟩⟩
  | filterProgramMetadata sid =>
    obtain ⟨r, h⟩ := (C59_metadata (loadMetadata sid) (seen (packet w) 0 ps)).1 _ listSource _
      (ps.length + 1) (hls _) (by rw [hlen]; omega)
    obtain ⟨n, g⟩ := feed_ok hr h
    exact .inl ⟨_, bind_ok_iff.2 ⟨_, g, rfl⟩⟩
  | recordService sid chunk num start =>
    refine after (x := (Options.loadRecorder sid chunk num start).mapError .refused) (k := Main.recordService)
      (only_mapError _) (fun o ho => .inl ?_)
    rw [mapError_ok_iff] at ho
    obtain ⟨h1, h2, h3, s, h4, h5⟩ := hb
    obtain ⟨k1, k2⟩ := C83_recorder_options sid chunk num start h2 h3
    have hp : 0 ≤ chunk ∧ 0 ≤ num ∧ Permitted chunk.toNat num.toNat (start.getD 0) := by
      by_cases hp : 0 ≤ chunk ∧ 0 ≤ num ∧ Permitted chunk.toNat num.toNat (start.getD 0)
      · exact hp
      · rw [k2 hp] at ho; cases ho
    obtain ⟨o', o1, o2, o3, o4, _⟩ := k1 hp
    rw [ho] at o1
    cases o1
    have o5 := (C84_ids_partial sid (by have := h4.1; have := h4.2; omega)).2.2.1 chunk num start o ho
    have o5 : o.sid = s := by have := h4.1; omega
    rw [← o5] at h5
    obtain ⟨h0, x, g1, g2⟩ := C89_record_service w.codec hc w.tables w.tables2 hd w.times o
      (by rw [show o.chunkSize = chunk.toNat by omega, show o.numChunks = num.toNat by omega, o4]; exact hp.2.2)
      _ ps _ (reading hr) w.file h1 h5
    exact ⟨_, bind_ok_iff.2 ⟨h0, mapError_ok_iff.2 g1, bind_ok_iff.2 ⟨_, feed_exec.2 g2, rfl⟩⟩⟩
  | trackAirtime sid eid =>
    obtain ⟨r, h⟩ := (C58_airtime (loadAirtime sid eid) (seen (packet w) 0 ps)).1 _ listSource _
      (ps.length + 1) (hls _) (by rw [hlen]; omega)
    obtain ⟨n, g⟩ := feed_ok hr h
    exact .inl ⟨_, bind_ok_iff.2 ⟨_, g, rfl⟩⟩
  | seekStart sid dur pkts =>
    refine after (x := (Options.loadSeeker sid dur pkts).mapError .refused) (k := Main.seekStart)
      (only_mapError _) (fun o ho => .inl ?_)
    rw [mapError_ok_iff] at ho
    obtain ⟨h1, h2, s, h3, h4⟩ := hb
    simp only [Options.loadSeeker] at ho
    rw [id_eq h3] at ho
    have hs : o.sid = s ∧ o.maxDuration = dur.getD 0 := by
      cases pkts <;> simp only at ho <;> split at ho <;>
        first
        | (injection ho with ho; subst ho; exact ⟨rfl, rfl⟩)
        | (injection ho)
    rw [← hs.1] at h4
    rw [← hs.2] at h2
    obtain ⟨x, hx⟩ := C89_seek_start w.codec hc w.tables o h2 _ ps _ (reading hr) w.write h1 h4
    exact ⟨_, bind_ok_iff.2 ⟨_, feed_exec.2 hx, rfl⟩⟩
  | printPes =>
    obtain ⟨h1, h2⟩ := hb
    obtain ⟨r, h⟩ := (C81_stamps_partial (seen (packet w) 0 ps)).1 (by
      intro i hi
      obtain ⟨n, b, hb', rfl⟩ := Mirakc.Pipeline.mem_seen hi
      exact ⟨h1 b hb', fun v hv => h2 b hb' v hv⟩) _ listSource _
      (ps.length + 1) (hls _) (by rw [hlen]; omega)
    obtain ⟨n, g⟩ := feed_ok hr h
    exact .inl ⟨_, bind_ok_iff.2 ⟨_, g, rfl⟩⟩

namespace C96ex

theorem stamps : StampsValid C95ex.world C68ex.ps := by
  have : ∀ b ∈ C68ex.ps, (C95ex.world.codec.packet b).pts = none ∧ (C95ex.world.codec.packet b).dts = none := by
    decide +kernel
  intro b hb
  rw [(this b hb).1, (this b hb).2]
  exact ⟨(by intro _ h; cases h), (by intro _ h; cases h)⟩
theorem events : EventsComplete C90ex.world C90ex.ps := by
  have : ∀ n < C90ex.ps.length, ∀ e ∈ C90ex.world.sections n,
      (match e with | .sect x => decide ((x.payload.drop 6).length < 12) | _ => true) = true := by decide +kernel
  intro n hn x hx _
  exact ⟨[], x.payload.drop 6, (by intro _ h; cases h), rfl, of_decide_eq_true (this n hn _ hx)⟩
theorem origins : OneOrigin C90ex.world C90ex.ps := by
  have : ∀ n < C90ex.ps.length, ∀ m < C90ex.ps.length, ∀ e ∈ C90ex.world.sections n, ∀ f ∈ C90ex.world.sections m,
      (match e, f with
        | .sect x, .sect y => decide (x.tid.toNat = 0x4E → y.tid.toNat = 0x4E → x.ext = y.ext → EitCollector.origin x = EitCollector.origin y)
        | _, _ => true) = true := by decide +kernel
  intro n hn m hm x y hx hy
  exact of_decide_eq_true (this n hn m hm _ hx _ hy)

end C96ex

/-- The streams of the other examples are benign. -/
example : Benign C95ex.world C68ex.ps (.syncClocks none none) ∧
    Benign C95ex.world C68ex.ps (.filterService (some 1)) ∧
    Benign C95ex.world C68ex.ps (.filterProgram C95ex.args) ∧
    Benign C95ex.world C68ex.ps (.recordService 1 8192 2 none) ∧
    Benign { C95ex.world with tables := C88ex.tabs } C68ex.ps (.seekStart 1 (some 1000) (some 4)) ∧
    Benign C95ex.world C68ex.ps .printPes ∧
    Benign C90ex.world C90ex.ps (.collectEits none none none false true false) ∧
    Benign C90ex.world C90ex.ps (.collectEitpf none false false false) := by
  refine ⟨C89ex.pcr, ⟨1, ⟨rfl, by decide⟩, C89ex.conforming⟩, ⟨C89ex.pcr, by decide, by unfold Near; decide, 1, ⟨rfl, by decide⟩,
    C89ex.conforming, C89ex.timely, 0x100, by decide, C89ex.onePid⟩, ⟨C89ex.pcr, by decide, by decide, 1, ⟨rfl, by decide⟩, C89ex.conforming⟩,
    ⟨C89ex.pcr, by decide, 1, ⟨rfl, by decide⟩, C88ex.lists⟩, ⟨C96ex.stamps, C89ex.pcr⟩,
    ⟨.inr rfl, C96ex.events⟩, C96ex.events, .inr (.inr (.inr C96ex.origins))⟩

end Mirakc.Props
