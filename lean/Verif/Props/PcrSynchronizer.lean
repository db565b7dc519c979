import Verif.Proof.PcrSynchronizerWatch
/-
Properties C52-C55, C79, C80, C119: sync-clocks.

`log` is what was received: tables handed over by TSDuck's demultiplexer, and packets, in
order.  The demultiplexer hands over the tables of the PIDs sync-clocks listens to; C54
states which these are.
-/
set_option linter.unusedSimpArgs false

namespace Mirakc.Props
open Mirakc.Spec Mirakc.Spec.PcrSynchronizer Mirakc.PcrSynchronizer

namespace C52ex

/-- A PAT with the services 1 and 2. -/
def pat (pid1 pid2 : Nat) : Table :=
  { sourcePid := 0, body := .pat { tsId := 7, pmts := ⟨[(1, pid1), (2, pid2)], by simp⟩ } }
/-- An SDT with two services of the types. -/
def sdt (type1 type2 : Nat) : Table :=
  { sourcePid := 0x11
    body := .sdt { tsId := 7, onetwId := 4, services := ⟨[(1, ⟨type1, "", none⟩), (2, ⟨type2, "", none⟩)], by simp⟩ } }
/-- A PMT on the PID: service and PID of the clock. -/
def pmt (pid sid clock : Nat) : Table :=
  { sourcePid := pid, body := .pmt { serviceId := sid, pcrPid := clock, streams := .empty } }
/-- A TOT. -/
def tot (t : Int) : Table := { sourcePid := 0x14, body := .tot t }
/-- A packet that completes the table. -/
def tab (t : Table) : Line Input (List Table) := ⟨⟨{ pid := t.sourcePid }, [t]⟩, [t], true⟩
/-- A packet that completes the table, which is not looked at. -/
def skip (t : Table) : Line Input (List Table) := ⟨⟨{ pid := t.sourcePid }, [t]⟩, [], true⟩
/-- A packet with a PCR. -/
def pcr (pid : Nat) (v : Int) (more : Bool) : Line Input (List Table) :=
  ⟨⟨{ pid := pid, pcr := some v }, []⟩, [], more⟩
/-- The input of a history. -/
def inputs (items : List (Line Input (List Table))) : List Input := items.map (·.input)

/-- Two services, one of them with audio and video. -/
def items : List (Line Input (List Table)) :=
  [ tab (pat 0x100 0x200), pcr 0x1ff 5 true, tab (sdt 0x01 0xC0), skip (tot 100), skip (pmt 0x200 2 0x2ff),
    tab (pmt 0x100 1 0x1ff), pcr 0x1ff 10 true, tab (tot 32400000), pcr 0x2ff 15 true, pcr 0x1ff 20 false ]
/-- What is printed. -/
def out : List ClockEntry := [⟨4, 7, 1, 0x1ff, 20, 0⟩]
theorem run_items : ∃ h, Synced {} (inputs items) 0 h ∧ h.items = items ∧ h.st.out = some out :=
  synced_of_eval (by decide +kernel)

/-- Both services have the same PID for their PMTs; the PMT of the data service comes
first. -/
def shared : List (Line Input (List Table)) :=
  [ tab (pat 0x100 0x100), tab (sdt 0x01 0xC0), tab (pmt 0x100 2 0x2ff), tab (tot 32400000), pcr 0x2ff 20 false ]
theorem run_shared : ∃ h, Synced {} (inputs shared) 0 h ∧ h.items = shared ∧
    h.st.out = some [⟨4, 7, 2, 0x2ff, 20, 0⟩] :=
  synced_of_eval (by decide +kernel)

end C52ex

/-- **C52** does not hold as claimed: the clock of a service without audio and video is
reported, if its PMT is on the PID of the PMT of a service with audio or video. -/
theorem C52_claim_false : ¬ ∀ (o : Opt) (is : List Input) (code : Nat) (h : Hist) (es : List ClockEntry),
    Synced o is code h → h.st.out = some es → ∀ e ∈ es, HasAudioVideo (log h.items) e.sid := by
  intro hall
  obtain ⟨h, h1, h2, h3⟩ := C52ex.run_shared
  obtain ⟨x, hx, y, h4, h5⟩ := hall _ _ _ _ _ h1 h3 _ (List.mem_singleton.2 rfl)
  rw [h2] at hx
  have : sdts (log C52ex.shared) = [{ tsId := 7, onetwId := 4, services :=
    ⟨[(1, ⟨0x01, "", none⟩), (2, ⟨0xC0, "", none⟩)], by simp⟩ }] := by decide +kernel
  rw [this, List.mem_singleton] at hx
  subst hx
  have h4' : some y = some ⟨0xC0, "", none⟩ := h4.symm
  cases h4'
  revert h5
  unfold AudioVideo
  decide

/-- **C52**, in part.  The clocks are reported in the order of the services.  Each belongs
to a service that is selected and in the latest PAT; its PID is that of the service's
latest PMT; its PCR is the first one on the PID that was received after the TOT, in the
packet that had it; the network and the stream are those of the latest SDT.  The service
is one with audio or video, if PMTs have PIDs of their own (this is missing). -/
theorem C52_clocks_partial (o : Opt) (is : List Input) (code : Nat) (h : Hist) (es : List ClockEntry)
    (hr : Synced o is code h) (he : h.st.out = some es) :
    es.Pairwise (fun a b => a.sid < b.sid) ∧
    ∀ e ∈ es,
      (∃ pmtPid, Listed o (log h.items) e.sid pmtPid) ∧ clockPid o (log h.items) e.sid = some e.pid ∧
      Captured o (log h.items) e.pid e.pcr ∧ (e.nid, e.tsid) = ids (log h.items) ∧
      (Regular o (log h.items) → HasAudioVideo (log h.items) e.sid) := by
  obtain ⟨s, h1, _, h3⟩ := synced hr
  rcases h3 with ⟨_, k, _⟩ | ⟨_, k, _, hf⟩
  · rw [k] at he; cases he
  · rw [k] at he
    cases he
    refine ⟨clocks_sorted s, fun e he => ?_⟩
    obtain ⟨v, m1, m2, m3⟩ := mem_clocks.1 he
    rcases hf.cases_ with ⟨_, hn⟩ | ⟨_, _, hr⟩
    · rw [(OMap.entries_nil_iff _).1 hn] at m2; cases m2
    · have hc := (hr.clocks e.sid).symm.trans m1
      have hne : clockPid o (log h.items) e.sid ≠ none := by rw [hc]; simp
      obtain ⟨x, hx, hs⟩ := clock_of.1 hne
      obtain ⟨pid, _, hl⟩ := mem_pmts.1 hx
      refine ⟨⟨pid, hs ▸ hl⟩, hc, ?_, ?_, fun hg => (clock_av hr hg hne).2⟩
      · rw [m3]; exact (hr.captured _ _).1 m2
      · rw [m3]; exact hr.ids

example : ∃ h es e, Synced {} (C52ex.inputs C52ex.items) 0 h ∧ h.st.out = some es ∧ e ∈ es ∧
    Regular {} (log h.items) := by
  obtain ⟨h, h1, h2, h3⟩ := C52ex.run_items
  refine ⟨h, _, _, h1, h3, List.mem_singleton.2 rfl, ?_⟩
  rw [h2]
  constructor
  · intro e he pat hp
    have : pat = { tsId := 7, pmts := ⟨[(1, 0x100), (2, 0x200)], by simp⟩ } := by
      have : pat ∈ (log C52ex.items).filterMap patOf := List.mem_filterMap.2 ⟨e, he, hp⟩
      have e2 : (log C52ex.items).filterMap patOf = [{ tsId := 7, pmts := ⟨[(1, 0x100), (2, 0x200)], by simp⟩ }] := by
        decide +kernel
      rw [e2] at this
      simpa using this
    subst this
    constructor
    · intro sid pid _ hf
      have := (OMap.find?_iff _ _ _).1 hf
      simp only [List.mem_cons, Prod.mk.injEq, List.not_mem_nil, or_false] at this ⊢
      omega
    · intro sid sid' pid _ _ hf hf'
      have h1 := (OMap.find?_iff _ _ _).1 hf
      have h2 := (OMap.find?_iff _ _ _).1 hf'
      simp only [List.mem_cons, Prod.mk.injEq, List.not_mem_nil, or_false] at h1 h2
      omega
  · intro t ht hn
    have : t ∈ [C52ex.pat 0x100 0x200, C52ex.sdt 0x01 0xC0, C52ex.pmt 0x100 1 0x1ff, C52ex.tot 32400000] := by
      simp [log, C52ex.items, C52ex.tab, C52ex.skip, C52ex.pcr] at ht
      simpa using ht
    simp only [List.mem_cons, List.not_mem_nil, or_false] at this
    rcases this with rfl | rfl | rfl | rfl
    · exact absurd rfl hn
    · exact absurd rfl hn
    · exact absurd rfl hn
    · rfl

namespace C53ex
open C52ex

/-- Two services with audio and video, and a second TOT. -/
def items : List (Line Input (List Table)) :=
  [ tab (pat 0x100 0x200), tab (sdt 0x01 0x01), tab (pmt 0x200 2 0x2ff), tab (pmt 0x100 1 0x1ff),
    tab (tot 32400000), pcr 0x2ff 15 true, tab (tot 32405000), pcr 0x1ff 20 false ]
/-- What is printed. -/
def out : List ClockEntry := [⟨4, 7, 1, 0x1ff, 20, 5000⟩, ⟨4, 7, 2, 0x2ff, 15, 5000⟩]
theorem run_items : ∃ h, Synced {} (inputs items) 0 h ∧ h.items = items ∧ h.st.out = some out :=
  synced_of_eval (by decide +kernel)

theorem captured : log items = log (items.take 5) ++ .pkt { pid := 0x2ff, pcr := some 15 } :: log (items.drop 6) ∧
    CapturedAt {} (log (items.take 5)) { pid := 0x2ff, pcr := some 15 } (log (items.drop 6)) 0x2ff 15 := by
  refine ⟨by decide +kernel, by decide +kernel, rfl, rfl,
    ⟨⟨by decide, { serviceId := 2, pcrPid := 0x2ff, streams := .empty }, by decide +kernel, rfl⟩, by decide +kernel⟩, ?_⟩
  intro a1 q a2 e _ hq
  have hm : Ev.pkt q ∈ log (items.take 5) := by rw [e]; simp
  simp [items, log, tab, pcr] at hm
  simp [pat, sdt, pmt, tot] at hm
  rcases hm with rfl | rfl | rfl | rfl | rfl <;> simp at hq

end C53ex

/-- **C53** does not hold as claimed: if a second TOT is received before the last clock is
captured, the time reported with the clocks captured before is that of the second TOT. -/
theorem C53_claim_false : ¬ ∀ (o : Opt) (is : List Input) (code : Nat) (h : Hist) (es : List ClockEntry),
    Synced o is code h → h.st.out = some es → ∀ e ∈ es, ∀ a p b, log h.items = a ++ .pkt p :: b →
      CapturedAt o a p b e.pid e.pcr → e.time = latestTot a - 9 * 3600000 := by
  intro hall
  obtain ⟨h, h1, h2, h3⟩ := C53ex.run_items
  have := hall _ _ _ _ _ h1 h3 ⟨4, 7, 2, 0x2ff, 15, 5000⟩ (by simp [C53ex.out]) _ _ _
    (by rw [h2]; exact C53ex.captured.1) C53ex.captured.2
  revert this
  decide +kernel

/-- **C53**, in part.  The time reported is that of the last TOT received.  So it is that of
the last TOT preceding the PCR, if no TOT was received after the PCR (otherwise not, this
is missing). -/
theorem C53_time_partial (o : Opt) (is : List Input) (code : Nat) (h : Hist) (es : List ClockEntry)
    (hr : Synced o is code h) (he : h.st.out = some es) :
    ∀ e ∈ es, e.time = latestTot (log h.items) - 9 * 3600000 ∧
      ∀ a p b, log h.items = a ++ .pkt p :: b → CapturedAt o a p b e.pid e.pcr → b.filterMap totOf = [] →
        a.filterMap totOf ≠ [] ∧ e.time = latestTot a - 9 * 3600000 := by
  obtain ⟨s, h1, _, h3⟩ := synced hr
  rcases h3 with ⟨_, k, _⟩ | ⟨_, k, _, hf⟩
  · rw [k] at he; cases he
  · rw [k] at he
    cases he
    intro e he
    obtain ⟨v, m1, m2, m3⟩ := mem_clocks.1 he
    have ht : e.time = jstToUnix (latestTot (log h.items)) := by
      rw [m3]
      show jstToUnix s.time = _
      rw [hf.time]; rfl
    refine ⟨ht, fun a p b hl hc hb => ⟨fun hn => ?_, ?_⟩⟩
    · obtain ⟨_, _, _, ⟨_, hk⟩, _⟩ := hc
      unfold sinceChange at hk
      split at hk
      · exact hk hn
      · apply hk
        rw [List.filterMap_eq_nil_iff] at hn ⊢
        intro x hx
        unfold sincePat at hx
        rw [List.mem_reverse] at hx
        exact hn x (by simpa using (List.takeWhile_sublist _).subset hx)
    · rw [ht, hl]
      unfold latestTot
      rw [List.filterMap_append, List.filterMap_cons, totOf_pkt, hb, List.append_nil]
      rfl

example : ∃ h es e a p b, Synced {} (C52ex.inputs C53ex.items) 0 h ∧ h.st.out = some es ∧ e ∈ es ∧
    log h.items = a ++ .pkt p :: b ∧ b.filterMap totOf = [] ∧ a.filterMap totOf ≠ [] := by
  obtain ⟨h, h1, h2, h3⟩ := C53ex.run_items
  exact ⟨h, _, ⟨4, 7, 1, 0x1ff, 20, 5000⟩, log (C53ex.items.take 7), { pid := 0x1ff, pcr := some 20 }, [], h1, h3,
    by simp [C53ex.out], by rw [h2]; decide +kernel, rfl, by decide +kernel⟩

namespace C54ex
open C52ex

/-- The SDT is received twice, then the PMT and the TOT. -/
def items : List (Line Input (List Table)) :=
  [ tab (pat 0x100 0x200), tab (sdt 0x01 0xC0), tab (sdt 0x01 0xC0), tab (pmt 0x100 1 0x1ff),
    skip (tot 32400000), pcr 0x1ff 20 true, skip (tot 32405000), pcr 0x1ff 30 true ]
theorem run_items : ∃ h, Synced {} (inputs items) 1 h ∧ h.items = items ∧ h.st.out = none :=
  synced_of_eval (by decide +kernel)

theorem known : PmtsKnown {} (log (items.take 6)) := by
  intro sid pid hl ha
  obtain ⟨_, p, h1, h2⟩ := hl
  have e : latestPat (log (items.take 6)) = some { tsId := 7, pmts := ⟨[(1, 0x100), (2, 0x200)], by simp⟩ } := by
    decide +kernel
  rw [e] at h1
  cases h1
  have := (OMap.find?_iff _ _ _).1 h2
  simp only [List.mem_cons, Prod.mk.injEq, List.not_mem_nil, or_false] at this
  rcases this with ⟨rfl, _⟩ | ⟨rfl, _⟩
  · decide +kernel
  · exfalso
    obtain ⟨x, hx, y, h4, h5⟩ := ha
    have : sdts (log (items.take 6)) = [{ tsId := 7, onetwId := 4, services :=
      ⟨[(1, ⟨0x01, "", none⟩), (2, ⟨0xC0, "", none⟩)], by simp⟩ }, { tsId := 7, onetwId := 4, services :=
      ⟨[(1, ⟨0x01, "", none⟩), (2, ⟨0xC0, "", none⟩)], by simp⟩ }] := by decide +kernel
    rw [this] at hx
    simp only [List.mem_cons, List.not_mem_nil, or_false, or_self] at hx
    subst hx
    have h4' : some y = some ⟨0xC0, "", none⟩ := h4.symm
    cases h4'
    revert h5
    unfold AudioVideo
    decide

/-- The SDT is received once, then the PMT, the SDT again, and the TOT. -/
def good : List (Line Input (List Table)) :=
  [ tab (pat 0x100 0x200), tab (sdt 0x01 0xC0), tab (pmt 0x100 1 0x1ff), tab (sdt 0x01 0xC0),
    tab (tot 32400000), pcr 0x1ff 20 false ]
theorem run_good : ∃ h, Synced {} (inputs good) 0 h ∧ h.items = good ∧
    h.st.out = some [⟨4, 7, 1, 0x1ff, 20, 0⟩] :=
  synced_of_eval (by decide +kernel)

theorem known_good : PmtsKnown {} (log (good.take 3)) := by
  intro sid pid hl ha
  obtain ⟨_, p, h1, h2⟩ := hl
  have e : latestPat (log (good.take 3)) = some { tsId := 7, pmts := ⟨[(1, 0x100), (2, 0x200)], by simp⟩ } := by
    decide +kernel
  rw [e] at h1
  cases h1
  have := (OMap.find?_iff _ _ _).1 h2
  simp only [List.mem_cons, Prod.mk.injEq, List.not_mem_nil, or_false] at this
  rcases this with ⟨rfl, _⟩ | ⟨rfl, _⟩
  · decide +kernel
  · exfalso
    obtain ⟨x, hx, y, h4, h5⟩ := ha
    have : sdts (log (good.take 3)) = [{ tsId := 7, onetwId := 4, services :=
      ⟨[(1, ⟨0x01, "", none⟩), (2, ⟨0xC0, "", none⟩)], by simp⟩ }] := by decide +kernel
    rw [this] at hx
    simp only [List.mem_cons, List.not_mem_nil, or_false, or_self] at hx
    subst hx
    have h4' : some y = some ⟨0xC0, "", none⟩ := h4.symm
    cases h4'
    revert h5
    unfold AudioVideo
    decide

theorem regular_good : Regular {} (log good) := by
  constructor
  · intro e he pat hp
    have : pat = { tsId := 7, pmts := ⟨[(1, 0x100), (2, 0x200)], by simp⟩ } := by
      have : pat ∈ (log good).filterMap patOf := List.mem_filterMap.2 ⟨e, he, hp⟩
      have e2 : (log good).filterMap patOf = [{ tsId := 7, pmts := ⟨[(1, 0x100), (2, 0x200)], by simp⟩ }] := by
        decide +kernel
      rw [e2] at this
      simpa using this
    subst this
    constructor
    · intro sid pid _ hf
      have := (OMap.find?_iff _ _ _).1 hf
      simp only [List.mem_cons, Prod.mk.injEq, List.not_mem_nil, or_false] at this ⊢
      omega
    · intro sid sid' pid _ _ hf hf'
      have h1 := (OMap.find?_iff _ _ _).1 hf
      have h2 := (OMap.find?_iff _ _ _).1 hf'
      simp only [List.mem_cons, Prod.mk.injEq, List.not_mem_nil, or_false] at h1 h2
      omega
  · intro t ht hn
    have : t ∈ [pat 0x100 0x200, sdt 0x01 0xC0, pmt 0x100 1 0x1ff, sdt 0x01 0xC0, tot 32400000] := by
      simp [log, good, tab, skip, pcr] at ht
      simpa using ht
    simp only [List.mem_cons, List.not_mem_nil, or_false] at this
    rcases this with rfl | rfl | rfl | rfl | rfl
    · exact absurd rfl hn
    · exact absurd rfl hn
    · exact absurd rfl hn
    · exact absurd rfl hn
    · rfl

end C54ex

/-- **C54** does not hold as claimed: if the SDT is received twice before the PMTs, TOTs are
not looked at, though the PMTs of all services with audio or video are known; the
command does not finish. -/
theorem C54_claim_false : ¬ ∀ (o : Opt) (is : List Input) (code : Nat) (h : Hist) (a b : List (Line Input (List Table)))
    (it : Line Input (List Table)), Synced o is code h → h.items = a ++ it :: b →
      (∃ sid pid, Listed o (log a) sid pid ∧ HasAudioVideo (log a) sid) → PmtsKnown o (log a) →
      it.input.packet.pid = 0x14 → it.did = it.input.tables.filter (·.sourcePid == 0x14) := by
  intro hall
  obtain ⟨h, h1, h2, _⟩ := C54ex.run_items
  have := hall _ _ _ _ (C54ex.items.take 6) [C52ex.pcr 0x1ff 30 true] (C52ex.skip (C52ex.tot 32405000)) h1
    (by rw [h2]; rfl)
    ⟨1, 0x100, by decide +kernel, { tsId := 7, onetwId := 4, services :=
      ⟨[(1, ⟨0x01, "", none⟩), (2, ⟨0xC0, "", none⟩)], by simp⟩ }, by decide +kernel, ⟨0x01, "", none⟩, rfl,
      by unfold AudioVideo; decide⟩
    C54ex.known rfl
  revert this
  decide +kernel

/-- **C54**, in part: which tables are looked at, if PMTs have PIDs of their own.  PATs
always are; SDTs are after a PAT; PMTs of selected services with audio or video are after
an SDT; TOTs are since a moment at which one SDT had been received and the PMTs of all
these services were known (repetition before that moment is missing).  After a TOT, the
PCRs of all clocks are looked at. -/
theorem C54_tables_partial (o : Opt) (is : List Input) (code : Nat) (h : Hist) (a b : List (Line Input (List Table)))
    (it : Line Input (List Table)) (hr : Synced o is code h) (hs : h.items = a ++ it :: b)
    (hg : Regular o (log h.items))
    (hp : it.input.packet.pid = 0 ∨
      (it.input.packet.pid = 0x11 ∧ latestPat (log a) ≠ none) ∨
      (it.input.packet.pid ≠ 0x1FFF ∧
        ∃ sid, Listed o (log a) sid it.input.packet.pid ∧ HasAudioVideo (log a) sid) ∨
      (it.input.packet.pid = 0x14 ∧ ∃ a1 a2, a = a1 ++ a2 ∧ (log a2).filterMap patOf = [] ∧
        (sdts (log a1)).length = 1 ∧ (∃ sid pid, Listed o (log a1) sid pid ∧ HasAudioVideo (log a1) sid) ∧
        PmtsKnown o (log a1))) :
    it.did = it.input.tables.filter (·.sourcePid == it.input.packet.pid) ∧
    ((∃ t ∈ it.did, totOf (.tab t) ≠ none) → (it.did.map Ev.tab).filterMap patOf = [] →
      ∀ pid, IsClock o (log a) pid → Looked o (log (a ++ [it])) pid) := by
  obtain ⟨s, h1, _, _⟩ := synced hr
  obtain ⟨s1, s2, k1, k2, k3, k4⟩ := h1.split a it b hs
  have hlog : log h.items = log a ++ (it.did.map Ev.tab ++ [.pkt it.input.packet]) ++ log b := by
    rw [hs, show a ++ it :: b = (a ++ [it]) ++ b by simp, log_append, log_snoc]
  have hg2 : Regular o (log a ++ (it.did.map Ev.tab ++ [.pkt it.input.packet])) := by
    rw [hlog] at hg; exact regular_prefix hg
  have hg1 : Regular o (log a) := regular_prefix hg2
  obtain ⟨hd, ht⟩ := (reach_spec k1).1 k2
  have hc := (reach_cnt k1 hg1).1 k2
  have hrest := hc.rest hd
  constructor
  · rcases hp with hp | ⟨hp, hl⟩ | ⟨hp, sid, hl, ha⟩ | ⟨hp, a1, a2, rfl, hn, hs1, hav, hkn⟩
    · obtain ⟨s3, m1, _⟩ := step_feed k3 (by omega)
      rw [hp] at m1 ⊢
      refine feed_pat _ _ _ (log a) _ ht hc m1 ?_
      rw [← List.append_assoc] at hg2
      exact regular_prefix hg2
    · obtain ⟨s3, m1, _⟩ := step_feed k3 (by omega)
      exact feed_all (by omega) _ _ _ _ (by rw [hp]; exact hrest.sdtW hl) m1
    · obtain ⟨s3, m1, _⟩ := step_feed k3 hp
      exact feed_all (regular_listed hg1 hl).1.1 _ _ _ _ (hrest.pmtW sid _ hl ha) m1
    · obtain ⟨s3, m1, _⟩ := step_feed k3 (by omega)
      refine feed_all (by omega) _ _ _ _ ?_ m1
      rw [hp]
      obtain ⟨s0, n1⟩ := k1.prefix a1 a2 rfl
      have n2 : ∀ x ∈ a1, x.more = true := fun x hx => k2 x (by simp [hx])
      rw [log_append] at hg1
      have hc0 := (reach_cnt n1 (regular_prefix hg1)).1 n2
      obtain ⟨hd0, _⟩ := (reach_spec n1).1 n2
      obtain ⟨x, hx⟩ : ∃ x, sdts (log a1) = [x] := by
        cases hz : sdts (log a1) with
        | nil => rw [hz] at hs1; simp at hs1
        | cons x y =>
          rw [hz] at hs1
          simp at hs1
          subst hs1
          exact ⟨x, rfl⟩
      exact reach_demux k1 a1 a2 rfl hn s0 n1 _ ((hc0.rest hd0).totW x hx hav hkn)
  · rintro ⟨t, ht, htot⟩ hnp pid hck
    rw [log_snoc]
    refine ⟨isClock_append hck _ (by rw [List.filterMap_append, hnp]; rfl), ?_⟩
    have hap : ∀ (m : List Ev), m.filterMap patOf = [] → ∀ l, sinceChange (l ++ m) = sinceChange l ++ m := by
      intro m
      induction m with
      | nil => intro _ l; simp
      | cons e m ih =>
        intro hm l
        rw [List.filterMap_cons] at hm
        cases he : patOf e with
        | some p => simp [he] at hm
        | none =>
          simp only [he] at hm
          rw [show l ++ e :: m = (l ++ [e]) ++ m by simp, ih hm, sinceChange_none he]
          simp
    rw [hap _ (by rw [List.filterMap_append, hnp]; rfl), List.filterMap_append, List.filterMap_append]
    intro hnil
    have := (List.append_eq_nil_iff.1 (List.append_eq_nil_iff.1 hnil).2).1
    exact htot (List.filterMap_eq_nil_iff.1 this (.tab t) (List.mem_map_of_mem ht))

example : ∃ h a it b, Synced {} (C52ex.inputs C54ex.good) 0 h ∧ h.items = a ++ it :: b ∧
    Regular {} (log h.items) ∧ it.input.packet.pid = 0x14 ∧
    (∃ a1 a2, a = a1 ++ a2 ∧ (log a2).filterMap patOf = [] ∧
        (sdts (log a1)).length = 1 ∧ (∃ sid pid, Listed {} (log a1) sid pid ∧ HasAudioVideo (log a1) sid) ∧
        PmtsKnown {} (log a1)) ∧
    (∃ t ∈ it.did, totOf (.tab t) ≠ none) ∧ (it.did.map Ev.tab).filterMap patOf = [] := by
  obtain ⟨h, h1, h2, _⟩ := C54ex.run_good
  refine ⟨h, C54ex.good.take 4, C52ex.tab (C52ex.tot 32400000), [C52ex.pcr 0x1ff 20 false], h1, by rw [h2]; rfl,
    by rw [h2]; exact C54ex.regular_good, rfl,
    ⟨C54ex.good.take 3, [C52ex.tab (C52ex.sdt 0x01 0xC0)], rfl, by decide +kernel, by decide +kernel,
      ⟨1, 0x100, by decide +kernel, { tsId := 7, onetwId := 4, services :=
      ⟨[(1, ⟨0x01, "", none⟩), (2, ⟨0xC0, "", none⟩)], by simp⟩ }, by decide +kernel, ⟨0x01, "", none⟩, rfl,
      by unfold AudioVideo; decide⟩, C54ex.known_good⟩,
    ⟨C52ex.tot 32400000, by simp [C52ex.tab], by decide +kernel⟩, by decide +kernel⟩

/-- **C55.** The command succeeds and prints one document, or it fails and prints none, and
then it has read the whole input.  It succeeds exactly if there are clocks and all of them
were captured, or one of the latest two PATs selects no service; if packets have at most one
PAT each, this is the latest PAT.  It stops reading at the packet that makes it succeed. -/
theorem C55_exit_code (o : Opt) (is : List Input) (code : Nat) (h : Hist) (hr : Synced o is code h) :
    ((code = 0 ∧ ∃ es, h.st.out = some es) ∨
      (code = 1 ∧ h.st.out = none ∧ h.items.map (·.input) = is)) ∧
    (code = 0 ↔ AllCaptured o (log h.items) ∨ NothingSelected o (log h.items)) ∧
    ((∀ it ∈ h.items, ((it.did.map Ev.tab).filterMap patOf).length ≤ 1) →
      (NothingSelected o (log h.items) ↔
        ∃ pat, latestPat (log h.items) = some pat ∧ SelectsNone o pat)) ∧
    ∀ a it b, h.items = a ++ it :: b → h.items.map (·.input) <+: is ∧
      ¬ (AllCaptured o (log a) ∨ NothingSelected o (log a)) := by
  obtain ⟨s, h1, h2, h3⟩ := synced hr
  have hpre : ∀ a it b, h.items = a ++ it :: b → ¬ (AllCaptured o (log a) ∨ NothingSelected o (log a)) := by
    intro a it b hs
    obtain ⟨s1, s2, k1, k2, k3, k4⟩ := h1.split a it b hs
    obtain ⟨hd, ht⟩ := (reach_spec k1).1 k2
    rintro (k | k)
    · exact ht.notAll hd k
    · rw [ht.doneIff.2 k] at hd; cases hd
  refine ⟨?_, ?_, ?_, fun a it b hs => ⟨h2, hpre a it b hs⟩⟩
  · rcases h3 with ⟨k1, k2, k3, _⟩ | ⟨k1, k2, _⟩
    · exact .inr ⟨k1, k2, k3⟩
    · exact .inl ⟨k1, _, k2⟩
  · rcases h3 with ⟨k1, _, _, _, ht, hd⟩ | ⟨k1, _, _, hf⟩
    · constructor
      · intro k; omega
      · rintro (k | k)
        · exact absurd k (ht.notAll hd)
        · rw [ht.doneIff.2 k] at hd; cases hd
    · refine ⟨fun _ => ?_, fun _ => k1⟩
      rcases hf.cases_ with ⟨k, _⟩ | ⟨_, k, _⟩
      · exact .inr k
      · exact .inl k
  · intro hone
    rcases List.eq_nil_or_concat h.items with he | ⟨a, it, he⟩
    · rw [he]
      simp [NothingSelected, latestPat, log]
    · rw [List.concat_eq_append] at he
      have hn := hpre a it [] he
      rw [he, log_snoc]
      have h1 := hone it (by simp [he])
      unfold NothingSelected at hn ⊢
      unfold latestPat
      rw [List.filterMap_append, List.filterMap_append, show List.filterMap patOf [Ev.pkt it.input.packet] = [] from rfl,
        List.append_nil]
      generalize (it.did.map Ev.tab).filterMap patOf = m at h1
      match m, h1 with
      | [], _ =>
        rw [List.append_nil]
        constructor
        · intro k; exact absurd (.inr k) hn
        · rintro ⟨pat, k1, k2⟩
          refine ⟨pat, ?_, k2⟩
          rw [← List.head?_reverse] at k1
          cases hz : ((log a).filterMap patOf).reverse with
          | nil => rw [hz] at k1; cases k1
          | cons x y => rw [hz] at k1; cases k1; simp
      | [p], _ =>
        rw [List.reverse_append]
        simp only [List.reverse_singleton, List.singleton_append, List.take_succ_cons, List.mem_cons,
          List.getLast?_append, List.getLast?_singleton, Option.some_or, Option.some.injEq]
        constructor
        · rintro ⟨pat, rfl | k1, k2⟩
          · exact ⟨pat, rfl, k2⟩
          · exfalso
            refine hn (.inr ⟨pat, ?_, k2⟩)
            cases hz : (List.filterMap patOf (log a)).reverse with
            | nil => rw [hz] at k1; simp at k1
            | cons x y => rw [hz] at k1; simp at k1; simp [k1]
        · rintro ⟨pat, rfl, k2⟩
          exact ⟨_, .inl rfl, k2⟩

example : ∃ h, Synced {} (C52ex.inputs C52ex.items) 0 h ∧
    ∀ it ∈ h.items, ((it.did.map Ev.tab).filterMap patOf).length ≤ 1 := by
  obtain ⟨h, h1, h2, _⟩ := C52ex.run_items
  refine ⟨h, h1, ?_⟩
  rw [h2]
  decide +kernel

namespace C79ex
open C52ex

/-- Once TOTs are looked at, a new SDT says that the other service has audio and video,
too. -/
def items : List (Line Input (List Table)) :=
  [ tab (pat 0x100 0x200), tab (sdt 0x01 0xC0), tab (pmt 0x100 1 0x1ff), tab (sdt 0x01 0x01),
    tab (tot 32400000), pcr 0x1ff 20 false ]
theorem run_items : ∃ h, Synced {} (inputs items) 0 h ∧ h.items = items ∧
    h.st.out = some [⟨4, 7, 1, 0x1ff, 20, 0⟩] :=
  synced_of_eval (by decide +kernel)

end C79ex

/-- **C79** does not hold as claimed: a service that a new SDT declares to be one with audio
and video after the PMTs of the others were received is left out. -/
theorem C79_claim_false : ¬ ∀ (o : Opt) (is : List Input) (code : Nat) (h : Hist) (es : List ClockEntry),
    Synced o is code h → h.st.out = some es → ¬ NothingSelected o (log h.items) →
    ∀ sid pid, Listed o (log h.items) sid pid → HasAudioVideo (log h.items) sid →
      clockPid o (log h.items) sid ≠ some 0x1FFF → ∃ e ∈ es, e.sid = sid := by
  intro hall
  obtain ⟨h, h1, h2, h3⟩ := C79ex.run_items
  have := hall _ _ _ _ _ h1 h3 (by
      rw [h2]
      rintro ⟨pat, k1, k2⟩
      have e : ((log C79ex.items).filterMap patOf).reverse.take 2 =
        [{ tsId := 7, pmts := ⟨[(1, 0x100), (2, 0x200)], by simp⟩ }] := by decide +kernel
      rw [e, List.mem_singleton] at k1
      subst k1
      exact k2 1 0x100 rfl ⟨.inl rfl, by simp⟩) 2 0x200 (by rw [h2]; decide +kernel)
    (by
      rw [h2]
      exact ⟨{ tsId := 7, onetwId := 4, services := ⟨[(1, ⟨0x01, "", none⟩), (2, ⟨0x01, "", none⟩)], by simp⟩ },
        by decide +kernel, ⟨0x01, "", none⟩, rfl, by unfold AudioVideo; decide⟩)
    (by rw [h2]; decide +kernel)
  obtain ⟨e, he, hs⟩ := this
  simp only [List.mem_singleton] at he
  subst he
  simp at hs

/-- **C79**, in part.  On success, every service whose PMT was received and names a clock is
reported (unless a PAT selects no service).  If PMTs have PIDs of their own and the SDT was
received once since the PAT (otherwise not, this is missing), these are all services that
are selected, in the PAT, and in the SDT as services with audio or video. -/
theorem C79_complete_partial (o : Opt) (is : List Input) (code : Nat) (h : Hist) (es : List ClockEntry)
    (hr : Synced o is code h) (he : h.st.out = some es) (hn : ¬ NothingSelected o (log h.items)) :
    (∀ sid pid, clockPid o (log h.items) sid = some pid → pid ≠ 0x1FFF → ∃ e ∈ es, e.sid = sid ∧ e.pid = pid) ∧
    (Regular o (log h.items) → (sdts (log h.items)).length = 1 →
      ∀ sid pid, Listed o (log h.items) sid pid → HasAudioVideo (log h.items) sid →
        clockPid o (log h.items) sid ≠ none) := by
  obtain ⟨s, h1, _, h3⟩ := synced hr
  rcases h3 with ⟨_, k, _⟩ | ⟨_, k, hm, hf⟩
  · rw [k] at he; cases he
  · rw [k] at he
    cases he
    rcases hf.cases_ with ⟨k1, _⟩ | ⟨_, hall, hrun⟩
    · exact absurd k1 hn
    refine ⟨fun sid pid hc hp => ?_, fun hg hone sid pid hl ha => ?_⟩
    · have hck : IsClock o (log h.items) pid := by
        refine ⟨hp, ?_⟩
        unfold clockPid at hc
        rw [Option.map_eq_some_iff] at hc
        obtain ⟨x, m1, m2⟩ := hc
        exact ⟨x, (List.mem_filter.1 (List.mem_of_getLast? m1)).1, m2⟩
      obtain ⟨v, hv⟩ := hall.2 pid hck
      exact ⟨{ nid := s.nid, tsid := s.tsid, sid := sid, pid := pid, pcr := v, time := jstToUnix s.time },
        mem_clocks.2 ⟨v, (hrun.clocks sid).trans hc, (hrun.captured _ _).2 hv, rfl⟩, rfl, rfl⟩
    · rcases (reach_cnt h1 hg).2 hm with k1 | hrest
      · exact absurd k1 hn
      · obtain ⟨x, hx⟩ : ∃ x, sdts (log h.items) = [x] := by
          cases hz : sdts (log h.items) with
          | nil => rw [hz] at hone; simp at hone
          | cons x y =>
            rw [hz] at hone
            simp at hone
            subst hone
            exact ⟨x, rfl⟩
        refine hrest.known x hx (.inr ?_) sid pid hl ha
        obtain ⟨p, hp⟩ := hall.1
        obtain ⟨v, hv⟩ := hall.2 p hp
        refine hrun.started.2 ?_
        obtain ⟨a, q, b, e, hb, _, _, hlk, _⟩ := hv
        intro hnil
        have hap : ∀ (m : List Ev), m.filterMap patOf = [] → ∀ l, sinceChange (l ++ m) = sinceChange l ++ m := by
          intro m
          induction m with
          | nil => intro _ l; simp
          | cons e m ih =>
            intro hm l
            rw [List.filterMap_cons] at hm
            cases he : patOf e with
            | some p => simp [he] at hm
            | none =>
              simp only [he] at hm
              rw [show l ++ e :: m = (l ++ [e]) ++ m by simp, ih hm, sinceChange_none he]
              simp
        rw [e, hap _ (by rw [List.filterMap_cons, patOf_pkt]; exact hb), List.filterMap_append] at hnil
        exact hlk.2 (List.append_eq_nil_iff.1 hnil).1

example : ∃ h es, Synced {} (C52ex.inputs C53ex.items) 0 h ∧ h.st.out = some es ∧ es.length = 2 ∧
    ¬ NothingSelected {} (log h.items) ∧ (sdts (log h.items)).length = 1 := by
  obtain ⟨h, h1, h2, h3⟩ := C53ex.run_items
  refine ⟨h, _, h1, h3, rfl, ?_, by rw [h2]; decide +kernel⟩
  rw [h2]
  rintro ⟨pat, k1, k2⟩
  have e : ((log C53ex.items).filterMap patOf).reverse.take 2 =
    [{ tsId := 7, pmts := ⟨[(1, 0x100), (2, 0x200)], by simp⟩ }] := by decide +kernel
  rw [e, List.mem_singleton] at k1
  subst k1
  exact k2 1 0x100 rfl ⟨.inl rfl, by simp⟩

/-- **C119.**  The document, exactly, whatever tables were received.  If a PAT selects no service it is empty.
Otherwise it has, in the order of the services, exactly one entry for every service whose latest
PMT (since the latest PAT, on the PID given by it) names a clock, with the PID of the clock and the first PCR on it that
was looked at, the ids of the latest SDT and the time of the latest TOT. -/
theorem C119_document (o : Opt) (is : List Input) (code : Nat) (h : Hist) (es : List ClockEntry)
    (hr : Synced o is code h) (he : h.st.out = some es) :
    (NothingSelected o (log h.items) → es = []) ∧
    (¬ NothingSelected o (log h.items) →
      es.Pairwise (fun a b => a.sid < b.sid) ∧
      (∀ e, e ∈ es ↔ clockPid o (log h.items) e.sid = some e.pid ∧ Captured o (log h.items) e.pid e.pcr ∧
        (e.nid, e.tsid) = ids (log h.items) ∧ e.time = latestTot (log h.items) - 9 * 3600000) ∧
      ∀ sid pid, clockPid o (log h.items) sid = some pid → pid ≠ 0x1FFF → ∃ e ∈ es, e.sid = sid) := by
  obtain ⟨s, h1, _, h3⟩ := synced hr
  rcases h3 with ⟨_, k, _⟩ | ⟨_, k, hm, hf⟩
  · rw [k] at he; cases he
  · rw [k] at he
    cases he
    rcases hf.cases_ with ⟨k1, hn⟩ | ⟨k1, hall, hrun⟩
    · refine ⟨fun _ => List.eq_nil_iff_forall_not_mem.2 fun e he => ?_, fun h => absurd k1 h⟩
      obtain ⟨v, m1, m2, m3⟩ := mem_clocks.1 he
      rw [(OMap.entries_nil_iff _).1 hn] at m2; cases m2
    · refine ⟨fun h => absurd h k1, fun _ => ⟨clocks_sorted s, fun e => ⟨fun he => ?_, ?_⟩, fun sid pid hc hp => ?_⟩⟩
      · obtain ⟨v, m1, m2, m3⟩ := mem_clocks.1 he
        refine ⟨(hrun.clocks e.sid).symm.trans m1, ?_, ?_, ?_⟩
        · rw [m3]; exact (hrun.captured _ _).1 m2
        · rw [m3]; exact hrun.ids
        · rw [m3]
          show jstToUnix s.time = _
          rw [hf.time]; rfl
      · rintro ⟨c1, c2, c3, c4⟩
        refine mem_clocks.2 ⟨e.pcr, (hrun.clocks e.sid).trans c1, (hrun.captured _ _).2 c2, ?_⟩
        have hi : (s.nid, s.tsid) = ids (log h.items) := hrun.ids
        rw [← c3] at hi
        obtain ⟨nid, tsid, sid, pid, pcr, time⟩ := e
        simp only [Prod.mk.injEq] at hi
        simp only at c4
        rw [c4, hi.1, hi.2]
        have : jstToUnix s.time = latestTot (log h.items) - 9 * 3600000 := by rw [hf.time]; rfl
        rw [this]
      · obtain ⟨e, he, hs, _⟩ := (C79_complete_partial o is code h _ hr k k1).1 sid pid hc hp
        exact ⟨e, he, hs⟩

/-- Two clocks, with a TOT in between (C53). -/
example : ∃ h es, Synced {} (C52ex.inputs C53ex.items) 0 h ∧ h.st.out = some es ∧
    es.length = 2 ∧ ¬ NothingSelected {} (log h.items) := by
  obtain ⟨h, h1, h2, h3⟩ := C53ex.run_items
  refine ⟨h, _, h1, h3, rfl, ?_⟩
  rw [h2]
  rintro ⟨pat, k1, k2⟩
  have e : ((log C53ex.items).filterMap patOf).reverse.take 2 =
    [{ tsId := 7, pmts := ⟨[(1, 0x100), (2, 0x200)], by simp⟩ }] := by decide +kernel
  rw [e, List.mem_singleton] at k1
  subst k1
  exact k2 1 0x100 rfl ⟨.inl rfl, by simp⟩

/-- **C80** does not hold as claimed: sync-clocks aborts when it captures a PCR whose
extension makes it exceed the range of PCRs. -/
theorem C80_claim_false : ¬ ∀ (o : Opt) (is : List Input), ∃ code h, Synced o is code h := by
  intro hall
  obtain ⟨code, h, hs⟩ := hall {} (C52ex.inputs (C52ex.items.take 8 ++ [C52ex.pcr 0x1ff 2576980377600 true]))
  have := ran_iff.1 hs
  have he : feedPackets listSource (sink {})
      ((C52ex.inputs (C52ex.items.take 8 ++ [C52ex.pcr 0x1ff 2576980377600 true])).length + 1)
      (C52ex.inputs (C52ex.items.take 8 ++ [C52ex.pcr 0x1ff 2576980377600 true])) { st := {} } =
      .error .assertFail := error_of_eval (by decide +kernel)
  rw [he] at this
  cases this

/-- **C80**, in part.  If the PCRs are within range (otherwise not, this is missing),
sync-clocks processes every stream, whatever the tables are. -/
theorem C80_no_abort_partial (o : Opt) (is : List Input)
    (hv : ∀ i ∈ is, ∀ v, i.packet.pcr = some v → 0 ≤ v ∧ v < 2576980377600) :
    ∃ code h, Synced o is code h := by
  obtain ⟨⟨code, h⟩, hr⟩ := ran_total (step := step o) (finish := finish) (exitCode := exitCode) (fun _ => True)
    (fun s _ i hi => by
      obtain ⟨s', a, more, k⟩ := step_total (o := o) (s := s) (hv i hi)
      exact ⟨s', a, more, k, trivial⟩)
    (fun s _ => by
      unfold finish
      split
      · exact ⟨_, rfl⟩
      · exact ⟨_, rfl⟩) (s0 := ({} : St)) trivial listSource is (is.length + 1)
    (listSource_yields is) (by omega)
  exact ⟨code, h, ran_iff.2 hr⟩

example : ∀ i ∈ C52ex.inputs C52ex.items, ∀ v, i.packet.pcr = some v → 0 ≤ v ∧ v < 2576980377600 := by
  intro i hi v hv
  simp [C52ex.inputs, C52ex.items, C52ex.tab, C52ex.skip, C52ex.pcr] at hi
  rcases hi with rfl | rfl | rfl | rfl | rfl | rfl | rfl | rfl | rfl | rfl <;> simp at hv <;> omega

end Mirakc.Props
