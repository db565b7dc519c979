import Verif.Proof.ServiceFilter
/-
Properties C20-C25: filter-service.
-/
set_option linter.unusedSimpArgs false

namespace Mirakc.Props
open Mirakc.Spec Mirakc.Spec.ServiceFilter Mirakc.ServiceFilter

namespace C20ex

/-- A PAT listing two services. -/
def pat : Table := { sourcePid := 0, body := .pat { tsId := 7, pmts := ⟨[(1, 0x100), (2, 0x200)], by decide⟩ } }
/-- A PMT of service 1: PCR on 0x1ff, ECM on 0x150, streams on 0x111 and 0x112. -/
def pmt : Table :=
  { sourcePid := 0x100
    body := .pmt { serviceId := 1, pcrPid := 0x1ff, descs := [{ tag := 9, caPid := 0x150 }]
                   streams := ⟨[(0x111, {}), (0x112, {})], by decide⟩ } }
/-- A stream: PAT, PMT, packets of both services, PAT again. -/
def stream : List Input :=
  [ { packet := { pid := 0x111 } },
    { packet := { pid := 0 }, tables := [pat] },
    { packet := { pid := 0x100 }, tables := [pmt] },
    { packet := { pid := 0x111, content := 5 } },
    { packet := { pid := 0x211 } },
    { packet := { pid := 0 }, tables := [pat] },
    { packet := { pid := 0x150 } } ]
/-- The rewritten PAT. -/
def pat' : Pat := { tsId := 7, pmts := ⟨[(1, 0x100)], by decide⟩ }

end C20ex

/-- **C20.**  In every history of the filter, a packet at which the stream does not
stop is forwarded exactly when its PID belongs to the service according to the
tables received up to and including it.  (`run` on a prefix of the input gives the
prefix of the history, so this covers streams that end abnormally, too.) -/
theorem C20_forward_iff (o : Opt) (is : List Input) (s : St) (pre : List Item) (it : Item)
    (post : List Item) (h : run o (init o) is = .ok (s, pre ++ it :: post)) (hs : it.act ≠ .stop) :
    (∃ x, it.act = .send x) ↔ Forward o.sid (received pre ++ it.handled) it.packet.pid := by
  obtain ⟨s1, s2, i, h1, _, _, _, _, h6⟩ := (run_spec is _ _ [] _ (inv_init o) h).2 pre it post rfl
  have := h6.drop hs
  rw [h1] at this
  simp only [List.nil_append] at this
  rw [← this]
  cases ha : it.act with
  | stop => exact absurd ha hs
  | drop => simp
  | send x => simp

/-- **C20**, tables.  In a conforming stream the tables received are those on the
PIDs of PAT and CAT, of TOT if there is a time limit, and on the PMT PID of the
service as of the latest usable PAT. -/
theorem C20_tables (o : Opt) (is : List Input) (s : St) (pre : List Item) (it : Item)
    (post : List Item) (hc : ∀ i ∈ is, ∀ t ∈ i.tables, Conforming o.sid t)
    (h : run o (init o) is = .ok (s, pre ++ it :: post)) :
    ∃ i, is[pre.length]? = some i ∧ i.packet = it.packet ∧
      (Watched o.sid o.timeLimit (received pre) it.packet.pid →
        it.handled = i.tables.filter (·.sourcePid == it.packet.pid)) ∧
      (¬ Watched o.sid o.timeLimit (received pre) it.packet.pid → it.handled = []) := by
  obtain ⟨s1, s2, i, h1, h2, _⟩ := (run_spec is _ _ [] _ (inv_init o) h).2 pre it post rfl
  have := run_watch is _ _ [] _ hc (watch_init o) rfl h pre it post i rfl h2
  exact ⟨i, h2, h1, by simpa using this⟩

example : ∃ s items, run { sid := 1 } (init { sid := 1 }) C20ex.stream = .ok (s, items) ∧
    items.map (·.act) = [.drop, .send (.pat C20ex.pat' 0),
      .send (.orig { pid := 0x100 }), .send (.orig { pid := 0x111, content := 5 }), .drop,
      .send (.pat C20ex.pat' 1), .send (.orig { pid := 0x150 })] :=
  ⟨_, _, rfl, by decide⟩

/-- **C21.**  The history covers a prefix of the input packets in order, stopping at
most at its last packet; the output is the input with packets dropped and packets of
PID 0 replaced one for one. -/
theorem C21_intact (o : Opt) (is : List Input) (s : St) (items : List Item)
    (h : run o (init o) is = .ok (s, items)) :
    items.map (·.packet) = (is.take items.length).map (·.packet) ∧
    Derived (items.map (·.packet)) (sent items) ∧
    (∀ pre it post, items = pre ++ it :: post → post ≠ [] → it.act ≠ .stop) ∧
    (items.length < is.length → ∃ pre it, items = pre ++ [it] ∧ it.act = .stop) := by
  have hs := run_shape is _ _ _ h
  exact ⟨hs.1, run_derived is _ _ [] _ (inv_init o) h, hs.2.1, hs.2.2⟩

/-- **C21**, connected sink.  Whatever sink is connected, the packets it receives are
exactly the output of the history of the packets consumed. -/
theorem C21_downstream {σ : Type} (o : Opt) (snk : Sink Out σ) (is cs : List Input) (d d' : σ)
    (s : St) (calls : List (Call Out))
    (h : Consumes (sink o (logged snk)) (init o, d, []) is cs (s, d', calls)) :
    ∃ items rest, is = cs ++ rest ∧ run o (init o) cs = .ok (s, items) ∧
      items.length = cs.length ∧ calls = (sent items).map .handle ∧
      Derived (cs.map (·.packet)) (sent items) := by
  obtain ⟨items, h1, h2, h3, rest, h4⟩ := sink_consumes snk h
  have hs := C21_intact o cs s items h1
  refine ⟨items, rest, h4, h1, h2, by simpa using h3, ?_⟩
  have := hs.1
  rw [h2, List.take_length] at this
  rw [← this]
  exact hs.2.1

example : ∃ s items, run { sid := 1 } (init { sid := 1 }) C20ex.stream = .ok (s, items) ∧
    sent items = [.pat C20ex.pat' 0, .orig { pid := 0x100 }, .orig { pid := 0x111, content := 5 },
      .pat C20ex.pat' 1, .orig { pid := 0x150 }] :=
  ⟨_, _, rfl, by decide⟩

/-- **C22.**  Every PAT packet in the output is made from the most recently received
usable PAT, restricted to the service; the PAT packets are numbered consecutively, so
their continuity counters have no gaps. -/
theorem C22_pat_rewritten (o : Opt) (is : List Input) (s : St) (pre : List Item) (it : Item)
    (post : List Item) (h : run o (init o) is = .ok (s, pre ++ it :: post)) (t : Pat) (n : Nat)
    (ha : it.act = .send (.pat t n)) :
    n = patCount (sent pre) ∧
    ∃ pat, latest usablePat (received pre ++ it.handled) = some pat ∧ Restricted o.sid pat t := by
  obtain ⟨s1, s2, i, _, _, _, _, h5, h6⟩ := (run_spec is _ _ [] _ (inv_init o) h).2 pre it post rfl
  have := h6.pat t n ha
  refine ⟨?_, by simpa using this.2.2.2⟩
  rw [this.2.1, h5]; simp [init]

example : Restricted 1 { tsId := 7, pmts := ⟨[(1, 0x100), (2, 0x200)], by decide⟩ } C20ex.pat' :=
  ⟨rfl, rfl, rfl, 0x100, by decide, rfl⟩

/-- **C23.**  The stream stops at a packet exactly when a usable PAT without the
service, or a TOT over the time limit, has been received; if the sink connected
reports success, the exit code is a failure exactly when such a PAT was received, and
otherwise the sink's code is kept. -/
theorem C23_missing_service (o : Opt) (is : List Input) (s : St) (pre : List Item) (it : Item)
    (post : List Item) (h : run o (init o) is = .ok (s, pre ++ it :: post)) :
    ((∃ t ∈ it.handled, Missing o.sid t) → it.act = .stop ∧ post = []) ∧
    (it.act = .stop → ∃ t ∈ it.handled, Missing o.sid t ∨ OverLimit o.timeLimit t) := by
  obtain ⟨s1, s2, i, _, _, _, h4, _, h6⟩ := (run_spec is _ _ [] _ (inv_init o) h).2 pre it post rfl
  have hshape := run_shape is _ _ _ h
  refine ⟨?_, ?_⟩
  · rintro ⟨t, ht, hm⟩
    have hstop : it.act = .stop := h6.stop.2 ⟨t, by simp [ht], Or.inl hm⟩
    refine ⟨hstop, ?_⟩
    cases post with
    | nil => rfl
    | cons a post => exact absurd hstop (hshape.2.1 pre it _ rfl (by simp))
  · intro ha
    obtain ⟨t, ht, hx⟩ := h6.stop.1 ha
    simp only [List.nil_append, List.mem_append] at ht
    rcases ht with ht | ht
    · exfalso
      -- an earlier packet would have stopped the stream
      simp only [received, List.mem_flatMap] at ht
      obtain ⟨it0, hit0, ht⟩ := ht
      obtain ⟨p1, p2, e⟩ := List.append_of_mem hit0
      have e' : pre ++ it :: post = p1 ++ it0 :: (p2 ++ it :: post) := by rw [e]; simp
      obtain ⟨_, _, _, _, _, _, _, _, h6'⟩ :=
        (run_spec is _ _ [] _ (inv_init o) h).2 p1 it0 (p2 ++ it :: post) e'
      have hst : it0.act = .stop := h6'.stop.2 ⟨t, by simp [ht], hx⟩
      exact hshape.2.1 p1 it0 _ e' (by simp) hst
    · exact ⟨t, ht, hx⟩

/-- **C23**, exit code. -/
theorem C23_exit_code {σ : Type} (o : Opt) (snk : Sink Out σ) (is cs : List Input) (d d' : σ)
    (s : St) (calls : List (Call Out))
    (h : Consumes (sink o (logged snk)) (init o, d, []) is cs (s, d', calls)) :
    ∃ items, run o (init o) cs = .ok (s, items) ∧ items.length = cs.length ∧
      (snk.exitCode d' ≠ 0 → (sink o snk).exitCode (s, d') = snk.exitCode d') ∧
      (snk.exitCode d' = 0 → (∃ t ∈ received items, Missing o.sid t) →
        (sink o snk).exitCode (s, d') = 1) ∧
      (snk.exitCode d' = 0 → (¬ ∃ t ∈ received items, Missing o.sid t) →
        (sink o snk).exitCode (s, d') = 0) := by
  obtain ⟨items, h1, h2, _⟩ := sink_consumes snk h
  have hI := (run_spec cs _ _ [] _ (inv_init o) h1).1
  simp only [List.nil_append] at hI
  have he := hI.error
  refine ⟨items, h1, h2, ?_, ?_, ?_⟩
  · intro hn; simp [sink, exitSuccess, hn]
  · intro hz hm
    have : s.error = true := he.2 hm
    simp [sink, exitSuccess, exitFailure, hz, this]
  · intro hz hm
    have : s.error = false := by
      cases e : s.error with
      | false => rfl
      | true => exact absurd (he.1 e) hm
    simp [sink, exitSuccess, exitFailure, hz, this]

example : ∃ s items, run { sid := 3 } (init { sid := 3 }) C20ex.stream = .ok (s, items) ∧
    items.map (·.act) = [.drop, .stop] ∧ s.error = true := ⟨_, _, rfl, by decide, by decide⟩

/-- **C24.**  A TOT at or after the limit stops the stream at its packet; a stream
that stops without a PAT lacking the service has just received such a TOT (`OverLimit`
implies that there is a limit). -/
theorem C24_time_limit (o : Opt) (is : List Input) (s : St) (pre : List Item) (it : Item)
    (post : List Item) (h : run o (init o) is = .ok (s, pre ++ it :: post)) :
    ((∃ l t time, o.timeLimit = some l ∧ t ∈ it.handled ∧ validTot t = some time ∧ l ≤ time) →
      it.act = .stop ∧ post = []) ∧
    (it.act = .stop → (¬ ∃ t ∈ it.handled, Missing o.sid t) →
      ∃ l t time, o.timeLimit = some l ∧ t ∈ it.handled ∧ validTot t = some time ∧ l ≤ time) := by
  obtain ⟨s1, s2, i, _, _, _, _, _, h6⟩ := (run_spec is _ _ [] _ (inv_init o) h).2 pre it post rfl
  have hshape := run_shape is _ _ _ h
  refine ⟨?_, ?_⟩
  · rintro ⟨l, t, time, h1, h2, h3, h4⟩
    have hstop : it.act = .stop :=
      h6.stop.2 ⟨t, by simp [h2], Or.inr ⟨l, time, h1, h3, h4⟩⟩
    refine ⟨hstop, ?_⟩
    cases post with
    | nil => rfl
    | cons a post => exact absurd hstop (hshape.2.1 pre it _ rfl (by simp))
  · intro ha hn
    obtain ⟨t, ht, hx⟩ := (C23_missing_service o is s pre it post h).2 ha
    rcases hx with hm | ⟨l, time, h1, h2, h3⟩
    · exact absurd ⟨t, ht, hm⟩ hn
    · exact ⟨l, t, time, h1, ht, h2, h3⟩

example : ∃ s items, run { sid := 1, timeLimit := some 100 } (init { sid := 1, timeLimit := some 100 })
      [ { packet := { pid := 0x14 }, tables := [{ sourcePid := 0x14, body := .tot 99 }] },
        { packet := { pid := 0x14 }, tables := [{ sourcePid := 0x14, body := .tot 100 }] },
        { packet := { pid := 0 } } ] = .ok (s, items) ∧
    items.map (·.act) = [.drop, .stop] ∧ s.error = false := ⟨_, _, rfl, by decide, by decide⟩

/-- **C25, full statement.** -/
def C25_claim : Prop := ∀ (o : Opt) (is : List Input), ∃ r, run o (init o) is = .ok r

/-- **C25** is false: a PMT without PCR (`pcr_pid` 0x1FFF) followed by a null packet
makes the assertion in line 100 fail.  Further counterexamples: a PAT whose PMT PID is
the null PID; an EMM on PID 0 before the first PAT; a TOT section on a watched PID when
there is no time limit. -/
theorem C25_claim_false : ¬ C25_claim ∧
    (∃ o is, run o (init o) is = .error .assertFail ∧ ∃ t pat, is = [
      { packet := { pid := 0 }, tables := [t] }, { packet := { pid := 0x1FFF } }] ∧
      usablePat t = some pat) ∧
    (∃ o is, run o (init o) is = .error .assertFail ∧ ∃ t cat, is = [
      { packet := { pid := 1 }, tables := [t] }, { packet := { pid := 0 } }] ∧
      validCat t = some cat) ∧
    (∃ o is, run o (init o) is = .error .uncaught ∧ ∃ t time, is = [
      { packet := { pid := 1 }, tables := [t] }] ∧ validTot t = some time) := by
  refine ⟨?_, ?_, ?_, ?_⟩
  · intro h
    obtain ⟨r, h⟩ := h { sid := 1 } [
      { packet := { pid := 0 }, tables := [C20ex.pat] },
      { packet := { pid := 0x100 }
        tables := [{ sourcePid := 0x100
                     body := .pmt { serviceId := 1, pcrPid := 0x1FFF, streams := .empty } }] },
      { packet := { pid := 0x1FFF } }]
    cases h
  · exact ⟨{ sid := 1 }, _, rfl,
      { sourcePid := 0, body := .pat { tsId := 7, pmts := ⟨[(1, 0x1FFF)], by decide⟩ } }, _, rfl, rfl⟩
  · exact ⟨{ sid := 1 }, _, rfl,
      { sourcePid := 1, body := .cat { descs := [{ tag := 9, caPid := 0 }] } }, _, rfl, rfl⟩
  · exact ⟨{ sid := 1 }, _, rfl, { sourcePid := 1, body := .tot 0 }, _, rfl, rfl⟩

/-- **C25, what holds.**  No conforming stream makes the filter terminate abnormally,
alone or connected to a sink that does not.  Missing from the full statement: PMTs and
CATs that name PID 0 or the null PID, PATs that place the PMT on PID 0, 1, 0x14 or the
null PID, and TOT sections outside PID 0x14. -/
theorem C25_no_abort_partial (o : Opt) (is : List Input)
    (hc : ∀ i ∈ is, ∀ t ∈ i.tables, Conforming o.sid t) :
    (∃ r, run o (init o) is = .ok r) ∧
    ∀ {σ : Type} (snk : Sink Out σ) (d : σ), Total snk →
      ∃ cs b, Consumes (sink o snk) (init o, d) is cs b := by
  have h := run_total is (init o) [] hc ⟨watch_init o, by simp⟩ rfl
  exact ⟨h, fun snk d ht => sink_total ht is (init o) d h⟩

example : ∀ i ∈ C20ex.stream, ∀ t ∈ i.tables, Conforming 1 t := by
  have h1 : Conforming 1 C20ex.pat := by
    refine ⟨?_, by simp [validCat, C20ex.pat], by simp [validPmt, C20ex.pat], by simp [validTot, C20ex.pat]⟩
    intro pat hp pid hm
    simp [usablePat, C20ex.pat] at hp
    subst hp
    simp at hm
    subst hm
    decide
  have h2 : Conforming 1 C20ex.pmt := by
    refine ⟨by simp [usablePat, C20ex.pmt], by simp [validCat, C20ex.pmt], ?_, by simp [validTot, C20ex.pmt]⟩
    intro p hp pid hm
    simp [validPmt, C20ex.pmt] at hp
    subst hp
    simp [CaPid] at hm
    omega
  simp [C20ex.stream, h1, h2]

end Mirakc.Props
