import Verif.Proof.ProgramFilterTotal
/-
Properties C26-C33, C70, C71, C117: filter-program.

`PatFree` (with pre-streaming no packet of PID 0 has a PCR of the service) is a
hypothesis of most theorems: with pre-streaming, packets of PID 0 are passed on without
being looked at.
-/
set_option linter.unusedSimpArgs false

namespace Mirakc.Props
open Mirakc.Spec Mirakc.Spec.ProgramFilter Mirakc.ProgramFilter
open Mirakc.Spec.ServiceFilter (usablePat validPmt validTot latest)

namespace C26ex

/-- Every table fits into one packet. -/
def one : Pmt → Nat := fun _ => 0
/-- A PAT. -/
def pat : Table := { sourcePid := 0, body := .pat { tsId := 7, pmts := ⟨[(1, 0x100)], by decide⟩ } }
/-- The original PMT: PCR on 0x1ff, two video streams, one audio stream. -/
def pmt0 : Pmt :=
  { serviceId := 1, pcrPid := 0x1ff
    streams := ⟨[(0x111, { isVideo := true, tag := some 0 }), (0x112, { isVideo := true, tag := some 1 }),
      (0x113, { isAudio := true, tag := some 16 })], by decide⟩ }
/-- The PMT table. -/
def pmt : Table := { sourcePid := 0x100, body := .pmt pmt0 }
/-- The PMT without the second video stream. -/
def pmt1 : Pmt :=
  { serviceId := 1, pcrPid := 0x1ff
    streams := ⟨[(0x111, { isVideo := true, tag := some 0 }),
      (0x113, { isAudio := true, tag := some 16 })], by decide⟩ }
/-- An EIT: event 5 starts at 10 s and lasts 10 s. -/
def eit : Table :=
  { sourcePid := 0x12
    body := .eit { serviceId := 1, events := [{ eventId := 5, startTime := 10000, duration := 10 }] } }
/-- Options: PCR 1000 corresponds to time 0. -/
def opt : Opt := { sid := 1, eid := 5, clockPid := 0x1ff, clockPcr := 1000, clockTime := 0, videoTags := [0] }
/-- A packet with a PCR. -/
def pcr (x : Int) : Packet := { pid := 0x1ff, pcr := some x }
/-- A stream. -/
def stream : List Input :=
  [ { packet := { pid := 0, pusi := true, content := 1 }, tables := [pat] },
    { packet := { pid := 0x100 }, tables := [pmt] },
    { packet := { pid := 0x12 }, tables := [eit] },
    { packet := pcr 2000 },
    { packet := { pid := 0x111 } },
    { packet := pcr 270001000 },
    { packet := { pid := 0x111, content := 7 } },
    { packet := { pid := 0x112 } },
    { packet := { pid := 0x100 } },
    { packet := pcr 540001000 },
    { packet := { pid := 0x111 } } ]

/-- The history entry of an input all of whose tables are handled. -/
def item (i : Input) (outs : List Out := []) (more : Bool := true) : Item :=
  ⟨i.packet, i.tables, outs, more⟩
/-- The history of the stream up to the start. -/
def hist : List Item :=
  [ item { packet := { pid := 0, pusi := true, content := 1 }, tables := [pat] },
    item { packet := { pid := 0x100 }, tables := [pmt] },
    item { packet := { pid := 0x12 }, tables := [eit] },
    item { packet := pcr 2000 },
    item { packet := { pid := 0x111 } } ]
/-- The packet that starts the programme. -/
def start : Item :=
  item { packet := pcr 270001000 } [.orig { pid := 0, pusi := true, content := 1 }, .pmt 0x100 pmt1 0 0,
    .orig (pcr 270001000)]
/-- The rest. -/
def rest : List Item :=
  [ item { packet := { pid := 0x111, content := 7 } } [.orig { pid := 0x111, content := 7 }],
    item { packet := { pid := 0x112 } },
    item { packet := { pid := 0x100 } } [.pmt 0x100 pmt1 0 1],
    item { packet := pcr 540001000 } [] false ]

theorem run_stream : ∃ s, run one opt (init opt) stream = .ok (s, hist ++ start :: rest) :=
  ok_of_eval (by decide +kernel)

theorem range {evs : List Ev} (h1 : pmtsOf opt evs = [pmt0])
    (h2 : latestEvent opt evs = some { eventId := 5, startTime := 10000, duration := 10 }) :
    Range opt evs 270001000 540001000 :=
  ⟨_, 0, 1000, h2, Or.inl ⟨by rw [h1]; simp [opt, pmt0], rfl, rfl⟩, by decide, by decide⟩

theorem startCond : StartCond ReachedNoWrap opt hist start :=
  ⟨by simp [start, item], 270001000, 270001000, 540001000, ⟨pmt0, rfl, rfl, rfl⟩, range rfl rfl,
    by unfold ReachedNoWrap; omega, by unfold ReachedNoWrap; omega⟩

end C26ex

/-- **C26.**  As long as the programme has not started, nothing is output, except
packets of PID 0 when pre-streaming. -/
theorem C26_silent (extra : Pmt → Nat) (o : Opt) (is : List Input) (s : St) (pre : List Item)
    (it : Item) (post : List Item) (h : run extra o (init o) is = .ok (s, pre ++ it :: post))
    (hp : PatFree o (pre ++ it :: post)) (hs : ¬ Started ReachedNoWrap o (pre ++ [it])) :
    (o.preStreaming = false → sent (pre ++ [it]) = []) ∧
    (it.more = true → it.outs =
      if o.preStreaming = true ∧ it.packet.pid = 0 then [.orig it.packet] else []) ∧
    (it.more = false → it.outs = []) := by
  have hsp := (run_spec is _ _ [] _ (hist_init extra o) (by simpa using hp) h).1
  have key : ∀ pre' it' post', pre ++ it :: post = pre' ++ it' :: post' →
      ¬ Started ReachedNoWrap o (pre' ++ [it']) →
      (it'.more = true → it'.outs =
        if o.preStreaming = true ∧ it'.packet.pid = 0 then [.orig it'.packet] else []) ∧
      (it'.more = false → it'.outs = []) := by
    intro pre' it' post' e hs
    obtain ⟨s2, ho, _⟩ := hsp pre' it' post' e
    rw [List.nil_append] at ho
    rw [started_append] at hs
    cases ho with
    | cancelled _ ho hm => rw [ho, hm]; simp
    | ended _ _ ho hm => rw [ho, hm]; simp
    | wait _ _ _ ho hm => rw [ho, hm]; simp
    | start _ st => exact absurd (Or.inr st) hs
    | stream w => exact absurd (Or.inl w) hs
  refine ⟨?_, key pre it post rfl hs⟩
  intro hps
  simp only [sent, List.flatMap_eq_nil_iff]
  intro x hx
  have : ∃ a b, pre ++ [it] = a ++ x :: b := by
    obtain ⟨a, b, e⟩ := List.append_of_mem hx
    exact ⟨a, b, e⟩
  obtain ⟨a, b, e⟩ := this
  have hk := key a x (b ++ post) (by
    rw [show pre ++ it :: post = (pre ++ [it]) ++ post by simp, e]; simp) (by
    rintro ⟨c, y, d, e2, hsc⟩
    exact hs ⟨c, y, d ++ b, by
      rw [e, show a ++ x :: b = (a ++ [x]) ++ b by simp, e2]; simp, hsc⟩)
  cases hm : x.more with
  | true => rw [hk.1 hm, hps]; simp
  | false => exact hk.2 hm

/-- **C26**, tables.  In a conforming stream, the tables the filter has seen are those
on the PIDs of PAT, EIT and TOT and on the PMT PID according to the latest PAT. -/
theorem C26_tables (extra : Pmt → Nat) (o : Opt) (is : List Input) (s : St) (pre : List Item)
    (it : Item) (post : List Item) (hc : ∀ i ∈ is, ∀ t ∈ i.tables, Conforming o t)
    (h : run extra o (init o) is = .ok (s, pre ++ it :: post)) (hp : PatFree o (pre ++ it :: post)) :
    ∃ i, is[pre.length]? = some i ∧ i.packet = it.packet ∧
      (Watched o (events pre) it.packet.pid →
        it.handled = i.tables.filter (·.sourcePid == it.packet.pid)) ∧
      (¬ Watched o (events pre) it.packet.pid → it.handled = []) := by
  have := run_watch is _ _ [] _ hc (hist_init extra o) (by simpa using hp) (watch_init o) h
    pre it post rfl
  simpa using this

/-- The packet at index 2 of the history meets the hypotheses. -/
example : (∃ s, run C26ex.one C26ex.opt (init C26ex.opt) C26ex.stream =
      .ok (s, C26ex.hist ++ C26ex.start :: C26ex.rest)) ∧
    PatFree C26ex.opt (C26ex.hist ++ C26ex.start :: C26ex.rest) ∧
    ¬ Started ReachedNoWrap C26ex.opt (C26ex.hist.take 2 ++ [C26ex.hist[2]]) := by
  refine ⟨C26ex.run_stream, (by intro h; cases h), ?_⟩
  rintro ⟨a, x, b, e, _, pcr, _, _, ⟨pmt, h1, h2, h3⟩, _⟩
  have hx : x ∈ a ++ x :: b := by simp
  rw [← e] at hx
  simp only [C26ex.hist, List.take, List.mem_append, List.mem_cons, List.not_mem_nil, or_false,
    List.getElem_cons_succ, List.getElem_cons_zero] at hx
  rcases hx with (rfl | rfl) | rfl <;> cases h3

example : ∀ i ∈ C26ex.stream, ∀ t ∈ i.tables, Conforming C26ex.opt t := by
  have h1 : Conforming C26ex.opt C26ex.pat := by
    intro pat hp pid hm
    simp [usablePat, C26ex.pat] at hp
    subst hp
    simp [C26ex.opt] at hm
    subst hm; decide
  have h2 : Conforming C26ex.opt C26ex.pmt := by intro _ h; simp [usablePat, C26ex.pmt] at h
  have h3 : Conforming C26ex.opt C26ex.eit := by intro _ h; simp [usablePat, C26ex.eit] at h
  simp [C26ex.stream, h1, h2, h3]

/-- **C27.**  At the packet with which the programme starts, the output is the packets
of the last PAT (unless pre-streaming), one cycle of the rewritten latest PMT, and the
packet itself. -/
theorem C27_start (extra : Pmt → Nat) (o : Opt) (is : List Input) (s : St) (pre : List Item)
    (it : Item) (post : List Item) (h : run extra o (init o) is = .ok (s, pre ++ it :: post))
    (hp : PatFree o (pre ++ it :: post)) (hn : ¬ Started ReachedNoWrap o pre)
    (hs : StartCond ReachedNoWrap o pre it) :
    it.more = true ∧
    ∃ l q pmt t, (o.preStreaming = false → LastPat (packets (upto pre it)) l ∧ l ≠ []) ∧
      latestPmt o (before pre it) = some (q, pmt) ∧ PmtPid o (before pre it) q ∧
      Rewritten o pmt t ∧
      it.outs = (if o.preStreaming then [] else l.map .orig) ++
        (List.range (extra t + 1)).map (fun i => .pmt q t i i) ++ [.orig it.packet] := by
  obtain ⟨s2, ho, _⟩ := (run_spec is _ _ [] _ (hist_init extra o) (by simpa using hp) h).1 pre it post rfl
  rw [List.nil_append] at ho
  cases ho with
  | cancelled hc =>
    obtain ⟨t, ht, hc⟩ := hc
    exact absurd ⟨t, ht, (cancels_congr (by simp [hn]) t).1 hc⟩ hs.1
  | ended _ _ _ _ ns => exact absurd hs (ns hn)
  | wait w => exact absurd ((started_append _ _ _ _).2 (Or.inr hs)) w
  | start _ _ _ l hl hne q pmt t hp hq hr ho hm =>
    refine ⟨hm, l, q, pmt, t, ?_, hp, hq, hr, ?_⟩
    · intro hps
      exact ⟨hl.resolve_right (by simp [hps]), hne hps⟩
    · rw [ho]; simp [cycle]
  | stream w => exact absurd w hn

example : (∃ s, run C26ex.one C26ex.opt (init C26ex.opt) C26ex.stream =
      .ok (s, C26ex.hist ++ C26ex.start :: C26ex.rest)) ∧
    ¬ Started ReachedNoWrap C26ex.opt C26ex.hist ∧
    StartCond ReachedNoWrap C26ex.opt C26ex.hist C26ex.start := by
  refine ⟨C26ex.run_stream, ?_, C26ex.startCond⟩
  rintro ⟨a, x, b, e, _, pcr, r1, r2, ⟨pmt, h1, h2, h3⟩, hr, h4, _⟩
  obtain ⟨rfl, _⟩ : x = C26ex.hist[3] ∧ True := by
    have hx : x ∈ a ++ x :: b := by simp
    rw [← e] at hx
    simp only [C26ex.hist, List.mem_cons, List.not_mem_nil, or_false] at hx
    rcases hx with rfl | rfl | rfl | rfl | rfl
    · cases h3
    · cases h3
    · cases h3
    · exact ⟨rfl, trivial⟩
    · cases h3
  have ha : a = C26ex.hist.take 3 := by
    have hl : b.length < 6 := by
      have := congrArg List.length e
      simp [C26ex.hist] at this; omega
    rcases a with _ | ⟨y, _ | ⟨z, _ | ⟨w, _ | ⟨v, _ | ⟨u, a⟩⟩⟩⟩⟩ <;>
      simp [C26ex.hist, C26ex.item, C26ex.pcr] at e ⊢
    · simp [e]
  subst ha
  have := (range_unique hr (C26ex.range rfl rfl)).1
  subst this
  cases h3
  unfold ReachedNoWrap at h4
  omega

/-- **C28, full statement**, `R` telling when a PCR is reached.  Once the programme has
started, the stream stops exactly at the first packet with a PCR at or after the end
PCR while the clock is in sync (or at an EIT of the service without events), with no
output for that packet; every other packet is passed on unmodified, replaced by a packet
of the rewritten PMT (on the PMT PID), or dropped (on an excluded PID). -/
def C28_claim (R : Int → Int → Prop) : Prop :=
  ∀ (extra : Pmt → Nat) (o : Opt) (is : List Input) (s : St) (pre : List Item) (it : Item)
    (post : List Item), run extra o (init o) is = .ok (s, pre ++ it :: post) →
    PatFree o (pre ++ it :: post) → Started R o pre →
    (it.more = false ↔ EndCond R o pre it ∨ ∃ t ∈ it.handled, serviceEit o.sid t = some []) ∧
    (it.more = false → it.outs = [] ∧ post = []) ∧
    (it.more = true → Forwarded extra o pre it)

namespace C28ex

/-- Options: PCR 2576980000000 corresponds to time 0. -/
def opt : Opt := { sid := 1, eid := 5, clockPid := 0x1ff, clockPcr := 2576980000000, clockTime := 0 }
/-- An EIT: event 5 starts at -1 s and lasts 1 s, so it ends right before a wrap of the
PCR. -/
def eit : Table :=
  { sourcePid := 0x12
    body := .eit { serviceId := 1, events := [{ eventId := 5, startTime := -1000, duration := 1 }] } }
/-- The same, but it starts at -0.5 s, so it ends after the wrap. -/
def eit' : Table :=
  { sourcePid := 0x12
    body := .eit { serviceId := 1, events := [{ eventId := 5, startTime := -500, duration := 1 }] } }
/-- History of a stream: the PCR wraps around between the start and the end. -/
def hist : List Item :=
  [ C26ex.item { packet := { pid := 0, pusi := true }, tables := [C26ex.pat] },
    C26ex.item { packet := { pid := 0x100 }, tables := [C26ex.pmt] },
    C26ex.item { packet := { pid := 0x12 }, tables := [eit] } ]
/-- The packet that starts the programme. -/
def start : Item :=
  C26ex.item { packet := C26ex.pcr 2576979973000 }
    [.orig { pid := 0, pusi := true }, .pmt 0x100 C26ex.pmt0 0 0, .orig (C26ex.pcr 2576979973000)]
/-- The packet after the wrap. -/
def last : Item := C26ex.item { packet := C26ex.pcr 1000 } [.orig (C26ex.pcr 1000)]
/-- History of a stream joining the programme in progress, after the wrap. -/
def hist' : List Item :=
  [ C26ex.item { packet := { pid := 0, pusi := true }, tables := [C26ex.pat] },
    C26ex.item { packet := { pid := 0x100 }, tables := [C26ex.pmt] },
    C26ex.item { packet := { pid := 0x12 }, tables := [eit'] } ]
/-- The packet after the wrap. -/
def last' : Item := C26ex.item { packet := C26ex.pcr 1000 }

/-- The stream of a history. -/
def inputs (items : List Item) : List Input := items.map fun it => ⟨it.packet, it.handled⟩

theorem range {evs : List Ev} (h1 : pmtsOf opt evs = [C26ex.pmt0])
    (h2 : latestEvent opt evs = some { eventId := 5, startTime := -1000, duration := 1 }) :
    Range opt evs 2576953000000 2576980000000 :=
  ⟨_, 0, 2576980000000, h2, Or.inl ⟨by rw [h1]; simp [opt, C26ex.pmt0], rfl, rfl⟩, by decide, by decide⟩
theorem range' {evs : List Ev} (h1 : pmtsOf opt evs = [C26ex.pmt0])
    (h2 : latestEvent opt evs = some { eventId := 5, startTime := -500, duration := 1 }) :
    Range opt evs 2576966500000 13122400 :=
  ⟨_, 0, 2576980000000, h2, Or.inl ⟨by rw [h1]; simp [opt, C26ex.pmt0], rfl, rfl⟩, by decide, by decide⟩

end C28ex

/-- **C28** is false when PCRs are compared modulo the period: if the PCR wraps around
between the end PCR and the first PCR after it, the stream does not stop. -/
theorem C28_claim_false : ¬ C28_claim Reached := by
  intro h
  obtain ⟨s, hr⟩ : ∃ s, run C26ex.one C28ex.opt (init C28ex.opt)
      (C28ex.inputs (C28ex.hist ++ [C28ex.start, C28ex.last])) =
      .ok (s, (C28ex.hist ++ [C28ex.start]) ++ [C28ex.last]) := ok_of_eval (by decide +kernel)
  have h := h _ _ _ s _ C28ex.last [] hr (by intro h; cases h)
    ⟨C28ex.hist, C28ex.start, [], rfl, by simp [C28ex.start, C26ex.item],
      2576979973000, 2576953000000, 2576980000000, ⟨C26ex.pmt0, rfl, rfl, rfl⟩, C28ex.range rfl rfl,
      by unfold Reached; omega, by unfold Reached; omega⟩
  have := h.1.2 (Or.inl ⟨1000, 2576953000000, 2576980000000, ⟨C26ex.pmt0, rfl, rfl, rfl⟩,
    C28ex.range rfl rfl, by unfold Reached; omega⟩)
  cases this

/-- **C28, what holds**: the statement with PCRs compared without wrap-around. -/
theorem C28_stream_partial : C28_claim ReachedNoWrap := by
  intro extra o is s pre it post h hp hs
  obtain ⟨s2, ho, _⟩ := (run_spec is _ _ [] _ (hist_init extra o) (by simpa using hp) h).1 pre it post rfl
  have hshape := (run_shape is _ _ _ h).2.1
  have hpost : it.more = false → post = [] := by
    intro hm
    cases post with
    | nil => rfl
    | cons a post => rw [hshape pre it _ rfl (by simp)] at hm; cases hm
  have hcan : ∀ t, Cancels o True t ↔ serviceEit o.sid t = some [] := by
    intro t; simp [Cancels]
  rw [List.nil_append] at ho
  cases ho with
  | cancelled hc ho hm =>
    refine ⟨⟨fun _ => Or.inr ?_, fun _ => hm⟩, fun _ => ⟨ho, hpost hm⟩, fun h => by rw [hm] at h; cases h⟩
    obtain ⟨t, ht, hc⟩ := hc
    exact ⟨t, ht, (hcan t).1 ((cancels_congr (by simp [hs]) t).1 hc)⟩
  | ended _ he ho hm =>
    exact ⟨⟨fun _ => Or.inl he, fun _ => hm⟩, fun _ => ⟨ho, hpost hm⟩, fun h => by rw [hm] at h; cases h⟩
  | wait w => exact absurd ((started_append _ _ _ _).2 (Or.inl hs)) w
  | start w => exact absurd hs w
  | stream _ hc he ho hm =>
    have hno : it.more ≠ false := by rw [hm]; simp
    refine ⟨⟨fun h => absurd h hno, ?_⟩, fun h => absurd h hno, fun _ => ho⟩
    rintro (h | ⟨t, ht, h⟩)
    · exact absurd h he
    · exact absurd ⟨t, ht, (hcan t).2 h⟩ hc

/-- The stream of C26 meets the hypotheses. -/
example : (∃ s, run C26ex.one C26ex.opt (init C26ex.opt) C26ex.stream =
      .ok (s, (C26ex.hist ++ [C26ex.start]) ++ C26ex.rest)) ∧
    Started ReachedNoWrap C26ex.opt (C26ex.hist ++ [C26ex.start]) :=
  ⟨by simpa using C26ex.run_stream, C26ex.hist, C26ex.start, [], rfl, C26ex.startCond⟩

/-- **C28**, order.  The history covers a prefix of the input packets in order, and ends
early only when the filter refuses a packet. -/
theorem C28_order (extra : Pmt → Nat) (o : Opt) (is : List Input) (s : St) (items : List Item)
    (h : run extra o (init o) is = .ok (s, items)) :
    items.map (·.packet) = (is.take items.length).map (·.packet) ∧
    (items.length < is.length → ∃ pre it, items = pre ++ [it] ∧ it.more = false) :=
  ⟨(run_shape is _ _ _ h).1, (run_shape is _ _ _ h).2.2⟩

/-- **C28**, connected sink.  Whatever sink is connected, it receives a prefix of the
output of the history of the packets consumed; if the filter itself wants more and the
input is exhausted, nothing is missing except possibly from the last packet.  In one
case the last packet consumed is not part of the history: when the programme starts with
it, the sink refuses a packet of the PAT, and the filter would have failed after the PAT. -/
theorem C28_downstream {σ : Type} (extra : Pmt → Nat) (o : Opt) (snk : Sink Out σ)
    (is cs : List Input) (d d' : σ) (s : St) (calls : List (Call Out))
    (h : Consumes (sink extra o (logged snk)) (init o, d, []) is cs (s, d', calls)) :
    ∃ items xs rest, is = cs ++ rest ∧ calls = xs.map .handle ∧
      ((run extra o (init o) cs = .ok (s, items) ∧ items.length = cs.length ∧ xs <+: sent items ∧
        (rest = [] → (∀ it ∈ items, it.more = true) → xs = sent items ∨
          ∃ pre it, items = pre ++ [it] ∧ sent pre <+: xs)) ∨
       ∃ pre i l ys, cs = pre ++ [i] ∧ run extra o (init o) pre = .ok (s, items) ∧ items.length = pre.length ∧
        (∀ it ∈ items, it.more = true) ∧ (∃ e, run extra o s [i] = .error e) ∧ o.preStreaming = false ∧
        LastPat (packets (events items) ++ [i.packet]) l ∧ xs = sent items ++ ys.map .orig ∧ ys ≠ [] ∧ ys <+: l) := by
  obtain ⟨items, xs, rest, h1, h2, ⟨h3, h4, h5, h6⟩ | ⟨pre, i, ys, h3, h4, h5, h6, ⟨e, h7⟩, h8, h9, h10⟩⟩ := sink_consumes snk h
  · exact ⟨items, xs, rest, h1, by simpa using h2, .inl ⟨h3, h4, h5, fun e => h6 (by rw [h1, e]; simp)⟩⟩
  · refine ⟨items, xs, rest, h1, by simpa using h2, .inr ?_⟩
    rcases announced_of_run h4 h6 i with h | ⟨hps, l, hl, h⟩
    · rw [h] at h10
      exact absurd (List.prefix_nil.1 h10) h9
    · rw [h] at h10
      obtain ⟨zs, hz, rfl⟩ := List.prefix_map_iff.1 h10
      refine ⟨pre, i, l, zs, h3, h4, h5, h6, ⟨e, ?_⟩, hps, hl, h8, by simpa using h9, hz⟩
      have h7 : step extra o s i = .error e := h7
      unfold run
      rw [h7]
      rfl

/-- Comparing PCRs without wrap-around is the same as comparing them modulo the period
when they differ by less than half the period. -/
theorem C28_no_wrap (p x : Int) (h : 2 * (p - x) < 2 ^ 33 * 300) (h' : 2 * (x - p) < 2 ^ 33 * 300) :
    Reached p x ↔ ReachedNoWrap p x := reached_of_near h h'

example : 2 * ((270001000 : Int) - 540001000) < 2 ^ 33 * 300 ∧
    2 * ((540001000 : Int) - 270001000) < 2 ^ 33 * 300 := by decide

/-- **C29.**  With `e` the event as listed by the latest EIT of the service listing it,
and time `t0` corresponding to PCR `p0`, a packet with a PCR (and no cancelling table)
ends the stream if the PCR image of event end plus end margin is reached; otherwise, if
the image of event start minus start margin is reached, the packet starts the programme
or continues it; otherwise the programme does not start. -/
theorem C29_range (extra : Pmt → Nat) (o : Opt) (is : List Input) (s : St) (pre : List Item)
    (it : Item) (post : List Item) (h : run extra o (init o) is = .ok (s, pre ++ it :: post))
    (hp : PatFree o (pre ++ it :: post)) (hc : ¬ ∃ t ∈ it.handled, Cancels o False t)
    (e : Event) (t0 p0 pcr : Int)
    (he : latest (fun t => (serviceEit o.sid t).bind (listedIn o.eid)) (tables (upto pre it)) = some e)
    (hy : Sync o (upto pre it) t0 p0) (hx : HasPcr o (before pre it) it.packet pcr) :
    let a := (p0 + (e.startTime - o.startMargin - t0) * 27000) % (2 ^ 33 * 300)
    let b := (p0 + (e.startTime + e.duration * 1000 + o.endMargin - t0) * 27000) % (2 ^ 33 * 300)
    (it.more = false ↔ ReachedNoWrap pcr b) ∧
    (ReachedNoWrap pcr a → ¬ ReachedNoWrap pcr b → Started ReachedNoWrap o (pre ++ [it])) ∧
    (¬ ReachedNoWrap pcr a → ¬ Started ReachedNoWrap o pre → ¬ Started ReachedNoWrap o (pre ++ [it])) := by
  intro a b
  have hr : Range o (upto pre it) a b := ⟨e, t0, p0, he, hy, rfl, rfl⟩
  have hend : EndCond ReachedNoWrap o pre it ↔ ReachedNoWrap pcr b := by
    constructor
    · rintro ⟨pcr', a', b', h1, h2, h3⟩
      rw [hasPcr_unique hx h1, (range_unique hr h2).2]; exact h3
    · intro h; exact ⟨pcr, a, b, hx, hr, h⟩
  have hstart : StartCond ReachedNoWrap o pre it ↔ ReachedNoWrap pcr a ∧ ¬ ReachedNoWrap pcr b := by
    constructor
    · rintro ⟨_, pcr', a', b', h1, h2, h3, h4⟩
      rw [hasPcr_unique hx h1, (range_unique hr h2).1, (range_unique hr h2).2]; exact ⟨h3, h4⟩
    · rintro ⟨h1, h2⟩; exact ⟨hc, pcr, a, b, hx, hr, h1, h2⟩
  obtain ⟨s2, ho, _⟩ := (run_spec is _ _ [] _ (hist_init extra o) (by simpa using hp) h).1 pre it post rfl
  rw [List.nil_append] at ho
  refine ⟨?_, fun h1 h2 => (started_append _ _ _ _).2 (Or.inr (hstart.2 ⟨h1, h2⟩)), ?_⟩
  · rw [← hend]
    cases ho with
    | cancelled h =>
      exfalso
      obtain ⟨t, ht, h⟩ := h
      refine hc ⟨t, ht, ?_⟩
      rcases h with h | ⟨_, h⟩ | ⟨_, h⟩
      · exact Or.inl h
      · exact Or.inr (Or.inl ⟨id, h⟩)
      · exact Or.inr (Or.inr ⟨id, h⟩)
    | ended _ he _ hm => exact ⟨fun _ => he, fun _ => hm⟩
    | wait _ _ he _ hm => exact ⟨fun h => (by rw [hm] at h; cases h), fun h => absurd h he⟩
    | start _ _ he _ _ _ _ _ _ _ _ _ _ hm =>
      exact ⟨fun h => (by rw [hm] at h; cases h), fun h => absurd h he⟩
    | stream _ _ he _ hm => exact ⟨fun h => (by rw [hm] at h; cases h), fun h => absurd h he⟩
  · intro h1 h2 h3
    rcases (started_append _ _ _ _).1 h3 with h | h
    · exact h2 h
    · exact h1 (hstart.1 h).1

/-- **C29**, other EITs.  An EIT that is broken or of another service has no influence
whatsoever. -/
theorem C29_other_eit (o : Opt) (s : St) (t : Table) (eit : Eit) (hb : t.body = .eit eit)
    (h : t.valid = false ∨ eit.serviceId ≠ o.sid) : handleTable o s t = .ok s := by
  simp only [handleTable, hb, handleEit]
  rcases h with h | h
  · simp [h]
  · split
    · rfl
    · rw [if_pos (by simpa using h)]

/-- The start packet of the stream of C26 meets the hypotheses. -/
example : (∃ s, run C26ex.one C26ex.opt (init C26ex.opt) C26ex.stream =
      .ok (s, C26ex.hist ++ C26ex.start :: C26ex.rest)) ∧
    Sync C26ex.opt (upto C26ex.hist C26ex.start) 0 1000 ∧
    HasPcr C26ex.opt (before C26ex.hist C26ex.start) C26ex.start.packet 270001000 ∧
    latestEvent C26ex.opt (upto C26ex.hist C26ex.start) =
      some { eventId := 5, startTime := 10000, duration := 10 } := by
  refine ⟨C26ex.run_stream, Or.inl ⟨?_, rfl, rfl⟩, ⟨C26ex.pmt0, rfl, rfl, rfl⟩, rfl⟩
  rw [show pmtsOf C26ex.opt (upto C26ex.hist C26ex.start) = [C26ex.pmt0] from rfl]
  simp [C26ex.pmt0, C26ex.opt]

/-- When the retry flag is set. -/
theorem retry_flag {extra : Pmt → Nat} {o : Opt} {cs : List Input} {s : St} {items : List Item}
    (h1 : run extra o (init o) cs = .ok (s, items)) (hp : PatFree o items) :
    ((∃ pre it, items = pre ++ [it] ∧ ¬ Started ReachedNoWrap o pre ∧
      ∃ t ∈ it.handled, Cancels o False t) → s.retry = true) ∧
    ((¬ ∃ pre it, items = pre ++ [it] ∧ ¬ Started ReachedNoWrap o pre ∧
      ∃ t ∈ it.handled, Cancels o False t) → s.retry = false) := by
  have hs := run_spec cs _ _ [] _ (hist_init extra o) (by simpa using hp) h1
  constructor
  · rintro ⟨pre, it, rfl, hn, t, ht, hc⟩
    obtain ⟨s2, ho, he⟩ := hs.1 pre it [] rfl
    have hc' : ∃ t ∈ it.handled, Cancels o (Started ReachedNoWrap o pre) t :=
      ⟨t, ht, (cancels_congr (by simp [hn]) t).1 hc⟩
    rw [List.nil_append] at ho
    rw [he rfl] at ho
    cases ho with
    | cancelled _ _ _ hr => exact hr.2 hn
    | ended h => exact absurd hc' h
    | wait _ h => exact absurd ⟨t, ht, hc⟩ h
    | start _ st => exact absurd ⟨t, ht, hc⟩ st.1
    | stream w => exact absurd w hn
  · intro hno
    · rcases hs.2 with ⟨pre, it, rfl, hm⟩ | ⟨hr, _⟩
      · obtain ⟨s2, ho, he⟩ := hs.1 pre it [] rfl
        rw [List.nil_append] at ho
        rw [he rfl] at ho
        cases ho with
        | cancelled hc _ _ hr =>
          cases hrt : s.retry with
          | false => rfl
          | true =>
            exfalso
            have hn := hr.1 hrt
            obtain ⟨t, ht, hc⟩ := hc
            exact hno ⟨pre, it, rfl, hn, t, ht, (cancels_congr (by simp [hn]) t).1 hc⟩
        | ended _ _ _ _ _ hr => exact hr
        | wait _ _ _ _ h => rw [hm] at h; cases h
        | start _ _ _ _ _ _ _ _ _ _ _ _ _ h => rw [hm] at h; cases h
        | stream _ _ _ _ h => rw [hm] at h; cases h
      · exact hr

/-- **C30.**  The exit code is 222 when the stream was stopped, before the programme
started, by a table saying that the event is missing, cancelled or overdue; otherwise it
is the exit code of the connected sink.  In the second case the sink refused the PAT
(see C28). -/
theorem C30_exit_code {σ : Type} (extra : Pmt → Nat) (o : Opt) (snk : Sink Out σ)
    (is cs : List Input) (d d' : σ) (s : St) (calls : List (Call Out))
    (h : Consumes (sink extra o (logged snk)) (init o, d, []) is cs (s, d', calls)) :
    ∃ items, (run extra o (init o) cs = .ok (s, items) ∧ items.length = cs.length ∧
      (PatFree o items →
        ((∃ pre it, items = pre ++ [it] ∧ ¬ Started ReachedNoWrap o pre ∧
          ∃ t ∈ it.handled, Cancels o False t) → (sink extra o snk).exitCode (s, d') = 222) ∧
        ((¬ ∃ pre it, items = pre ++ [it] ∧ ¬ Started ReachedNoWrap o pre ∧
          ∃ t ∈ it.handled, Cancels o False t) →
          (sink extra o snk).exitCode (s, d') = snk.exitCode d'))) ∨
      ∃ pre i, cs = pre ++ [i] ∧ run extra o (init o) pre = .ok (s, items) ∧ items.length = pre.length ∧
        (∀ it ∈ items, it.more = true) ∧ (∃ e, run extra o s [i] = .error e) ∧ o.preStreaming = false ∧
        (sink extra o snk).exitCode (s, d') = snk.exitCode d' := by
  obtain ⟨items, xs, rest, _, _, ⟨h1, h2, _⟩ | ⟨pre, i, l, ys, h1, h2, h3, h4, h5, h6, _⟩⟩ := C28_downstream extra o snk is cs d d' s calls h
  · refine ⟨items, .inl ⟨h1, h2, fun hp => ?_⟩⟩
    have := retry_flag h1 hp
    constructor
    · intro h
      have e := this.1 h
      simp only [sink, e, if_true, exitRetry]
    · intro h
      have e := this.2 h
      simp only [sink, e, Bool.false_eq_true, if_false]
  · refine ⟨items, .inr ⟨pre, i, h1, h2, h3, h4, h5, h6, ?_⟩⟩
    have e := (run_hist h6 pre _ _ [] items (hist_init extra o) h2 h4).retry
    simp only [sink, e, Bool.false_eq_true, if_false]

/-- **C30**, stop.  A cancelling table stops the stream at once, with no output. -/
theorem C30_stop (extra : Pmt → Nat) (o : Opt) (is : List Input) (s : St) (pre : List Item)
    (it : Item) (post : List Item) (h : run extra o (init o) is = .ok (s, pre ++ it :: post))
    (hp : PatFree o (pre ++ it :: post)) (hn : ¬ Started ReachedNoWrap o pre)
    (hc : ∃ t ∈ it.handled, Cancels o False t) : it.more = false ∧ it.outs = [] ∧ post = [] := by
  obtain ⟨s2, ho, _⟩ := (run_spec is _ _ [] _ (hist_init extra o) (by simpa using hp) h).1 pre it post rfl
  have hshape := (run_shape is _ _ _ h).2.1
  rw [List.nil_append] at ho
  obtain ⟨t, ht, hc⟩ := hc
  cases ho with
  | cancelled _ ho hm =>
    refine ⟨hm, ho, ?_⟩
    cases post with
    | nil => rfl
    | cons a post => rw [hshape pre it _ rfl (by simp)] at hm; cases hm
  | ended h => exact absurd ⟨t, ht, (cancels_congr (by simp [hn]) t).1 hc⟩ h
  | wait _ h => exact absurd ⟨t, ht, hc⟩ h
  | start _ st => exact absurd ⟨t, ht, hc⟩ st.1
  | stream w => exact absurd w hn

example : ∃ s items, run C26ex.one { C26ex.opt with eid := 6 } (init { C26ex.opt with eid := 6 })
      C26ex.stream = .ok (s, items) ∧ items.map (·.more) = [true, true, false] ∧ s.retry = true :=
  ⟨_, _, rfl, by decide, by decide⟩

/-- **C31, full statement** of the part about packets: once the programme has started, no
packet of an excluded PID is output while the PMT that excludes it is in force. -/
def C31_claim : Prop :=
  ∀ (extra : Pmt → Nat) (o : Opt) (is : List Input) (s : St) (pre : List Item) (it : Item)
    (post : List Item), run extra o (init o) is = .ok (s, pre ++ it :: post) →
    PatFree o (pre ++ it :: post) → Started ReachedNoWrap o (pre ++ [it]) →
    ExcludedPid o (before pre it) it.packet.pid → .orig it.packet ∉ it.outs

/-- A PMT with the PCR on the PID of a video stream. -/
def C31ex.pmt : Table :=
  { sourcePid := 0x100
    body := .pmt { serviceId := 1, pcrPid := 0x1ff
                   streams := ⟨[(0x1ff, { isVideo := true, tag := some 1 })], by decide⟩ } }

/-- **C31** is false: when the PCR is on an excluded PID, the packet that starts the
programme and packets without a PCR are output. -/
theorem C31_claim_false : ¬ C31_claim := by
  intro h
  let hist := C28ex.hist.take 1 ++ [C26ex.item { packet := { pid := 0x100 }, tables := [C31ex.pmt] },
    C26ex.item { packet := { pid := 0x12 }, tables := [C26ex.eit] }]
  let pmt : Pmt := { serviceId := 1, pcrPid := 0x1ff, streams := ⟨[], by decide⟩ }
  let start := C26ex.item { packet := C26ex.pcr 270001000 }
    [.orig { pid := 0, pusi := true }, .pmt 0x100 pmt 0 0, .orig (C26ex.pcr 270001000)]
  let last := C26ex.item { packet := { pid := 0x1ff } } [.orig { pid := 0x1ff }]
  obtain ⟨s, hr⟩ : ∃ s, run C26ex.one C26ex.opt (init C26ex.opt)
      (C28ex.inputs (hist ++ [start, last])) = .ok (s, (hist ++ [start]) ++ [last]) :=
    ok_of_eval (by decide +kernel)
  have h := h _ _ _ s _ last [] hr (by intro h; cases h)
    ⟨hist, start, [last], rfl, by simp [start, C26ex.item],
      270001000, 270001000, 540001000, ⟨_, rfl, rfl, rfl⟩,
      ⟨{ eventId := 5, startTime := 10000, duration := 10 }, 0, 1000, rfl, Or.inl ⟨by
        intro pmt hm
        have : pmt ∈ [({ serviceId := 1, pcrPid := 0x1ff
                         streams := ⟨[(0x1ff, { isVideo := true, tag := some 1 })], by decide⟩ } : Pmt)] := hm
        simp at this
        subst this; rfl, rfl, rfl⟩, by decide, by decide⟩,
      by unfold ReachedNoWrap; omega, by unfold ReachedNoWrap; omega⟩
    ⟨_, { isVideo := true, tag := some 1 }, rfl, List.mem_singleton.2 rfl,
      Or.inl ⟨rfl, by decide, by decide⟩⟩
  exact h (List.mem_singleton.2 rfl)

/-- **C31, what holds.**  Every PMT section output is the latest PMT of the service with
exactly the excluded streams removed; once the programme has started, no packet of an
excluded PID other than the PCR PID is output, and a packet of any other PID is not
dropped (a packet of the PMT PID is replaced).  Missing from the full statement: excluded
PIDs that carry the PCR. -/
theorem C31_selection_partial (extra : Pmt → Nat) (o : Opt) (is : List Input) (s : St)
    (pre : List Item) (it : Item) (post : List Item)
    (h : run extra o (init o) is = .ok (s, pre ++ it :: post)) (hp : PatFree o (pre ++ it :: post)) :
    (∀ q t n, .pmt q t 0 n ∈ it.outs →
      ∃ pmt, latestPmt o (before pre it) = some (q, pmt) ∧ Rewritten o pmt t) ∧
    (Started ReachedNoWrap o (pre ++ [it]) → ExcludedPid o (before pre it) it.packet.pid →
      (∀ pmt, (pmtsOf o (before pre it)).getLast? = some pmt → it.packet.pid ≠ pmt.pcrPid) →
      .orig it.packet ∉ it.outs) ∧
    (Started ReachedNoWrap o pre → it.more = true → ¬ ExcludedPid o (before pre it) it.packet.pid →
      it.outs = [.orig it.packet] ∨
      (PmtPid o (before pre it) it.packet.pid ∧ ∃ t i n, it.outs = [.pmt it.packet.pid t i n])) := by
  obtain ⟨s2, ho, _⟩ := (run_spec is _ _ [] _ (hist_init extra o) (by simpa using hp) h).1 pre it post rfl
  rw [List.nil_append] at ho
  cases ho with
  | cancelled _ ho hm => rw [ho, hm]; simp
  | ended _ _ ho hm => rw [ho, hm]; simp
  | wait w _ _ ho =>
    refine ⟨?_, fun h => absurd h w, fun h => absurd ((started_append _ _ _ _).2 (Or.inl h)) w⟩
    intro q t n hm
    rw [ho] at hm
    split at hm <;> simp at hm
  | start w st _ l hl hne q pmt t hlp hq hr ho =>
    refine ⟨?_, ?_, fun h => absurd h w⟩
    · intro q' t' n hm
      rw [ho] at hm
      simp only [List.mem_append, cycle, List.mem_map, List.mem_range, Out.pmt.injEq,
        List.mem_singleton, reduceCtorEq, or_false] at hm
      rcases hm with hm | ⟨i, _, rfl, rfl, _⟩
      · split at hm <;> simp at hm
      · exact ⟨pmt, hlp, hr⟩
    · intro _ _ hne
      obtain ⟨_, pcr, a, b, ⟨pm, h1, h2, _⟩, _⟩ := st
      exact absurd h2 (hne pm h1)
  | stream w _ _ ho =>
    rcases ho with ⟨⟨pm, h1, h2, _⟩, ho⟩ | ⟨_, (⟨hpp, q, pmt, t, i, n, hlp, rfl, ho, _, hr⟩ | ⟨_, hx, ho⟩ | ⟨_, hx, ho⟩)⟩
    · refine ⟨by simp [ho], fun _ _ hne => absurd h2 (hne pm h1), fun _ _ _ => Or.inl ho⟩
    · refine ⟨?_, by simp [ho], fun _ _ _ => Or.inr ⟨hpp, t, i, n, ho⟩⟩
      intro q' t' n' hm
      rw [ho] at hm
      simp only [List.mem_singleton, Out.pmt.injEq] at hm
      obtain ⟨rfl, rfl, rfl, rfl⟩ := hm
      exact ⟨pmt, hlp, hr rfl⟩
    · exact ⟨by simp [ho], by simp [ho], fun _ _ h => absurd hx h⟩
    · exact ⟨by simp [ho], fun _ h => absurd h hx, fun _ _ _ => Or.inl ho⟩

example : Rewritten C26ex.opt C26ex.pmt0 C26ex.pmt1 := by
  refine ⟨rfl, rfl, rfl, rfl, ?_⟩
  intro pid st
  simp only [C26ex.pmt0, C26ex.pmt1, List.mem_cons, Prod.mk.injEq, List.not_mem_nil, or_false, Excluded,
    C26ex.opt]
  grind

/-- **C32, full statement.** -/
def C32_claim : Prop :=
  ∀ (extra : Pmt → Nat) (o : Opt) (is : List Input), ∃ r, run extra o (init o) is = .ok r

/-- **C32** is false.  Counterexamples: a PAT that does not list the service; a PAT that
moves the PMT to another PID before a packet of the new PMT; a PCR above the maximum; a
PMT on PID 0x14 that makes the programme start before any PAT was received; a margin of more than
10825 years. -/
theorem C32_claim_false : ¬ C32_claim ∧
    (∃ extra o is, run extra o (init o) is = .error .assertFail ∧ ∃ t pat, is = [
      { packet := { pid := 0 }, tables := [t] }] ∧ usablePat t = some pat) ∧
    (∃ extra o is t, run extra o (init o) is = .error .assertFail ∧ usablePat t ≠ none ∧
      is = C26ex.stream.take 6 ++ [{ packet := { pid := 0 }, tables := [t] },
        { packet := { pid := 0x101 } }]) ∧
    (∃ extra o is x, run extra o (init o) is = .error .assertFail ∧
      is = C26ex.stream.take 3 ++ [{ packet := C26ex.pcr x }] ∧ x < 2 ^ 33 * 300 + 212) ∧
    (∃ extra o is, run extra o (init o) is = .error .assertFail ∧
      is = [{ packet := { pid := 0x14 }, tables := [{ C26ex.pmt with sourcePid := 0x14 }] },
        { packet := { pid := 0x12 }, tables := [C26ex.eit] },
        { packet := C26ex.pcr 270001000 }]) ∧
    (∃ extra o, run extra o (init o) C26ex.stream = .error .overflow ∧
      o = { C26ex.opt with endMargin := 341700000000000 }) := by
  refine ⟨?_, ?_, ?_, ?_, ?_, ?_⟩
  · intro h
    obtain ⟨r, h⟩ := h C26ex.one { C26ex.opt with sid := 2 } C26ex.stream
    cases h
  · exact ⟨C26ex.one, { C26ex.opt with sid := 2 }, _, rfl, C26ex.pat, _, rfl, rfl⟩
  · exact ⟨C26ex.one, C26ex.opt, _,
      { sourcePid := 0, body := .pat { tsId := 7, pmts := ⟨[(1, 0x101)], by decide⟩ } },
      error_of_eval (by decide +kernel), by decide, rfl⟩
  · exact ⟨C26ex.one, C26ex.opt, _, 2 ^ 33 * 300, error_of_eval (by decide +kernel), rfl, by decide⟩
  · exact ⟨C26ex.one, C26ex.opt, _, error_of_eval (by decide +kernel), rfl⟩
  · exact ⟨C26ex.one, _, error_of_eval (by decide +kernel), rfl⟩

/-- **C32, what holds.**  If the clock PCR given is valid, the PCRs in the stream are
valid, and PATs list the service always with the same PMT PID (not that of PAT, EIT, TOT
or null packets), on which alone the PMT of the service is found, and times and margins are within
2500 years, then the filter does not terminate abnormally, alone or connected to a sink that does not.  Missing from the
full statement: PATs that move the PMT to another PID, which do happen, and broken
streams. -/
theorem C32_no_abort_partial (extra : Pmt → Nat) (o : Opt) (is : List Input) (pmtPid : Nat)
    (hP : pmtPid ≠ 0 ∧ pmtPid ≠ 0x12 ∧ pmtPid ≠ 0x14 ∧ pmtPid ≠ 0x1FFF)
    (ho : 0 ≤ o.clockPcr ∧ o.clockPcr < 2 ^ 33 * 300)
    (hn : Near o.clockTime ∧ Near o.startMargin ∧ Near o.endMargin)
    (hc : ∀ i ∈ is, (∀ t ∈ i.tables, Regular o pmtPid t) ∧
      ∀ x, i.packet.pcr = some x → 0 ≤ x ∧ x < 2 ^ 33 * 300) :
    (∃ r, run extra o (init o) is = .ok r) ∧
    ∀ {σ : Type} (snk : Sink Out σ) (d : σ), Total snk →
      ∃ cs b, Consumes (sink extra o snk) (init o, d) is cs b := by
  have hv : ∀ x : Int, 0 ≤ x ∧ x < 2 ^ 33 * 300 → isValidPcr x = true := by
    intro x hx; rw [isValidPcr_iff]; omega
  have h := run_safe (extra := extra) ⟨hP.1, hP.2.1, hP.2.2.1⟩ hn.2 is (init o)
    (fun i hi => ⟨(hc i hi).1, fun x hx => hv x ((hc i hi).2 x hx)⟩)
    (safe_init pmtPid hP.2.2.2 (hv _ ho) hn.1)
  exact ⟨h, fun snk d ht => sink_total ht is (init o) d h⟩

example : ∀ i ∈ C26ex.stream, (∀ t ∈ i.tables, Regular C26ex.opt 0x100 t) ∧
    ∀ x, i.packet.pcr = some x → 0 ≤ x ∧ x < 2 ^ 33 * 300 := by
  have h1 : Regular C26ex.opt 0x100 C26ex.pat := by
    refine ⟨?_, by simp [validPmt, C26ex.pat], by simp [validTot, C26ex.pat], by simp [serviceEit, C26ex.pat]⟩
    intro pat hp
    simp [usablePat, C26ex.pat] at hp
    subst hp; decide
  have h2 : Regular C26ex.opt 0x100 C26ex.pmt := by
    refine ⟨by simp [usablePat, C26ex.pmt], ?_, by simp [validTot, C26ex.pmt], by simp [serviceEit, C26ex.pmt]⟩
    intro _ _; rfl
  have h3 : Regular C26ex.opt 0x100 C26ex.eit :=
    ⟨by simp [usablePat, C26ex.eit], by simp [validPmt, C26ex.eit], by simp [validTot, C26ex.eit],
      by simp [serviceEit, C26ex.eit, Near]⟩
  simp [C26ex.stream, h1, h2, h3, C26ex.pcr]

/-- **C33.**  After the PCR PID has changed at a PMT, as long as no TOT or no PCR on the
new PID has been received since, the stream neither starts nor stops: a packet (without
cancelling table) is refused under no circumstances, and starts nothing. -/
theorem C33_resync (extra : Pmt → Nat) (o : Opt) (is : List Input) (s : St) (pre : List Item)
    (it : Item) (post : List Item) (h : run extra o (init o) is = .ok (s, pre ++ it :: post))
    (hp : PatFree o (pre ++ it :: post)) (a since : List Ev) (t : Table) (pid : Nat)
    (he : upto pre it = a ++ [.tab t] ++ since) (hch : Changed o a t since pid)
    (hw : totsOf since = [] ∨ ∀ p ∈ packets since, p.pid = pid → p.pcr = none)
    (hc : ¬ ∃ t ∈ it.handled, Cancels o False t) :
    it.more = true ∧ (Started ReachedNoWrap o (pre ++ [it]) ↔ Started ReachedNoWrap o pre) ∧
    (¬ Started ReachedNoWrap o pre → it.outs =
      if o.preStreaming = true ∧ it.packet.pid = 0 then [.orig it.packet] else []) := by
  have hr : ∀ x y, ¬ Range o (upto pre it) x y := by
    intro x y; rw [he]; exact no_range hch hw x y
  have hs : ¬ StartCond ReachedNoWrap o pre it := by
    rintro ⟨_, _, x, y, _, h, _⟩; exact hr x y h
  have hnd : ¬ EndCond ReachedNoWrap o pre it := by
    rintro ⟨_, x, y, _, h, _⟩; exact hr x y h
  obtain ⟨s2, ho, _⟩ := (run_spec is _ _ [] _ (hist_init extra o) (by simpa using hp) h).1 pre it post rfl
  rw [List.nil_append] at ho
  have hst : Started ReachedNoWrap o (pre ++ [it]) ↔ Started ReachedNoWrap o pre := by
    rw [started_append]; simp [hs]
  cases ho with
  | cancelled h =>
    exfalso
    obtain ⟨t, ht, h⟩ := h
    refine hc ⟨t, ht, ?_⟩
    rcases h with h | ⟨_, h⟩ | ⟨_, h⟩
    · exact Or.inl h
    · exact Or.inr (Or.inl ⟨id, h⟩)
    · exact Or.inr (Or.inr ⟨id, h⟩)
  | ended _ he => exact absurd he hnd
  | wait _ _ _ ho hm => exact ⟨hm, hst, fun _ => ho⟩
  | start _ st => exact absurd st hs
  | stream w _ _ _ hm => exact ⟨hm, hst, fun h => absurd w h⟩

example : Changed { C26ex.opt with clockPid := 0x200 } [.pkt { pid := 0 }] C26ex.pmt
    [.pkt { pid := 0x100 }, .pkt (C26ex.pcr 5)] 0x1ff :=
  ⟨⟨C26ex.pmt0, rfl, rfl⟩, by decide, by simp [pmtsOf, tables]⟩

/-- **C70, full statement.**  When the PCR PID has changed and the clock is synchronised
again by a TOT and a PCR next to it, the programme starts with the first PCR in the
range computed from that pair. -/
def C70_claim : Prop :=
  ∀ (extra : Pmt → Nat) (o : Opt) (is : List Input) (s : St) (pre : List Item) (it : Item)
    (post : List Item), run extra o (init o) is = .ok (s, pre ++ it :: post) →
    PatFree o (pre ++ it :: post) → (¬ ∃ t ∈ it.handled, Cancels o False t) →
    ∀ e t0 p0 pcr, latestEvent o (upto pre it) = some e → SyncAll o (upto pre it) t0 p0 →
    HasPcr o (before pre it) it.packet pcr →
    ReachedNoWrap pcr (image t0 p0 (e.startTime - o.startMargin)) →
    ¬ ReachedNoWrap pcr (image t0 p0 (e.startTime + e.duration * 1000 + o.endMargin)) →
    .orig it.packet ∈ it.outs

/-- **C70** is false: PCRs are ignored until the event is known, so a TOT received
before the EIT is paired with a PCR received much later. -/
theorem C70_claim_false : ¬ C70_claim := by
  intro h
  let hist := C28ex.hist.take 2 ++ [
    C26ex.item { packet := { pid := 0x14 }, tables := [{ sourcePid := 0x14, body := .tot 0 }] },
    C26ex.item { packet := C26ex.pcr 1000 },
    C26ex.item { packet := { pid := 0x12 }, tables := [C26ex.eit] }]
  let last := C26ex.item { packet := C26ex.pcr 270001000 }
  obtain ⟨s, hr⟩ : ∃ s, run C26ex.one { sid := 1, eid := 5 } (init { sid := 1, eid := 5 })
      (C28ex.inputs (hist ++ [last])) = .ok (s, hist ++ [last]) := ok_of_eval (by decide +kernel)
  have h := h _ _ _ s _ last [] hr (by intro h; cases h) (by simp [last, C26ex.item])
    { eventId := 5, startTime := 10000, duration := 10 } 0 1000 270001000 rfl
    (Or.inr ⟨[.tab C26ex.pat, .pkt { pid := 0, pusi := true }], C26ex.pmt, [.pkt { pid := 0x100 }],
      { sourcePid := 0x14, body := .tot 0 },
      [.pkt { pid := 0x14 }, .pkt (C26ex.pcr 1000), .tab C26ex.eit, .pkt { pid := 0x12 },
        .pkt (C26ex.pcr 270001000)], 0x1ff, rfl,
      ⟨⟨C26ex.pmt0, rfl, rfl⟩, by decide, by
        intro pmt hm
        have : pmt ∈ ([] : List Pmt) := hm
        simp at this⟩, rfl, rfl, Or.inr ⟨by decide, by decide⟩⟩)
    ⟨C26ex.pmt0, rfl, rfl, rfl⟩ (by unfold ReachedNoWrap image; decide)
    (by unfold ReachedNoWrap image; decide)
  simp [last, C26ex.item] at h

/-- **C70, what holds**: the statement when the event was known before the PCR PID
changed, or when the PCR PID never changed. -/
theorem C70_resync_partial (extra : Pmt → Nat) (o : Opt) (is : List Input) (s : St)
    (pre : List Item) (it : Item) (post : List Item)
    (h : run extra o (init o) is = .ok (s, pre ++ it :: post)) (hp : PatFree o (pre ++ it :: post))
    (hc : ¬ ∃ t ∈ it.handled, Cancels o False t) (e : Event) (t0 p0 pcr : Int)
    (hk : ∀ a t since pid, upto pre it = a ++ [.tab t] ++ since → Changed o a t since pid →
      latestEvent o a ≠ none)
    (he : latestEvent o (upto pre it) = some e) (hy : SyncAll o (upto pre it) t0 p0)
    (hx : HasPcr o (before pre it) it.packet pcr)
    (h1 : ReachedNoWrap pcr (image t0 p0 (e.startTime - o.startMargin)))
    (h2 : ¬ ReachedNoWrap pcr (image t0 p0 (e.startTime + e.duration * 1000 + o.endMargin)))
    (hn : ¬ Started ReachedNoWrap o pre) :
    Started ReachedNoWrap o (pre ++ [it]) ∧ .orig it.packet ∈ it.outs := by
  have hy' : Sync o (upto pre it) t0 p0 := by
    rcases hy with hy | ⟨a, t, x, tot, y, pid, e1, h1, h2, h3, h4⟩
    · exact Or.inl hy
    · have hev := hk a t (x ++ [.tab tot] ++ y) pid (by rw [e1]; simp) h1
      refine Or.inr ⟨a, t, x, tot, y, pid, e1, h1, h2, h3, ?_⟩
      rw [pcrsOn_all (latestEvent_append hev _)]
      rw [show a ++ [Ev.tab t] ++ x ++ [Ev.tab tot] = a ++ ([.tab t] ++ x ++ [.tab tot]) by simp,
        pcrsOn_all (latestEvent_append hev _)]
      exact h4
  have hst : StartCond ReachedNoWrap o pre it :=
    ⟨hc, pcr, _, _, hx, ⟨e, t0, p0, he, hy', rfl, rfl⟩, h1, h2⟩
  refine ⟨(started_append _ _ _ _).2 (Or.inr hst), ?_⟩
  obtain ⟨_, l, q, pmt, t, _, _, _, _, ho⟩ := C27_start extra o is s pre it post h hp hn hst
  rw [ho]; simp

example : SyncAll C26ex.opt [.tab C26ex.pmt, .pkt (C26ex.pcr 5)] 0 1000 :=
  Or.inl ⟨by
    intro pmt hm
    have : pmt ∈ [C26ex.pmt0] := hm
    simp at this
    subst this; rfl, rfl, rfl⟩

/-- **C71, full statement.**  The programme starts with the first packet carrying a PCR
at or after the start PCR and before the end PCR, PCRs compared modulo the period. -/
def C71_claim : Prop :=
  ∀ (extra : Pmt → Nat) (o : Opt) (is : List Input) (s : St) (pre : List Item) (it : Item)
    (post : List Item), run extra o (init o) is = .ok (s, pre ++ it :: post) →
    PatFree o (pre ++ it :: post) → StartCond Reached o pre it → ¬ Started Reached o pre →
    .orig it.packet ∈ it.outs

/-- **C71** is false: when the PCR has wrapped around between the start PCR and the PCR
at which the stream is joined, the programme does not start. -/
theorem C71_claim_false : ¬ C71_claim := by
  intro h
  obtain ⟨s, hr⟩ : ∃ s, run C26ex.one C28ex.opt (init C28ex.opt)
      (C28ex.inputs (C28ex.hist' ++ [C28ex.last'])) = .ok (s, C28ex.hist' ++ [C28ex.last']) :=
    ok_of_eval (by decide +kernel)
  have h := h _ _ _ s _ C28ex.last' [] hr (by intro h; cases h)
    ⟨by simp [C28ex.last', C26ex.item], 1000, 2576966500000, 13122400, ⟨C26ex.pmt0, rfl, rfl, rfl⟩,
      C28ex.range' rfl rfl, by unfold Reached; omega, by unfold Reached; omega⟩
    (by
      rintro ⟨a, x, b, e, _, pcr, _, _, ⟨pmt, h1, h2, h3⟩, _⟩
      have hx : x ∈ a ++ x :: b := by simp
      rw [← e] at hx
      simp only [C28ex.hist', List.mem_cons, List.not_mem_nil, or_false] at hx
      rcases hx with rfl | rfl | rfl <;> cases h3)
  simp [C28ex.last', C26ex.item] at h

/-- **C71, what holds**: the statement when the PCR is within half the period of start
and end PCR, without wrap-around. -/
theorem C71_start_partial (extra : Pmt → Nat) (o : Opt) (is : List Input) (s : St)
    (pre : List Item) (it : Item) (post : List Item)
    (h : run extra o (init o) is = .ok (s, pre ++ it :: post)) (hp : PatFree o (pre ++ it :: post))
    (hs : StartCond Reached o pre it) (hn : ¬ Started ReachedNoWrap o pre)
    (hw : ∀ pcr a b, HasPcr o (before pre it) it.packet pcr → Range o (upto pre it) a b →
      2 * (pcr - a) < 2 ^ 33 * 300 ∧ 2 * (a - pcr) < 2 ^ 33 * 300 ∧
      2 * (pcr - b) < 2 ^ 33 * 300 ∧ 2 * (b - pcr) < 2 ^ 33 * 300) :
    .orig it.packet ∈ it.outs := by
  obtain ⟨hc, pcr, a, b, h1, h2, h3, h4⟩ := hs
  obtain ⟨w1, w2, w3, w4⟩ := hw pcr a b h1 h2
  obtain ⟨_, l, q, pmt, t, _, _, _, _, ho⟩ := C27_start extra o is s pre it post h hp hn
    ⟨hc, pcr, a, b, h1, h2, (reached_of_near w1 w2).1 h3, fun h => h4 ((reached_of_near w3 w4).2 h)⟩
  rw [ho]; simp

/-- The stream of C26 meets the hypotheses. -/
example : (∃ s, run C26ex.one C26ex.opt (init C26ex.opt) C26ex.stream =
      .ok (s, C26ex.hist ++ C26ex.start :: C26ex.rest)) ∧
    StartCond Reached C26ex.opt C26ex.hist C26ex.start :=
  ⟨C26ex.run_stream, by simp [C26ex.start, C26ex.item], 270001000, 270001000, 540001000,
    ⟨C26ex.pmt0, rfl, rfl, rfl⟩, C26ex.range rfl rfl, by unfold Reached; omega, by unfold Reached; omega⟩

/-- **C117**  What filter-program does with a packet, exactly: a packet with a cancelling
table ends the output, then one with a PCR at which the end is reached; otherwise, before
the programme has started, the packet starts it or is waited for (with pre-streaming a
packet of PID 0 is passed on), and afterwards it is passed on, replaced or dropped as
`Forwarded` says.  PCRs are compared without wrap-around, only PCRs received while the
event is known are used for the clock, and a packet on the PCR PID is passed on even if
the PID is excluded when it has no PCR or the clock is not in sync. -/
theorem C117_packet_rule (extra : Pmt → Nat) (o : Opt) (is : List Input) (s : St)
    (pre : List Item) (it : Item) (post : List Item)
    (h : run extra o (init o) is = .ok (s, pre ++ it :: post)) (hp : PatFree o (pre ++ it :: post)) :
    ((∃ t ∈ it.handled, Cancels o (Started ReachedNoWrap o pre) t) →
      it.outs = [] ∧ it.more = false) ∧
    ((¬ ∃ t ∈ it.handled, Cancels o (Started ReachedNoWrap o pre) t) →
      (EndCond ReachedNoWrap o pre it → it.outs = [] ∧ it.more = false) ∧
      (¬ EndCond ReachedNoWrap o pre it → it.more = true ∧
        (¬ Started ReachedNoWrap o pre → ¬ StartCond ReachedNoWrap o pre it →
          it.outs = if o.preStreaming = true ∧ it.packet.pid = 0 then [.orig it.packet] else []) ∧
        (¬ Started ReachedNoWrap o pre → StartCond ReachedNoWrap o pre it →
          ∃ l q pmt t, (o.preStreaming = false → LastPat (packets (upto pre it)) l ∧ l ≠ []) ∧
            latestPmt o (before pre it) = some (q, pmt) ∧ PmtPid o (before pre it) q ∧
            Rewritten o pmt t ∧
            it.outs = (if o.preStreaming then [] else l.map .orig) ++ cycle extra q t 0 ++
              [.orig it.packet]) ∧
        (Started ReachedNoWrap o pre → Forwarded extra o pre it))) := by
  obtain ⟨s2, ho, _⟩ := (run_spec is _ _ [] _ (hist_init extra o) (by simpa using hp) h).1 pre it post rfl
  rw [List.nil_append] at ho
  have hcan : ∀ {q : Prop}, ¬ q → (∃ t ∈ it.handled, Cancels o q t) →
      ∃ t ∈ it.handled, Cancels o False t := by
    intro q hq h
    rw [eq_false hq] at h; exact h
  have hcan' : ∀ {q : Prop}, q → (∃ t ∈ it.handled, Cancels o q t) →
      ∃ t ∈ it.handled, Cancels o True t := by
    intro q hq h
    rw [eq_true hq] at h; exact h
  cases ho with
  | cancelled hc ho hm => exact ⟨fun _ => ⟨ho, hm⟩, fun hn => absurd hc hn⟩
  | ended hc e ho hm _ => exact ⟨fun h => absurd h hc, fun _ => ⟨fun _ => ⟨ho, hm⟩, fun h => absurd e h⟩⟩
  | wait w hc e ho hm =>
    have hw : ¬ Started ReachedNoWrap o pre := fun h => w ((started_append _ _ _ _).2 (.inl h))
    refine ⟨fun h => absurd (hcan hw h) hc, fun _ => ⟨fun h => absurd h e, fun _ => ⟨hm, ?_, ?_, ?_⟩⟩⟩
    · exact fun _ _ => ho
    · exact fun _ h => absurd ((started_append _ _ _ _).2 (.inr h)) w
    · exact fun h => absurd h hw
  | start w st e l hl hne q pmt t hlp hq hr ho hm =>
    refine ⟨fun h => absurd (hcan w h) st.1, fun _ => ⟨fun h => absurd h e, fun _ => ⟨hm, ?_, ?_, ?_⟩⟩⟩
    · exact fun _ h => absurd st h
    · refine fun _ _ => ⟨l, q, pmt, t, fun hps => ⟨?_, hne hps⟩, hlp, hq, hr, ho⟩
      rcases hl with hl | hl
      · exact hl
      · rw [hps] at hl; cases hl
    · exact fun h => absurd h w
  | stream w hc e ho hm =>
    refine ⟨fun h => absurd (hcan' w h) hc, fun _ => ⟨fun h => absurd h e, fun _ => ⟨hm, ?_, ?_, ?_⟩⟩⟩
    · exact fun h => absurd w h
    · exact fun h => absurd w h
    · exact fun _ => ho

/-- The stream of C26 meets the hypotheses. -/
example : (∃ s, run C26ex.one C26ex.opt (init C26ex.opt) C26ex.stream =
      .ok (s, C26ex.hist ++ C26ex.start :: C26ex.rest)) ∧
    PatFree C26ex.opt (C26ex.hist ++ C26ex.start :: C26ex.rest) ∧
    StartCond ReachedNoWrap C26ex.opt C26ex.hist C26ex.start :=
  ⟨C26ex.run_stream, (by intro h; cases h), C26ex.startCond⟩

/-- **C15**, for filter-program: the PCR computed for a time is valid and congruent to
the clock PCR plus 27000 ticks per millisecond of difference, if the computation can be done with
64 bits, and otherwise none is computed. -/
theorem C15_program_filter (s : St) (h1 : s.clockPcrReady = true) (h2 : s.clockTimeReady = true)
    (h3 : 0 ≤ s.clockPcr ∧ s.clockPcr < 2 ^ 33 * 300) (t : Int) :
    (Convertible s.clockTime s.clockPcr t → ∃ r, convertTimeToPcr s t = .ok r ∧ 0 ≤ r ∧ r < 2 ^ 33 * 300 ∧
      (2 ^ 33 * 300) ∣ (r - (s.clockPcr + (t - s.clockTime) * 27000))) ∧
    (¬ Convertible s.clockTime s.clockPcr t → ∃ f, convertTimeToPcr s t = .error f) := by
  refine ⟨fun hc => ?_, convert_far⟩
  obtain ⟨r, hr⟩ := convert_total h1 h2 ((isValidPcr_iff _).2 (by omega)) hc
  refine ⟨r, hr, ?_⟩
  rw [convert_spec hr]
  unfold image
  omega

example : (init C26ex.opt).clockPcrReady = true ∧ (init C26ex.opt).clockTimeReady = true ∧
    0 ≤ (init C26ex.opt).clockPcr ∧ (init C26ex.opt).clockPcr < 2 ^ 33 * 300 := by decide

end Mirakc.Props
