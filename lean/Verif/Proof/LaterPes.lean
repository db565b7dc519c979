import Verif.Proof.LaterClock
/-
Lemmas: the same broadcast at another time, for print-pes, and all commands.
-/
namespace Mirakc.Main
open Mirakc.Pipeline Mirakc.Spec Mirakc.Spec.Main Mirakc.Spec.Pipeline

/-- Entries of the map of clocks. -/
def EntryLater (T : Int) (p p' : Nat × Clock) : Prop := p'.1 = p.1 ∧ ClockLater T 0 False p.2 p'.2

/-- The relation between the maps of clocks. -/
def MapLater (T : Int) (m m' : OMap Clock) : Prop := Rels (EntryLater T) m.entries m'.entries

theorem insertAt_later (T : Int) (k : Nat) (v v' : Clock) (hv : ClockLater T 0 False v v') {l l' : List (Nat × Clock)}
    (h : Rels (EntryLater T) l l') : Rels (EntryLater T) (OMap.insertAt k v l) (OMap.insertAt k v' l') := by
  induction h with
  | nil => exact .cons ⟨rfl, hv⟩ .nil
  | @cons p p' ps ps' hp hps ih =>
    obtain ⟨a, c⟩ := p
    obtain ⟨a', c'⟩ := p'
    obtain ⟨h1, h2⟩ := hp
    cases h1
    unfold OMap.insertAt
    refine rel_ite (R := Rels (EntryLater T)) Iff.rfl (fun _ => .cons ⟨rfl, hv⟩ (.cons ⟨rfl, h2⟩ hps)) fun _ => ?_
    exact rel_ite (R := Rels (EntryLater T)) Iff.rfl (fun _ => .cons ⟨rfl, hv⟩ hps) fun _ => .cons ⟨rfl, h2⟩ ih

theorem MapLater.set {T : Int} {m m' : OMap Clock} (h : MapLater T m m') (k : Nat) {v v' : Clock}
    (hv : ClockLater T 0 False v v') : MapLater T (m.set k v) (m'.set k v') := insertAt_later T k v v' hv h

theorem lookup_later {T : Int} (k : Nat) {l l' : List (Nat × Clock)} (h : Rels (EntryLater T) l l') :
    (l.lookup k = none ∧ l'.lookup k = none) ∨
      ∃ c c', l.lookup k = some c ∧ l'.lookup k = some c' ∧ ClockLater T 0 False c c' := by
  induction h with
  | nil => exact .inl ⟨rfl, rfl⟩
  | @cons p p' ps ps' hp hps ih =>
    obtain ⟨a, c⟩ := p
    obtain ⟨a', c'⟩ := p'
    obtain ⟨h1, h2⟩ := hp
    cases h1
    simp only [List.lookup_cons]
    cases k == a with
    | true => exact .inr ⟨c, c', rfl, rfl, h2⟩
    | false => exact ih

theorem MapLater.find {T : Int} {m m' : OMap Clock} (h : MapLater T m m') (k : Nat) :
    (m.find? k = none ∧ m'.find? k = none) ∨
      ∃ c c', m.find? k = some c ∧ m'.find? k = some c' ∧ ClockLater T 0 False c c' := lookup_later k h

theorem updateTimes_later (T t : Int) {l l' : List (Nat × Clock)} (h : Rels (EntryLater T) l l') : ∀ m m', MapLater T m m' →
    Rel (MapLater T) (PesPrinter.updateTimes t l m) (PesPrinter.updateTimes (t + T) l' m') := by
  induction h with
  | nil => exact fun m m' h => h
  | @cons p p' ps ps' hp hps ih =>
    intro m m' hm
    obtain ⟨a, c⟩ := p
    obtain ⟨a', c'⟩ := p'
    obtain ⟨h1, h2⟩ := hp
    cases h1
    refine (h2.updateTime t 0).bind fun d d' hd => ?_
    exact ih _ _ (hm.set a (.inl hd))

/-- The relation between the states of print-pes. -/
structure PesLater (T : Int) (s s' : PesPrinter.St) : Prop where
  demux : s'.demux = s.demux
  sids : s'.sids = s.sids
  pmtPids : s'.pmtPids = s.pmtPids
  clockMap : MapLater T s.clockMap s'.clockMap
  streamMap : s'.streamMap = s.streamMap
  kinds : s'.kinds = s.kinds
  done : s'.done = s.done
  out : s'.out = s.out.map (laterLine T)

section
variable {T : Int} {s s' : PesPrinter.St}

theorem pes_line (h : PesLater T s s') (l l' : PesPrinter.PLine) (hl : l' = laterLine T l) :
    PesLater T { s with out := s.out ++ [l] } { s' with out := s'.out ++ [l'] } := by
  have e : s'.out ++ [l'] = (s.out ++ [l]).map (laterLine T) := by
    rw [h.out, hl, List.map_append]
    rfl
  exact ⟨h.demux, h.sids, h.pmtPids, h.clockMap, h.streamMap, h.kinds, h.done, e⟩

theorem pes_print (h : PesLater T s s') (m m' : PesPrinter.Msg)
    (hm : (laterLine T { msg := m } : PesPrinter.PLine) = { msg := m' }) :
    PesLater T (PesPrinter.print s m) (PesPrinter.print s' m') := pes_line h _ _ hm.symm

theorem pes_printPcr (h : PesLater T s s') (pid : Nat) (pcr : Int) (m : PesPrinter.Msg) (k : Option PesPrinter.Kind)
    (hm : ∀ t p, laterLine T { time := t, pcr := p, msg := m, label := k } =
      { time := t.map (· + T), pcr := p, msg := m, label := k }) :
    Rel (PesLater T) (PesPrinter.printPcr s pid pcr m k) (PesPrinter.printPcr s' pid pcr m k) := by
  unfold PesPrinter.printPcr
  rcases h.clockMap.find pid with ⟨h1, h2⟩ | ⟨c, c', h1, h2, hc⟩
  · simp only [h1, h2]
    refine Rel.bind_same fun _ => ?_
    exact pes_line h _ _ (hm none (some pcr)).symm
  · simp only [h1, h2]
    refine Rel.ite (by rw [hc.baseline.1]) (fun hr => ?_) fun _ => ?_
    · have hcl : c' = laterClock T 0 c := by
        rcases hc with e | ⟨_, hn, _⟩
        · exact e
        · simp only [Clock.isReady, ClockBaseline.isReady, hn, Bool.and_false, Bool.false_eq_true] at hr
      have ht : Rel (fun a b => b = a + T) (c.pcrToTime pcr) (c'.pcrToTime pcr) := by
        unfold Clock.pcrToTime
        refine Rel.bind_same fun _ => ?_
        rw [hcl]
        show Rel _ _ (ClockBaseline.pcrToTime { c.baseline with time := c.baseline.time + T } pcr)
        rw [pcrToTime_later]
        cases c.baseline.pcrToTime pcr <;> exact rfl
      refine ht.bind fun a b hab => ?_
      subst hab
      refine Rel.bind_same fun _ => ?_
      exact pes_line h _ _ (hm (some a) (some pcr)).symm
    · refine Rel.bind_same fun _ => ?_
      exact pes_line h _ _ (hm none (some pcr)).symm

theorem pes_addPmts : ∀ (l : List (Nat × Nat)) (s s' : PesPrinter.St), PesLater T s s' →
    PesLater T (PesPrinter.addPmts l s) (PesPrinter.addPmts l s')
  | [], _, _, h => h
  | (sid, pid) :: l, s, s', h => by
    have h1 : PesLater T (PesPrinter.print s (.service sid pid)) (PesPrinter.print s' (.service sid pid)) :=
      pes_print h _ _ rfl
    refine pes_addPmts l _ _ { h1 with demux := ?_, sids := ?_, pmtPids := ?_ }
    · show s'.demux.add pid = s.demux.add pid
      rw [h.demux]
    · show sid :: s'.sids = sid :: s.sids
      rw [h.sids]
    · show s'.pmtPids ++ [pid] = s.pmtPids ++ [pid]
      rw [h.pmtPids]

theorem pes_printPmts : ∀ (l : List (Nat × Nat)) (s s' : PesPrinter.St), PesLater T s s' →
    PesLater T (PesPrinter.printPmts l s) (PesPrinter.printPmts l s')
  | [], _, _, h => h
  | _ :: l, _, _, h => pes_printPmts l _ _ (pes_print h _ _ rfl)

theorem pes_addStreams (pcrPid : Nat) : ∀ (l : List (Nat × Stream)) (s s' : PesPrinter.St), PesLater T s s' →
    PesLater T (PesPrinter.addStreams pcrPid l s) (PesPrinter.addStreams pcrPid l s')
  | [], _, _, h => h
  | (pid, st) :: l, s, s', h => by
    have e1 : s'.streamMap.set pid pcrPid = s.streamMap.set pid pcrPid := by rw [h.streamMap]
    have e2 : s'.kinds.set pid (PesPrinter.kindOf st) = s.kinds.set pid (PesPrinter.kindOf st) := by rw [h.kinds]
    have h1 : PesLater T { s with streamMap := s.streamMap.set pid pcrPid, kinds := s.kinds.set pid (PesPrinter.kindOf st) }
        { s' with streamMap := s'.streamMap.set pid pcrPid, kinds := s'.kinds.set pid (PesPrinter.kindOf st) } :=
      ⟨h.demux, h.sids, h.pmtPids, h.clockMap, e1, e2, h.done, h.out⟩
    exact pes_addStreams pcrPid l _ _ (pes_line h1 _ _ rfl)

theorem pes_printEvents : ∀ (l : List Event) (i : Nat) (s s' : PesPrinter.St), PesLater T s s' →
    PesLater T (PesPrinter.printEvents i l s) (PesPrinter.printEvents i (l.map (laterEvent T)) s')
  | [], _, _, _, h => h
  | e :: l, i, s, s', h => by
    refine pes_printEvents l (i + 1) _ _ (pes_print h _ _ ?_)
    show PesPrinter.PLine.mk _ _ (.event i e.eventId (e.startTime + T) (e.startTime + e.duration * 1000 + T) _) _ =
      PesPrinter.PLine.mk _ _ (.event i e.eventId (e.startTime + T) (e.startTime + T + e.duration * 1000) _) _
    rw [show e.startTime + e.duration * 1000 + T = e.startTime + T + e.duration * 1000 by omega]
    rfl

theorem pes_handle (t : Table) (h : PesLater T s s') :
    Rel (PesLater T) (PesPrinter.handleTable s t) (PesPrinter.handleTable s' (laterTable T t)) := by
  obtain ⟨sp, v, body, fp, ver⟩ := t
  cases body with
  | pat pat =>
    show PesLater T (PesPrinter.handlePat s ⟨sp, v, .pat pat, fp, ver⟩ pat)
      (PesPrinter.handlePat s' ⟨sp, v, .pat pat, fp, ver⟩ pat)
    unfold PesPrinter.handlePat
    refine rel_ite (R := PesLater T) Iff.rfl (fun _ => h) fun _ => ?_
    have h1 : PesLater T (PesPrinter.resetStates s) (PesPrinter.resetStates s') :=
      { h with
        demux := by
          show s'.pmtPids.foldl PidSet.remove s'.demux = _
          rw [h.pmtPids, h.demux]
          rfl
        sids := rfl, pmtPids := rfl, done := rfl }
    have h2 := pes_print h1 (.pat ver sp) (.pat ver sp) rfl
    refine rel_ite (R := PesLater T) Iff.rfl (fun _ => ?_) fun _ => pes_printPmts _ _ _ h2
    have h3 := pes_addPmts pat.pmts.entries _ _ h2
    refine rel_ite (R := PesLater T) ?_ (fun _ => { h3 with done := rfl }) fun _ => h3
    have e := h3.pmtPids
    show (PesPrinter.addPmts pat.pmts.entries _).pmtPids.isEmpty = true ↔ _
    rw [e]
  | cat cat =>
    show PesLater T (PesPrinter.handleCat s ⟨sp, v, .cat cat, fp, ver⟩) (PesPrinter.handleCat s' ⟨sp, v, .cat cat, fp, ver⟩)
    unfold PesPrinter.handleCat
    exact rel_ite (R := PesLater T) Iff.rfl (fun _ => h) fun _ => pes_print h _ _ rfl
  | pmt pmt =>
    show PesLater T (PesPrinter.handlePmt s ⟨sp, v, .pmt pmt, fp, ver⟩ pmt)
      (PesPrinter.handlePmt s' ⟨sp, v, .pmt pmt, fp, ver⟩ pmt)
    unfold PesPrinter.handlePmt
    refine rel_ite (R := PesLater T) Iff.rfl (fun _ => h) fun _ => ?_
    have h1 := pes_print h (.pmt pmt.serviceId pmt.pcrPid ver) (.pmt pmt.serviceId pmt.pcrPid ver) rfl
    refine pes_addStreams _ _ _ _ ?_
    refine rel_ite (R := PesLater T) Iff.rfl (fun _ => ?_) fun _ => h1
    exact { h1 with clockMap := h1.clockMap.set pmt.pcrPid (.inr ⟨rfl, rfl, fun h => h⟩) }
  | eit e =>
    show PesLater T (PesPrinter.handleEit s ⟨sp, v, .eit e, fp, ver⟩ e)
      (PesPrinter.handleEit s' ⟨sp, v, .eit (laterEit T e), fp, ver⟩ (laterEit T e))
    unfold PesPrinter.handleEit
    refine rel_ite (R := PesLater T) Iff.rfl (fun _ => h) fun _ => ?_
    refine rel_ite (R := PesLater T) ?_ (fun _ => h) fun _ => pes_printEvents _ _ _ _ (pes_print h _ _ rfl)
    show (!s'.sids.contains e.serviceId) = true ↔ _
    rw [h.sids]
  | tot time =>
    show Rel _ (PesPrinter.handleTot s _ time) (PesPrinter.handleTot s' _ (time + T))
    unfold PesPrinter.handleTot
    refine Rel.ite Iff.rfl (fun _ => h) fun _ => ?_
    have h1 : PesLater T (PesPrinter.printTime s time .tot) (PesPrinter.printTime s' (time + T) .tot) :=
      pes_line h _ _ rfl
    refine (updateTimes_later T time h1.clockMap _ _ h1.clockMap).bind fun a b hab => ?_
    exact { h1 with clockMap := hab }
  | _ => exact h

theorem pes_pcr (p : Packet) (h : PesLater T s s') :
    Rel (PesLater T) (PesPrinter.handlePcr s p) (PesPrinter.handlePcr s' p) := by
  unfold PesPrinter.handlePcr
  cases p.pcr with
  | none => exact h
  | some pcr =>
    rcases h.clockMap.find p.pid with ⟨h1, h2⟩ | ⟨c, c', h1, h2, hc⟩
    · simp only [h1, h2]
      exact h
    · simp only [h1, h2]
      refine (hc.updatePcr pcr).bind fun a b hab => ?_
      have h1 : PesLater T { s with clockMap := s.clockMap.set p.pid a } { s' with clockMap := s'.clockMap.set p.pid b } :=
        ⟨h.demux, h.sids, h.pmtPids, h.clockMap.set p.pid hab, h.streamMap, h.kinds, h.done, h.out⟩
      exact pes_printPcr h1 p.pid pcr (.pcr p.pid) none fun t p => rfl

theorem pes_stamp (pid : Nat) (x : Option Int) (m : PesPrinter.Msg)
    (hm : ∀ k t p, laterLine T { time := t, pcr := p, msg := m, label := k } =
      { time := t.map (· + T), pcr := p, msg := m, label := k })
    (h : PesLater T s s') : Rel (PesLater T) (PesPrinter.handleStamp s pid x m) (PesPrinter.handleStamp s' pid x m) := by
  unfold PesPrinter.handleStamp
  cases x with
  | none => exact h
  | some v =>
    refine Rel.bind_same fun _ => ?_
    rw [h.streamMap, h.kinds]
    cases s.streamMap.find? pid with
    | none => exact pes_printPcr h _ _ _ _ (hm _)
    | some q => exact pes_printPcr h _ _ _ _ (hm _)

theorem pes_step (i i' : Input) (h : PesLater T s s') (hi : LaterInput T i i') :
    Rel (fun a b => PesLater T a.1 b.1 ∧ b.2.1.lines = a.2.1.lines.map (laterLine T) ∧ b.2.2 = a.2.2)
      (PesPrinter.step s i) (PesPrinter.step s' i') := by
  unfold PesPrinter.step
  rw [hi.1, hi.2]
  refine (pes_pcr i.packet h).bind fun s1 s1' h1 => ?_
  refine (pes_stamp _ _ _ (fun _ _ _ => rfl) h1).bind fun s2 s2' h2 => ?_
  refine (pes_stamp _ _ _ (fun _ _ _ => rfl) h2).bind fun s3 s3' h3 => ?_
  refine (feedDemux_rel (R := PesLater T) (T := T) (fun s s' h => h.demux) (fun s s' t h => pes_handle t h) _ _ _ _ h3).bind
    fun a b hab => ?_
  obtain ⟨s4, x⟩ := a
  obtain ⟨s4', y⟩ := b
  obtain ⟨h4, _⟩ := hab
  refine ⟨h4, ?_, ?_⟩
  · show s4'.out.drop s'.out.length = (s4.out.drop s.out.length).map (laterLine T)
    rw [show s4'.out = _ from h4.out, h.out, List.length_map]
    exact List.map_drop.symm
  · show (if s4'.done = true then false else true) = (if s4.done = true then false else true)
    rw [show s4'.done = s4.done from h4.done]

end

section
variable {w : World} {ps : List (List UInt8)} (hr : Reads w ps) (T L : Int)
include hr

theorem pes_later : printPes (later T L w) = (printPes w).map (laterEnded T) := by
  have h := history_rel (G := LaterInput T) (R := PesLater T)
    (step := PesPrinter.step) (step' := PesPrinter.step) (finish := .ok) (finish' := .ok)
    (exitCode := fun _ => exitSuccess) (exitCode' := fun _ => exitSuccess)
    (fun d => d.lines) (fun d => d.lines) (laterLine T)
    (fun s s' i i' h hi => pes_step i i' h hi) (fun s s' h => h) (fun s s' h => rfl)
  have h0 : PesLater T ({} : PesPrinter.St) {} := ⟨rfl, rfl, rfl, .nil, rfl, rfl, rfl, rfl⟩
  refine feed_rel hr (reads_later hr T L) h (packet_later T L)
    (show Told _ _ _ _ _ _ from ⟨h0, rfl⟩)
    (fun r => .ok { code := r.1, docs := (r.2.items.flatMap (·.did.lines)).map .line })
    (fun r => .ok { code := r.1, docs := (r.2.items.flatMap (·.did.lines)).map .line }) fun n a b hab => ?_
  show _ = _
  rw [show (b.items.flatMap fun l => l.did.lines) = _ from hab.2]
  simp only [laterEnded, List.map_map]
  rfl

end
end Mirakc.Main
