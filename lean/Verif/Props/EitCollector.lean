import Verif.Proof.EitCollector
/-
Properties C43-C49, C77, C78: collect-eits.

A history consists of the calls made by TSDuck's demultiplexer, packet by packet, each
with the section written during it.
-/
set_option linter.unusedSimpArgs false

namespace Mirakc.Props
open Mirakc.Spec Mirakc.Spec.EitCollector Mirakc.EitCollector

namespace C43ex

/-- A section: of network 4, stream 0x4010 and service `sid`; the table, the version, the
number, the last section of the table, the last of the segment, and the last table. -/
def sec (sid : UInt16) (tid : UInt8) (v : Fin 32) (n last seg lastTid : UInt8) : Section :=
  { tid := tid, ext := sid, version := v, number := n, last := last,
    payload := [0x40, 0x10, 0, 4, seg, lastTid] }
/-- A section with a future version of its table. -/
def early : Section := { sec 101 0x50 3 0 0 0 0x50 with next := true }
/-- The section as seen by the collector. -/
def seen (sid : UInt16) (tid : UInt8) (v : Fin 32) (n last seg lastTid : UInt8) : EitSection :=
  { sid := sid, tid := tid, nid := 4, tsid := 0x4010, lastTableId := lastTid, sectionNumber := n,
    lastSectionNumber := last, segmentLast := seg, version := v, events := [] }
/-- A packet that completes sections. -/
def feed (xs : List Section) : SectionInput := { packet := { pid := 0x12 }, events := xs.map .sect }
/-- A packet with a TOT: `t` hours after midnight of some day. -/
def tot (t : Int) : SectionInput :=
  { packet := { pid := 0x14 },
    events := [.table { sourcePid := 0x14, body := .tot (t * 3600000) }] }
/-- A call for a section. -/
def call (x : Section) (out : Option EitSection) : DemuxCall := ⟨.sect x, out⟩
/-- The call for a TOT. -/
def totCall (t : Int) : DemuxCall :=
  ⟨.table { sourcePid := 0x14, body := .tot (t * 3600000) }, none⟩
/-- A packet and what it caused. -/
def line (cs : List DemuxCall) (more : Bool) : Line SectionInput (List DemuxCall) :=
  ⟨{ packet := { pid := 0x12 }, events := cs.map (·.event) }, cs, more⟩
/-- A TOT. -/
def totLine (t : Int) (more : Bool) : Line SectionInput (List DemuxCall) := ⟨tot t, [totCall t], more⟩
/-- The input of a history. -/
def inputs (items : List (Line SectionInput (List DemuxCall))) : List SectionInput := items.map (·.input)
/-- Shorthand for spelled-out runs. -/
theorem run (o : Opt) (items : List (Line SectionInput (List DemuxCall)))
    (h : (o.collectActual || o.collectOthers) = true ∧
      checkRun (sink o) { st := {} } (inputs items) (fun c h => decide (c = 0 ∧ h.items = items)) = true) :
    ∃ h, Collected o (inputs items) 0 h ∧ h.items = items := collected_of_eval h
theorem shows (sid : UInt16) (tid : UInt8) (v : Fin 32) (n last seg lastTid : UInt8) :
    Shows (seen sid tid v n last seg lastTid) (sec sid tid v n last seg lastTid) :=
  ⟨rfl, rfl, rfl, rfl, rfl, 0x40, 0x10, 0, 4, seg, lastTid, rfl, rfl, rfl, rfl, rfl⟩
theorem requested (o : Opt) (sid : UInt16) (tid : UInt8) (v : Fin 32) (n last seg lastTid : UInt8)
    (h : ((0x50 ≤ tid.toNat ∧ tid.toNat ≤ 0x5F ∧ o.collectActual = true) ∨
      (0x60 ≤ tid.toNat ∧ tid.toNat ≤ 0x6F ∧ o.collectOthers = true)) ∧
      (o.sids = [] ∨ sid ∈ o.sids) ∧ sid ∉ o.xsids) :
    Requested o (sec sid tid v n last seg lastTid) :=
  ⟨rfl, rfl, h.1, by simp [sec], h.2.1, h.2.2⟩

/-- Two services with one table each of one segment of two sections; service 102 is not
wanted. -/
def items : List (Line SectionInput (List DemuxCall)) :=
  [ line [call early none, call (sec 101 0x50 1 0 1 1 0x50) (some (seen 101 0x50 1 0 1 1 0x50))] true,
    totLine 1 true,
    line [call (sec 102 0x50 1 0 1 1 0x50) none] true,
    line [call (sec 101 0x50 1 0 1 1 0x50) none] true,
    line [call (sec 101 0x50 1 1 1 1 0x50) (some (seen 101 0x50 1 1 1 1 0x50))] false ]
/-- Options. -/
def opt : Opt := { xsids := [102] }
theorem run_items : ∃ h, Collected opt (inputs items) 0 h ∧ h.items = items :=
  run _ _ (by decide +kernel)

end C43ex

/-- **C43.** Whatever is written shows a section that was completed by a packet of the
stream and that the options ask for. -/
theorem C43_only_requested (o : Opt) (is : List SectionInput) (code : Nat) (h : Hist)
    (hr : Collected o is code h) (it : Line SectionInput (List DemuxCall)) (hit : it ∈ h.items)
    (c : DemuxCall) (hc : c ∈ it.did) (e : EitSection) (he : c.out = some e) :
    ∃ x, c.event = .sect x ∧ it.input ∈ is ∧ .sect x ∈ it.input.events ∧
      (x.sourcePid = 0x12 ∨ x.sourcePid = 0x14) ∧ Requested o x ∧ Shows e x := by
  obtain ⟨k1, _, k3, _⟩ := Collected.reach hr
  obtain ⟨a, b, hs⟩ := List.append_of_mem hit
  obtain ⟨q1, _⟩ := reach_item k1 a it b hs
  obtain ⟨a1, b1, hs1⟩ := List.append_of_mem hc
  have hcall := reach_calls k1 (calls a ++ a1) c (b1 ++ calls b) (by
    rw [hs, calls_append, show it :: b = [it] ++ b from rfl, calls_append]
    simp [calls, hs1])
  have hmem : c.event ∈ handedOver watched it.input := by
    rw [← q1]; exact List.mem_map_of_mem hc
  unfold handedOver at hmem
  rw [List.mem_filter] at hmem
  have hin : it.input ∈ is := k3.subset (List.mem_map_of_mem hit)
  unfold CallOk at hcall
  cases hev : c.event with
  | table t => rw [hev] at hcall; simp only at hcall; rw [hcall] at he; cases he
  | sect x =>
    rw [hev] at hcall hmem
    simp only at hcall
    by_cases hq : Requested o x
    · obtain ⟨e', r1, r2, r3⟩ := hcall.2 hq
      refine ⟨x, rfl, hin, hmem.1, ?_, hq, ?_⟩
      · have hp := hmem.2
        simp only [SectionEvent.pid, watched, pidTot, pidEit, List.contains_eq_mem, Bool.and_eq_true,
          beq_iff_eq, decide_eq_true_eq, List.mem_cons, List.not_mem_nil, or_false] at hp
        omega
      · by_cases hk : Known (sections (log (calls a ++ a1))) e'
        · rw [r2 hk] at he; cases he
        · rw [r3 hk] at he; cases he; exact r1
    · rw [hcall.1 hq] at he; cases he

example : ∃ h it c e, Collected C43ex.opt (C43ex.inputs C43ex.items) 0 h ∧ it ∈ h.items ∧ c ∈ it.did ∧
    c.out = some e := by
  obtain ⟨h, h1, h2⟩ := C43ex.run_items
  exact ⟨h, _, _, _, h1, by rw [h2]; exact .head _, .tail _ (.head _), rfl⟩

namespace C44ex
open C43ex

/-- The same service in the stream itself and as another stream's. -/
def items : List (Line SectionInput (List DemuxCall)) :=
  [ line [call (sec 101 0x50 1 0 1 1 0x50) (some (seen 101 0x50 1 0 1 1 0x50))] true,
    line [call (sec 101 0x60 1 0 1 1 0x60) none] true ]
theorem run_items : ∃ h, Collected {} (inputs items) 0 h ∧ h.items = items :=
  run _ _ (by decide +kernel)

end C44ex

/-- **C44**, the claim is false: a section of table 0x60 is suppressed when the section
of table 0x50 of the same service and number has been written. -/
theorem C44_claim_false : ¬ ∀ o is code h, Collected o is code h → ∀ a c b,
    calls h.items = a ++ c :: b → ∀ x e, c.event = .sect x → Requested o x → Shows e x →
    c.out = none → ∃ e' ∈ sections (log a), service e' = service e ∧ e'.tid = e.tid ∧
      number e' = number e := by
  intro hall
  obtain ⟨h, h1, h2⟩ := C44ex.run_items
  obtain ⟨e', k1, k2, k3, k4⟩ := hall _ _ _ _ h1 [(C43ex.call _ _)] _ []
    (by rw [h2]; rfl) _ _ rfl (C43ex.requested _ _ _ _ _ _ _ _ (by decide +kernel))
    (C43ex.shows ..) rfl
  have hl : sections (log [C43ex.call (C43ex.sec 101 0x50 1 0 1 1 0x50)
      (some (C43ex.seen 101 0x50 1 0 1 1 0x50))]) = [C43ex.seen 101 0x50 1 0 1 1 0x50] := rfl
  rw [hl, List.mem_singleton] at k1
  subst k1
  revert k3
  decide

/-- **C44**, partial: every section completed by a packet with EIT is looked at; a section
asked for is either written or was written before, and in the latter case for the same service, the same table, or the corresponding table of
the other kind (0x50 and 0x60, and so on), and the same section number.  Only one kind
being collected, it is the same table.  Missing from the claim: collecting both kinds,
the tables must not be confused (`C44_claim_false`). -/
theorem C44_none_missed_partial (o : Opt) (is : List SectionInput) (code : Nat) (h : Hist)
    (hr : Collected o is code h) :
    (∀ it ∈ h.items, it.input ∈ is ∧ (it.input.packet.pid = 0x12 →
      it.did.map (·.event) = it.input.events.filter (·.pid == 0x12))) ∧
    ∀ (a b : List DemuxCall) (c : DemuxCall), calls h.items = a ++ c :: b →
    ∀ x : Section, c.event = .sect x → Requested o x →
    ∃ e, Shows e x ∧ (c.out = some e ∨ c.out = none ∧
      ∃ e' ∈ sections (log a), service e' = service e ∧ e'.tid.toNat % 16 = e.tid.toNat % 16 ∧
        number e' = number e ∧
        ((o.collectActual = false ∨ o.collectOthers = false) → e'.tid = e.tid)) := by
  obtain ⟨k1, _, k3, _⟩ := Collected.reach hr
  constructor
  · intro it hit
    obtain ⟨a, b, hs⟩ := List.append_of_mem hit
    refine ⟨k3.subset (List.mem_map_of_mem hit), fun hp => ?_⟩
    rw [(reach_item k1 a it b hs).1]
    unfold handedOver
    rw [hp]
    apply List.filter_congr
    intro ev _
    simp [watched, pidEit]
  intro a b c hs x hx hq
  have hcalls := reach_calls k1
  have hcall := hcalls a c b hs
  unfold CallOk at hcall
  rw [hx] at hcall
  simp only at hcall
  obtain ⟨e, r1, r2, r3⟩ := hcall.2 hq
  refine ⟨e, r1, ?_⟩
  by_cases hk : Known (sections (log a)) e
  · refine .inr ⟨r2 hk, ?_⟩
    obtain ⟨⟨e', q1, q2, q3⟩, _⟩ := hk
    have q4 := (trailing_sub _ q1).1
    unfold ofGroup at q4
    rw [List.mem_filter] at q4
    obtain ⟨q4, q5⟩ := q4
    simp only [decide_eq_true_eq, group, Prod.mk.injEq, extended, decide_eq_decide] at q5
    have hmod : e'.tid.toNat % 16 = e.tid.toNat % 16 := by
      have := q5.2
      unfold tableNo at q2
      omega
    refine ⟨e', q4, q5.1, hmod, q3, fun hone => ?_⟩
    -- where e' was written
    have hw : ∃ x', Requested o x' ∧ Shows e' x' := by
      unfold sections at q4
      rw [List.mem_filterMap] at q4
      obtain ⟨ev, q6, q7⟩ := q4
      unfold log at q6
      rw [List.mem_filterMap] at q6
      obtain ⟨c', q8, q9⟩ := q6
      have hout : c'.out = some e' := by
        unfold evOf at q9
        cases ho : c'.out with
        | some y => rw [ho] at q9; cases q9; exact q7
        | none =>
          rw [ho] at q9
          cases ev with
          | time t => cases q7
          | sec y =>
            exfalso
            dsimp only at q9
            split at q9
            · split at q9
              · split at q9 <;> cases q9
              · cases q9
            · cases q9
      have hmem : c' ∈ calls h.items := by rw [hs]; simp [q8]
      unfold calls at hmem
      rw [List.mem_flatMap] at hmem
      obtain ⟨it, h1, h2⟩ := hmem
      obtain ⟨x', _, _, _, _, h3, h4⟩ := C43_only_requested o is code h hr it h1 c' h2 e' hout
      exact ⟨x', h3, h4⟩
    obtain ⟨x', h3, h4⟩ := hw
    have t1 := r1.2.1
    have t2 := h4.2.1
    have z1 := hq.2.2.1
    have z2 := h3.2.2.1
    rw [← t1] at z1
    rw [← t2] at z2
    apply UInt8.toNat_inj.1
    rcases hone with h0 | h0
    · simp [h0] at z1 z2; omega
    · simp [h0] at z1 z2; omega
  · exact .inl (r3 hk)

example : ∃ h a c b x, Collected C43ex.opt (C43ex.inputs C43ex.items) 0 h ∧
    calls h.items = a ++ c :: b ∧ c.event = .sect x ∧ Requested C43ex.opt x ∧ c.out = none := by
  obtain ⟨h, h1, h2⟩ := C43ex.run_items
  exact ⟨h, (calls C43ex.items).take 4, _, [_], _, h1, by rw [h2]; rfl, rfl,
    C43ex.requested _ 101 0x50 1 0 1 1 0x50 (by decide +kernel), rfl⟩

namespace C45ex
open C43ex

/-- The only section of a segment changes. -/
def items : List (Line SectionInput (List DemuxCall)) :=
  [ line [call (sec 101 0x50 1 0 8 0 0x50) (some (seen 101 0x50 1 0 8 0 0x50))] true,
    line [call (sec 101 0x50 2 0 8 0 0x50) none] true ]
theorem run_items : ∃ h, Collected { streaming := true } (inputs items) 0 h ∧ h.items = items :=
  run _ _ (by decide +kernel)

/-- The first of two sections changes. -/
def updated : List (Line SectionInput (List DemuxCall)) :=
  [ line [call (sec 101 0x50 1 0 1 1 0x50) (some (seen 101 0x50 1 0 1 1 0x50))] true,
    line [call (sec 101 0x50 1 1 1 1 0x50) (some (seen 101 0x50 1 1 1 1 0x50))] true,
    line [call (sec 101 0x50 2 0 1 1 0x50) (some (seen 101 0x50 2 0 1 1 0x50))] true ]
theorem run_updated : ∃ h, Collected { streaming := true } (inputs updated) 0 h ∧ h.items = updated :=
  run _ _ (by decide +kernel)

end C45ex

/-- **C45**, the claim is false: the last section of a segment is not written again when
its version changes. -/
theorem C45_claim_false : ¬ ∀ o is code h, Collected o is code h → ∀ a c b,
    calls h.items = a ++ c :: b → ∀ x e, c.event = .sect x → Requested o x → Shows e x →
    ∀ a1 e' a2, sections (log a) = a1 ++ e' :: a2 → service e' = service e → e'.tid = e.tid →
    number e' = number e → e'.version ≠ e.version →
    (∀ e'' ∈ a2, ¬ (service e'' = service e ∧ e''.tid = e.tid ∧ number e'' = number e)) →
    c.out = some e := by
  intro hall
  obtain ⟨h, h1, h2⟩ := C45ex.run_items
  have := hall _ _ _ _ h1 [(C43ex.call _ _)] _ []
    (by rw [h2]; rfl) (C43ex.sec 101 0x50 2 0 8 0 0x50) (C43ex.seen 101 0x50 2 0 8 0 0x50) rfl
    (C43ex.requested _ _ _ _ _ _ _ _ (by decide +kernel))
    (C43ex.shows ..) [] (C43ex.seen 101 0x50 1 0 8 0 0x50) [] rfl rfl rfl rfl (by decide) (by simp)
  cases this

/-- **C45**, partial: a section, not the last of its segment, that arrives with a version
different from that written for its service, table and number is written, if no section
of the table written in between brought the new version to its place in the segment.
Missing from the claim: the last section of a segment, and the case that a section of
another segment of the table, with the same place in its segment, was updated before
(`C45_claim_false`). -/
theorem C45_updates_partial (o : Opt) (is : List SectionInput) (code : Nat) (h : Hist)
    (hr : Collected o is code h) (a b : List DemuxCall) (c : DemuxCall)
    (hs : calls h.items = a ++ c :: b) (x : Section) (e : EitSection) (hx : c.event = .sect x)
    (hq : Requested o x) (hsh : Shows e x) (a1 a2 : List EitSection) (e' : EitSection)
    (hw : sections (log a) = a1 ++ e' :: a2) (hsv : service e' = service e)
    (htid : e'.tid = e.tid) (hn : number e' = number e) (hv : e'.version ≠ e.version)
    (hlast : index e < lastIndex e) (hlast' : index e' ≤ lastIndex e')
    (hbetween : ∀ e'' ∈ a2, service e'' = service e → e''.tid.toNat % 16 = e.tid.toNat % 16 →
      index e'' ≤ index e → index e ≤ lastIndex e'' → e''.version ≠ e.version) :
    c.out = some e := by
  obtain ⟨k1, _⟩ := Collected.reach hr
  have hcall := reach_calls k1 a c b hs
  unfold CallOk at hcall
  rw [hx] at hcall
  simp only at hcall
  obtain ⟨e1, r1, r2, r3⟩ := hcall.2 hq
  obtain rfl := shows_unique hsh r1
  apply r3
  rintro ⟨_, hk⟩
  have := hk (index e) (Nat.le_refl _) hlast
  have hg' : group e' = group e := by simp [group, hsv, extended, htid]
  have hcov : covering (tableNo e) (index e) (ofGroup (group e) (sections (log a))) =
      covering (tableNo e) (index e) (ofGroup (group e) a1) ++
        e' :: covering (tableNo e) (index e) (ofGroup (group e) a2) := by
    have hi : index e' = index e := by simp [index, hn]
    have ht : tableNo e' = tableNo e := by simp [tableNo, htid]
    have p1 : decide (group e' = group e) = true := by simp [hg']
    have p2 : decide (tableNo e' = tableNo e ∧ index e' ≤ index e ∧ index e ≤ lastIndex e') = true := by
      simp [ht, hi]; omega
    rw [hw]
    unfold covering ofGroup
    rw [List.filter_append, List.filter_append, List.filter_cons, if_pos p1, List.filter_cons, if_pos p2]
  rw [hcov] at this
  rw [List.getLast?_append] at this
  cases hl : (covering (tableNo e) (index e) (ofGroup (group e) a2)).getLast? with
  | none =>
    have hnil := List.getLast?_eq_none_iff.1 hl
    rw [hnil] at this
    simp only [List.getLast?_singleton, Option.some_or, Option.map_some, Option.some.injEq] at this
    exact hv this
  | some e2 =>
    rw [List.getLast?_cons, hl] at this
    simp only [Option.getD_some, Option.some_or, Option.map_some, Option.some.injEq] at this
    have hm := List.mem_of_getLast? hl
    unfold covering ofGroup at hm
    rw [List.mem_filter, List.mem_filter] at hm
    obtain ⟨⟨m1, m2⟩, m4⟩ := hm
    obtain ⟨m4, m5, m6⟩ := of_decide_eq_true m4
    have m2 := of_decide_eq_true m2
    simp only [group, Prod.mk.injEq, extended, decide_eq_decide] at m2
    obtain ⟨m2, m3⟩ := m2
    unfold tableNo at m4
    exact hbetween e2 m1 m2 (by omega) m5 m6 this

example : ∃ h a c b x e a1 e' a2, Collected { streaming := true } (C43ex.inputs C45ex.updated) 0 h ∧
    calls h.items = a ++ c :: b ∧ c.event = .sect x ∧ Requested { streaming := true } x ∧ Shows e x ∧
    sections (log a) = a1 ++ e' :: a2 ∧ service e' = service e ∧ e'.tid = e.tid ∧
    number e' = number e ∧ e'.version ≠ e.version ∧ index e < lastIndex e ∧ index e' ≤ lastIndex e' ∧
    ∀ e'' ∈ a2, service e'' = service e → e''.tid.toNat % 16 = e.tid.toNat % 16 →
      index e'' ≤ index e → index e ≤ lastIndex e'' → e''.version ≠ e.version := by
  obtain ⟨h, h1, h2⟩ := C45ex.run_updated
  refine ⟨h, (calls C45ex.updated).take 2, _, [], _, _, [], C43ex.seen 101 0x50 1 0 1 1 0x50,
    [C43ex.seen 101 0x50 1 1 1 1 0x50], h1, by rw [h2]; rfl, rfl,
    C43ex.requested _ 101 0x50 2 0 1 1 0x50 (by decide +kernel), C43ex.shows .., ?_⟩
  decide +kernel

namespace C46ex
open C43ex

/-- Two segments of two sections each, of different versions, repeated. -/
def items : List (Line SectionInput (List DemuxCall)) :=
  [ line [call (sec 101 0x50 1 0 9 1 0x50) (some (seen 101 0x50 1 0 9 1 0x50))] true,
    line [call (sec 101 0x50 2 8 9 9 0x50) (some (seen 101 0x50 2 8 9 9 0x50))] true,
    line [call (sec 101 0x50 1 0 9 1 0x50) (some (seen 101 0x50 1 0 9 1 0x50))] true ]
theorem run_items : ∃ h, Collected {} (inputs items) 0 h ∧ h.items = items :=
  run _ _ (by decide +kernel)

end C46ex

/-- **C46**, the claim is false: where the segments of a table have different versions,
their sections are written again with every repetition, although for every service,
table and number the stream has always the same section. -/
theorem C46_claim_false : ¬ ∀ o is code h, Collected o is code h →
    (∀ x y, .sect x ∈ (calls h.items).map (·.event) → .sect y ∈ (calls h.items).map (·.event) →
      origin x = origin y → x.tid = y.tid → x.number = y.number → x = y) →
    (sections (log (calls h.items))).Nodup := by
  intro hall
  obtain ⟨h, h1, h2⟩ := C46ex.run_items
  have := hall _ _ _ _ h1 (by
    have hm : (calls h.items).map (·.event) =
        [.sect (C43ex.sec 101 0x50 1 0 9 1 0x50), .sect (C43ex.sec 101 0x50 2 8 9 9 0x50),
         .sect (C43ex.sec 101 0x50 1 0 9 1 0x50)] := by rw [h2]; rfl
    rw [hm]
    intro x y hx hy _ _ hn
    simp only [List.mem_cons, SectionEvent.sect.injEq, List.not_mem_nil, or_false] at hx hy
    rcases hx with rfl | rfl | rfl <;> rcases hy with rfl | rfl | rfl <;>
      first | rfl | exact absurd hn (by decide))
  rw [h2] at this
  revert this
  decide +kernel

/-- **C46**, partial: a section that was written is not written again, if since then no
section was written that has a different version of the table or announces a different
last table.  Missing from the claim: tables with segments of different versions
(`C46_claim_false`). -/
theorem C46_no_repetition_partial (o : Opt) (is : List SectionInput) (code : Nat) (h : Hist)
    (hr : Collected o is code h) (a b : List DemuxCall) (c : DemuxCall)
    (hs : calls h.items = a ++ c :: b) (x : Section) (e : EitSection) (hx : c.event = .sect x)
    (hsh : Shows e x) (a1 a2 : List EitSection) (hw : sections (log a) = a1 ++ e :: a2)
    (hsame : ∀ e' ∈ a2, service e' = service e → e'.tid.toNat % 16 = e.tid.toNat % 16 →
      e'.version = e.version)
    (htables : ∀ e' ∈ a2, service e' = service e → extended e' = extended e →
      lastTable e' = lastTable e) :
    c.out = none := by
  obtain ⟨k1, _⟩ := Collected.reach hr
  have hcall := reach_calls k1 a c b hs
  unfold CallOk at hcall
  rw [hx] at hcall
  simp only at hcall
  by_cases hq : Requested o x
  · obtain ⟨e1, r1, r2, r3⟩ := hcall.2 hq
    obtain rfl := shows_unique hsh r1
    apply r2
    rw [hw]
    have hsplit : ofGroup (group e) (a1 ++ e :: a2) = ofGroup (group e) a1 ++ e :: ofGroup (group e) a2 := by
      simp [ofGroup]
    unfold Known
    rw [hsplit]
    refine ⟨⟨e, ?_, rfl, rfl⟩, ?_⟩
    · unfold trailing
      rw [List.mem_reverse, List.reverse_append, List.reverse_cons, List.append_assoc]
      rw [List.takeWhile_append_of_pos]
      · simp
      · intro y hy
        rw [List.mem_reverse] at hy
        unfold ofGroup at hy
        simp only [List.mem_filter, decide_eq_true_eq, group, Prod.mk.injEq] at hy
        simpa using htables y hy.1 hy.2.1 hy.2.2
    · intro i h1 h2
      have hcov : covering (tableNo e) i (ofGroup (group e) a1 ++ e :: ofGroup (group e) a2) =
          covering (tableNo e) i (ofGroup (group e) a1) ++
            e :: covering (tableNo e) i (ofGroup (group e) a2) := by
        have p2 : decide (tableNo e = tableNo e ∧ index e ≤ i ∧ i ≤ lastIndex e) = true := by
          simp; omega
        unfold covering
        rw [List.filter_append, List.filter_cons, if_pos p2]
      rw [hcov, List.getLast?_append]
      cases hl : (covering (tableNo e) i (ofGroup (group e) a2)).getLast? with
      | none =>
        have hnil := List.getLast?_eq_none_iff.1 hl
        rw [hnil]; rfl
      | some e2 =>
        rw [List.getLast?_cons, hl]
        simp only [Option.getD_some, Option.some_or, Option.map_some, Option.some.injEq]
        have hm := List.mem_of_getLast? hl
        unfold covering ofGroup at hm
        rw [List.mem_filter, List.mem_filter] at hm
        obtain ⟨⟨m1, m2⟩, m4⟩ := hm
        obtain ⟨m4, m5, m6⟩ := of_decide_eq_true m4
        have m2 := of_decide_eq_true m2
        simp only [group, Prod.mk.injEq, extended, decide_eq_decide] at m2
        obtain ⟨m2, m3⟩ := m2
        unfold tableNo at m4
        exact hsame e2 m1 m2 (by omega)
  · exact hcall.1 hq

example : ∃ h a c b x e a1 a2, Collected C43ex.opt (C43ex.inputs C43ex.items) 0 h ∧
    calls h.items = a ++ c :: b ∧ c.event = .sect x ∧ Requested C43ex.opt x ∧ Shows e x ∧
    sections (log a) = a1 ++ e :: a2 ∧
    (∀ e' ∈ a2, service e' = service e → e'.tid.toNat % 16 = e.tid.toNat % 16 →
      e'.version = e.version) ∧
    (∀ e' ∈ a2, service e' = service e → extended e' = extended e → lastTable e' = lastTable e) := by
  obtain ⟨h, h1, h2⟩ := C43ex.run_items
  refine ⟨h, (calls C43ex.items).take 4, _, [_], _, _, [], [], h1, by rw [h2]; rfl, rfl,
    C43ex.requested _ 101 0x50 1 0 1 1 0x50 (by decide +kernel), C43ex.shows .., ?_⟩
  decide +kernel

namespace C47ex
open C43ex

/-- The first segment grows by a section while the second is awaited. -/
def items : List (Line SectionInput (List DemuxCall)) :=
  [ line [call (sec 101 0x50 1 0 8 0 0x50) (some (seen 101 0x50 1 0 8 0 0x50))] true,
    line [call (sec 101 0x50 2 0 8 1 0x50) (some (seen 101 0x50 2 0 8 1 0x50))] true,
    line [call (sec 101 0x50 2 8 8 8 0x50) (some (seen 101 0x50 2 8 8 8 0x50))] false ]
theorem run_items : ∃ h, Collected {} (inputs items) 0 h ∧ h.items = items :=
  run _ _ (by decide +kernel)

end C47ex

/-- **C47**, the claim is false: a section announced after its segment has been announced
to end before it is not waited for.  (The section with the latest announcement of the
segment is `e'`; no TOT was received.) -/
theorem C47_claim_false : ¬ ∀ o is code h, Collected o is code h → ∀ a it b,
    h.items = a ++ it :: b → it.more = false → ¬ TimedOut o.timeLimit (log (calls (a ++ [it]))) →
    times (log (calls (a ++ [it]))) = [] →
    ∀ a1 e' a2, sections (log (calls (a ++ [it]))) = a1 ++ e' :: a2 →
    (∀ e ∈ a2, ¬ (service e = service e' ∧ e.tid = e'.tid ∧ number e / 8 = number e' / 8)) →
    ∀ n, n / 8 = number e' / 8 → n % 8 ≤ lastIndex e' →
    ∃ e ∈ sections (log (calls (a ++ [it]))), service e = service e' ∧ e.tid = e'.tid ∧ number e = n := by
  intro hall
  obtain ⟨h, h1, h2⟩ := C47ex.run_items
  obtain ⟨e, k1, k2, k3, k4⟩ := hall _ _ _ _ h1 (C47ex.items.take 2) _ [] (by rw [h2]; rfl) rfl
    (by unfold TimedOut; decide +kernel) rfl
    [C43ex.seen 101 0x50 1 0 8 0 0x50] (C43ex.seen 101 0x50 2 0 8 1 0x50)
    [C43ex.seen 101 0x50 2 8 8 8 0x50] rfl (by decide +kernel) 1 rfl (by decide +kernel)
  have hl : sections (log (calls (C47ex.items.take 2 ++ [C43ex.line [C43ex.call
      (C43ex.sec 101 0x50 2 8 8 8 0x50) (some (C43ex.seen 101 0x50 2 8 8 8 0x50))] false]))) =
      [C43ex.seen 101 0x50 1 0 8 0 0x50, C43ex.seen 101 0x50 2 0 8 1 0x50,
       C43ex.seen 101 0x50 2 8 8 8 0x50] := rfl
  rw [hl] at k1
  simp only [List.mem_cons, List.not_mem_nil, or_false] at k1
  rcases k1 with rfl | rfl | rfl <;> revert k4 <;> decide

/-- **C47**, partial: if collecting ends and it is not for the timeout, then some section
was written, and when the last one was written, every section of every announced table of
every service needed no waiting for: it was written, or it was announced not to exist, or
it belonged to the past hours of the day.  Missing from the claim: announcements are not
withdrawn (`C47_claim_false`). -/
theorem C47_complete_partial (o : Opt) (is : List SectionInput) (code : Nat) (h : Hist)
    (hr : Collected o is code h) (a b : List (Line SectionInput (List DemuxCall)))
    (it : Line SectionInput (List DemuxCall)) (hs : h.items = a ++ it :: b) (hm : it.more = false)
    (hto : ¬ TimedOut o.timeLimit (log (calls (a ++ [it])))) :
    sections (log (calls (a ++ [it]))) ≠ [] ∧ AllThere (upToSection (log (calls (a ++ [it])))) := by
  obtain ⟨k1, _⟩ := Collected.reach hr
  obtain ⟨_, k2⟩ := reach_item k1 a it b hs
  rcases (k2.1 hm).2 with h | h
  · exact h
  · exact absurd h hto

example : ∃ h a it b, Collected C43ex.opt (C43ex.inputs C43ex.items) 0 h ∧ h.items = a ++ it :: b ∧
    it.more = false ∧ ¬ TimedOut C43ex.opt.timeLimit (log (calls (a ++ [it]))) := by
  obtain ⟨h, h1, h2⟩ := C43ex.run_items
  exact ⟨h, C43ex.items.take 4, _, [], h1, by rw [h2]; rfl, rfl, by unfold TimedOut; decide +kernel⟩

namespace C48ex
open C43ex

/-- Nothing new for an hour. -/
def items : List (Line SectionInput (List DemuxCall)) :=
  [ totLine 1 true,
    line [call (sec 101 0x50 1 0 1 1 0x50) (some (seen 101 0x50 1 0 1 1 0x50))] true,
    totLine 2 false ]
theorem run_items : ∃ h, Collected {} (inputs items) 0 h ∧ h.items = items :=
  run _ _ (by decide +kernel)
/-- Everything is there after the first packet. -/
def streamed : List (Line SectionInput (List DemuxCall)) :=
  [ line [call (sec 101 0x50 1 0 0 0 0x50) (some (seen 101 0x50 1 0 0 0 0x50))] true,
    totLine 1 true, totLine 7 true ]
theorem run_streamed : ∃ h, Collected { streaming := true } (inputs streamed) 0 h ∧ h.items = streamed :=
  run _ _ (by decide +kernel)

end C48ex

/-- **C48.** Collecting ends with a packet exactly if it is not streaming and, at the last
section written everything was there, or the stream time has advanced by the limit
since the last section was written.  With streaming, all packets are read. -/
theorem C48_end (o : Opt) (is : List SectionInput) (code : Nat) (h : Hist)
    (hr : Collected o is code h) :
    (∀ a it b, h.items = a ++ it :: b →
      (it.more = false ↔ o.streaming = false ∧
        ((sections (log (calls (a ++ [it]))) ≠ [] ∧
          AllThere (upToSection (log (calls (a ++ [it]))))) ∨
         TimedOut o.timeLimit (log (calls (a ++ [it])))))) ∧
    ((∃ a it, h.items = a ++ [it] ∧ it.more = false ∧ a.map (·.input) ++ [it.input] <+: is) ∨
      (h.items.map (·.input) = is ∧ ∀ it ∈ h.items, it.more = true)) ∧
    (o.streaming = true → h.items.map (·.input) = is) := by
  obtain ⟨k1, k2, k3, k4⟩ := Collected.reach hr
  refine ⟨fun a it b hs => (reach_item k1 a it b hs).2, ?_, ?_⟩
  · rcases k4 with k4 | ⟨x, hx, hm⟩
    · exact .inr k4
    · obtain ⟨a, ha⟩ := List.getLast?_eq_some_iff.1 hx
      refine .inl ⟨a, x, ha, hm, ?_⟩
      rw [ha] at k3
      simpa using k3
  · intro hst
    rcases k4 with k4 | ⟨x, hx, hm⟩
    · exact k4.1
    · obtain ⟨a, ha⟩ := List.getLast?_eq_some_iff.1 hx
      have := ((reach_item k1 a x [] ha).2.1 hm).1
      rw [hst] at this; cases this

example : (∃ h a it, Collected {} (C43ex.inputs C48ex.items) 0 h ∧ h.items = a ++ [it] ∧
      it.more = false ∧ TimedOut 30000 (log (calls (a ++ [it])))) ∧
    ∃ h, Collected { streaming := true } (C43ex.inputs C48ex.streamed) 0 h ∧ h.items.length = 3 := by
  obtain ⟨h, h1, h2⟩ := C48ex.run_items
  obtain ⟨h', h3, h4⟩ := C48ex.run_streamed
  exact ⟨⟨h, C48ex.items.take 2, _, h1, by rw [h2]; rfl, rfl, by unfold TimedOut; decide +kernel⟩,
    h', h3, by rw [h4]; rfl⟩

namespace C49ex
open C43ex

/-- A service alone. -/
def alone : List (Line SectionInput (List DemuxCall)) :=
  [ line [call (sec 101 0x50 1 0 1 1 0x50) (some (seen 101 0x50 1 0 1 1 0x50))] true,
    line [call (sec 101 0x50 1 0 1 1 0x50) none] true ]
/-- Together with another. -/
def both : List (Line SectionInput (List DemuxCall)) :=
  [ line [call (sec 102 0x50 1 0 1 1 0x50) (some (seen 102 0x50 1 0 1 1 0x50))] true,
    line [call (sec 101 0x50 1 0 1 1 0x50) (some (seen 101 0x50 1 0 1 1 0x50))] true,
    line [call (sec 101 0x50 1 0 1 1 0x50) none] true ]
theorem run_alone : ∃ h, Collected {} (inputs alone) 0 h ∧ h.items = alone := run _ _ (by decide +kernel)
theorem run_both : ∃ h, Collected {} (inputs both) 0 h ∧ h.items = both := run _ _ (by decide +kernel)

end C49ex

/-- **C49.** What is written for a service depends on the sections of that service only:
in any two histories (of possibly different streams) in which the same sections of the
service have been handed over, whatever there was of other services, the same of them
have been written. -/
theorem C49_independent (o : Opt) (is is' : List SectionInput) (code code' : Nat) (h h' : Hist)
    (hr : Collected o is code h) (hr' : Collected o is' code' h') (g : Nat × Nat × Nat)
    (a b a' b' : List DemuxCall) (hs : calls h.items = a ++ b) (hs' : calls h'.items = a' ++ b')
    (hsame : (ofService g a).map (·.event) = (ofService g a').map (·.event)) :
    (ofService g a).map (·.out) = (ofService g a').map (·.out) := by
  obtain ⟨k1, _⟩ := Collected.reach hr
  obtain ⟨k1', _⟩ := Collected.reach hr'
  have c1 : ∀ a1 c b1, a = a1 ++ c :: b1 → CallOk o (sections (log a1)) c := fun a1 c b1 e =>
    reach_calls k1 a1 c (b1 ++ b) (by rw [hs, e]; simp)
  have c2 : ∀ a1 c b1, a' = a1 ++ c :: b1 → CallOk o (sections (log a1)) c := fun a1 c b1 e =>
    reach_calls k1' a1 c (b1 ++ b') (by rw [hs', e]; simp)
  rw [service_determined _ rfl c1 c2 hsame]

example : ∃ h h' g, Collected {} (C43ex.inputs C49ex.alone) 0 h ∧ Collected {} (C43ex.inputs C49ex.both) 0 h' ∧
    (ofService g (calls h.items)).map (·.event) = (ofService g (calls h'.items)).map (·.event) ∧
    (ofService g (calls h.items)).length = 2 ∧ calls h.items ≠ calls h'.items := by
  obtain ⟨h, h1, h2⟩ := C49ex.run_alone
  obtain ⟨h', h3, h4⟩ := C49ex.run_both
  exact ⟨h, h', (4, 0x4010, 101), h1, h3, by rw [h2, h4]; decide +kernel⟩

namespace C77ex
open C43ex

/-- Only the second segment has been received when the clock reaches three o'clock. -/
def items : List (Line SectionInput (List DemuxCall)) :=
  [ totLine 2 true,
    line [call (sec 101 0x50 1 8 8 8 0x50) (some (seen 101 0x50 1 8 8 8 0x50))] true,
    totLine 3 true,
    line [call (sec 101 0x50 1 8 8 8 0x50) none] true ]
/-- Options. -/
def opt : Opt := { timeLimit := 7200000 }
theorem run_items : ∃ h, Collected opt (inputs items) 0 h ∧ h.items = items := run _ _ (by decide +kernel)

theorem all_there : AllThere (log (calls items)) := by
  intro g e he k hk n hn
  have hl : sections (log (calls items)) = [seen 101 0x50 1 8 8 8 0x50] := rfl
  rw [hl] at he
  by_cases hg : group (seen 101 0x50 1 8 8 8 0x50) = g
  · have h1 : ofGroup g [seen 101 0x50 1 8 8 8 0x50] = [seen 101 0x50 1 8 8 8 0x50] := by
      simp [ofGroup, hg]
    rw [h1] at he
    simp only [List.getLast?_singleton, Option.some.injEq] at he
    subst he
    have hk0 : k = 0 := by
      have : lastTable (seen 101 0x50 1 8 8 8 0x50) = 0 := rfl
      omega
    subst hk0
    by_cases h3 : n / 8 < 1
    · refine .inr ⟨rfl, [.time 7200000, .sec (seen 101 0x50 1 8 8 8 0x50)], 10800000, [], rfl, ?_, ?_, by simp [sections, ofGroup]⟩
      · have : hourOf 10800000 / 3 = 1 := by decide
        omega
      · have : sections [.time 7200000, .sec (seen 101 0x50 1 8 8 8 0x50)] = [seen 101 0x50 1 8 8 8 0x50] := rfl
        rw [this, h1]; rfl
    · refine .inl ⟨seen 101 0x50 1 8 8 8 0x50, ?_, rfl, ?_⟩
      · rw [hl, h1]; decide
      · have q1 : number (seen 101 0x50 1 8 8 8 0x50) = 8 := rfl
        have q2 : lastSegment (seen 101 0x50 1 8 8 8 0x50) = 1 := rfl
        have q3 : lastIndex (seen 101 0x50 1 8 8 8 0x50) = 0 := rfl
        rw [q1, q2, q3]
        omega
  · have h1 : ofGroup g [seen 101 0x50 1 8 8 8 0x50] = [] := by simp [ofGroup, hg]
    rw [h1] at he; cases he

end C77ex

/-- **C77**, the claim is false: everything being there because the clock advances is not
noticed. -/
theorem C77_claim_false : ¬ ∀ o is code h, Collected o is code h → o.streaming = false →
    ∀ a it b, h.items = a ++ it :: b → sections (log (calls (a ++ [it]))) ≠ [] →
    AllThere (log (calls (a ++ [it]))) → it.more = false := by
  intro hall
  obtain ⟨h, h1, h2⟩ := C77ex.run_items
  have := hall _ _ _ _ h1 rfl (C77ex.items.take 3) _ [] (by rw [h2]; rfl) (by decide +kernel)
    C77ex.all_there
  cases this

/-- **C77**, partial: collecting ends with the packet with which a section is written, no
TOT following in the packet, and everything is there.  Missing from the claim: that a
TOT is enough (`C77_claim_false`). -/
theorem C77_ends_partial (o : Opt) (is : List SectionInput) (code : Nat) (h : Hist)
    (hr : Collected o is code h) (hst : o.streaming = false)
    (a b : List (Line SectionInput (List DemuxCall))) (it : Line SectionInput (List DemuxCall))
    (hs : h.items = a ++ it :: b) (e : EitSection) (hl : (log it.did).getLast? = some (.sec e))
    (hall : AllThere (log (calls (a ++ [it])))) : it.more = false := by
  obtain ⟨k1, _⟩ := Collected.reach hr
  obtain ⟨_, k2⟩ := reach_item k1 a it b hs
  refine k2.2 ⟨hst, .inl ?_⟩
  obtain ⟨l, hl'⟩ := List.getLast?_eq_some_iff.1 hl
  have hlog : log (calls (a ++ [it])) = (log (calls a) ++ l) ++ [.sec e] := by
    rw [calls_append, log_append, show calls [it] = it.did by simp [calls], hl', List.append_assoc]
  rw [hlog] at hall ⊢
  rw [upToSection_sec]
  exact ⟨by rw [sections_append]; simp [sections], hall⟩

namespace C77ex
open C43ex
/-- One section is all there is. -/
def single : List (Line SectionInput (List DemuxCall)) :=
  [ totLine 1 true,
    line [call (sec 101 0x50 1 0 0 0 0x50) (some (seen 101 0x50 1 0 0 0 0x50))] false ]
theorem run_single : ∃ h, Collected {} (inputs single) 0 h ∧ h.items = single := run _ _ (by decide +kernel)
end C77ex

example : ∃ h a it b e, Collected {} (C43ex.inputs C77ex.single) 0 h ∧ h.items = a ++ it :: b ∧
    (log it.did).getLast? = some (.sec e) ∧ AllThere (log (calls (a ++ [it]))) := by
  obtain ⟨h, h1, h2⟩ := C77ex.run_single
  refine ⟨h, C77ex.single.take 1, _, [], _, h1, by rw [h2]; rfl, rfl, ?_⟩
  have := C47_complete_partial _ _ _ _ h1 (C77ex.single.take 1) [] _ (by rw [h2]; rfl) rfl
    (by unfold TimedOut; decide +kernel)
  exact this.2

namespace C78ex
open C43ex

/-- A section whose only event claims 4095 bytes of descriptors. -/
def bad : Section :=
  { sec 101 0x50 1 0 0 0 0x50 with
    payload := [0x40, 0x10, 0, 4, 0, 0x50, 0, 1, 0, 0, 0, 0, 0, 0, 0, 0, 0x0F, 0xFF] }
/-- A section with an event without descriptors. -/
def good : Section :=
  { sec 101 0x50 1 0 0 0 0x50 with
    payload := [0x40, 0x10, 0, 4, 0, 0x50, 0, 1, 0, 0, 0, 0, 0, 0, 0, 0, 0, 0] }

end C78ex

/-- **C78**, the claim is false: a section with a malformed event loop makes collect-eits
read outside the section. -/
theorem C78_claim_false : ¬ ∀ o : Opt, (o.collectActual = true ∨ o.collectOthers = true) →
    ∀ is, ∃ h, Collected o is 0 h := by
  intro hall
  obtain ⟨h, h0, h1, h2⟩ := hall {} (.inl rfl) [C43ex.feed [C78ex.bad]]
  have h3 : h0 = { st := {} } := by
    have : init {} = .ok { st := {} } := rfl
    rw [this] at h1
    exact (Except.ok.inj h1).symm
  rw [h3] at h2
  have h4 := ran_iff.1 h2
  have h5 : feedPackets listSource (sink {}) 2 [C43ex.feed [C78ex.bad]] { st := {} } = .error .oob := by
    decide +kernel
  rw [show [C43ex.feed [C78ex.bad]].length + 1 = 2 from rfl, h5] at h4
  cases h4

/-- **C78**, partial: if the sections asked for have well-formed event loops, collect-eits
ends normally with exit code 0, whatever the stream is otherwise; provided that one of the
two kinds of sections is to be collected (otherwise it aborts at once).  Missing from the
claim: malformed event loops (`C78_claim_false`, compare C62). -/
theorem C78_no_abort_partial (o : Opt) :
    ((o.collectActual = true ∨ o.collectOthers = true) →
      ∀ is : List SectionInput, (∀ i ∈ is, ∀ x, .sect x ∈ i.events → Requested o x →
          EventsJson.WellFormed (x.payload.drop 6)) →
        ∀ (τ : Type) (src : Source SectionInput τ) (t : τ) (fuel : Nat), Yields src t is →
          is.length < fuel → ∃ h0 h, init o = .ok h0 ∧
            feedPackets src (sink o) fuel t h0 = .ok (0, h)) ∧
    ((o.collectActual = false ∧ o.collectOthers = false) → init o = .error .assertFail) := by
  constructor
  · intro ho is hd τ src t fuel hy hf
    have ho' : (o.collectActual || o.collectOthers) = true := by simpa using ho
    obtain ⟨h, hc⟩ := collected_total ho' is
      (fun i hi ev hev x hx hq => hd i hi x (hx ▸ hev) hq)
    obtain ⟨h0, hi, hr⟩ := hc
    refine ⟨h0, h, hi, ?_⟩
    rw [feedPackets_list (sink o) hy fuel hf]
    exact ran_iff.1 hr
  · intro ⟨h1, h2⟩
    simp [init, h1, h2]

example : ∃ is : List SectionInput, (∀ i ∈ is, ∀ x, .sect x ∈ i.events → Requested {} x →
    EventsJson.WellFormed (x.payload.drop 6)) ∧ ∃ i ∈ is, ∃ x, .sect x ∈ i.events ∧ Requested {} x := by
  refine ⟨[C43ex.feed [C78ex.good]], ?_, _, List.mem_singleton.2 rfl, C78ex.good, by simp [C43ex.feed],
    ⟨rfl, rfl, by decide +kernel, by decide +kernel, by decide +kernel, by decide +kernel⟩⟩
  intro i hi x hx _
  simp only [List.mem_singleton] at hi
  subst hi
  simp only [C43ex.feed, List.map_cons, List.map_nil, List.mem_singleton, SectionEvent.sect.injEq] at hx
  subst hx
  exact ⟨[{ id := 1, start := fun _ => 0, duration := fun _ => 0, running := 0, scrambled := false,
            descriptors := [] }], [], by simp, by decide, by simp⟩

end Mirakc.Props
