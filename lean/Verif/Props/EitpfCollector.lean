import Verif.Proof.EitpfCollector
/-
Properties C50, C51: collect-eitpf.

A history consists of the calls made by TSDuck's demultiplexer, packet by packet, each
with the section written during it.
-/
set_option linter.unusedSimpArgs false

namespace Mirakc.Props
open Mirakc.Spec Mirakc.Spec.EitpfCollector Mirakc.EitpfCollector
open Mirakc.EitCollector (DemuxCall)
open Mirakc.Spec.EitCollector (Shows service origin calls)

namespace C50ex

/-- An EIT p/f section of the stream: of the network, the stream and the service, with the
version and the number, without events. -/
def sec (nid tsid : UInt8) (sid : UInt16) (v : Fin 32) (n : UInt8) : Section :=
  { tid := 0x4E, ext := sid, version := v, number := n, last := 1,
    payload := [0, tsid, 0, nid, 1, 0x4E] }
/-- The section as seen by the collector. -/
def seen (nid tsid : UInt8) (sid : UInt16) (v : Fin 32) (n : UInt8) : EitSection :=
  { sid := sid, tid := 0x4E, nid := nid.toUInt16, tsid := tsid.toUInt16, lastTableId := 0x4E,
    sectionNumber := n, lastSectionNumber := 1, segmentLast := 1, version := v, events := [] }
/-- A call for a section. -/
def call (x : Section) (out : Option EitSection) : DemuxCall := ⟨.sect x, out⟩
/-- A packet and what it caused. -/
def line (cs : List DemuxCall) (more : Bool) : Line SectionInput (List DemuxCall) :=
  ⟨{ packet := { pid := 0x12 }, events := cs.map (·.event) }, cs, more⟩
/-- A packet that completes sections. -/
def feed (xs : List Section) : SectionInput := { packet := { pid := 0x12 }, events := xs.map .sect }
/-- The input of a history. -/
def inputs (items : List (Line SectionInput (List DemuxCall))) : List SectionInput := items.map (·.input)
theorem shows (nid tsid : UInt8) (sid : UInt16) (v : Fin 32) (n : UInt8) :
    Shows (seen nid tsid sid v n) (sec nid tsid sid v n) := by
  refine ⟨rfl, rfl, rfl, rfl, rfl, 0, tsid, 0, nid, 1, 0x4E, rfl, ?_, ?_, rfl, rfl⟩ <;> simp [seen]

/-- Two services, versions change. -/
def items : List (Line SectionInput (List DemuxCall)) :=
  [ line [call (sec 4 1 101 1 0) (some (seen 4 1 101 1 0)),
          call (sec 4 1 102 1 0) (some (seen 4 1 102 1 0))] true,
    line [call (sec 4 1 101 1 1) (some (seen 4 1 101 1 1))] true,
    line [call (sec 4 1 101 1 0) none, call (sec 4 1 101 2 0) (some (seen 4 1 101 2 0))] true,
    line [call (sec 4 1 102 1 0) none] true,
    line [call (sec 4 1 101 1 0) (some (seen 4 1 101 1 0))] true ]
/-- Options. -/
def opt : Opt := { streaming := true }
theorem run_items : ∃ h, Collected opt (inputs items) 0 h ∧ h.items = items :=
  collected_of_eval (by decide +kernel)

end C50ex

/-- **C50.** Every section completed by a packet with EIT is looked at, and it is written
exactly if the options ask for it and it is the first of its service and kind, or differs
in version from the last one that was written for the service and kind.  This holds with
and without streaming. -/
theorem C50_every_change_once (o : Opt) (is : List SectionInput) (code : Nat) (h : Hist)
    (hr : Collected o is code h) :
    (∀ it ∈ h.items, it.input ∈ is ∧
      (it.input.packet.pid = 0x12 → it.did.map (·.event) = it.input.events.filter (·.pid == 0x12)) ∧
      (it.input.packet.pid ≠ 0x12 → it.did = [])) ∧
    ∀ (a b : List DemuxCall) (c : DemuxCall), calls h.items = a ++ c :: b →
      (∀ e, c.out = some e → ∃ x, c.event = .sect x ∧ Requested o x ∧ Shows e x) ∧
      ∀ x, c.event = .sect x → Requested o x → ∃ e, Shows e x ∧
        (c.out = some e ↔ (lastWritten x.number.toNat (service e) a).map (·.version) ≠ some e.version) ∧
        (c.out = none ↔ (lastWritten x.number.toNat (service e) a).map (·.version) = some e.version) := by
  obtain ⟨k1, _, k3, _⟩ := Collected.reach hr
  constructor
  · intro it hit
    obtain ⟨a, b, hs⟩ := List.append_of_mem hit
    obtain ⟨s1, s2, h1, h2, h3, _⟩ := k1.split a it b hs
    obtain ⟨_, q2, _⟩ := step_spec (reach_inv h1) h3
    refine ⟨k3.subset (List.mem_map_of_mem hit), fun hp => ?_, fun hp => ?_⟩
    · rw [q2]
      unfold handedOver
      rw [hp]
      apply List.filter_congr
      intro ev _
      simp [watched, pidEit]
    · have : it.did.map (·.event) = [] := by
        rw [q2]
        unfold handedOver
        rw [List.filter_eq_nil_iff]
        intro ev _
        simp [watched, pidEit, hp]
      exact List.map_eq_nil_iff.1 this
  · intro a b c hs
    have hcall := reach_calls k1 a c b hs
    refine ⟨fun e he => callOk_out hcall he, fun x hx hq => ?_⟩
    unfold CallOk at hcall
    rw [hx] at hcall
    simp only at hcall
    obtain ⟨e, r1, r2, r3⟩ := hcall.2 hq
    refine ⟨e, r1, ⟨fun he hk => ?_, r3⟩, ⟨fun he => ?_, r2⟩⟩
    · rw [r2 hk] at he; cases he
    · by_cases hk : (lastWritten x.number.toNat (service e) a).map (·.version) = some e.version
      · exact hk
      · rw [r3 hk] at he; cases he

example : ∃ h a c b x e, Collected C50ex.opt (C50ex.inputs C50ex.items) 0 h ∧
    calls h.items = a ++ c :: b ∧ c.event = .sect x ∧ Requested C50ex.opt x ∧ Shows e x ∧
    c.out = some e ∧ (lastWritten x.number.toNat (service e) a).map (·.version) = some 2 := by
  obtain ⟨h, h1, h2⟩ := C50ex.run_items
  exact ⟨h, (calls C50ex.items).take 6,
    C50ex.call (C50ex.sec 4 1 101 1 0) (some (C50ex.seen 4 1 101 1 0)), [], _, _, h1, by rw [h2]; rfl,
    rfl, ⟨⟨rfl, rfl, rfl, by decide, .inl rfl⟩, .inl ⟨rfl, rfl⟩⟩, C50ex.shows 4 1 101 1 0, rfl,
    by decide +kernel⟩

namespace C51ex
open C50ex

/-- The present and the following section of two services. -/
def items : List (Line SectionInput (List DemuxCall)) :=
  [ line [call (sec 4 1 101 1 0) (some (seen 4 1 101 1 0)),
          call (sec 4 1 102 1 0) (some (seen 4 1 102 1 0))] true,
    line [call (sec 4 1 103 1 0) none, call (sec 4 1 101 1 1) (some (seen 4 1 101 1 1))] true,
    line [call (sec 4 1 102 1 1) (some (seen 4 1 102 1 1))] false ]
/-- Options. -/
def opt : Opt := { sids := [101, 102] }
theorem run_items : ∃ h, Collected opt (inputs items) 0 h ∧ h.items = items :=
  collected_of_eval (by decide +kernel)

/-- The following section of the other version. -/
def items2 : List (Line SectionInput (List DemuxCall)) :=
  [ line [call (sec 4 1 101 1 0) (some (seen 4 1 101 1 0))] true,
    line [call (sec 4 1 101 2 1) (some (seen 4 1 101 2 1))] true ]
theorem run_items2 : ∃ h, Collected { sids := [101] } (inputs items2) 0 h ∧ h.items = items2 :=
  collected_of_eval (by decide +kernel)

/-- Two services with the same id in different streams. -/
def clash : List SectionInput := [feed [sec 4 1 101 1 0, sec 4 2 101 1 1]]

theorem oneEach : OneEach opt (inputs items) := by
  intro i hi i' hi' x y hx hy _ _ he
  have hall : ∀ i ∈ inputs items, ∀ x, .sect x ∈ i.events → ∃ sid v n, x = sec 4 1 sid v n := by
    intro i hi x hx
    simp only [inputs, items, List.map_cons, List.map_nil, List.mem_cons, List.not_mem_nil, or_false] at hi
    rcases hi with rfl | rfl | rfl <;>
    · simp only [line, call, List.map_cons, List.map_nil, List.mem_cons, SectionEvent.sect.injEq,
        List.not_mem_nil, or_false] at hx
      rcases hx with rfl | rfl <;> exact ⟨_, _, _, rfl⟩
  obtain ⟨s, v, n, rfl⟩ := hall i hi x hx
  obtain ⟨s', v', n', rfl⟩ := hall i' hi' y hy
  have : s = s' := he
  subst this
  rfl

end C51ex

/-- **C51**, the claim is false, first part: two services with the same id in different
streams make collect-eitpf terminate abnormally, by an exception of `std::map::at`. -/
theorem C51_claim_false : ∃ (o : Opt) (is : List SectionInput),
    (∀ i ∈ is, ∀ x, .sect x ∈ i.events → EventsJson.WellFormed (x.payload.drop 6)) ∧
    feedPackets listSource (sink o) (is.length + 1) is { st := {} } = .error .uncaught := by
  refine ⟨{ sids := [101] }, C51ex.clash, ?_, by decide +kernel⟩
  intro i hi x hx
  simp only [C51ex.clash, List.mem_singleton] at hi
  subst hi
  simp only [C50ex.feed, List.map_cons, List.map_nil, List.mem_cons, SectionEvent.sect.injEq,
    List.not_mem_nil, or_false] at hx
  rcases hx with rfl | rfl <;> exact ⟨[], [], by simp, rfl, by simp⟩

/-- **C51**, the claim is false, second part: collecting goes on although the present and
the following section of every service asked for were written, if their versions differ. -/
theorem C51_end_claim_false : ¬ ∀ o is code h, Collected o is code h → o.streaming = false →
    o.sids ≠ [] → OneEach o is → ∀ a it b, h.items = a ++ it :: b →
    (∀ sid ∈ o.sids, (o.present = true → ∃ v, version 0 sid (calls (a ++ [it])) = some v) ∧
      (o.following = true → ∃ v, version 1 sid (calls (a ++ [it])) = some v)) → it.more = false := by
  intro hall
  obtain ⟨h, h1, h2⟩ := C51ex.run_items2
  have := hall _ _ _ _ h1 rfl (by simp) (by
    intro i hi i' hi' x y hx hy _ _ he
    have hall : ∀ i ∈ C50ex.inputs C51ex.items2, ∀ x, .sect x ∈ i.events →
        ∃ v n, x = C50ex.sec 4 1 101 v n := by
      intro i hi x hx
      simp only [C50ex.inputs, C51ex.items2, List.map_cons, List.map_nil, List.mem_cons,
        List.not_mem_nil, or_false] at hi
      rcases hi with rfl | rfl <;>
      · simp only [C50ex.line, C50ex.call, List.map_cons, List.map_nil, List.mem_cons,
          SectionEvent.sect.injEq, List.not_mem_nil, or_false] at hx
        subst hx
        exact ⟨_, _, rfl⟩
    obtain ⟨v, n, rfl⟩ := hall i hi x hx
    obtain ⟨v', n', rfl⟩ := hall i' hi' y hy
    rfl) (C51ex.items2.take 1) _ [] (by rw [h2]; rfl) (by
    intro sid hsid
    simp only [List.mem_singleton] at hsid
    subst hsid
    exact ⟨fun _ => ⟨1, by decide +kernel⟩, fun _ => ⟨2, by decide +kernel⟩⟩)
  cases this

/-- **C51**, partial, the end: without streaming, collecting ends after the packet by which
everything asked for was written and the present and the following section of every service
have the same version, and not before; with streaming it ends with the input.  Missing from
the claim: services of different streams with the same id (`C51_claim_false`), different
versions (`C51_end_claim_false`), and no service being asked for, when collecting ends at
once. -/
theorem C51_end_partial (o : Opt) (is : List SectionInput) (code : Nat) (h : Hist)
    (hr : Collected o is code h) (hs : o.sids ≠ []) (h1 : OneEach o is) :
    (∀ (a b : List (Line SectionInput (List DemuxCall))) (it : Line SectionInput (List DemuxCall)),
      h.items = a ++ it :: b →
        (it.more = false ↔ o.streaming = false ∧ Complete o (calls (a ++ [it]))) ∧
        (it.more = false → b = [])) ∧
    (h.items.map (·.input) = is ∨ ∃ it, h.items.getLast? = some it ∧ it.more = false) := by
  obtain ⟨k1, _, k3, k4⟩ := Collected.reach hr
  constructor
  · intro a b it e
    obtain ⟨s1, s2, r1, r2, r3, r4⟩ := k1.split a it b e
    obtain ⟨_, _, _, q4⟩ := step_spec (reach_inv r1) r3
    have hu := unique_of_from (reach_from r4 (is := is) (fun x hx =>
      k3.subset (List.mem_map_of_mem (by
        rw [e]
        rcases List.mem_append.1 hx with hx | hx
        · exact List.mem_append.2 (.inl hx)
        · rw [List.mem_singleton.1 hx]; simp)))) h1
    obtain ⟨d, d1, d2⟩ := done_iff (reach_inv r4) hu hs
    rw [d1] at q4
    cases Except.ok.inj q4
    refine ⟨by rw [← d2]; simp, fun hm => ?_⟩
    cases b with
    | nil => rfl
    | cons y b =>
      obtain ⟨_, _, _, t2, _⟩ := k1.split (a ++ [it]) y b (by simp [e])
      have := t2 it (by simp)
      rw [hm] at this; cases this
  · rcases k4 with k4 | k4
    · exact .inl k4.1
    · exact .inr k4

example : ∃ h a it b, Collected C51ex.opt (C50ex.inputs C51ex.items) 0 h ∧ C51ex.opt.sids ≠ [] ∧
    OneEach C51ex.opt (C50ex.inputs C51ex.items) ∧ h.items = a ++ it :: b ∧ it.more = false := by
  obtain ⟨h, h1, h2⟩ := C51ex.run_items
  exact ⟨h, C51ex.items.take 2, _, [], h1, by simp [C51ex.opt], C51ex.oneEach, by rw [h2]; rfl, rfl⟩

/-- **C51**, partial, no abnormal end: if the sections asked for have well-formed event
loops, collect-eitpf ends with exit code 0 when streaming, when only present or only
following sections are asked for, and when no two services have the same id.  Missing from
the claim: malformed event loops (compare C62), and services of different streams with the
same id (`C51_claim_false`). -/
theorem C51_no_abort_partial (o : Opt) (is : List SectionInput)
    (hd : ∀ i ∈ is, ∀ x, .sect x ∈ i.events → Requested o x → EventsJson.WellFormed (x.payload.drop 6))
    (h1 : o.streaming = true ∨ o.present = false ∨ o.following = false ∨ OneEach o is)
    (τ : Type) (src : Source SectionInput τ) (t : τ) (fuel : Nat) (hy : Yields src t is)
    (hf : is.length < fuel) : ∃ h, feedPackets src (sink o) fuel t { st := {} } = .ok (0, h) := by
  obtain ⟨⟨c, h⟩, hr⟩ := run_total
    (fun i hi ev hev x hx hq => hd i hi x (hx ▸ hev) hq) h1 src t fuel hy hf
  obtain ⟨_, rfl, _⟩ := Collected.reach (o := o) ⟨τ, src, t, fuel, hy, hf, hr⟩
  exact ⟨h, hr⟩

example : ∃ o is, (∀ i ∈ is, ∀ x, .sect x ∈ i.events → Requested o x →
      EventsJson.WellFormed (x.payload.drop 6)) ∧
    (o.streaming = true ∨ o.present = false ∨ o.following = false ∨ OneEach o is) ∧
    ∃ i ∈ is, ∃ x, .sect x ∈ i.events ∧ Requested o x := by
  refine ⟨C51ex.opt, C50ex.inputs C51ex.items, ?_, .inr (.inr (.inr C51ex.oneEach)), _, .head _,
    C50ex.sec 4 1 101 1 0, .head _, ⟨⟨rfl, rfl, rfl, by decide, by decide⟩, .inl ⟨rfl, rfl⟩⟩⟩
  intro i hi x hx _
  simp only [C50ex.inputs, C51ex.items, List.map_cons, List.map_nil, List.mem_cons, List.not_mem_nil,
    or_false] at hi
  rcases hi with rfl | rfl | rfl <;>
  · simp only [C50ex.line, C50ex.call, List.map_cons, List.map_nil, List.mem_cons,
      SectionEvent.sect.injEq, List.not_mem_nil, or_false] at hx
    rcases hx with rfl | rfl <;> exact ⟨[], [], by simp, rfl, by simp⟩

end Mirakc.Props
