import Verif.Proof.BehindEits
import Verif.Props.Again
import Verif.Props.MainEits
/-
Property C154: collect-eits and collect-eitpf behind filter-service.
-/
namespace Mirakc.Props
open Mirakc.Main Mirakc.Spec Mirakc.Spec.Main Mirakc.Spec.Pipeline Mirakc.Spec.BehindEits
open Mirakc.Spec.ServiceFilter (sent usablePat)

private theorem seen_zip (w : World) : ∀ (ps : List (List UInt8)) (n : Nat),
    seen (sectionInput w) n ps =
      List.zipWith SectionInput.mk (ps.map w.codec.packet) ((List.range' n ps.length).map w.sections)
  | [], _ => rfl
  | b :: ps, n => by
    simp only [seen, List.map_cons, List.length_cons, List.range'_succ, List.zipWith_cons_cons, seen_zip w ps (n + 1)]
    rfl

private theorem seen_out (w : World) (c : Mirakc.Pipeline.Codec) (hc : w.codec = c) : ∀ (os : List ServiceFilter.Out)
    (ss : List (List SectionEvent)) (n : Nat), ss.length = os.length → (∀ k l, ss[k]? = some l → w.sections (n + k) = l) →
    seen (sectionInput w) n (os.map (serviceBytes c)) =
      List.zipWith (fun x l => SectionInput.mk (c.packet (serviceBytes c x)) l) os ss
  | [], [], _, _, _ => rfl
  | x :: os, l :: ss, n, hl, h => by
    have h0 := h 0 l rfl
    rw [Nat.add_zero] at h0
    simp only [List.map_cons, seen, List.zipWith_cons_cons, sectionInput]
    rw [h0, hc]
    congr 1
    exact seen_out w c hc os ss (n + 1) (by simpa using hl) fun k l' hk => by
      rw [show n + 1 + k = n + (k + 1) by omega]; exact h (k + 1) l' (by simpa using hk)
  | [], _ :: _, _, hl, _ => by cases hl
  | _ :: _, [], _, hl, _ => by cases hl

private theorem behind {w w2 : World} (hc : Faithful w.codec) {ps : List (List UInt8)} (hr : Reads w ps)
    {sid : Nat} {f : ServiceFilter.St} {items : List ServiceFilter.Item}
    (hrun : ServiceFilter.run { sid := sid } (ServiceFilter.init { sid := sid })
      (seen (arrived w.codec w.tables) 0 ps) = .ok (f, items))
    {ss : List (List SectionEvent)} (ha : Repeats ((List.range ps.length).map w.sections) items ss)
    (hp : ∀ k b, ps[k]? = some b →
      (∃ ev ∈ w.sections k, ev.pid = (w.codec.packet b).pid ∧ (ev.pid = 0x12 ∨ ev.pid = 0x14)) →
      ∃ t ∈ Spec.ServiceFilter.received (items.take k), usablePat t ≠ none)
    (hcod : w2.codec = w.codec) (ht : ∀ k l, ss[k]? = some l → w2.sections k = l) :
    Mirakc.BehindEits.Thin Mirakc.BehindEits.Quiet (seen (sectionInput w) 0 ps)
      (seen (sectionInput w2) 0 ((sent items).map (serviceBytes w.codec))) := by
  obtain ⟨hl, hn⟩ := Mirakc.BehindEits.repeats_length ha
  rw [seen_out w2 w.codec hcod (sent items) ss 0 hl (fun k l h => by rw [Nat.zero_add]; exact ht k l h), seen_zip,
    ← List.range_eq_range']
  refine Mirakc.BehindEits.thin_repeats (fun t n => hc.patPid t n) ha _ (by simp) fun k p l it h1 h2 h3 => ?_
  obtain ⟨b, hb, rfl⟩ := Option.map_eq_some_iff.1 (List.getElem?_map ▸ h1)
  have hk : k < ps.length := (List.getElem?_eq_some_iff.1 hb).1
  have hl2 : l = w.sections k := by
    rw [List.getElem?_map, List.getElem?_range hk] at h2
    exact (Option.some.inj h2).symm
  subst hl2
  have hi := Mirakc.Joined.seen_get (arrived w.codec w.tables) ps 0 k _ hb
  rw [Nat.zero_add] at hi
  obtain ⟨a, c⟩ := Mirakc.Joined.acts hrun h3 hi (hn it (List.mem_of_getElem? h3))
  refine ⟨fun e => ?_, fun q e => ?_, fun t n e => ?_⟩
  · intro ev hev he
    have : ¬ (ev.pid = 0x12 ∨ ev.pid = 0x14) := fun hx => by
      obtain ⟨u, hu, hv⟩ := hp k b hb ⟨ev, hev, he, hx⟩
      cases hw : usablePat u with
      | none => exact hv hw
      | some pat =>
        obtain ⟨q, hq'⟩ := Mirakc.Joined.latest_some (f := usablePat) (List.mem_append_left it.handled hu) hw
        refine a.2 (.inl ⟨q, hq', .inl ?_⟩) e
        show (w.codec.packet b).pid ∈ _
        rw [← show ev.pid = (w.codec.packet b).pid from he]
        rcases hx with hx | hx <;> rw [hx] <;> decide
    exact ⟨fun h => this (.inl h), fun h => this (.inr h)⟩
  · rcases c with c | ⟨c, _⟩ | ⟨_, _, c, _⟩
    · rw [c] at e; cases e
    · rw [c] at e; cases e
      show w.codec.packet (w.codec.bytes (w.codec.packet b)) = w.codec.packet b
      rw [hc.keep b (Mirakc.Pipeline.packets_188 hr.2 b (List.mem_of_getElem? hb))]
    · rw [c] at e; cases e
  · rcases c with c | ⟨c, _⟩ | ⟨_, _, _, c, _⟩
    · rw [c] at e; cases e
    · rw [c] at e; cases e
    · have c : (w.codec.packet b).pid = 0 := c
      exact Mirakc.BehindEits.quiet_pid (by rw [c]; decide) (by rw [c]; decide)

/-- **C154**, collect-eits.  It prints for the output of filter-service, for any service, what it prints for the stream, if no EIT
section or TOT is completed before filter-service has received a PAT and the time limit, if any, is positive; the packets that
filter-service passes on as they are complete what they complete in the stream (`Repeats`). -/
theorem C154_collect_eits (w w2 : World) (hc : Faithful w.codec) (ps : List (List UInt8)) (hr : Reads w ps) (sid : Nat)
    (f : ServiceFilter.St) (items : List ServiceFilter.Item)
    (hrun : ServiceFilter.run { sid := sid } (ServiceFilter.init { sid := sid })
      (seen (arrived w.codec w.tables) 0 ps) = .ok (f, items))
    (ss : List (List SectionEvent)) (ha : Repeats ((List.range ps.length).map w.sections) items ss)
    (hp : ∀ k b, ps[k]? = some b →
      (∃ ev ∈ w.sections k, ev.pid = (w.codec.packet b).pid ∧ (ev.pid = 0x12 ∨ ev.pid = 0x14)) →
      ∃ t ∈ Spec.ServiceFilter.received (items.take k), usablePat t ≠ none)
    (hcod : w2.codec = w.codec) (hmjd : w2.mjd = w.mjd) (hr2 : Reads w2 ((sent items).map (serviceBytes w.codec)))
    (ht : ∀ k l, ss[k]? = some l → w2.sections k = l)
    (sids xsids : Option (List (List Char))) (timeLimit : Option Int) (streaming onlyActual onlyOthers : Bool)
    (hlim : streaming = true ∨ ∀ t, timeLimit = some t → 0 < t) (e e2 : Ended)
    (h : main w (.collectEits sids xsids timeLimit streaming onlyActual onlyOthers) = .ok e)
    (h2 : main w2 (.collectEits sids xsids timeLimit streaming onlyActual onlyOthers) = .ok e2) : e2 = e := by
  have hth := behind hc hr hrun ha hp hcod ht
  simp only [main, collectEits, loadEits, bind_ok_iff] at h
  obtain ⟨o, ⟨a, a1, b, b1, ho⟩, h0, hi, ⟨code, m, y⟩, h3, h4⟩ := h
  simp only [main, collectEits, loadEits, bind_ok_iff] at h2
  obtain ⟨o', ⟨a', a1', b', b1', ho'⟩, h0', hi', ⟨code', m', y'⟩, h3', h4'⟩ := h2
  rw [a1] at a1'
  rw [b1] at b1'
  obtain rfl := Except.ok.inj a1'
  obtain rfl := Except.ok.inj b1'
  obtain rfl : o = o' := Except.ok.inj (ho.symm.trans ho')
  rw [mapError_ok_iff] at hi hi'
  have hran : Ran _ _ (seen (sectionInput w) 0 ps) code y := ran_of_feed hr h3
  have hran' : Ran _ _ (seen (sectionInput w2) 0 _) code' y' := ran_of_feed hr2 h3'
  have hgo : Mirakc.BehindEits.GoesOn o {} := by
    refine Mirakc.BehindEits.goesOn_init ?_
    rw [← Except.ok.inj ho]
    refine hlim.imp id fun hlim => ?_
    show 0 < timeLimit.getD 30000
    cases timeLimit with
    | none => decide
    | some t => exact hlim t rfl
  obtain ⟨k1, rfl, rfl⟩ := Mirakc.BehindEits.eits_same hgo hth ⟨h0, hi, hran⟩ ⟨h0', hi', hran'⟩
  rw [← Except.ok.inj h4, ← Except.ok.inj h4']
  simp only [k1, eitDocs, hmjd]

/-- **C154**, collect-eitpf, likewise, with `--streaming` or with services. -/
theorem C154_collect_eitpf (w w2 : World) (hc : Faithful w.codec) (ps : List (List UInt8)) (hr : Reads w ps) (sid : Nat)
    (f : ServiceFilter.St) (items : List ServiceFilter.Item)
    (hrun : ServiceFilter.run { sid := sid } (ServiceFilter.init { sid := sid })
      (seen (arrived w.codec w.tables) 0 ps) = .ok (f, items))
    (ss : List (List SectionEvent)) (ha : Repeats ((List.range ps.length).map w.sections) items ss)
    (hp : ∀ k b, ps[k]? = some b →
      (∃ ev ∈ w.sections k, ev.pid = (w.codec.packet b).pid ∧ (ev.pid = 0x12 ∨ ev.pid = 0x14)) →
      ∃ t ∈ Spec.ServiceFilter.received (items.take k), usablePat t ≠ none)
    (hcod : w2.codec = w.codec) (hmjd : w2.mjd = w.mjd) (hr2 : Reads w2 ((sent items).map (serviceBytes w.codec)))
    (ht : ∀ k l, ss[k]? = some l → w2.sections k = l)
    (sids : Option (List (List Char))) (hnum : Numbers sids) (streaming present following : Bool)
    (hask : streaming = true ∨ ((∃ x l, sids = some (x :: l)) ∧ (present = false ∨ following = false))) (e e2 : Ended)
    (h : main w (.collectEitpf sids streaming present following) = .ok e)
    (h2 : main w2 (.collectEitpf sids streaming present following) = .ok e2) : e2 = e := by
  have hth := behind hc hr hrun ha hp hcod ht
  simp only [main, collectEitpf, loadEitpf, bind_ok_iff] at h
  obtain ⟨o, ⟨a, a1, ho⟩, ⟨code, m, y⟩, h3, h4⟩ := h
  simp only [main, collectEitpf, loadEitpf, bind_ok_iff] at h2
  obtain ⟨o', ⟨a', a1', ho'⟩, ⟨code', m', y'⟩, h3', h4'⟩ := h2
  rw [a1] at a1'
  obtain rfl := Except.ok.inj a1'
  obtain rfl : o = o' := Except.ok.inj (ho.symm.trans ho')
  have hran : Ran _ _ (seen (sectionInput w) 0 ps) code y := ran_of_feed hr h3
  have hran' : Ran _ _ (seen (sectionInput w2) 0 _) code' y' := ran_of_feed hr2 h3'
  have hgo : EitpfCollector.done o {} = .ok false := by
    refine Mirakc.BehindEits.done_init ?_
    rw [← Except.ok.inj ho]
    refine hask.imp id fun hask => ?_
    obtain ⟨⟨x, l, hx⟩, hpf⟩ := hask
    refine ⟨?_, ?_⟩
    · show a.map UInt16.ofNat ≠ []
      rw [ne_eq, List.map_eq_nil_iff, (sidSet_spec hnum a1).2.1, hx]
      rintro (h | h) <;> cases h
    · show (!following) = true ∨ (!present) = true
      rcases hpf with rfl | rfl
      · exact .inr rfl
      · exact .inl rfl
  obtain ⟨k1, rfl, rfl⟩ := Mirakc.BehindEits.eitpf_same hgo hth hran hran'
  rw [← Except.ok.inj h4, ← Except.ok.inj h4']
  simp only [k1, eitDocs, hmjd]

namespace C154ex
open C68ex (raw)

/-- `Repeats`, as a test. -/
def repeats : List (List SectionEvent) → List ServiceFilter.Item → List (List SectionEvent) → Bool
  | [], [], [] => true
  | l :: ls, it :: items, ss =>
    match it.act, ss with
    | .drop, ss => repeats ls items ss
    | .send (.orig _), l' :: ss => decide (l = l') && repeats ls items ss
    | .send (.pat _ _), _ :: ss => repeats ls items ss
    | _, _ => false
  | _, _, _ => false
theorem repeats_sound : ∀ {ls : List (List SectionEvent)} {items : List ServiceFilter.Item} {ss : List (List SectionEvent)},
    repeats ls items ss = true → Repeats ls items ss
  | [], [], [], _ => .nil
  | l :: ls, it :: items, ss, h => by
    unfold repeats at h
    split at h
    · next e => exact .drop e (repeats_sound h)
    · next e =>
      rw [Bool.and_eq_true, decide_eq_true_iff] at h
      obtain ⟨rfl, h⟩ := h
      exact .orig e (repeats_sound h)
    · next e => exact .pat e (repeats_sound h)
    · cases h
  | [], [], _ :: _, h => by cases h
  | [], _ :: _, _, h => by cases h
  | _ :: _, [], _, h => by cases h

/-- A stream with a PAT, a packet of no service, and EITs. -/
def ps : List (List UInt8) := [raw 0 0 1, raw 0x111 0 9, raw 0x12 0 6, raw 0x111 1 9, raw 0x12 1 7]
/-- What its packets complete. -/
def tables : Nat → List Table
  | 0 => [C56ex.pat 0x10]
  | _ => []
def sections : Nat → List SectionEvent
  | 2 => [.sect (C50ex.sec 4 1 101 1 0), .sect (C50ex.sec 4 1 102 1 0)]
  | 4 => [.sect (C43ex.sec 101 0x60 1 0 0 0 0x60), .sect (C50ex.sec 4 1 101 1 1)]
  | _ => []
def world : World := { C90ex.world with tables := tables, sections := sections, read := [some ps.flatten] }
theorem reads : Reads world ps := by
  refine ⟨fun r hr => ?_, ?_⟩
  · have : ∀ r ∈ world.read, (r.getD []).length ≤ 16384 := by decide +kernel
    exact this _ hr
  · have : contents world = ps.flatten := by decide +kernel
    rw [this]
    exact Mirakc.Pipeline.packets_flatten (by decide +kernel)
/-- The history of filter-service for the service 1. -/
def result := ServiceFilter.run { sid := 1 } (ServiceFilter.init { sid := 1 })
  (seen (arrived world.codec world.tables) 0 ps)
def items : List ServiceFilter.Item := match result with | .ok x => x.2 | .error _ => []
theorem ran : ∃ f, ServiceFilter.run { sid := 1 } (ServiceFilter.init { sid := 1 })
    (seen (arrived world.codec world.tables) 0 ps) = .ok (f, items) := by
  have key : result.isOk = true := by decide +kernel
  cases h : result with
  | error x => rw [h] at key; cases key
  | ok x =>
    refine ⟨x.1, ?_⟩
    have : items = x.2 := by simp only [items, h]
    rw [this]
    exact h
/-- What the packets of its output complete. -/
def ss : List (List SectionEvent) := [[], sections 2, sections 4]
def out : List (List UInt8) := (sent items).map (serviceBytes world.codec)
def world2 : World := { world with read := [some out.flatten], sections := fun k => (ss[k]?).getD [] }
theorem reads2 : Reads world2 out := by
  refine ⟨fun r hr => ?_, ?_⟩
  · have : ∀ r ∈ world2.read, (r.getD []).length ≤ 16384 := by decide +kernel
    exact this _ hr
  · have : contents world2 = out.flatten := by decide +kernel
    rw [this]
    exact Mirakc.Pipeline.packets_flatten (by decide +kernel)
theorem pat_first : ∀ k b, ps[k]? = some b →
    (∃ ev ∈ world.sections k, ev.pid = (world.codec.packet b).pid ∧ (ev.pid = 0x12 ∨ ev.pid = 0x14)) →
    ∃ t ∈ Spec.ServiceFilter.received (items.take k), usablePat t ≠ none := by
  intro k b _ ⟨ev, hev, _⟩
  have hk : k = 2 ∨ k = 4 := by
    change ev ∈ sections k at hev
    unfold sections at hev
    split at hev
    · exact .inl rfl
    · exact .inr rfl
    · cases hev
  rcases hk with rfl | rfl
  · exact ⟨C56ex.pat 0x10, by decide +kernel, by decide⟩
  · exact ⟨C56ex.pat 0x10, by decide +kernel, by decide⟩

end C154ex

open C154ex in
/-- Non-trivial case for C154: filter-service drops two packets; both commands find sections. -/
example : Faithful world.codec ∧ Reads world ps ∧
    (∃ f, ServiceFilter.run { sid := 1 } (ServiceFilter.init { sid := 1 })
      (seen (arrived world.codec world.tables) 0 ps) = .ok (f, items)) ∧
    Repeats ((List.range ps.length).map world.sections) items ss ∧
    (∀ k b, ps[k]? = some b →
      (∃ ev ∈ world.sections k, ev.pid = (world.codec.packet b).pid ∧ (ev.pid = 0x12 ∨ ev.pid = 0x14)) →
      ∃ t ∈ Spec.ServiceFilter.received (items.take k), usablePat t ≠ none) ∧
    Reads world2 ((sent items).map (serviceBytes world.codec)) ∧ (∀ k l, ss[k]? = some l → world2.sections k = l) ∧
    Numbers (some [['1', '0', '1']]) ∧ (sent items).length = 3 ∧
    (∃ e, main world2 (.collectEits none none none false false false) = .ok e ∧ decide (e.docs.length = 1) = true) ∧
    ∃ e, main world2 (.collectEitpf (some [['1', '0', '1']]) false false false) = .ok e ∧ decide (e.docs.length = 2) = true :=
  ⟨C68ex.faithful, reads, ran, repeats_sound (by decide +kernel), pat_first, reads2, fun k l h => by simp [world2, h],
    C90ex.numbers _ 101 C90ex.denotes101 (by decide), by decide +kernel, C95ex.check (by decide +kernel), C95ex.check (by decide +kernel)⟩

end Mirakc.Props
