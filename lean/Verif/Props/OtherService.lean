import Verif.Proof.OtherService
import Verif.Props.BehindSync
/-
Property C158: filter-service, filter-program and record-service for another service behind filter-service.
-/
namespace Mirakc.Props
open Mirakc.Main Mirakc.Spec Mirakc.Spec.Main Mirakc.Spec.Pipeline
open Mirakc.Spec.ServiceFilter (sent usablePat validCat validPmt Again)

/-- **C158.**  The output of filter-service does not contain another service: filter-service for another service, reading it, writes
nothing, and fails unless the output is empty.  A CAT, or a PMT of the service, is received only after a PAT; the packets passed on complete
the tables they complete in the stream, the rewritten PATs instead of the original ones (`Again`). -/
theorem C158_other_service (w w2 : World) (hc : Faithful w.codec) (ps : List (List UInt8))
    (sid : Nat) (f : ServiceFilter.St) (items : List ServiceFilter.Item)
    (hrun : ServiceFilter.run { sid := sid } (ServiceFilter.init { sid := sid })
      (seen (arrived w.codec w.tables) 0 ps) = .ok (f, items))
    (hlate : ∀ (k : Nat) it, items[k]? = some it → (∃ t ∈ it.handled, validCat t ≠ none ∨ validPmt sid t ≠ none) →
      ∃ t ∈ Spec.ServiceFilter.received (items.take k), usablePat t ≠ none)
    (ts : List (List Table)) (ha : Again (seen (arrived w.codec w.tables) 0 ps) items ts)
    (hcod : w2.codec = w.codec) (hr2 : Reads w2 ((sent items).map (serviceBytes w.codec)))
    (hw2 : ∀ x ∈ w2.write, 0 ≤ x) (ht : ∀ k l, ts[k]? = some l → w2.tables k = l)
    (sid2 : Nat) (hs2 : sid2 < 65536) (hne : sid ≠ sid2) :
    main w2 (.filterService (some sid2)) = .ok { code := if sent items = [] then 0 else 1, bytes := [] } := by
  obtain ⟨hl, hn⟩ := again_length ha
  obtain ⟨_, k2⟩ := C95_filter_service w2 (by rw [hcod]; exact hc) _ hr2 hw2 sid2 hs2
  have hin : seen (arrived w2.codec w2.tables) 0 ((sent items).map (serviceBytes w.codec)) =
      Spec.ServiceFilter.reread (fun x => w.codec.packet (serviceBytes w.codec x)) (sent items) ts := by
    rw [hcod]
    exact seen_reread w.codec w2.tables (sent items) ts 0 hl (fun k l h => by rw [Nat.zero_add]; exact ht k l h)
  simp only [hin] at k2
  rcases Mirakc.OtherService.first_out hrun ha hn hlate with g | ⟨t, n, l, rest, os, g1, g2, g3, ⟨pid, g4⟩, g5, g6⟩
  · obtain ⟨code, m1, _, _, m3⟩ := k2 (ServiceFilter.init { sid := sid2 }) [] (by rw [g]; rfl)
    rw [m1, m3 (by simp [Spec.ServiceFilter.received]), g]
    rfl
  · rw [g1, g2] at k2
    obtain ⟨⟨f2, items2⟩, hrun2⟩ := Mirakc.OtherService.other_ok hne
      (is := Spec.ServiceFilter.reread (fun x => w.codec.packet (serviceBytes w.codec x)) os rest)
      (p := w.codec.packet (serviceBytes w.codec (.pat t n))) (hc.patPid t n) g3 g4 g5 g6
    obtain ⟨q1, q2⟩ := Mirakc.OtherService.other_run hne hrun2 (hc.patPid t n) g3 g4 g5 g6
    obtain ⟨code, m1, _, m2, _⟩ := k2 f2 items2 hrun2
    rw [g1, m1, m2 q2, q1]
    rfl

private theorem nothing {w w2 : World} (hc : Faithful w.codec) {ps : List (List UInt8)}
    {sid : Nat} {f : ServiceFilter.St} {items : List ServiceFilter.Item}
    (hrun : ServiceFilter.run { sid := sid } (ServiceFilter.init { sid := sid })
      (seen (arrived w.codec w.tables) 0 ps) = .ok (f, items))
    (hlate : ∀ (k : Nat) it, items[k]? = some it → (∃ t ∈ it.handled, validCat t ≠ none ∨ validPmt sid t ≠ none) →
      ∃ t ∈ Spec.ServiceFilter.received (items.take k), usablePat t ≠ none)
    {ts : List (List Table)} (ha : Again (seen (arrived w.codec w.tables) 0 ps) items ts)
    (hcod : w2.codec = w.codec) (ht : ∀ k l, ts[k]? = some l → w2.tables k = l) {sid2 : Nat} (hne : sid ≠ sid2)
    {cs : List (List UInt8)} (hp : cs <+: (sent items).map (serviceBytes w.codec)) {f2 : ServiceFilter.St}
    {items2 : List ServiceFilter.Item}
    (h : ServiceFilter.run { sid := sid2 } (ServiceFilter.init { sid := sid2 })
      (seen (arrived w2.codec w2.tables) 0 cs) = .ok (f2, items2)) :
    sent items2 = [] ∧ (cs ≠ [] → ∃ t ∈ Spec.ServiceFilter.received items2, Spec.ServiceFilter.Missing sid2 t) := by
  cases cs with
  | nil => cases h; exact ⟨rfl, fun h => absurd rfl h⟩
  | cons b cs =>
    obtain ⟨hl, hn⟩ := again_length ha
    rcases Mirakc.OtherService.first_out hrun ha hn hlate with g | ⟨t, n, l, rest, os, g1, g2, g3, ⟨pid, g4⟩, g5, g6⟩
    · rw [g] at hp
      cases List.prefix_nil.1 hp
    · rw [g1, List.map_cons, List.cons_prefix_cons] at hp
      obtain ⟨rfl, _⟩ := hp
      have h0 : w2.tables 0 = l := ht 0 l (by rw [g2]; rfl)
      simp only [seen, arrived, hcod, h0] at h
      obtain ⟨q1, q2⟩ := Mirakc.OtherService.other_run hne h (hc.patPid t n) g3 g4 g5 g6
      exact ⟨q1, fun _ => q2⟩

/-- **C158**, filter-program, unless it terminates abnormally, for another service: likewise. -/
theorem C158_filter_program (w w2 : World) (hc : Faithful w.codec) (ps : List (List UInt8))
    (sid : Nat) (f : ServiceFilter.St) (items : List ServiceFilter.Item)
    (hrun : ServiceFilter.run { sid := sid } (ServiceFilter.init { sid := sid })
      (seen (arrived w.codec w.tables) 0 ps) = .ok (f, items))
    (hlate : ∀ (k : Nat) it, items[k]? = some it → (∃ t ∈ it.handled, validCat t ≠ none ∨ validPmt sid t ≠ none) →
      ∃ t ∈ Spec.ServiceFilter.received (items.take k), usablePat t ≠ none)
    (ts : List (List Table)) (ha : Again (seen (arrived w.codec w.tables) 0 ps) items ts)
    (hcod : w2.codec = w.codec) (hr2 : Reads w2 ((sent items).map (serviceBytes w.codec)))
    (hw2 : ∀ x ∈ w2.write, 0 ≤ x) (ht : ∀ k l, ts[k]? = some l → w2.tables k = l)
    (a : Options.ProgramArgs) (hs : 0 ≤ a.sid ∧ a.sid < 65536) (he : 0 ≤ a.eid ∧ a.eid < 65536)
    (hp : 0 ≤ a.clockPid ∧ a.clockPid < 65536) (hne : a.sid ≠ sid) (e : Ended)
    (h : main w2 (.filterProgram a) = .ok e) : e.bytes = [] ∧ e.code = if sent items = [] then 0 else 1 := by
  obtain ⟨hl, hn⟩ := again_length ha
  obtain ⟨o, hm, cs, f2, items2, g, items3, h1, h2, h3, h4, h5, h6, h7, _, _, h8, h9⟩ :=
    C95_filter_program w2 (by rw [hcod]; exact hc) _ hr2 hw2 a hs he hp e h
  have hne : sid ≠ o.sid := by
    have := hm.1
    omega
  obtain ⟨k1, _⟩ := nothing hc hrun hlate ha hcod ht hne h1 h2
  have h30 : items3 = [] := List.length_eq_zero_iff.1 (by rw [h5, k1]; rfl)
  subst h30
  refine ⟨by rw [h7]; rfl, ?_⟩
  have hnc : ¬ ∃ pre it, ([] : List ProgramFilter.Item) = pre ++ [it] ∧
      ¬ Spec.ProgramFilter.Started Spec.ProgramFilter.ReachedNoWrap o pre ∧
      ∃ t ∈ it.handled, Spec.ProgramFilter.Cancels o False t := by
    rintro ⟨pre, it, e, _⟩
    simp at e
  split
  · next hz =>
    refine h9 hnc ?_
    rw [hz] at h1
    have hcs : cs = [] := List.prefix_nil.1 h1
    rw [hcs] at h3
    rw [List.length_eq_zero_iff.1 h3]
    simp [Spec.ServiceFilter.received]
  · next hz =>
    refine h8 hnc ?_
    rcases h6 with h6 | ⟨pre, it, e, _⟩
    · exact (nothing hc hrun hlate ha hcod ht hne (List.prefix_refl _) h6).2 (by simpa using hz)
    · simp at e

private theorem nothing_recorded {o : ServiceRecorder.Opt} {results : List Int} {code : Nat} {h : ServiceRecorder.Hist}
    (hr : Spec.ServiceRecorder.Recorded o results [] code h) :
    (∀ op ∈ Spec.ServiceRecorder.fileOps h.trace, op = .seek o.startPos ∨ op = .failed) ∧
    (.failed ∉ Spec.ServiceRecorder.fileOps h.trace → Spec.ServiceRecorder.messages h.trace = [.start, .stop false]) ∧
    (.failed ∈ Spec.ServiceRecorder.fileOps h.trace → Spec.ServiceRecorder.messages h.trace = []) := by
  obtain ⟨τ, src, t, fuel, h0, hy, hf, hi, hrun⟩ := hr
  simp only [ServiceRecorder.init, RingFileSink.new, bind_ok_iff] at hi
  obtain ⟨r, ⟨_, _, _, _, _, _, _, _, _, _, hn⟩, hi⟩ := hi
  cases Except.ok.inj hi
  cases Except.ok.inj hn
  have loop : ∀ x : ServiceRecorder.Hist, ∃ t', feedLoop src (ServiceRecorder.sink o) fuel t x = .ok (t', x) := by
    intro x
    cases hy with
    | stop hs =>
      cases fuel with
      | zero => simp at hf
      | succ n => exact ⟨_, by rw [feedLoop, hs]; rfl⟩
  simp only [feedPackets, bind_ok_iff] at hrun
  obtain ⟨⟨ok, x⟩, hs, hrun⟩ := hrun
  obtain ⟨ok', r, key, hx⟩ : ∃ (ok' : Bool) (r : RingFileSink.St),
      ((ok' = true ∧ r.broken = false ∧ (r.log = [] ∨ r.log = [.seek o.startPos])) ∨ (ok' = false ∧ r.log = [.failed])) ∧
      (if ok' = true then .ok (true, { st := { ring := r }, trace := [] ++ r.log.map .op ++ [.msg .start] })
        else .ok (false, { st := { ring := r }, trace := [] ++ r.log.map .op }) :
          Except Fault (Bool × ServiceRecorder.Hist)) = .ok (ok, x) := by
    simp only [ServiceRecorder.sink, ServiceRecorder.start] at hs
    split at hs
    · rw [bind_ok_iff] at hs
      obtain ⟨⟨ok', r⟩, hs, hx⟩ := hs
      refine ⟨ok', r, ?_, hx⟩
      simp only [RingFileSink.setPosition, bind_ok_iff] at hs
      obtain ⟨_, _, _, _, _, _, _, _, hs⟩ := hs
      cases results with
      | nil => cases Except.ok.inj hs; exact .inl ⟨rfl, rfl, .inr rfl⟩
      | cons y ys =>
        by_cases hy : y > 0
        · simp only [RingFileSink.call, hy, if_true] at hs
          cases Except.ok.inj hs; exact .inl ⟨rfl, rfl, .inr rfl⟩
        · simp only [RingFileSink.call, hy, if_false] at hs
          cases Except.ok.inj hs; exact .inr ⟨rfl, rfl⟩
    · exact ⟨true, _, .inl ⟨rfl, rfl, .inl rfl⟩, hs⟩
  rcases key with ⟨rfl, hb, hl⟩ | ⟨rfl, hl⟩
  · cases Except.ok.inj hx
    obtain ⟨t', hloop⟩ := loop _
    simp only [if_true, bind_ok_iff] at hrun
    obtain ⟨⟨_, y⟩, hl', z, hz, hrun⟩ := hrun
    rw [hloop] at hl'
    cases Except.ok.inj hl'
    cases Except.ok.inj hz
    cases Except.ok.inj hrun
    rcases hl with hl | hl <;> simp [hl, hb, Spec.ServiceRecorder.fileOps, Spec.ServiceRecorder.messages]
  · cases Except.ok.inj hx
    cases Except.ok.inj hrun
    simp [hl, Spec.ServiceRecorder.fileOps, Spec.ServiceRecorder.messages]

/-- **C158**, record-service, unless it terminates abnormally, for another service: nothing is written to the file; the only messages are those
of the start and the stop, or none if the position in the file cannot be set. -/
theorem C158_record_service (w w2 : World) (hc : Faithful w.codec) (ps : List (List UInt8))
    (sid : Nat) (f : ServiceFilter.St) (items : List ServiceFilter.Item)
    (hrun : ServiceFilter.run { sid := sid } (ServiceFilter.init { sid := sid })
      (seen (arrived w.codec w.tables) 0 ps) = .ok (f, items))
    (hlate : ∀ (k : Nat) it, items[k]? = some it → (∃ t ∈ it.handled, validCat t ≠ none ∨ validPmt sid t ≠ none) →
      ∃ t ∈ Spec.ServiceFilter.received (items.take k), usablePat t ≠ none)
    (ts : List (List Table)) (ha : Again (seen (arrived w.codec w.tables) 0 ps) items ts)
    (hcod : w2.codec = w.codec) (hr2 : Reads w2 ((sent items).map (serviceBytes w.codec)))
    (ht : ∀ k l, ts[k]? = some l → w2.tables k = l)
    (sid2 : Nat) (hs2 : sid2 < 65536) (hne : sid ≠ sid2) (chunk num : Int) (start : Option Nat)
    (hk : -2 ^ 63 ≤ chunk ∧ chunk < 2 ^ 63) (hn : -2 ^ 63 ≤ num ∧ num < 2 ^ 63) (e : Ended)
    (h : main w2 (.recordService sid2 chunk num start) = .ok e) :
    (∀ op ∈ e.ops, op = .seek (start.getD 0) ∨ op = .failed) ∧
    (.failed ∉ e.ops → e.docs = [.message .start, .message (.stop false)] ∧ e.code = if sent items = [] then 0 else 1) ∧
    (.failed ∈ e.ops → e.docs = [] ∧ e.code = 1) := by
  obtain ⟨o, ⟨_, _, _, o4⟩, cs, f2, items2, rcode, x, h1, h2, h3, h4, h5, h6, h7, h8, h9, h10⟩ :=
    (C95_record_service w2 (by rw [hcod]; exact hc) _ hr2 sid2 hs2 chunk num start hk hn).2 e h
  rw [(nothing hc hrun hlate ha hcod ht hne h1 h2).1] at h4
  obtain ⟨q1, q2, q3⟩ := nothing_recorded h4
  rw [h6] at h7 h8 h10 ⊢
  rw [h5]
  refine ⟨o4 ▸ q1, fun hf => ⟨by rw [q2 hf]; rfl, ?_⟩, fun hf => ⟨by rw [q3 hf]; rfl, h8 hf⟩⟩
  split
  · next hz =>
    refine h10 hf ?_
    rw [hz] at h1
    have hcs : cs = [] := List.prefix_nil.1 h1
    rw [hcs] at h3
    rw [List.length_eq_zero_iff.1 h3]
    simp [Spec.ServiceFilter.received]
  · next hz =>
    refine h9 ?_
    rcases h7 with h7 | h7
    · exact (nothing hc hrun hlate ha hcod ht hne (List.prefix_refl _) h7).2 (by simpa using hz)
    · exact absurd h7 hf

open C156ex in
/-- Non-trivial case for C158: a stream with the services 1 and 2; service 2 is not in the output for service 1. -/
example : Faithful world.codec ∧
    (∃ f, ServiceFilter.run { sid := 1 } (ServiceFilter.init { sid := 1 })
      (seen (arrived world.codec world.tables) 0 ps) = .ok (f, items)) ∧
    (∀ (k : Nat) it, items[k]? = some it → (∃ t ∈ it.handled, validCat t ≠ none ∨ validPmt 1 t ≠ none) →
      ∃ t ∈ Spec.ServiceFilter.received (items.take k), usablePat t ≠ none) ∧
    Again (seen (arrived world.codec world.tables) 0 ps) items ts ∧
    Reads world2 ((sent items).map (serviceBytes world.codec)) ∧ (∀ x ∈ world2.write, 0 ≤ x) ∧
    (∀ k l, ts[k]? = some l → world2.tables k = l) ∧ sent items ≠ [] ∧
    (∃ e, main world (.filterService (some 2)) = .ok e ∧ decide (e.code = 0 ∧ e.bytes ≠ []) = true) ∧
    (∃ e, main world2 (.filterProgram { sid := 2, eid := 1, clockPid := 256, clockPcr := 0, clockTime := 0 }) = .ok e ∧
      decide (e.code = 1 ∧ e.bytes = []) = true) ∧
    (∃ e, main world2 (.recordService 2 8192 2 (some 8192)) = .ok e ∧
      decide (e.code = 1 ∧ .failed ∉ e.ops ∧ e.ops ≠ [] ∧ e.docs.length = 2) = true) := by
  refine ⟨C68ex.faithful, ran, ?_, again_sound (by decide +kernel), reads2, by decide +kernel, fun k l h => by simp [world2, h],
    by decide +kernel, C95ex.check (by decide +kernel),
    C95ex.check (by decide +kernel), C95ex.check (by decide +kernel)⟩
  intro k it hk ⟨t, ht, hv⟩
  have key : ∀ k ∈ List.range items.length, (items.drop k).head?.all (fun it => it.handled.all fun t =>
      (validCat t).isNone && (validPmt 1 t).isNone) = true ∨
      ((Spec.ServiceFilter.received (items.take k)).any fun t => (usablePat t).isSome) = true := by decide +kernel
  rcases key k (List.mem_range.2 (List.getElem?_eq_some_iff.1 hk).1) with h | h
  · rw [List.head?_drop, hk] at h
    have h := List.all_eq_true.1 (show it.handled.all _ = true from h) t ht
    rw [Bool.and_eq_true, Option.isNone_iff_eq_none, Option.isNone_iff_eq_none] at h
    rcases hv with hv | hv
    · exact absurd h.1 hv
    · exact absurd h.2 hv
  · obtain ⟨u, hu, h⟩ := List.any_eq_true.1 h
    exact ⟨u, hu, fun e => by rw [e] at h; cases h⟩

end Mirakc.Props
