import Verif.Spec.Again
import Verif.Proof.Again
import Verif.Props.MainFilters
/-
C126: filter-service on its own output.
-/
namespace Mirakc.Props
open Mirakc.Main Mirakc.Spec.Main Mirakc.Spec.Pipeline Mirakc.Spec.ServiceFilter

/-- **C126**.  filter-service on its own output changes nothing: the second run writes the same bytes,
and both succeed.  The tables of the stream conform to the standard; a CAT or PMT of the service is
received only with packets that are passed on; in the second run the packets complete the tables they
completed in the first run, the rewritten PATs instead of the original ones (`Again`). -/
theorem C126_idempotent (w w2 : World) (hc : Faithful w.codec) (ps : List (List UInt8)) (hr : Reads w ps)
    (hw : ∀ x ∈ w.write, 0 ≤ x) (hw2 : ∀ x ∈ w2.write, 0 ≤ x) (sid : Nat) (hs : sid < 65536)
    (f : ServiceFilter.St) (items : List ServiceFilter.Item)
    (hrun : ServiceFilter.run { sid := sid } (ServiceFilter.init { sid := sid })
      (seen (arrived w.codec w.tables) 0 ps) = .ok (f, items))
    (hconf : ∀ t ∈ received items, Conforming sid t) (hk : Carried sid items)
    (ts : List (List Table)) (ha : Again (seen (arrived w.codec w.tables) 0 ps) items ts)
    (hcod : w2.codec = w.codec) (hr2 : Reads w2 ((sent items).map (serviceBytes w.codec)))
    (ht : ∀ k l, ts[k]? = some l → w2.tables k = l) :
    ∃ bytes, main w (.filterService (some sid)) = .ok { code := 0, bytes := bytes } ∧
      main w2 (.filterService (some sid)) = .ok { code := 0, bytes := bytes } := by
  obtain ⟨hl, hn⟩ := again_length ha
  obtain ⟨_, k1⟩ := C95_filter_service w hc ps hr hw sid hs
  obtain ⟨code, m1, _, _, m2⟩ := k1 f items hrun
  have h0 := m2 (no_missing hrun hn)
  subst h0
  refine ⟨_, m1, ?_⟩
  obtain ⟨f2, items2, r1, r2, r3, _⟩ := ServiceFilter.run_again (sid := sid)
    (fields := fun x => w.codec.packet (serviceBytes w.codec x)) (fun t n => hc.patPid t n) _ items ts ha
    _ f _ [] ⟨rfl, ServiceFilter.fine_init sid, ServiceFilter.fine_init sid⟩ (ServiceFilter.inv_init _) rfl hrun hconf hk
    (fun p hp => by
      obtain ⟨i, hi, rfl⟩ := sent_from hrun p hp
      obtain ⟨k, b, hb, rfl⟩ := mem_seen hi
      show w.codec.packet (w.codec.bytes (w.codec.packet b)) = w.codec.packet b
      rw [hc.keep b (Mirakc.Pipeline.packets_188 hr.2 b hb)])
  rw [← seen_reread w.codec w2.tables (sent items) ts 0 hl (fun k l h => by rw [Nat.zero_add]; exact ht k l h), ← hcod] at r1
  rw [← hcod] at hr2
  obtain ⟨_, k2⟩ := C95_filter_service w2 (hcod ▸ hc) _ hr2 hw2 sid hs
  obtain ⟨code2, m1', _, _, m2'⟩ := k2 f2 items2 r1
  have h0 := m2' (no_missing r1 fun it hit => by obtain ⟨x, hx⟩ := r3 it hit; rw [hx]; simp)
  subst h0
  rw [m1', r2, hcod]

/-- **C126**, with the commands for a service.  filter-program and record-service, and filter-service
itself, do on the output of filter-service for this service what they do on the stream. -/
theorem C126_pipeline (w : World) (hc : Faithful w.codec) (ps : List (List UInt8)) (hr : Reads w ps)
    (sid : Nat) (hs : sid < 65536) (cmd : Cmd) (hcmd : Serves sid cmd)
    (f : ServiceFilter.St) (items : List ServiceFilter.Item)
    (hrun : ServiceFilter.run { sid := sid } (ServiceFilter.init { sid := sid })
      (seen (arrived w.codec w.tables) 0 ps) = .ok (f, items))
    (hconf : ∀ t ∈ received items, Conforming sid t) (hk : Carried sid items)
    (ts : List (List Table)) (ha : Again (seen (arrived w.codec w.tables) 0 ps) items ts)
    (op : Bool) (rd : List (Option (List UInt8))) (tabs : Nat → List Table)
    (hr2 : Reads { w with opened := op, read := rd, tables := tabs } ((sent items).map (serviceBytes w.codec)))
    (ht : ∀ k l, ts[k]? = some l → tabs k = l) :
    main { w with opened := op, read := rd, tables := tabs } cmd = main w cmd := by
  obtain ⟨hl, hn⟩ := again_length ha
  obtain ⟨f2, items2, r1, r2, r3, _⟩ := ServiceFilter.run_again (sid := sid)
    (fields := fun x => w.codec.packet (serviceBytes w.codec x)) (fun t n => hc.patPid t n) _ items ts ha
    _ f _ [] ⟨rfl, ServiceFilter.fine_init sid, ServiceFilter.fine_init sid⟩ (ServiceFilter.inv_init _) rfl hrun hconf hk
    (fun p hp => by
      obtain ⟨i, hi, rfl⟩ := sent_from hrun p hp
      obtain ⟨k, b, hb, rfl⟩ := mem_seen hi
      show w.codec.packet (w.codec.bytes (w.codec.packet b)) = w.codec.packet b
      rw [hc.keep b (Mirakc.Pipeline.packets_188 hr.2 b hb)])
  rw [← seen_reread w.codec tabs (sent items) ts 0 hl (fun k l h => by rw [Nat.zero_add]; exact ht k l h)] at r1
  have hn2 : ∀ it ∈ items2, it.act ≠ .stop := fun it hit => by obtain ⟨x, hx⟩ := r3 it hit; rw [hx]; simp
  have hu : Options.toUint16 (sid : Int) = sid := by
    unfold Options.toUint16; omega
  have key : ∀ {σ : Type} (snk : Sink ServiceFilter.Out σ) (d : σ) {β : Type} (k : Nat × σ → Except Stop β),
      (feed { w with opened := op, read := rd, tables := tabs }
        (Pipeline.via (Pipeline.input w.codec tabs) (ServiceFilter.sink { sid := sid } snk))
        (0, ServiceFilter.init { sid := sid }, d) >>= fun r => k (r.1, r.2.2.2)) =
      (feed w (Pipeline.via (Pipeline.input w.codec w.tables) (ServiceFilter.sink { sid := sid } snk))
        (0, ServiceFilter.init { sid := sid }, d) >>= fun r => k (r.1, r.2.2.2)) := by
    intro σ snk d β k
    have h1 := feed_sent hr hrun hn snk d k
    have h2 := feed_sent hr2 r1 hn2 snk d k
    rw [h1]
    refine h2.trans ?_
    rw [r2]
  cases cmd with
  | filterService s =>
    cases hcmd
    simp only [main, Options.loadServiceFilter, hu, filterService, Pipeline.filterService]
    exact key (Pipeline.via (fun _ => Pipeline.outBytes w.codec) StdoutSink.sink) (0, StdoutSink.init w.write)
      (fun r => Except.ok (ε := Stop) { code := r.1, bytes := r.2.2.out : Ended })
  | filterProgram ar =>
    have hc : ar.sid = sid := hcmd
    simp only [main]
    cases ho : Options.loadProgramFilter ar with
    | error e => rfl
    | ok o =>
      have hos : o.sid = sid := by
        unfold Options.loadProgramFilter at ho
        obtain ⟨_, _, ho⟩ := bind_ok_iff.1 ho
        obtain ⟨_, _, ho⟩ := bind_ok_iff.1 ho
        obtain ⟨_, _, ho⟩ := bind_ok_iff.1 ho
        obtain ⟨_, _, ho⟩ := bind_ok_iff.1 ho
        cases ho
        show Options.toUint16 ar.sid = sid
        rw [hc, hu]
      show filterProgram _ o = filterProgram w o
      unfold filterProgram Pipeline.filterProgram
      rw [hos]
      exact key (Pipeline.via (Pipeline.between w.codec w.tables2)
          (ProgramFilter.sink w.extra o (Pipeline.via (fun _ => Pipeline.programBytes w.codec) StdoutSink.sink)))
        (0, ProgramFilter.init o, 0, StdoutSink.init w.write)
        (fun r => Except.ok (ε := Stop) { code := r.1, bytes := r.2.2.2.2.out : Ended })
  | recordService s cs nc sp =>
    have hc : s = sid := hcmd
    simp only [main]
    cases ho : Options.loadRecorder s cs nc sp with
    | error e => rfl
    | ok o =>
      have hos : o.sid = sid := by
        subst hc
        unfold Options.loadRecorder at ho
        dsimp only at ho
        repeat' split at ho
        all_goals cases ho
        all_goals exact hu
      show recordService _ o = recordService w o
      unfold recordService Pipeline.recordService
      rw [hos]
      dsimp only
      cases ServiceRecorder.init o w.file with
      | error e => rfl
      | ok h0 =>
        exact key (Pipeline.via (Pipeline.betweenRec w.codec w.tables2 w.times) (ServiceRecorder.sink o)) (0, h0)
          (fun r => Except.ok (ε := Stop)
            { code := r.1, docs := messages r.2.2.trace, ops := operations r.2.2.trace : Ended })
  | _ => exact hcmd.elim

namespace C126ex

/-- The history of filter-service on the stream of C68. -/
def result := ServiceFilter.run { sid := 1 } (ServiceFilter.init { sid := 1 })
  (seen (arrived C68ex.codec C68ex.tabs) 0 C68ex.ps)
def items : List ServiceFilter.Item := match result with | .ok x => x.2 | .error _ => []
/-- The tables completed by its output; the PAT, repeated, is not a new one. -/
def ts : List (List Table) :=
  [[{ sourcePid := 0, body := .pat C68ex.pat1 }], [C68ex.pmt], [C26ex.eit], [], [], [], [], []]
/-- The output, read again. -/
def out : List (List UInt8) := (sent items).map (serviceBytes C68ex.codec)
def world : World :=
  { C95ex.world with read := [some out.flatten], tables := fun k => (ts[k]?).getD [] }
theorem reads : Reads world out := by
  refine ⟨fun r hr => ?_, ?_⟩
  · have : ∀ r ∈ world.read, (r.getD []).length ≤ 16384 := by decide +kernel
    exact this _ hr
  · have : contents world = out.flatten := by decide +kernel
    rw [this]
    exact Mirakc.Pipeline.packets_flatten (by decide +kernel)

theorem received_eq : received items = [C68ex.pat, C68ex.pmt] := by decide +kernel
theorem conforming : ∀ t ∈ received items, Conforming 1 t := by
  intro t ht
  rw [received_eq] at ht
  rcases List.mem_cons.1 ht with rfl | ht
  · exact C89ex.conforming 0 _ List.mem_cons_self
  · rw [List.mem_singleton.1 ht]
    exact C89ex.conforming 1 _ List.mem_cons_self
theorem carried : Carried 1 items := by
  have key : items.all (fun it => !it.handled.any (fun t => (validCat t).isSome || (validPmt 1 t).isSome) ||
      (match it.act with | .send (.orig _) => true | _ => false)) = true := by decide +kernel
  intro it hit ⟨t, ht, hv⟩
  have := List.all_eq_true.1 key it hit
  simp only [Bool.or_eq_true, Bool.not_eq_true'] at this
  rcases this with h | h
  · have h2 : (it.handled.any fun t => (validCat t).isSome || (validPmt 1 t).isSome) = true := by
      refine List.any_eq_true.2 ⟨t, ht, ?_⟩
      rw [Bool.or_eq_true]
      exact hv.imp (fun h => by cases e : validCat t with | none => exact absurd e h | some _ => rfl)
        (fun h => by cases e : validPmt 1 t with | none => exact absurd e h | some _ => rfl)
    rw [h] at h2; cases h2
  · split at h
    · next p ha => exact ⟨p, ha⟩
    · cases h

end C126ex

/-- The stream of C68: filter-service drops one packet of nine and replaces two packets of the PAT; the
second run writes the same. -/
example : (∃ f, ServiceFilter.run { sid := 1 } (ServiceFilter.init { sid := 1 })
      (seen (arrived C95ex.world.codec C95ex.world.tables) 0 C68ex.ps) = .ok (f, C126ex.items)) ∧
    (∀ t ∈ received C126ex.items, Conforming 1 t) ∧ Carried 1 C126ex.items ∧
    Again (seen (arrived C95ex.world.codec C95ex.world.tables) 0 C68ex.ps) C126ex.items C126ex.ts ∧
    C126ex.world.codec = C95ex.world.codec ∧ Reads C126ex.world ((sent C126ex.items).map (serviceBytes C95ex.world.codec)) ∧
    (∀ k l, C126ex.ts[k]? = some l → C126ex.world.tables k = l) ∧ C126ex.out.length = 8 ∧
    C126ex.out ≠ C68ex.ps.take 8 := by
  refine ⟨?_, C126ex.conforming, C126ex.carried, again_sound (by decide +kernel), rfl, C126ex.reads, ?_,
    by decide +kernel, by decide +kernel⟩
  · have key : (match C126ex.result with | .ok _ => true | .error _ => false) = true := by decide +kernel
    cases h : C126ex.result with
    | error e => rw [h] at key; cases key
    | ok r =>
      refine ⟨r.1, ?_⟩
      have hi : C126ex.items = r.2 := by unfold C126ex.items; rw [h]
      rw [hi]; exact h
  · intro k l h
    show (C126ex.ts[k]?).getD [] = l
    rw [h]; rfl

/-- filter-program on the output of filter-service writes what it writes on the stream. -/
example : Serves 1 (.filterProgram C95ex.args) ∧
    ∃ e, main C126ex.world (.filterProgram C95ex.args) = .ok e ∧ main C95ex.world (.filterProgram C95ex.args) = .ok e ∧
      e.bytes ≠ [] := by
  refine ⟨rfl, ?_⟩
  obtain ⟨e, h1, h2⟩ := C95ex.check (r := main C95ex.world (.filterProgram C95ex.args))
    (P := fun e => decide (e.bytes ≠ [])) (by decide +kernel)
  have hf : ∃ f, ServiceFilter.run { sid := 1 } (ServiceFilter.init { sid := 1 })
      (seen (arrived C95ex.world.codec C95ex.world.tables) 0 C68ex.ps) = .ok (f, C126ex.items) := by
    have key : (match C126ex.result with | .ok _ => true | .error _ => false) = true := by decide +kernel
    cases h : C126ex.result with
    | error e => rw [h] at key; cases key
    | ok r =>
      refine ⟨r.1, ?_⟩
      have hi : C126ex.items = r.2 := by unfold C126ex.items; rw [h]
      rw [hi]; exact h
  obtain ⟨f, hf⟩ := hf
  refine ⟨e, ?_, h1, of_decide_eq_true h2⟩
  rw [← h1]
  exact C126_pipeline C95ex.world C68ex.faithful C68ex.ps C95ex.reads 1 (by decide)
    (.filterProgram C95ex.args) rfl f C126ex.items hf
    C126ex.conforming C126ex.carried C126ex.ts (again_sound (by decide +kernel)) _ _ _ C126ex.reads
    (fun k l h => by show (C126ex.ts[k]?).getD [] = l; rw [h]; rfl)

namespace C126ex2

/-- A CAT with an EMM stream on 0x300. -/
def cat : Table := { sourcePid := 1, body := .cat { descs := [{ tag := 9, caPid := 0x300 }] } }
/-- The CAT comes before the PAT. -/
def ps : List (List UInt8) := [C68ex.raw 1 0 1, C68ex.raw 0 0 1, C68ex.raw 0x300 0 7]
def tabs : Nat → List Table
  | 0 => [cat]
  | 1 => [C68ex.pat]
  | _ => []
def items : List ServiceFilter.Item :=
  match ServiceFilter.run { sid := 1 } (ServiceFilter.init { sid := 1 }) (seen (arrived C68ex.codec tabs) 0 ps) with
  | .ok x => x.2 | .error _ => []
def ts : List (List Table) := [[{ sourcePid := 0, body := .pat C68ex.pat1 }], []]
def out : List (List UInt8) := (sent items).map (serviceBytes C68ex.codec)
def world : World := { C95ex.world with read := [some ps.flatten], tables := tabs }
def world2 : World := { C95ex.world with read := [some out.flatten], tables := fun k => (ts[k]?).getD [] }

end C126ex2

/-- **C126** does not hold if a CAT is received before the first PAT: the packet of the CAT is
dropped, but it is obeyed.  The first run passes the EMM packet on, the second does not. -/
theorem C126_early_cat :
    Again (seen (arrived C126ex2.world.codec C126ex2.world.tables) 0 C126ex2.ps) C126ex2.items C126ex2.ts ∧
    ¬ Carried 1 C126ex2.items ∧
    ∃ a b, main C126ex2.world (.filterService (some 1)) = .ok { code := 0, bytes := a } ∧
      main C126ex2.world2 (.filterService (some 1)) = .ok { code := 0, bytes := b } ∧
      a.length = 2 * 188 ∧ b.length = 188 := by
  refine ⟨again_sound (by decide +kernel), fun h => ?_, ?_⟩
  · have h1 : C126ex2.items.head? = some ⟨C68ex.codec.packet (C68ex.raw 1 0 1), [C126ex2.cat], .drop⟩ := by decide +kernel
    obtain ⟨p, hp⟩ := h _ (List.mem_of_mem_head? h1) ⟨C126ex2.cat, List.mem_cons_self, .inl (by decide)⟩
    cases hp
  · have key : ∀ w n, (match main w (.filterService (some 1)) with
        | .ok e => decide (e.code = 0 ∧ e.docs = [] ∧ e.ops = [] ∧ e.bytes.length = n)
        | .error _ => false) = true →
        ∃ a, main w (.filterService (some 1)) = .ok { code := 0, bytes := a } ∧ a.length = n := by
      intro w n h
      obtain ⟨e, h1, h2⟩ := C95ex.check (r := main w (.filterService (some 1)))
        (P := fun e => decide (e.code = 0 ∧ e.docs = [] ∧ e.ops = [] ∧ e.bytes.length = n)) h
      obtain ⟨c, b, d, o⟩ := e
      obtain ⟨rfl, rfl, rfl, h5⟩ := of_decide_eq_true h2
      exact ⟨b, h1, h5⟩
    obtain ⟨a, ha, la⟩ := key C126ex2.world (2 * 188) (by decide +kernel)
    obtain ⟨b, hb, lb⟩ := key C126ex2.world2 188 (by decide +kernel)
    exact ⟨a, b, ha, hb, la, lb⟩

end Mirakc.Props
