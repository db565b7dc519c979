import Verif.Proof.Agree
import Verif.Props.MainFilters
/-
Property C136: commands used on the same stream agree with each other.
-/
namespace Mirakc.Props
open Mirakc.Main Mirakc.Spec Mirakc.Spec.Main Mirakc.Spec.Pipeline Mirakc.Spec.Agree
open Mirakc.Spec.ServiceFilter (sent received Missing usablePat)

private theorem sent_prefix {a b : List ServiceFilter.Item} (h : a <+: b) : sent a <+: sent b := by
  obtain ⟨c, rfl⟩ := h
  exact ⟨sent c, by simp [sent]⟩

private theorem received_prefix {a b : List ServiceFilter.Item} (h : a <+: b) : received a <+: received b := by
  obtain ⟨c, rfl⟩ := h
  exact ⟨received c, by simp [Spec.ServiceFilter.received]⟩

/-- What filter-service and another command that filters the service see. -/
private theorem both {w : World} (hc : Faithful w.codec) {ps : List (List UInt8)} (hr : Reads w ps)
    (hw : ∀ x ∈ w.write, 0 ≤ x) {sid : Nat} (hs : sid < 65536) {e : Ended}
    (h : main w (.filterService (some sid)) = .ok e) {cs : List (List UInt8)} (hcs : cs <+: ps)
    {f : ServiceFilter.St} {items : List ServiceFilter.Item}
    (hrun : ServiceFilter.run { sid := sid } (ServiceFilter.init { sid := sid })
      (seen (arrived w.codec w.tables) 0 cs) = .ok (f, items)) (hl : items.length = cs.length) :
    ∃ f' items', ServiceFilter.run { sid := sid } (ServiceFilter.init { sid := sid })
        (seen (arrived w.codec w.tables) 0 ps) = .ok (f', items') ∧ items <+: items' ∧
      e.bytes = ((sent items').map (serviceBytes w.codec)).flatten ∧
      (∀ b ∈ (sent items').map (serviceBytes w.codec), b.length = 188) ∧
      ((∃ t ∈ received items', Missing sid t) → e.code = 1) ∧
      ((¬ ∃ t ∈ received items', Missing sid t) → e.code = 0) := by
  obtain ⟨k1, k2⟩ := C95_filter_service w hc ps hr hw sid hs
  obtain ⟨⟨f', items'⟩, h'⟩ := k1.1 ⟨e, h⟩
  obtain ⟨code, h1, h2, h3, h4⟩ := k2 f' items' h'
  rw [h] at h1
  cases h1
  refine ⟨f', items', h', ?_, rfl, ?_, h3, h4⟩
  · obtain ⟨rest, rfl⟩ := hcs
    rw [Mirakc.Pipeline.seen_append] at h'
    refine Mirakc.Agree.sf_prefix _ _ _ _ _ _ _ hrun ?_ h'
    rw [hl]
    exact (Mirakc.Pipeline.seen_length _ _ _).symm
  · exact Mirakc.Pipeline.selected_188 hc h2
      (fun b hb => Mirakc.Pipeline.packets_188 hr.2 b (List.mem_of_mem_take hb))

/-- **C136**, filter-program and filter-service.  If no write fails and both end normally on the same stream, then
what filter-program writes is what filter-service writes with packets left out and packets of PMTs put in, in the same
order; it finds the service missing only if filter-service does. -/
theorem C136_filter_program (w : World) (hc : Faithful w.codec) (ps : List (List UInt8)) (hr : Reads w ps)
    (hw : ∀ x ∈ w.write, 0 ≤ x) (sid : Nat) (hs : sid < 65536) (a : Options.ProgramArgs) (ha : a.sid = sid)
    (he : 0 ≤ a.eid ∧ a.eid < 65536) (hp : 0 ≤ a.clockPid ∧ a.clockPid < 65536) (e e' : Ended)
    (h : main w (.filterService (some sid)) = .ok e) (h' : main w (.filterProgram a) = .ok e') :
    (∃ qs rs, e.bytes = qs.flatten ∧ (∀ b ∈ qs, b.length = 188) ∧
      e'.bytes = rs.flatten ∧ (∀ b ∈ rs, b.length = 188) ∧ Excerpt w.codec qs rs) ∧
    (e'.code = 1 → e.code = 1) ∧ (e.code = 0 → e'.code = 0 ∨ e'.code = 222) := by
  obtain ⟨o, hm, cs, f, items, g, items2, k1, k2, k3, k4, k5, k6, k7, k8, k9⟩ :=
    C95_filter_program w hc ps hr hw a (by omega) he hp e' h'
  have ho : o.sid = sid := by have := hm.sid; omega
  rw [ho] at k2 k9
  obtain ⟨f', items', r1, r2, r3, r4, r5, r6⟩ := both hc hr hw hs h k1 k2 k3
  refine ⟨⟨(sent items').map (serviceBytes w.codec), (Spec.ProgramFilter.sent items2).map (eventBytes w.codec), r3, r4,
    k7, ?_, ?_⟩, ?_⟩
  · intro b hb
    obtain ⟨x, hx, rfl⟩ := List.mem_map.1 hb
    exact k8 x hx
  · obtain ⟨rest, hrest⟩ := sent_prefix r2
    rw [← hrest, List.map_append]
    apply Mirakc.Agree.excerpt_drop
    have hpcr := Mirakc.Pipeline.sf_noPcr hc (tabs' := w.tables2) k2 0
    have := Mirakc.Agree.run_origs _ _ _ _ k4 hpcr (by intro _; rfl)
    have := Mirakc.Agree.excerpt_of (c := w.codec) _ _ this
    have hsame := Mirakc.Pipeline.sf_same hc k2
    have e1 : ((ProgramFilter.init o).lastPat ++ (seen (forwarded w.codec w.tables2) 0 (sent items)).map (·.packet)).map
        w.codec.bytes = (sent items).map (serviceBytes w.codec) := by
      show ((seen (forwarded w.codec w.tables2) 0 (sent items)).map (·.packet)).map w.codec.bytes = _
      rw [Mirakc.Agree.seen_map (forwarded w.codec w.tables2) (·.packet) (serviceFields w.codec) (fun _ _ => rfl),
        List.map_map]
      exact List.map_congr_left fun x hx => hsame x hx
    rw [e1] at this
    exact this
  · by_cases hcan : ∃ pre it, items2 = pre ++ [it] ∧ ¬ Spec.ProgramFilter.Started Spec.ProgramFilter.ReachedNoWrap o pre ∧
        ∃ t ∈ it.handled, Spec.ProgramFilter.Cancels o False t
    · have := k9.1 hcan
      exact ⟨fun h1 => by omega, fun _ => .inr this⟩
    · by_cases hmiss : ∃ t ∈ received items, Missing sid t
      · have h1 : e.code = 1 := by
          obtain ⟨t, ht, hmt⟩ := hmiss
          exact r5 ⟨t, (received_prefix r2).subset ht, hmt⟩
        exact ⟨fun _ => h1, fun h0 => by omega⟩
      · have := k9.2.2 hcan hmiss
        exact ⟨fun h1 => by omega, fun _ => .inl this⟩

/-- filter-service passes on eight packets; filter-program four of them, and a packet of the PMT. -/
example : Faithful C95ex.world.codec ∧ Reads C95ex.world C68ex.ps ∧ (∀ x ∈ C95ex.world.write, 0 ≤ x) ∧
    (∃ e, main C95ex.world (.filterService (some 1)) = .ok e ∧
      decide (e.code = 0 ∧ e.bytes.length = 188 * 8) = true) ∧
    ∃ e, main C95ex.world (.filterProgram C95ex.args) = .ok e ∧
      decide (e.code = 0 ∧ e.bytes.length = 188 * 5) = true :=
  ⟨C68ex.faithful, C95ex.reads, C95ex.writes, C95ex.check (by decide +kernel), C95ex.check (by decide +kernel)⟩

/-- The packets stored are those from one on. -/
private theorem stored_drop {o : ServiceRecorder.Opt} : ∀ (items : List ServiceRecorder.Item) (pre : List ServiceRecorder.Item),
    (∀ a it b, pre ++ items = a ++ it :: b → (it.stored = true ↔ Spec.ServiceRecorder.HasBeenReady o.sid a)) →
    ∃ k, Spec.ServiceRecorder.stored items = (items.map (·.input.bytes)).drop k
  | [], _, _ => ⟨0, rfl⟩
  | it :: items, pre, h => by
    by_cases hit : it.stored = true
    · refine ⟨0, ?_⟩
      have hall : ∀ x ∈ it :: items, x.stored = true := by
        intro x hx
        obtain ⟨a, b, hab⟩ := List.append_of_mem hx
        have h1 := (h pre it items rfl).1 hit
        refine (h (pre ++ a) x b (by rw [hab]; simp)).2 ?_
        obtain ⟨u, v, huv, hready⟩ := h1
        exact ⟨u, v ++ a, by rw [huv]; simp, hready⟩
      unfold Spec.ServiceRecorder.stored
      rw [List.filter_eq_self.2 hall]
      rfl
    · obtain ⟨k, hk⟩ := stored_drop items (pre ++ [it]) (fun a x b e => h a x b (by rw [← e]; simp))
      refine ⟨k + 1, ?_⟩
      rw [List.map_cons, List.drop_succ_cons, ← hk]
      unfold Spec.ServiceRecorder.stored
      rw [List.filter_cons_of_neg hit]

/-- **C136**, record-service and filter-service.  If both end normally on the same stream, no write of filter-service
fails, then what record-service writes to the ring file, all writes one after the other, is what filter-service
writes from some packet on, as far as complete blocks of 8192 bytes go; less if a file operation failed.  Its exit
code is that of filter-service, or a file operation failed. -/
theorem C136_record_service (w : World) (hc : Faithful w.codec) (ps : List (List UInt8)) (hr : Reads w ps)
    (hw : ∀ x ∈ w.write, 0 ≤ x) (sid : Nat) (hs : sid < 65536) (chunk num : Int) (start : Option Nat)
    (hk : -2 ^ 63 ≤ chunk ∧ chunk < 2 ^ 63) (hn : -2 ^ 63 ≤ num ∧ num < 2 ^ 63) (e e' : Ended)
    (h : main w (.filterService (some sid)) = .ok e) (h' : main w (.recordService sid chunk num start) = .ok e') :
    (∃ n, n ≤ e.bytes.length / 188 ∧ written e'.ops <+: e.bytes.drop (188 * n) ∧
      (.failed ∉ e'.ops →
        written e'.ops = (e.bytes.drop (188 * n)).take ((e.bytes.length - 188 * n) / 8192 * 8192))) ∧
    (.failed ∉ e'.ops → e'.code = e.code) := by
  obtain ⟨c1, c2⟩ := C95_record_service w hc ps hr sid hs chunk num start hk hn
  have hperm : 0 ≤ chunk ∧ 0 ≤ num ∧ Permitted chunk.toNat num.toNat (start.getD 0) := by
    by_cases hp : 0 ≤ chunk ∧ 0 ≤ num ∧ Permitted chunk.toNat num.toNat (start.getD 0)
    · exact hp
    · rw [c1 hp] at h'; cases h'
  obtain ⟨o, ⟨o1, o2, o3, o4⟩, cs, f, items, rcode, hist, k1, k2, k3, k4, k5, k6, k7, k8, k9, k10⟩ := c2 e' h'
  obtain ⟨f', items', r1, r2, r3, r4, r5, r6⟩ := both hc hr hw hs h k1 k2 k3
  have hopt : Permitted o.chunkSize o.numChunks o.startPos := by
    rw [show o.chunkSize = chunk.toNat by omega, show o.numChunks = num.toNat by omega, o4]; exact hperm.2.2
  have hin : (seen (stored w.codec w.tables2 w.times) 0 (sent items)).map (·.bytes) =
      (sent items).map (serviceBytes w.codec) :=
    Mirakc.Agree.seen_map (stored w.codec w.tables2 w.times) (·.bytes) (serviceBytes w.codec) (fun _ _ => rfl) _ _
  have hb : ∀ i ∈ seen (stored w.codec w.tables2 w.times) 0 (sent items), i.bytes.length = 188 := by
    intro i hi
    have : i.bytes ∈ (sent items).map (serviceBytes w.codec) := by
      rw [← hin]; exact List.mem_map_of_mem hi
    obtain ⟨x, hx, he⟩ := List.mem_map.1 this
    rw [← he]
    exact r4 _ (List.mem_map_of_mem ((sent_prefix r2).subset hx))
  obtain ⟨d1, d2, d3, d4⟩ := C40_recorded o w.file _ rcode hist hopt hb k4
  obtain ⟨k, hkk⟩ := stored_drop (o := o) hist.items [] (by simpa using d1)
  have hpre : hist.items.map (·.input.bytes) <+: (sent items').map (serviceBytes w.codec) := by
    have := d2.map (·.bytes)
    rw [hin, List.map_map] at this
    exact this.trans ((sent_prefix r2).map _)
  have hflat := fun k => Mirakc.Agree.drop_flatten ((sent items').map (serviceBytes w.codec)) k r4
  -- the number of packets left out
  have hlen : e.bytes.length = 188 * ((sent items').map (serviceBytes w.codec)).length := by
    rw [r3]
    exact Mirakc.Agree.length_188 _ r4
  have hk' : ∃ k, k ≤ ((sent items').map (serviceBytes w.codec)).length ∧
      Spec.ServiceRecorder.stored hist.items = (hist.items.map (·.input.bytes)).drop k := by
    by_cases hle : k ≤ (hist.items.map (·.input.bytes)).length
    · exact ⟨k, Nat.le_trans hle hpre.length_le, hkk⟩
    · refine ⟨(hist.items.map (·.input.bytes)).length, hpre.length_le, ?_⟩
      rw [hkk, List.drop_of_length_le (by omega), List.drop_of_length_le (Nat.le_refl _)]
  obtain ⟨k, hkl, hkk⟩ := hk'
  refine ⟨⟨k, by omega, ?_, fun hnf => ?_⟩, fun hnf => ?_⟩
  · rw [k6, r3, hflat]
    refine d3.trans ?_
    obtain ⟨rest, hrest⟩ := hpre
    rw [hkk, ← hrest, List.drop_append, List.flatten_append]
    exact List.prefix_append _ _
  · have hfull : items = items' := by
      rcases k7 with k7 | k7
      · rw [r1] at k7; cases k7; rfl
      · exact absurd k7 hnf
    rw [k6] at hnf ⊢
    have hst : .start ∈ Spec.ServiceRecorder.messages hist.trace := by
      rcases C41_reset o w.file _ rcode hist hopt hb k4 with ⟨_, hf, _⟩ | ⟨_, _, hf, _⟩ | ⟨hstop, _⟩
      · exact absurd hf hnf
      · exact absurd hf hnf
      · rcases C37_message_order o w.file _ rcode hist k4 with ⟨hm, _⟩ | ⟨_, ms, reset, hm, _⟩
        · rw [hm] at hstop; cases hstop
        · rw [hm]; simp
    obtain ⟨g1, g2⟩ := d4 hst hnf
    have hall : hist.items.map (·.input.bytes) = (sent items').map (serviceBytes w.codec) := by
      rw [← hfull, ← hin, ← g1, List.map_map]
      rfl
    have hsto : (Spec.ServiceRecorder.stored hist.items).flatten = e.bytes.drop (188 * k) := by
      rw [hkk, hall, r3, hflat]
    rw [hsto] at d3 g2
    rw [List.length_drop] at g2
    rw [← g2]
    exact List.prefix_iff_eq_take.1 d3
  · have hfull : items = items' := by
      rcases k7 with k7 | k7
      · rw [r1] at k7; cases k7; rfl
      · exact absurd k7 hnf
    subst hfull
    by_cases hmiss : ∃ t ∈ received items, Missing sid t
    · rw [k9 hmiss, r5 hmiss]
    · rw [k10 hnf hmiss, r6 hmiss]

/-- A recording of a short stream; see Verif/Props/AgreeExample.lean for a longer one. -/
example : Faithful C95ex.world.codec ∧ Reads C95ex.world C68ex.ps ∧ (∀ x ∈ C95ex.world.write, 0 ≤ x) ∧
    (∃ e, main C95ex.world (.filterService (some 1)) = .ok e ∧
      decide (e.code = 0 ∧ e.bytes.length = 188 * 8) = true) ∧
    ∃ e, main C95ex.world (.recordService 1 8192 2 (some 8192)) = .ok e ∧
      decide (e.code = 0 ∧ e.ops ≠ [] ∧ .failed ∉ e.ops) = true :=
  ⟨C68ex.faithful, C95ex.reads, C95ex.writes, C95ex.check (by decide +kernel), C95ex.check (by decide +kernel)⟩

private theorem patOf_usable {t : Table} {pat : Pat} (h : Spec.ServiceScanner.patOf t = some pat) :
    usablePat t = some pat := by
  unfold Spec.ServiceScanner.patOf at h
  unfold usablePat
  split at h
  · split at h
    · cases h
    · next hne => cases h; simp [hne]
  · cases h

/-- **C136**, scan-services and the commands for a service.  If all usable PATs of a stream list the same services, a
service that scan-services prints for it is not missing for the commands that take a service: on the same stream
filter-service ends with 0, filter-program with 0 or 222, and record-service with 0 unless a file operation failed. -/
theorem C136_scan_services (w : World) (hc : Faithful w.codec) (ps : List (List UInt8)) (hr : Reads w ps)
    (hst : SteadyPat w) (sids xsids : Option (List (List Char))) (ha : Numbers sids) (hb : Numbers xsids) (e : Ended)
    (h : main w (.scanServices sids xsids) = .ok e) (es : List ServiceScanner.ServiceEntry) (hd : .services es ∈ e.docs)
    (x : ServiceScanner.ServiceEntry) (hx : x ∈ es) (hs : x.sid < 65536) :
    ((∀ y ∈ w.write, 0 ≤ y) → ∀ e', main w (.filterService (some x.sid)) = .ok e' → e'.code = 0) ∧
    ((∀ y ∈ w.write, 0 ≤ y) → ∀ a : Options.ProgramArgs, a.sid = x.sid → (0 ≤ a.eid ∧ a.eid < 65536) →
      (0 ≤ a.clockPid ∧ a.clockPid < 65536) → ∀ e', main w (.filterProgram a) = .ok e' → e'.code = 0 ∨ e'.code = 222) ∧
    (∀ (chunk num : Int) (start : Option Nat), (-2 ^ 63 ≤ chunk ∧ chunk < 2 ^ 63) → (-2 ^ 63 ≤ num ∧ num < 2 ^ 63) →
      ∀ e', main w (.recordService x.sid chunk num start) = .ok e' → .failed ∉ e'.ops → e'.code = 0) := by
  -- the service is in a PAT of the stream
  have hin : ∃ n, ∃ t ∈ w.tables n, ∃ pat, usablePat t = some pat ∧ Lists pat x.sid := by
    rcases C93_scan_services w ps hr sids xsids ha hb e h with ⟨_, h0⟩ | ⟨_, es', h1, _, n, pat, sdt, nit, o, _, h2, h3⟩
    · rw [h0] at hd; cases hd
    · rw [h1] at hd
      have := List.mem_singleton.1 hd
      cases this
      obtain ⟨_, ⟨pid, hpid⟩, _⟩ := (h3 x).1 hx
      have hm := List.mem_of_getLast? h2.1
      obtain ⟨t, ht, htp⟩ := List.mem_filterMap.1 hm
      unfold Spec.received at ht
      obtain ⟨i, hi, ht⟩ := List.mem_flatMap.1 ht
      obtain ⟨m, b, _, rfl⟩ := Mirakc.Pipeline.mem_seen (List.mem_of_mem_take hi)
      exact ⟨m, t, (List.mem_filter.1 ht).1, pat, patOf_usable htp, pid, (OMap.find?_iff _ _ _).1 hpid⟩
  -- so it is not missing
  have hno : ∀ (cs : List (List UInt8)) f items, ServiceFilter.run { sid := x.sid } (ServiceFilter.init { sid := x.sid })
      (seen (arrived w.codec w.tables) 0 cs) = .ok (f, items) → ¬ ∃ t ∈ received items, Missing x.sid t := by
    rintro cs f items hrun ⟨t, ht, pat, hu, hnot⟩
    obtain ⟨i, hi, hti⟩ := Mirakc.Agree.sf_handled _ _ _ _ hrun t ht
    obtain ⟨m, b, _, rfl⟩ := Mirakc.Pipeline.mem_seen hi
    obtain ⟨n, t', ht', pat', hu', hl⟩ := hin
    obtain ⟨pid, hpid⟩ := (hst m n t hti t' ht' pat pat' hu hu' x.sid).2 hl
    exact hnot pid hpid
  refine ⟨fun hw e' h' => ?_, fun hw a ha he hp e' h' => ?_, fun chunk num start hk hn e' h' hnf => ?_⟩
  · obtain ⟨k1, k2⟩ := C95_filter_service w hc ps hr hw x.sid hs
    obtain ⟨⟨f, items⟩, hrun⟩ := k1.1 ⟨e', h'⟩
    obtain ⟨code, h1, _, _, h4⟩ := k2 f items hrun
    rw [h'] at h1
    cases h1
    exact h4 (hno _ _ _ hrun)
  · obtain ⟨o, hm, cs, f, items, g, items2, k1, k2, k3, k4, k5, k6, k7, k8, k9⟩ :=
      C95_filter_program w hc ps hr hw a (by omega) he hp e' h'
    have ho : o.sid = x.sid := by have := hm.sid; omega
    rw [ho] at k2 k9
    by_cases hcan : ∃ pre it, items2 = pre ++ [it] ∧
        ¬ Spec.ProgramFilter.Started Spec.ProgramFilter.ReachedNoWrap o pre ∧
        ∃ t ∈ it.handled, Spec.ProgramFilter.Cancels o False t
    · exact .inr (k9.1 hcan)
    · exact .inl (k9.2.2 hcan (hno _ _ _ k2))
  · obtain ⟨o, _, cs, f, items, rcode, hist, k1, k2, k3, k4, k5, k6, k7, k8, k9, k10⟩ :=
      (C95_record_service w hc ps hr x.sid hs chunk num start hk hn).2 e' h'
    exact k10 hnf (hno _ _ _ k2)

namespace C136ex

theorem steady : SteadyPat C90ex.world := by
  have key : ∀ n, ∀ t ∈ C90ex.world.tables n, ∀ pat, usablePat t = some pat → t = C56ex.pat 0x10 := by
    intro n t ht pat hu
    match n, ht with
    | 0, ht => exact List.mem_singleton.1 ht
    | 1, ht => cases List.mem_singleton.1 ht; cases hu
    | 2, ht => cases List.mem_singleton.1 ht; cases hu
    | 3, ht => cases List.mem_singleton.1 ht; cases hu
    | 4, ht => cases List.mem_singleton.1 ht; cases hu
    | 5, ht => cases ht
    | 6, ht => cases List.mem_singleton.1 ht; cases hu
    | 7, ht => cases List.mem_singleton.1 ht; cases hu
    | 8, ht => cases List.mem_singleton.1 ht; cases hu
    | _ + 9, ht => cases ht
  intro n m t ht t' ht' pat pat' hu hu' sid
  have e := key n t ht pat hu
  have e' := key m t' ht' pat' hu'
  subst e e'
  rw [hu] at hu'
  cases hu'
  rfl

end C136ex

/-- The service 1 is listed, and can be filtered. -/
example : Faithful C90ex.world.codec ∧ Reads C90ex.world C90ex.ps ∧ SteadyPat C90ex.world ∧ Numbers (none) ∧
    (∃ e, main C90ex.world (.scanServices none none) = .ok e ∧
      (e.docs.any fun | .services es => es.any (·.sid == 1) | _ => false) = true) ∧
    ∃ e, main C90ex.world (.filterService (some 1)) = .ok e ∧ decide (e.bytes.length = 188 * 9) = true :=
  ⟨C68ex.faithful, C90ex.reads, C136ex.steady, (fun _ h => by cases h), C95ex.check (by decide +kernel),
    C95ex.check (by decide +kernel)⟩

end Mirakc.Props
