import Verif.Props.Resume
/-
C121: the data of the events in the ring file.
-/
namespace Mirakc.Props
open Mirakc.ServiceRecorder Mirakc.Spec Mirakc.Spec.ServiceRecorder Mirakc.Spec.Resume

theorem locate {m : Msg} : ∀ (items : List Item) (x y : List Msg), messages (outs items) = x ++ m :: y →
    ∃ a it b y1, items = a ++ it :: b ∧ m ∈ messages it.out ∧ y = y1 ++ messages (outs b) ∧
      ∀ m' ∈ y1, m' ∈ messages it.out := by
  intro items
  induction items with
  | nil => intro x y h; simp [outs, messages] at h
  | cons it items ih =>
    intro x y h
    have e : messages (outs (it :: items)) = messages it.out ++ messages (outs items) := messages_append it.out (outs items)
    rw [e] at h
    rcases split_append h with ⟨y1, h1, h2⟩ | ⟨x2, h1, h2⟩
    · refine ⟨[], it, items, y1, rfl, by rw [h1]; simp, h2, fun m' hm => by rw [h1]; simp [hm]⟩
    · obtain ⟨a, i, b, y1, k1, k2, k3, k4⟩ := ih x2 y h2
      exact ⟨it :: a, i, b, y1, by rw [k1]; rfl, k2, k3, k4⟩

/-- **C121**  The data of each event is found with its records.  If an event was started with the record `p` and ended
with the record `p'`, there are packets `a` and `c` such that `a` are all before the one that ended the previous event
(or none of them was stored), `c` follow until the one that ended this event (or any later one), and at any moment those bytes of the
stored packets of `c` that were written and not overwritten are in the file one after the other from `p` to `p'`. -/
theorem C121_event_data (o : Opt) (results : List Int) (is : List ServiceRecorder.Input) (code : Nat) (h : Hist)
    (hopt : Permitted o.chunkSize o.numChunks o.startPos) (hb : ∀ i ∈ is, i.bytes.length = 188)
    (hr : Recorded o results is code h) (ms1 ms2 ms3 : List Msg) (e e' : Eit) (ev ev' : Event) (t t' : Int) (p p' : Nat)
    (hm : messages h.trace = ms1 ++ .eventStart e ev t p :: (ms2 ++ .eventEnd e' ev' t' p' :: ms3)) :
    ∃ a c it b, h.items = a ++ (c ++ it :: b) ∧ .eventEnd e' ev' t' p' ∈ messages it.out ∧
      (stored a = [] ∨ ∃ x e0 ev0, (c ++ [it]).head? = some x ∧ .eventEnd e0 ev0 t p ∈ messages x.out) ∧
      p' = (p + 188 * (stored c).length) % (o.chunkSize * o.numChunks) ∧
      ∀ (f : RingFile) (seen : List Tr), f.off = 0 → seen <+: h.trace →
        ∀ j < (stored c).flatten.length, (stored a).flatten.length + j < (written (fileOps seen)).length →
          (written (fileOps seen)).length ≤ (stored a).flatten.length + j + o.chunkSize * o.numChunks →
          (p + j) % (o.chunkSize * o.numChunks) < (f.run (fileOps seen)).size ∧
          (stored c).flatten[j]? = some ((f.run (fileOps seen)).content ((p + j) % (o.chunkSize * o.numChunks))) := by
  obtain ⟨t1, t2, _⟩ := C39_events_tile o results is code h hopt hb hr
  rcases cases_of_recorded hr with ⟨h1, h2, h3, _⟩ | ⟨r0, S⟩
  · rw [h2] at hm; simp at hm
  · have hst := t1 ms1 e ev t p _ hm
    have h188 : ∀ a b, h.items = a ++ b → (stored a).flatten.length = 188 * (stored a).length := by
      intro a b hab
      have := S.bytes hb a b hab
      rw [List.length_flatten]
      revert this
      generalize stored a = l
      induction l with
      | nil => exact fun _ => rfl
      | cons x l ih =>
        intro hx
        simp only [List.map_cons, List.sum_cons, List.length_cons, hx x (by simp), ih (fun q hq => hx q (by simp [hq]))]
        omega
    -- where the event was ended, and where the one before
    have hmsgs := S.messages
    rw [hm] at hmsgs
    obtain ⟨a, c, it, b, q1, q2, q3, q4⟩ : ∃ a c it b, h.items = a ++ (c ++ it :: b) ∧
        .eventEnd e' ev' t' p' ∈ messages it.out ∧
        (stored a = [] ∨ ∃ x e0 ev0, (c ++ [it]).head? = some x ∧ .eventEnd e0 ev0 t p ∈ messages x.out) ∧
        p = (o.startPos + 188 * (stored a).length) % (o.chunkSize * o.numChunks) := by
      cases hl : (ends ms1).getLast? with
      | none =>
        rw [hl] at hst
        -- the first chunk
        have hp : p = o.startPos := by
          have hmem : (chunkRecords ms1).head? = some (t, p) := by simpa using hst
          have : ∃ u v, ms1 = u ++ .chunk t p :: v ∧ chunkRecords u = [] := by
            clear hm hmsgs hl hst
            induction ms1 with
            | nil => simp [chunkRecords] at hmem
            | cons m ms ih =>
              cases m with
              | chunk t0 p0 =>
                simp [chunkRecords] at hmem
                exact ⟨[], ms, by rw [hmem.1, hmem.2]; rfl, rfl⟩
              | _ =>
                obtain ⟨u, v, rfl, k2⟩ := ih hmem
                exact ⟨_ :: u, v, rfl, k2⟩
          obtain ⟨u, v, k1, k2⟩ := this
          -- the message in the trace
          have find : ∀ (tr : List Tr) (u v : List Msg) (m : Msg), messages tr = u ++ m :: v →
              ∃ x y, tr = x ++ .msg m :: y ∧ messages x = u := by
            intro tr
            induction tr with
            | nil => intro u v m h; simp [messages] at h
            | cons z tr ih =>
              intro u v m h
              cases z with
              | op q =>
                obtain ⟨x, y, k1, k2⟩ := ih u v m h
                exact ⟨.op q :: x, y, by rw [k1]; rfl, k2⟩
              | msg m0 =>
                have e0 : messages (.msg m0 :: tr) = m0 :: messages tr := rfl
                rw [e0] at h
                cases u with
                | nil =>
                  simp only [List.nil_append, List.cons.injEq] at h
                  exact ⟨[], tr, by rw [h.1]; rfl, rfl⟩
                | cons u0 u =>
                  simp only [List.cons_append, List.cons.injEq] at h
                  obtain ⟨x, y, k1, k2⟩ := ih u v m h.2
                  exact ⟨.msg m0 :: x, y, by rw [k1]; rfl, by rw [← h.1, ← k2]; rfl⟩
          obtain ⟨x, y, k3, k4⟩ := find h.trace u _ (.chunk t p) (by rw [hm, k1, List.append_assoc, List.cons_append])
          obtain ⟨_, _, k5, k6, _⟩ := (C38_chunks o results is code h hopt hb hr).1 x t p y k3
          rw [k4, chunks_eq, k2, List.length_nil, Nat.zero_mul] at k6
          rw [k5, k6, Nat.add_zero, Nat.mod_eq_of_lt hopt.startMax]
        have hend : ∃ x y, messages (outs h.items) = x ++ .eventEnd e' ev' t' p' :: y := by
          cases ms1 with
          | nil => simp at hmsgs
          | cons m ms1 =>
            simp only [List.cons_append, List.cons.injEq] at hmsgs
            obtain ⟨_, hmsgs⟩ := hmsgs
            rw [show ms1 ++ Msg.eventStart e ev t p :: (ms2 ++ .eventEnd e' ev' t' p' :: ms3) =
              (ms1 ++ .eventStart e ev t p :: ms2) ++ .eventEnd e' ev' t' p' :: ms3 by simp] at hmsgs
            rcases split_append hmsgs.symm with ⟨y, k, _⟩ | ⟨x, _, k⟩
            · exact ⟨_, y, k⟩
            · match x, k with
              | [], k => simp at k
              | _ :: l, k => simp at k
        obtain ⟨x, y, k⟩ := hend
        obtain ⟨a, it, b, _, m1, m2, _⟩ := locate h.items x y k
        exact ⟨[], a, it, b, m1, m2, .inl rfl, by
          rw [hp, show stored ([] : List Item) = [] from rfl, List.length_nil, Nat.mul_zero, Nat.add_zero,
            Nat.mod_eq_of_lt hopt.startMax]⟩
      | some r =>
        rw [hl] at hst
        simp only [Option.some_or, Option.some.injEq] at hst
        subst hst
        obtain ⟨u, v, e0, ev0, k1⟩ : ∃ u v e0 ev0, ms1 = u ++ .eventEnd e0 ev0 t p :: v := by
          have := List.mem_of_getLast? hl
          simp only [ends, List.mem_filterMap] at this
          obtain ⟨m, k1, k2⟩ := this
          obtain ⟨u, v, k3⟩ := List.append_of_mem k1
          cases m with
          | eventEnd e0 ev0 t0 p0 =>
            simp at k2
            exact ⟨u, v, e0, ev0, by rw [k3, k2.1, k2.2]⟩
          | _ => simp at k2
        have hend : ∃ x y z, messages (outs h.items) = x ++ .eventEnd e0 ev0 t p :: (y ++ .eventEnd e' ev' t' p' :: z) := by
          cases u with
          | nil =>
            rw [k1] at hmsgs
            simp at hmsgs
          | cons m u =>
            rw [k1] at hmsgs
            simp only [List.cons_append, List.cons.injEq] at hmsgs
            obtain ⟨_, hmsgs⟩ := hmsgs
            rw [show u ++ Msg.eventEnd e0 ev0 t p :: v ++ .eventStart e ev t p :: (ms2 ++ .eventEnd e' ev' t' p' :: ms3) =
              (u ++ .eventEnd e0 ev0 t p :: (v ++ .eventStart e ev t p :: ms2)) ++ .eventEnd e' ev' t' p' :: ms3 by simp]
              at hmsgs
            rcases split_append hmsgs.symm with ⟨y, k, _⟩ | ⟨x, _, k⟩
            · exact ⟨u, v ++ .eventStart e ev t p :: ms2, y, by rw [k]; simp⟩
            · match x, k with
              | [], k => simp at k
              | _ :: l, k => simp at k
        obtain ⟨x, y, z, k⟩ := hend
        obtain ⟨a, i1, b1, y1, m1, m2, m3, m4⟩ := locate h.items _ _ k
        have hp := t2 a i1 b1 e0 ev0 t p m1 m2
        rcases split_append m3.symm with ⟨y2, n1, _⟩ | ⟨y2, n1, n2⟩
        · exact ⟨a, [], i1, b1, m1, m4 _ (by rw [n1]; simp), .inr ⟨i1, e0, ev0, rfl, m2⟩, hp⟩
        · obtain ⟨c, it, b, _, o1, o2, _⟩ := locate b1 _ _ n2
          exact ⟨a, i1 :: c, it, b, by rw [m1, o1]; rfl, o2, .inr ⟨i1, e0, ev0, rfl, m2⟩, hp⟩
    have hac : h.items = (a ++ c) ++ it :: b := by rw [q1, List.append_assoc]
    have hsac : stored (a ++ c) = stored a ++ stored c := stored_append a c
    refine ⟨a, c, it, b, q1, q2, q3, ?_, ?_⟩
    · rw [t2 (a ++ c) it b e' ev' t' p' hac q2, q4, hsac, List.length_append, Nat.mod_add_mod]
      congr 1
      omega
    · intro f seen hf hs j hj h5 h6
      obtain ⟨rest, hrest⟩ := hs
      obtain ⟨_, d2, _⟩ := RingFileSink.prefix_file hopt S.opened (S.bytes hb h.items [] (by simp))
        (inv_reach S.reach).consumes (l := fileOps seen) (by
          rw [← S.fileOps, ← hrest, fileOps_append]; exact List.prefix_append _ _) f hf
      obtain ⟨d3, d4⟩ := d2 _ h5 h6
      have he : (o.startPos + ((stored a).flatten.length + j)) % (o.chunkSize * o.numChunks) =
          (p + j) % (o.chunkSize * o.numChunks) := by
        rw [q4, Nat.mod_add_mod, h188 a _ q1, Nat.add_assoc]
      rw [he] at d3 d4
      refine ⟨d3, ?_⟩
      rw [← d4, hac, stored_append, hsac, List.flatten_append, List.flatten_append, List.append_assoc,
        List.getElem?_append_right (by omega), Nat.add_sub_cancel_left, List.getElem?_append_left hj]

/-- The first event of the recording of C37: 44 packets around the end of the ring. -/
example : ∃ code h a c it b, Recorded C37ex.opt (List.replicate 9 300000) C37ex.stream code h ∧
    h.items = a ++ (c ++ it :: b) ∧ (stored c).length = 44 ∧
    .eventEnd (C37ex.eit C37ex.ev1) C37ex.ev1 5000 80 ∈ messages it.out := by
  obtain ⟨code, h, h1, h2⟩ := C37ex.run_stream
  obtain ⟨_, m1, _, m2⟩ := of_decide_eq_true h2
  obtain ⟨a, c, it, b, k1, k2, k3, k4, k5⟩ := C121_event_data _ _ _ _ h C37ex.permitted C37ex.bytes_ok h1
    [.start, .chunk 5000 8192] [.eventUpdate (C37ex.eit C37ex.ev1) C37ex.ev1 5000 0, .chunk 5000 0]
    _ _ _ _ _ _ _ _ _ m1
  refine ⟨code, h, a, c, it, b, h1, k1, ?_, k2⟩
  have : (stored c).length ≤ 51 := by
    rw [← m2, k1, stored_append, stored_append, List.length_append, List.length_append]
    omega
  have k4 : 80 = (8192 + 188 * (stored c).length) % (8192 * 2) := k4
  omega

end Mirakc.Props
