import Verif.Proof.RingFileSink
/-
The ring file at any moment of a recording.
-/
namespace Mirakc.RingFileSink
open Mirakc.Spec

theorem size_keep {R i : Nat} (hi : i < R) : ∀ (l : List Op) (f : RingFile),
    (∀ n, Op.trunc n ∈ l → n = R) → i < f.size → i < (f.run l).size := by
  intro l
  induction l with
  | nil => exact fun f _ h => h
  | cons op l ih =>
    intro f ht h
    have e : f.run (op :: l) = (f.apply op).run l := rfl
    rw [e]
    refine ih _ (fun n hn => ht n (by simp [hn])) ?_
    cases op with
    | write bs => exact Nat.lt_of_lt_of_le h (Nat.le_max_left _ _)
    | trunc n => rw [ht n (by simp)]; exact hi
    | sync => exact h
    | seek n => exact h
    | notify n => exact h
    | failed => exact h

theorem boundary_trunc {C R p n : Nat} (h : Op.trunc n ∈ boundary C R p) : n = R := by
  rcases boundary_ops C R p _ h with h | ⟨_, h⟩ | h | ⟨_, h⟩ <;> cases h
  rfl

theorem Trace.trunc {S C R : Nat} {F W log} (h : Trace S C R F W log) : ∀ n, Op.trunc n ∈ log → n = R := by
  induction h with
  | nil => intro n h; cases h
  | write _ _ _ _ ih =>
    intro n h
    rcases List.mem_append.1 h with h | h
    · exact ih n h
    · rcases List.mem_cons.1 h with h | h
      · cases h
      · exact boundary_trunc h

/-- Every offset written is within the file. -/
theorem Trace.covers {S C R : Nat} (g : Geom S C R) {F W log} (h : Trace S C R F W log) (f : RingFile)
    (hf : f.off = S) : ∀ k < W, (S + k) % R < (f.run log).size := by
  induction h with
  | nil => intro k hk; omega
  | @write W log n h h1 h2 h3 ih =>
    intro k hk
    obtain ⟨h4, _⟩ := step_arith g W n h1 h3
    have hR : 0 < R := by have := g.r0; have := g.hR; omega
    rw [run_append]
    by_cases hkW : k < W
    · refine size_keep (Nat.mod_lt _ hR) _ _ ?_ (ih k hkW)
      intro n hn
      rcases List.mem_cons.1 hn with h | h
      · cases h
      · exact boundary_trunc h
    · have e : (f.run log).run (.write ((F.drop W).take n) :: boundary C R (S + (W + n))) =
        ((f.run log).apply (.write ((F.drop W).take n))).run (boundary C R (S + (W + n))) := rfl
      rw [e]
      refine size_keep (Nat.mod_lt _ hR) _ _ (fun _ hn => boundary_trunc hn) ?_
      show _ < max _ ((f.run log).off + ((F.drop W).take n).length)
      rw [(h.file g f hf).1, List.length_take, List.length_drop]
      have e1 : (S + k) % R = (S + W) % R + (k - W) := by
        rw [show S + k = (S + W) + (k - W) by omega, ← Nat.mod_add_mod, Nat.mod_eq_of_lt]
        omega
      rw [e1]
      omega

theorem run_prefix_boundary (f : RingFile) (C R p : Nat) {l : List Op} (h : l <+: boundary C R p) :
    (∀ i < R, (f.run l).content i = f.content i) ∧ (∀ i < R, i < f.size → i < (f.run l).size) ∧ written l = [] := by
  refine ⟨?_, fun i hi hs => size_keep hi l f (fun n hn => boundary_trunc (h.subset hn)) hs, ?_⟩
  · have key : ∀ (l : List Op) (f : RingFile), (∀ op ∈ l, op = .sync ∨ (∃ p, op = .notify p) ∨ op = .trunc R ∨
        (∃ o, op = .seek o)) → ∀ i < R, (f.run l).content i = f.content i := by
      intro l
      induction l with
      | nil => exact fun f _ i _ => rfl
      | cons op l ih =>
        intro f ho i hi
        have e : f.run (op :: l) = (f.apply op).run l := rfl
        rw [e, ih _ (fun o h => ho o (by simp [h])) i hi]
        rcases ho op (by simp) with rfl | ⟨_, rfl⟩ | rfl | ⟨_, rfl⟩
        · rfl
        · rfl
        · show (if i < R then f.content i else 0) = _
          rw [if_pos hi]
        · rfl
    exact key l f fun op ho => boundary_ops C R p op (h.subset ho)
  · obtain ⟨u, hu⟩ := h
    have := written_boundary C R p
    rw [← hu, written_append] at this
    exact (List.append_eq_nil_iff.1 this).1

/-- The file at any moment of a recording: what was written, and what was there before. -/
theorem prefix_file {C n S : Nat} (hopt : Permitted C n S) {rs : List Int} {s0 : St}
    (ho : openAt C n S rs = .ok (true, s0)) {ps cs s} (hp : ∀ p ∈ ps, p.length = 188)
    (hc : Consumes sink s0 ps cs s) {l : List Op} (hl : l <+: s.log) (f : RingFile) (hf : f.off = 0) :
    written l <+: cs.flatten ∧
    (∀ k < (written l).length, (written l).length ≤ k + C * n → (S + k) % (C * n) < (f.run l).size ∧
      cs.flatten[k]? = some ((f.run l).content ((S + k) % (C * n)))) ∧
    (∀ i < C * n, (∀ k < (written l).length, (S + k) % (C * n) ≠ i) →
      (f.run l).content i = f.content i ∧ (i < f.size → i < (f.run l).size)) := by
  obtain ⟨g⟩ := geom_of_accept ((accept_iff _ _ _).2 hopt)
  obtain ⟨o1, o2, o3⟩ := openLog_run S f hf
  obtain ⟨t, full, W, fl, h1, h2, h3, h4⟩ := log_shape hopt g ho hp hc
  rw [h1, List.append_assoc] at hl
  -- a moment during the writes
  have key : ∀ q, q <+: full → written q <+: cs.flatten ∧
      (∀ k < (written q).length, (written q).length ≤ k + C * n → (S + k) % (C * n) < ((f.run (openLog S)).run q).size ∧
        cs.flatten[k]? = some (((f.run (openLog S)).run q).content ((S + k) % (C * n)))) ∧
      (∀ i < C * n, (∀ k < (written q).length, (S + k) % (C * n) ≠ i) →
        ((f.run (openLog S)).run q).content i = f.content i ∧ (i < f.size → i < ((f.run (openLog S)).run q).size)) := by
    intro q hq
    -- after whole segments
    have whole : ∀ W0 log0, Trace S C (C * n) cs.flatten W0 log0 → written log0 <+: cs.flatten ∧
        (written log0).length = W0 ∧
        (∀ k < W0, W0 ≤ k + C * n → (S + k) % (C * n) < ((f.run (openLog S)).run log0).size ∧
          cs.flatten[k]? = some (((f.run (openLog S)).run log0).content ((S + k) % (C * n)))) ∧
        (∀ i < C * n, (∀ k < W0, (S + k) % (C * n) ≠ i) →
          ((f.run (openLog S)).run log0).content i = f.content i ∧
          (i < f.size → i < ((f.run (openLog S)).run log0).size)) := by
      intro W0 log0 ht
      obtain ⟨_, _, b3, b4⟩ := ht.file g _ o1
      refine ⟨by rw [ht.written]; exact List.take_prefix _ _,
        by rw [ht.written, List.length_take]; have := ht.le; omega,
        fun k hk hk2 => ⟨ht.covers g _ o1 k hk, b3 k hk hk2⟩, fun i hi hk => ⟨by rw [b4 i hi hk, o2], fun hs => ?_⟩⟩
      exact size_keep hi _ _ ht.trunc (by rw [o3]; exact hs)
    obtain ⟨u, hu⟩ := hq
    cases u with
    | nil =>
      rw [List.append_nil] at hu
      subst hu
      obtain ⟨a1, a2, a3, a4⟩ := whole _ _ h2
      rw [a2]
      exact ⟨a1, a3, a4⟩
    | cons op u =>
      obtain ⟨W0, m, log0, i, h5, h6, h7, h8, _, h10⟩ := h2.split q op u hu.symm
      cases i with
      | zero =>
        rw [List.take_zero, List.append_nil] at h10
        subst h10
        obtain ⟨a1, a2, a3, a4⟩ := whole _ _ h5
        rw [a2]
        exact ⟨a1, a3, a4⟩
      | succ j =>
        rw [List.take_succ_cons] at h10
        have ht := Trace.write h5 h6 h7 h8
        obtain ⟨a1, a2, a3, a4⟩ := whole _ _ ht
        have hw : written q = written (log0 ++ Op.write ((cs.flatten.drop W0).take m) ::
            RingFileSink.boundary C (C * n) (S + (W0 + m))) := by
          rw [h10, written_append, written_append]
          congr 1
          show _ ++ written _ = _ ++ written _
          rw [(run_prefix_boundary f C (C * n) (S + (W0 + m)) (List.take_prefix _ _)).2.2, written_boundary]
        have e1 : (f.run (openLog S)).run q =
            (((f.run (openLog S)).run log0).apply (.write ((cs.flatten.drop W0).take m))).run
              ((RingFileSink.boundary C (C * n) (S + (W0 + m))).take j) := by
          rw [h10, run_append]; rfl
        have e2 : (f.run (openLog S)).run (log0 ++ Op.write ((cs.flatten.drop W0).take m) ::
            RingFileSink.boundary C (C * n) (S + (W0 + m))) =
            (((f.run (openLog S)).run log0).apply (.write ((cs.flatten.drop W0).take m))).run
              (RingFileSink.boundary C (C * n) (S + (W0 + m))) := by
          rw [run_append]; rfl
        rw [e2] at a3 a4
        rw [hw, a2, e1]
        generalize hg : ((f.run (openLog S)).run log0).apply (.write ((cs.flatten.drop W0).take m)) = f2 at a3 a4
        obtain ⟨p1, p2, _⟩ := run_prefix_boundary f2 C (C * n) (S + (W0 + m)) (List.take_prefix j _)
        obtain ⟨q1, _, _⟩ := run_prefix_boundary f2 C (C * n) (S + (W0 + m)) (List.prefix_refl _)
        have hR : 0 < C * n := Nat.mul_pos hopt.chunkPos hopt.numPos
        obtain ⟨h4', _⟩ := step_arith g W0 m h6 h8
        have hlen : ((cs.flatten.drop W0).take m).length = m := by
          rw [List.length_take, List.length_drop]; omega
        have hoff : ((f.run (openLog S)).run log0).off = (S + W0) % (C * n) := (h5.file g _ o1).1
        have hsz : f2.size = max ((f.run (openLog S)).run log0).size ((S + W0) % (C * n) + m) := by
          rw [← hg]
          show max _ (_ + _) = _
          rw [hlen, hoff]
        refine ⟨a1, fun k hk hk2 => ⟨?_, ?_⟩, fun i hi hk => ⟨?_, fun hs => ?_⟩⟩
        · apply p2 _ (Nat.mod_lt _ hR)
          rw [hsz]
          by_cases hkW : k < W0
          · exact Nat.lt_of_lt_of_le (h5.covers g _ o1 k hkW) (Nat.le_max_left _ _)
          · have e1 : (S + k) % (C * n) = (S + W0) % (C * n) + (k - W0) := by
              rw [show S + k = (S + W0) + (k - W0) by omega, ← Nat.mod_add_mod, Nat.mod_eq_of_lt]
              omega
            omega
        · rw [p1 _ (Nat.mod_lt _ hR), ← q1 _ (Nat.mod_lt _ hR)]
          exact (a3 k hk hk2).2
        · rw [p1 i hi, ← q1 i hi]
          exact (a4 i hi hk).1
        · apply p2 i hi
          rw [hsz]
          exact Nat.lt_of_lt_of_le (size_keep hi _ _ h5.trunc (by rw [o3]; exact hs)) (Nat.le_max_left _ _)
  rcases prefix_append_cases hl with hl | ⟨r, rfl, hr⟩
  · -- before the first write
    have hw : written l = [] := by
      obtain ⟨u, hu⟩ := hl
      have := openLog_written S
      rw [← hu, written_append] at this
      exact (List.append_eq_nil_iff.1 this).1
    have hrun : (f.run l).content = f.content ∧ (f.run l).size = f.size := by
      unfold openLog at hl
      split at hl
      · rcases (List.prefix_cons_iff.1 hl) with rfl | ⟨l', rfl, h⟩
        · exact ⟨rfl, rfl⟩
        · rw [List.prefix_nil] at h; rw [h]; exact ⟨rfl, rfl⟩
      · rw [List.prefix_nil] at hl; rw [hl]; exact ⟨rfl, rfl⟩
    rw [hw, hrun.1, hrun.2]
    exact ⟨List.nil_prefix, by simp, fun i _ _ => ⟨rfl, id⟩⟩
  · rw [written_append, openLog_written, List.nil_append, run_append]
    rcases prefix_append_cases hr with hr | ⟨r2, rfl, hr2⟩
    · exact key r (hr.trans h3)
    · have e : written (t ++ r2) = written t ∧
          (f.run (openLog S)).run (t ++ r2) = (f.run (openLog S)).run t := by
        rcases h4 with rfl | rfl
        · rw [List.prefix_nil] at hr2; rw [hr2, List.append_nil]; exact ⟨rfl, rfl⟩
        · rcases (List.prefix_cons_iff.1 hr2) with rfl | ⟨l, rfl, hl'⟩
          · rw [List.append_nil]; exact ⟨rfl, rfl⟩
          · rw [List.prefix_nil] at hl'; rw [hl', written_append, run_append]; exact ⟨by simp [written], rfl⟩
      rw [e.1, e.2]
      exact key t h3

/-- At most one chunk is written after the last announcement. -/
theorem written_le {C n S : Nat} (hopt : Permitted C n S) {rs : List Int} {s0 : St}
    (ho : openAt C n S rs = .ok (true, s0)) {ps cs s} (hp : ∀ p ∈ ps, p.length = 188)
    (hc : Consumes sink s0 ps cs s) :
    (written s.log).length ≤ C * ((announced s.log).length + 1) := by
  obtain ⟨g⟩ := geom_of_accept ((accept_iff _ _ _).2 hopt)
  obtain ⟨t, full, W, fl, h1, h2, h3, h4⟩ := log_shape hopt g ho hp hc
  have hfl : written fl = [] ∧ announced fl = [] := by
    rcases h4 with rfl | rfl <;> exact ⟨rfl, rfl⟩
  rw [h1, written_append, written_append, announced_append, announced_append, hfl.1, hfl.2, openLog_written,
    openLog_announced, List.nil_append, List.nil_append, List.append_nil, List.append_nil]
  have hC := hopt.chunkPos
  obtain ⟨u, hu⟩ := h3
  cases u with
  | nil =>
    rw [List.append_nil] at hu
    subst hu
    rw [h2.announced g, h2.written, List.length_take]
    have := Nat.lt_mul_div_succ W hC
    omega
  | cons op u =>
    obtain ⟨W0, m, log0, i, h5, h6, h7, h8, _, h10⟩ := h2.split t op u hu.symm
    obtain ⟨_, _, a3, _, a5⟩ := step_arith g W0 m h6 h8
    have hw : (written t).length ≤ W0 + m := by
      obtain ⟨v, hv⟩ := List.take_prefix i (Op.write ((cs.flatten.drop W0).take m) ::
        RingFileSink.boundary C (C * n) (S + (W0 + m)))
      have ht := (Trace.write h5 h6 h7 h8).written
      rw [← hv, ← List.append_assoc, ← h10, written_append] at ht
      have := congrArg List.length ht
      rw [List.length_append, List.length_take] at this
      omega
    have ha : W0 / C ≤ (announced t).length := by
      rw [h10, announced_append, List.length_append, h5.announced g]
      omega
    have hb : W0 + m ≤ C * (W0 / C + 1) := by
      by_cases hk : (S + (W0 + m)) % C = 0
      · rw [if_pos hk] at a3
        rw [← a3, Nat.mul_div_cancel' (Nat.dvd_of_mod_eq_zero (a5.1 hk))]
        exact Nat.le_refl _
      · rw [if_neg hk] at a3
        have := Nat.lt_mul_div_succ (W0 + m) hC
        rw [a3] at this
        exact Nat.le_of_lt this
    have : C * (W0 / C + 1) ≤ C * ((announced t).length + 1) := Nat.mul_le_mul_left _ (by omega)
    omega

end Mirakc.RingFileSink
