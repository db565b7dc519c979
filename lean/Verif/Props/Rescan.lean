import Verif.Spec.Rescan
import Verif.Proof.Joined
import Verif.Proof.OptionSets
import Verif.Props.MainAborts
/-
Property C148: scan-services at different times on the same broadcast.
-/
namespace Mirakc.Props
open Mirakc.Main Mirakc.Spec Mirakc.Spec.Main Mirakc.Spec.Pipeline Mirakc.Spec.Rescan
open Mirakc.ServiceScanner (ServiceEntry)
open Mirakc.Spec.ServiceScanner (patOf sdtOf nitOf)

theorem sorted_ext : ∀ (l m : List ServiceEntry), l.Pairwise (fun a b => a.sid < b.sid) →
    m.Pairwise (fun a b => a.sid < b.sid) → (∀ x, x ∈ l ↔ x ∈ m) → l = m
  | [], [], _, _, _ => rfl
  | [], y :: m, _, _, h => absurd ((h y).2 (by simp)) (by simp)
  | x :: l, [], _, _, h => absurd ((h x).1 (by simp)) (by simp)
  | x :: l, y :: m, hl, hm, h => by
    obtain ⟨l1, l2⟩ := List.pairwise_cons.1 hl
    obtain ⟨m1, m2⟩ := List.pairwise_cons.1 hm
    have hxy : x = y := by
      rcases List.mem_cons.1 ((h x).1 (by simp)) with e | e
      · exact e
      · rcases List.mem_cons.1 ((h y).2 (by simp)) with e' | e'
        · exact e'.symm
        · have a := m1 x e
          have b := l1 y e'
          omega
    subst hxy
    rw [sorted_ext l m l2 m2 fun z => ⟨fun hz => ?_, fun hz => ?_⟩]
    · rcases List.mem_cons.1 ((h z).1 (List.mem_cons_of_mem _ hz)) with e | e
      · subst e; exact absurd (l1 z hz) (Nat.lt_irrefl _)
      · exact e
    · rcases List.mem_cons.1 ((h z).2 (List.mem_cons_of_mem _ hz)) with e | e
      · subst e; exact absurd (m1 z hz) (Nat.lt_irrefl _)
      · exact e

theorem received_tables {w : World} {ps : List (List UInt8)} {n : Nat} {t : Table}
    (h : t ∈ received ((seen (arrived w.codec w.tables) 0 ps).take n)) : ∃ k, t ∈ w.tables k := by
  simp only [received, List.mem_flatMap] at h
  obtain ⟨i, hi, ht⟩ := h
  obtain ⟨k, b, _, e⟩ := Mirakc.Pipeline.mem_seen (List.mem_of_mem_take hi)
  subst e
  exact ⟨k, (List.mem_filter.1 ht).1⟩

theorem lookedAfter_sub : ∀ (l before : List Table) (t : Table), t ∈ Spec.ServiceScanner.lookedAfter before l → t ∈ l
  | [], _, _, h => by cases h
  | x :: l, before, t, h => by
    simp only [Spec.ServiceScanner.lookedAfter, List.mem_append] at h
    rcases h with h | h
    · split at h
      · exact List.mem_cons.2 (.inl (by simpa using h))
      · cases h
    · exact List.mem_cons_of_mem _ (lookedAfter_sub l _ t h)

theorem sinceMove_sub {l : List Table} {t : Table} (h : t ∈ Spec.ServiceScanner.sinceMove l) : t ∈ l := by
  unfold Spec.ServiceScanner.sinceMove at h
  exact List.mem_reverse.1 ((List.takeWhile_sublist _).subset (List.mem_reverse.1 h))

theorem last_mem {α : Type} {f : Table → Option α} {l : List Table} {v : α}
    (h : (l.filterMap f).getLast? = some v) : ∃ t ∈ l, f t = some v := by
  simpa using List.mem_of_getLast? h

/-- **C148.**  If scan-services finds services in two streams of one broadcast, whatever packets they consist of and
whenever the tables come, then what it prints is the same, provided that all PATs, SDTs and NITs in both streams say the
same. -/
theorem C148_rescan (w w' : World) (ps ps' : List (List UInt8)) (hr : Reads w ps) (hr' : Reads w' ps')
    (sids xsids : Option (List (List Char))) (ha : Numbers sids) (hb : Numbers xsids) (T : Table → Prop)
    (hS : Steady T) (hT : ∀ n, ∀ t ∈ w.tables n, T t) (hT' : ∀ n, ∀ t ∈ w'.tables n, T t) (e e' : Ended)
    (h : main w (.scanServices sids xsids) = .ok e) (h' : main w' (.scanServices sids xsids) = .ok e')
    (h0 : e.code = 0) (h0' : e'.code = 0) : e'.docs = e.docs := by
  rcases C93_scan_services w ps hr sids xsids ha hb e h with ⟨k, _⟩ | ⟨_, es, d1, d2, n, pat, sdt, nit, o, d3, d4, d5⟩
  · rw [h0] at k; cases k
  rcases C93_scan_services w' ps' hr' sids xsids ha hb e' h' with
    ⟨k, _⟩ | ⟨_, es', g1, g2, n', pat', sdt', nit', o', g3, g4, g5⟩
  · rw [h0'] at k; cases k
  have inT : ∀ t ∈ received ((seen (arrived w.codec w.tables) 0 ps).take n), T t := fun t ht => by
    obtain ⟨k, hk⟩ := received_tables ht
    exact hT k t hk
  have inT' : ∀ t ∈ received ((seen (arrived w'.codec w'.tables) 0 ps').take n'), T t := fun t ht => by
    obtain ⟨k, hk⟩ := received_tables ht
    exact hT' k t hk
  have e1 : pat = pat' := by
    obtain ⟨t, t1, t2⟩ := last_mem d4.1
    obtain ⟨u, u1, u2⟩ := last_mem g4.1
    exact hS.pat t u _ _ (inT t t1) (inT' u u1) t2 u2
  have e2 : sdt = sdt' := by
    obtain ⟨t, t1, t2⟩ := last_mem d4.2.1
    obtain ⟨u, u1, u2⟩ := last_mem g4.2.1
    exact hS.sdt t u _ _ (inT t (lookedAfter_sub _ _ t t1)) (inT' u (lookedAfter_sub _ _ u u1)) t2 u2
  have e3 : nit = nit' := by
    obtain ⟨t, t1, t2⟩ := last_mem d4.2.2
    obtain ⟨u, u1, u2⟩ := last_mem g4.2.2
    exact hS.nit t u _ _ (inT t (lookedAfter_sub _ _ t (sinceMove_sub t1)))
      (inT' u (lookedAfter_sub _ _ u (sinceMove_sub u1))) t2 u2
  subst e1 e2 e3
  rw [d1, g1, sorted_ext es' es g2 d2 fun x => by
    rw [g5, d5]
    unfold Spec.ServiceScanner.IsEntry
    rw [g3, d3]]

/-- **C148**, success.  If a stream has a PAT, an SDT and a NIT on their PIDs, in any order, and the PATs say that the
NIT is on its PID, then scan-services finds services. -/
theorem C148_found (w : World) (hc : Faithful w.codec) (ps : List (List UInt8)) (hr : Reads w ps) (sids xsids : Option (List (List Char)))
    (ha : Numbers sids) (hb : Numbers xsids)
    (hm : ∀ n, ∀ t ∈ w.tables n, ∀ pat, patOf t = some pat → pat.nitPid = 0x10 ∨ pat.nitPid = 0x1FFF)
    (hs : ∀ n, ∀ t ∈ w.tables n, sdtOf t ≠ none → t.sourcePid = 0x11)
    (hn : ∀ n, ∀ t ∈ w.tables n, nitOf t ≠ none → t.sourcePid = 0x10)
    (hp : ∃ n b, ps[n]? = some b ∧ ∃ t ∈ w.tables n, t.sourcePid = (w.codec.packet b).pid ∧ patOf t ≠ none)
    (hq : ∃ n b, ps[n]? = some b ∧ ∃ t ∈ w.tables n, t.sourcePid = (w.codec.packet b).pid ∧ sdtOf t ≠ none)
    (hk : ∃ n b, ps[n]? = some b ∧ ∃ t ∈ w.tables n, t.sourcePid = (w.codec.packet b).pid ∧ nitOf t ≠ none) :
    ∃ e, main w (.scanServices sids xsids) = .ok e ∧ e.code = 0 := by
  have hend : ∃ e, main w (.scanServices sids xsids) = .ok e := by
    rcases (C113_abnormal w (.scanServices sids xsids) ps hc hr trivial).2.2 id with h | ⟨r, h⟩
    · exact h
    · exfalso
      obtain ⟨a, h1⟩ := sidSet_ok ha
      obtain ⟨b, h2⟩ := sidSet_ok hb
      simp only [main, h1, h2] at h
      change scanServices w { sids := a, xsids := b } = _ at h
      rw [scanServices, feed_eq hr] at h
      cases hf : feedPackets listSource (Mirakc.Pipeline.via (packet w) (ServiceScanner.sink { sids := a, xsids := b }))
        (ps.length + 1) ps (0, { st := {} }) with
      | error f => rw [hf] at h; cases h
      | ok x => rw [hf] at h; cases h
  obtain ⟨e, h⟩ := hend
  refine ⟨e, h, ?_⟩
  simp only [main, scanServices, bind_ok_iff] at h
  obtain ⟨a, h1, b, h2, ⟨code, n, x⟩, h3, h4⟩ := h
  cases h4
  have hran := ran_of_feed hr h3
  have mem : ∀ t ∈ received (seen (packet w) 0 ps), ∃ k, t ∈ w.tables k := fun t ht => by
    simp only [received, List.mem_flatMap] at ht
    obtain ⟨i, hi, ht⟩ := ht
    obtain ⟨k, b, _, e⟩ := Mirakc.Pipeline.mem_seen hi
    subst e
    exact ⟨k, (List.mem_filter.1 ht).1⟩
  have there : ∀ {α : Type} {f : Table → Option α},
      (∃ n b, ps[n]? = some b ∧ ∃ t ∈ w.tables n, t.sourcePid = (w.codec.packet b).pid ∧ f t ≠ none) →
      ∃ t ∈ received (seen (packet w) 0 ps), f t ≠ none := by
    rintro α f ⟨n, b, hn, t, ht, hp, hf⟩
    refine ⟨t, ?_, hf⟩
    simp only [received, List.mem_flatMap]
    refine ⟨packet w n b, ?_, List.mem_filter.2 ⟨ht, beq_iff_eq.2 hp⟩⟩
    have := Mirakc.Joined.seen_get (packet w) ps 0 n b hn
    exact List.mem_of_getElem? (by simpa using this)
  refine (C57_any_order_partial _ _ _ _ hran ?_ (fun t ht => ?_) (fun t ht => ?_)).2 ⟨there hp, there hq, there hk⟩
  · rw [Spec.ServiceScanner.moves, List.filter_eq_nil_iff]
    intro pat hpat
    obtain ⟨t, ht, hpt⟩ := List.mem_filterMap.1 hpat
    obtain ⟨k, hk⟩ := mem t ht
    have := hm k t hk pat hpt
    intro hd
    obtain ⟨d1, d2⟩ := of_decide_eq_true hd
    exact this.elim d2 d1
  · obtain ⟨k, hk⟩ := mem t ht
    exact hs k t hk
  · obtain ⟨k, hk⟩ := mem t ht
    exact hn k t hk

namespace C148ex
open C68ex (raw)

/-- The stream begins elsewhere: the tables come in another order. -/
def ps : List (List UInt8) := [raw 0x111 0 9, raw 0x10 4 3, raw 0x11 4 2, raw 0x111 1 9, raw 0 4 1]
/-- The tables completed by its packets. -/
def tables : Nat → List Table
  | 1 => [C56ex.nit 0x10 3]
  | 2 => [C52ex.sdt 0x01 0xC0]
  | 4 => [C56ex.pat 0x10]
  | _ => []
/-- The other stream. -/
def world : World := { C90ex.world with tables := tables, read := ps.map some }
theorem reads : Reads world ps := by
  refine ⟨fun r hr => ?_, ?_⟩
  · have : ∀ r ∈ world.read, (r.getD []).length ≤ 16384 := by decide +kernel
    exact this _ hr
  · have : contents world = ps.flatten := by decide +kernel
    rw [this]
    exact Mirakc.Pipeline.packets_flatten (by decide +kernel)
/-- The PAT, SDT and NIT of the broadcast are these. -/
def T (t : Table) : Prop :=
  (patOf t = none ∨ patOf t = patOf (C56ex.pat 0x10)) ∧ (sdtOf t = none ∨ sdtOf t = sdtOf (C52ex.sdt 0x01 0xC0)) ∧
    (nitOf t = none ∨ nitOf t = nitOf (C56ex.nit 0x10 3))
instance (t : Table) : Decidable (T t) := by unfold T; infer_instance
theorem steady : Steady T where
  pat t u p q ht hu hp hq := by
    rcases ht.1 with h | h <;> rcases hu.1 with h' | h' <;> simp_all
  sdt t u p q ht hu hp hq := by
    rcases ht.2.1 with h | h <;> rcases hu.2.1 with h' | h' <;> simp_all
  nit t u p q ht hu hp hq := by
    rcases ht.2.2 with h | h <;> rcases hu.2.2 with h' | h' <;> simp_all
theorem tables_T : (∀ n, ∀ t ∈ C90ex.world.tables n, T t) ∧ (∀ n, ∀ t ∈ world.tables n, T t) := by
  constructor
  · intro n t ht
    change t ∈ C90ex.tables n at ht
    unfold C90ex.tables at ht
    split at ht
    all_goals first
      | (cases ht; done)
      | (rw [List.mem_singleton] at ht; subst ht; decide +kernel)
  · intro n t ht
    change t ∈ tables n at ht
    unfold tables at ht
    split at ht
    all_goals first
      | (cases ht; done)
      | (rw [List.mem_singleton] at ht; subst ht; decide +kernel)

end C148ex

/-- Non-trivial case for C148: the same broadcast with other packets and the tables in another order. -/
example : Reads C90ex.world C90ex.ps ∧ Reads C148ex.world C148ex.ps ∧ Steady C148ex.T ∧
    (∀ n, ∀ t ∈ C90ex.world.tables n, C148ex.T t) ∧ (∀ n, ∀ t ∈ C148ex.world.tables n, C148ex.T t) ∧
    (∃ e, main C90ex.world (.scanServices none none) = .ok e ∧ (e.code = 0 ∧ e.docs.length = 1)) ∧
    ∃ e, main C148ex.world (.scanServices none none) = .ok e ∧ (e.code = 0 ∧ e.docs.length = 1) := by
  refine ⟨C90ex.reads, C148ex.reads, C148ex.steady, C148ex.tables_T.1, C148ex.tables_T.2, ?_, ?_⟩
  · obtain ⟨e, h1, h2⟩ := C95ex.check (r := main C90ex.world (.scanServices none none))
      (P := fun e => e.code = 0 ∧ e.docs.length = 1) (by decide +kernel)
    exact ⟨e, h1, of_decide_eq_true h2⟩
  · obtain ⟨e, h1, h2⟩ := C95ex.check (r := main C148ex.world (.scanServices none none))
      (P := fun e => e.code = 0 ∧ e.docs.length = 1) (by decide +kernel)
    exact ⟨e, h1, of_decide_eq_true h2⟩

open C148ex in
/-- Non-trivial case for C148, success. -/
example : Faithful world.codec ∧
    (∀ n, ∀ t ∈ world.tables n, ∀ pat, patOf t = some pat → pat.nitPid = 0x10 ∨ pat.nitPid = 0x1FFF) ∧
    (∀ n, ∀ t ∈ world.tables n, sdtOf t ≠ none → t.sourcePid = 0x11) ∧
    (∀ n, ∀ t ∈ world.tables n, nitOf t ≠ none → t.sourcePid = 0x10) ∧
    (∃ n b, ps[n]? = some b ∧ ∃ t ∈ world.tables n, t.sourcePid = (world.codec.packet b).pid ∧ patOf t ≠ none) ∧
    (∃ n b, ps[n]? = some b ∧ ∃ t ∈ world.tables n, t.sourcePid = (world.codec.packet b).pid ∧ sdtOf t ≠ none) ∧
    (∃ n b, ps[n]? = some b ∧ ∃ t ∈ world.tables n, t.sourcePid = (world.codec.packet b).pid ∧ nitOf t ≠ none) := by
  have key : ∀ n, ∀ t ∈ world.tables n, (∀ pat ∈ patOf t, pat.nitPid = 0x10 ∨ pat.nitPid = 0x1FFF) ∧
      (sdtOf t ≠ none → t.sourcePid = 0x11) ∧ (nitOf t ≠ none → t.sourcePid = 0x10) := by
    intro n t ht
    change t ∈ tables n at ht
    unfold tables at ht
    split at ht
    all_goals first
      | (cases ht; done)
      | (rw [List.mem_singleton] at ht; subst ht; decide +kernel)
  refine ⟨C68ex.faithful, fun n t ht pat hp => (key n t ht).1 pat hp, fun n t ht => (key n t ht).2.1,
    fun n t ht => (key n t ht).2.2, ⟨4, C68ex.raw 0 4 1, rfl, C56ex.pat 0x10, ?_⟩, ⟨2, C68ex.raw 0x11 4 2, rfl, C52ex.sdt 0x01 0xC0, ?_⟩,
    ⟨1, C68ex.raw 0x10 4 3, rfl, C56ex.nit 0x10 3, ?_⟩⟩
  all_goals decide +kernel

end Mirakc.Props
