import Verif.Proof.BehindScan
import Verif.Props.Again
import Verif.Props.Rescan
/-
Property C153: scan-services behind filter-service.
-/
namespace Mirakc.Props
open Mirakc.Main Mirakc.Spec Mirakc.Spec.Main Mirakc.Spec.Pipeline Mirakc.Spec.Rescan
open Mirakc.Spec.ServiceFilter (Again sent usablePat Restricted)
open Mirakc.Spec.ServiceScanner (patOf sdtOf nitOf)

private theorem patOf_usable {t : Table} {p : Pat} (h : usablePat t = some p) : patOf t = some p := by
  unfold usablePat at h
  split at h
  · next pat e =>
    split at h
    · next c =>
      cases h
      obtain ⟨_, _, _, _⟩ := t
      obtain ⟨c1, c2, c3⟩ := c
      simp only at c1 c2 e
      subst c1 c2 e
      simp [patOf, c3]
    · cases h
  · cases h

private theorem patOf_eq {t : Table} {p : Pat} (h : patOf t = some p) : t.sourcePid = 0 ∧ t.body = .pat p := by
  unfold patOf at h
  split at h
  · split at h
    · cases h
    · cases h; exact ⟨rfl, rfl⟩
  · cases h

private theorem sdtOf_body {t : Table} {p : Sdt} (h : sdtOf t = some p) : t.body = .sdt p := by
  unfold sdtOf at h
  split at h
  · split at h
    · cases h
    · cases h; rfl
  · cases h

private theorem nitOf_body {t : Table} {p : Nit} (h : nitOf t = some p) : t.body = .nit p := by
  unfold nitOf at h
  split at h
  · cases h; rfl
  · cases h

/-- **C153.**  If the PATs, SDTs and NITs of a stream do not change and scan-services finds services in the stream and in
the output of filter-service, then behind filter-service it lists the service that filter-service selects, if it is among those listed
for the stream, with the same data, and no other; the packets that filter-service passes on complete the tables they complete in the
stream, the rewritten PATs instead of the original ones (`Again`). -/
theorem C153_scan (w w2 : World) (hc : Faithful w.codec) (ps : List (List UInt8)) (hr : Reads w ps) (sid : Nat)
    (f : ServiceFilter.St) (items : List ServiceFilter.Item)
    (hrun : ServiceFilter.run { sid := sid } (ServiceFilter.init { sid := sid })
      (seen (arrived w.codec w.tables) 0 ps) = .ok (f, items))
    (ts : List (List Table)) (ha : Again (seen (arrived w.codec w.tables) 0 ps) items ts)
    (hcod : w2.codec = w.codec) (hr2 : Reads w2 ((sent items).map (serviceBytes w.codec)))
    (ht : ∀ k l, ts[k]? = some l → w2.tables k = l)
    (T : Table → Prop) (hS : Steady T) (hT : ∀ n, ∀ t ∈ w.tables n, T t)
    (sids xsids : Option (List (List Char))) (hx : Numbers sids) (hy : Numbers xsids) (e e2 : Ended)
    (h : main w (.scanServices sids xsids) = .ok e) (h2 : main w2 (.scanServices sids xsids) = .ok e2)
    (h0 : e.code = 0) (h0' : e2.code = 0) :
    ∃ es, e.docs = [.services es] ∧ e2.docs = [.services (es.filter fun x => x.sid == sid)] := by
  rcases C93_scan_services w ps hr sids xsids hx hy e h with ⟨k, _⟩ | ⟨_, es, d1, d2, n, pat, sdt, nit, o, d3, d4, d5⟩
  · rw [h0] at k; cases k
  rcases C93_scan_services w2 _ hr2 sids xsids hx hy e2 h2 with
    ⟨k, _⟩ | ⟨_, es', g1, g2, n', pat', sdt', nit', o', g3, g4, g5⟩
  · rw [h0'] at k; cases k
  obtain ⟨hl, hn⟩ := again_length ha
  have comes := Mirakc.BehindScan.comes_out (fields := fun x => w.codec.packet (serviceBytes w.codec x))
    (fun t n => hc.patPid t n) (fun i hi => by
      obtain ⟨k, b, hb, rfl⟩ := Mirakc.Pipeline.mem_seen hi
      show w.codec.packet (w.codec.bytes (w.codec.packet b)) = w.codec.packet b
      rw [hc.keep b (Mirakc.Pipeline.packets_188 hr.2 b hb)]) hrun ha hn
  rw [hcod, seen_reread w.codec w2.tables (sent items) ts 0 hl
    (fun k l h => by rw [Nat.zero_add]; exact ht k l h)] at g4
  have ofw : ∀ i ∈ seen (arrived w.codec w.tables) 0 ps, ∀ t ∈ i.tables, T t := by
    intro i hi t htt
    obtain ⟨k, b, _, rfl⟩ := Mirakc.Pipeline.mem_seen hi
    exact hT k t htt
  have inT : ∀ t ∈ received ((seen (arrived w.codec w.tables) 0 ps).take n), T t := fun t ht => by
    obtain ⟨k, hk⟩ := received_tables ht
    exact hT k t hk
  have behind : ∀ t, t ∈ received ((ServiceFilter.reread (fun x => w.codec.packet (serviceBytes w.codec x)) (sent items) ts).take n') →
      (T t ∧ t.sourcePid ≠ 0) ∨ (t.sourcePid = 0 ∧ ∃ p q v, t.body = .pat q ∧ T v ∧ patOf v = some p ∧ Restricted sid p q) := by
    intro t ht
    simp only [received, List.mem_flatMap] at ht
    obtain ⟨j, hj, hu⟩ := ht
    obtain ⟨hu1, hu2⟩ := List.mem_filter.1 hu
    have hu2 : t.sourcePid = j.packet.pid := by simpa using hu2
    rcases comes j (List.mem_of_mem_take hj) with ⟨c1, c2⟩ | ⟨c1, c2⟩
    · exact .inl ⟨ofw j c1 t hu1, by rw [hu2]; exact c2⟩
    · obtain ⟨_, q, p, v, c3, c4, c5, c6⟩ := c2 t hu1 (hu2.trans c1)
      exact .inr ⟨hu2.trans c1, p, q, v, c3, Mirakc.Joined.received_of ofw hrun v c4, patOf_usable c5, c6⟩
  have e1 : Restricted sid pat pat' := by
    obtain ⟨t, t1, t2⟩ := last_mem d4.1
    obtain ⟨u, u1, u2⟩ := last_mem g4.1
    obtain ⟨k1, k2⟩ := patOf_eq u2
    rcases behind u u1 with ⟨_, c⟩ | ⟨_, p, q, v, c1, c2, c3, c4⟩
    · exact absurd k1 c
    · rw [k2] at c1; cases c1
      rw [hS.pat t v _ _ (inT t t1) c2 t2 c3]; exact c4
  have e2' : sdt = sdt' := by
    obtain ⟨t, t1, t2⟩ := last_mem d4.2.1
    obtain ⟨u, u1, u2⟩ := last_mem g4.2.1
    rcases behind u (lookedAfter_sub _ _ u u1) with ⟨c, _⟩ | ⟨_, p, q, v, c1, _⟩
    · exact hS.sdt t u _ _ (inT t (lookedAfter_sub _ _ t t1)) c t2 u2
    · rw [sdtOf_body u2] at c1; cases c1
  have e3 : nit = nit' := by
    obtain ⟨t, t1, t2⟩ := last_mem d4.2.2
    obtain ⟨u, u1, u2⟩ := last_mem g4.2.2
    rcases behind u (lookedAfter_sub _ _ u (sinceMove_sub u1)) with ⟨c, _⟩ | ⟨_, p, q, v, c1, _⟩
    · exact hS.nit t u _ _ (inT t (lookedAfter_sub _ _ t (sinceMove_sub t1))) c t2 u2
    · rw [nitOf_body u2] at c1; cases c1
  subst e2' e3
  refine ⟨es, d1, ?_⟩
  rw [g1, sorted_ext es' (es.filter fun x => x.sid == sid) g2 (d2.filter _) fun x => by
    rw [List.mem_filter, g5, d5]
    unfold Spec.ServiceScanner.IsEntry
    rw [g3, d3, Mirakc.BehindScan.restricted_find e1, beq_iff_eq]
    constructor
    · rintro ⟨a, ⟨b, c⟩, d⟩; exact ⟨⟨a, c, d⟩, b⟩
    · rintro ⟨⟨a, c, d⟩, b⟩; exact ⟨a, ⟨b, c⟩, d⟩]

namespace C153ex
open C68ex (raw)

/-- A stream with two services; the last packets belong to neither. -/
def ps : List (List UInt8) := [raw 0 0 1, raw 0x11 0 2, raw 0x111 0 9, raw 0x10 0 3, raw 0x111 1 9]
/-- The tables completed by its packets. -/
def tables : Nat → List Table
  | 0 => [C56ex.pat 0x10]
  | 1 => [C52ex.sdt 0x01 0x01]
  | 3 => [C56ex.nit 0x10 3]
  | _ => []
def world : World := { C90ex.world with tables := tables, read := [some ps.flatten] }
theorem reads : Reads world ps := by
  refine ⟨fun r hr => ?_, ?_⟩
  · have : ∀ r ∈ world.read, (r.getD []).length ≤ 16384 := by decide +kernel
    exact this _ hr
  · have : contents world = ps.flatten := by decide +kernel
    rw [this]
    exact Mirakc.Pipeline.packets_flatten (by decide +kernel)
/-- The history of filter-service for the service 1. -/
def result := ServiceFilter.run { sid := 1 } (ServiceFilter.init { sid := 1 })
  (seen (arrived world.codec world.tables) 0 ps)
def items : List ServiceFilter.Item := match result with | .ok x => x.2 | .error _ => []
theorem ran : ∃ f, ServiceFilter.run { sid := 1 } (ServiceFilter.init { sid := 1 })
    (seen (arrived world.codec world.tables) 0 ps) = .ok (f, items) := by
  have key : result.isOk = true := by decide +kernel
  cases h : result with
  | error x => rw [h] at key; cases key
  | ok x =>
    refine ⟨x.1, ?_⟩
    have : items = x.2 := by simp only [items, h]
    rw [this]
    exact h
/-- The tables completed by its output. -/
def ts : List (List Table) :=
  [[{ sourcePid := 0, body := .pat { tsId := 7, nitPid := 0x10, pmts := ⟨[(1, 0x100)], by simp⟩ } }], [C52ex.sdt 0x01 0x01],
    [C56ex.nit 0x10 3]]
def out : List (List UInt8) := (sent items).map (serviceBytes world.codec)
def world2 : World := { C90ex.world with read := [some out.flatten], tables := fun k => (ts[k]?).getD [] }
theorem reads2 : Reads world2 out := by
  refine ⟨fun r hr => ?_, ?_⟩
  · have : ∀ r ∈ world2.read, (r.getD []).length ≤ 16384 := by decide +kernel
    exact this _ hr
  · have : contents world2 = out.flatten := by decide +kernel
    rw [this]
    exact Mirakc.Pipeline.packets_flatten (by decide +kernel)
/-- The tables of the stream are these. -/
def T (t : Table) : Prop := t = C56ex.pat 0x10 ∨ t = C52ex.sdt 0x01 0x01 ∨ t = C56ex.nit 0x10 3
theorem steady : Steady T where
  pat t u p q ht hu hp hq := by
    rcases ht with rfl | rfl | rfl <;> rcases hu with rfl | rfl | rfl <;> first | cases hp; done | cases hq; done | exact Option.some.inj (hp.symm.trans hq)
  sdt t u p q ht hu hp hq := by
    rcases ht with rfl | rfl | rfl <;> rcases hu with rfl | rfl | rfl <;> first | cases hp; done | cases hq; done | exact Option.some.inj (hp.symm.trans hq)
  nit t u p q ht hu hp hq := by
    rcases ht with rfl | rfl | rfl <;> rcases hu with rfl | rfl | rfl <;> first | cases hp; done | cases hq; done | exact Option.some.inj (hp.symm.trans hq)
theorem tables_T : ∀ n, ∀ t ∈ world.tables n, T t := by
  intro n t ht
  change t ∈ tables n at ht
  unfold tables at ht
  split at ht
  · exact .inl (List.mem_singleton.1 ht)
  · exact .inr (.inl (List.mem_singleton.1 ht))
  · exact .inr (.inr (List.mem_singleton.1 ht))
  · cases ht

end C153ex

open C153ex in
/-- Non-trivial case for C153: scan-services lists two services for the stream, one behind filter-service. -/
example : Faithful world.codec ∧ Reads world ps ∧
    (∃ f, ServiceFilter.run { sid := 1 } (ServiceFilter.init { sid := 1 })
      (seen (arrived world.codec world.tables) 0 ps) = .ok (f, items)) ∧
    Again (seen (arrived world.codec world.tables) 0 ps) items ts ∧
    Reads world2 ((sent items).map (serviceBytes world.codec)) ∧
    (∀ k l, ts[k]? = some l → world2.tables k = l) ∧ Steady T ∧ (∀ n, ∀ t ∈ world.tables n, T t) ∧
    (∃ e, main world (.scanServices none none) = .ok e ∧
      decide (e.code = 0 ∧ e.docs.map (fun d => match d with | .services es => es.length | _ => 0) = [2]) = true) ∧
    ∃ e, main world2 (.scanServices none none) = .ok e ∧
      decide (e.code = 0 ∧ e.docs.map (fun d => match d with | .services es => es.length | _ => 0) = [1]) = true :=
  ⟨C68ex.faithful, reads, ran, again_sound (by decide +kernel), reads2, fun k l h => by simp [world2, h], steady, tables_T,
    C95ex.check (by decide +kernel), C95ex.check (by decide +kernel)⟩

end Mirakc.Props
