import Verif.Proof.BehindSync
import Verif.Props.BehindScan
/-
Property C156: sync-clocks behind filter-service.
-/
namespace Mirakc.Props
open Mirakc.Main Mirakc.Spec Mirakc.Spec.Main Mirakc.Spec.Pipeline
open Mirakc.Spec.ServiceFilter (sent Restricted Again)

private theorem find_single {m : OMap Nat} {sid pid k v : Nat} (h : m.entries = [(sid, pid)]) (hf : m.find? k = some v) :
    k = sid ∧ v = pid := by
  unfold OMap.find? at hf
  rw [h, List.lookup_cons] at hf
  split at hf
  · next e => cases hf; exact ⟨by simpa using e, rfl⟩
  · cases hf

private theorem usable_body {t : Table} {p : Pat} (h : Spec.ServiceFilter.usablePat t = some p) : t.body = .pat p := by
  unfold Spec.ServiceFilter.usablePat at h
  split at h
  · next e =>
    split at h
    · cases h; exact e
    · cases h
  · cases h

/-- **C156.**  Behind filter-service sync-clocks prints no clock but that of the service that filter-service selects.  Its PID is that
of a PMT of the service in the stream, on the PID given by a PAT of the stream; its PCR is one of the stream; its time is that of a TOT of the
stream. -/
theorem C156_sync_clocks (w w2 : World) (hc : Faithful w.codec) (ps : List (List UInt8)) (hr : Reads w ps) (sid : Nat)
    (f : ServiceFilter.St) (items : List ServiceFilter.Item)
    (hrun : ServiceFilter.run { sid := sid } (ServiceFilter.init { sid := sid })
      (seen (arrived w.codec w.tables) 0 ps) = .ok (f, items))
    (ts : List (List Table)) (ha : Again (seen (arrived w.codec w.tables) 0 ps) items ts)
    (hcod : w2.codec = w.codec) (hr2 : Reads w2 ((sent items).map (serviceBytes w.codec)))
    (ht : ∀ k l, ts[k]? = some l → w2.tables k = l)
    (sids xsids : Option (List (List Char))) (hx : Numbers sids) (hy : Numbers xsids) (e : Ended)
    (h : main w2 (.syncClocks sids xsids) = .ok e) :
    e.docs = [] ∨ e.docs = [.clocks []] ∨ ∃ x, e.docs = [.clocks [x]] ∧ x.sid = sid ∧ Asked sids xsids sid ∧
      (∃ n, ∃ t ∈ w.tables n, t.valid = true ∧ ∃ m, t.body = .pmt m ∧ m.serviceId = sid ∧ m.pcrPid = x.pid ∧
        ∃ k, ∃ u ∈ w.tables k, ∃ pat, u.body = .pat pat ∧ (sid, t.sourcePid) ∈ pat.pmts.entries) ∧
      (x.pid ≠ 0 → ∃ b ∈ ps, (w.codec.packet b).pid = x.pid ∧ (w.codec.packet b).pcr = some x.pcr) ∧
      ∃ n, ∃ t ∈ w.tables n, t.valid = true ∧ t.body = .tot (x.time + 9 * 3600000) := by
  obtain ⟨hl, hn⟩ := again_length ha
  have comes := Mirakc.BehindScan.comes_out (fields := fun x => w.codec.packet (serviceBytes w.codec x))
    (fun t n => hc.patPid t n) (fun i hi => by
      obtain ⟨k, b, hb, rfl⟩ := Mirakc.Pipeline.mem_seen hi
      show w.codec.packet (w.codec.bytes (w.codec.packet b)) = w.codec.packet b
      rw [hc.keep b (Mirakc.Pipeline.packets_188 hr.2 b hb)]) hrun ha hn
  simp only [main, syncClocks, bind_ok_iff] at h
  obtain ⟨a, h1, b, h2, ⟨code, n, y⟩, h3, h4⟩ := h
  obtain rfl := Except.ok.inj h4
  have hran : Spec.PcrSynchronizer.Synced _ (seen (arrived w2.codec w2.tables) 0 _) code y := ran_of_feed hr2 h3
  rw [hcod, seen_reread w.codec w2.tables (sent items) ts 0 hl
    (fun k l h => by rw [Nat.zero_add]; exact ht k l h)] at hran
  -- Tables of the stream, but for the PAT.
  have tabs : ∀ t, .tab t ∈ Spec.PcrSynchronizer.log y.items →
      (t.sourcePid ≠ 0 ∧ ∃ n, t ∈ w.tables n) ∨ (t.sourcePid = 0 ∧ ∃ p q, t.body = .pat q ∧ Restricted sid p q ∧
        ∃ k, ∃ u ∈ w.tables k, u.body = .pat p) := by
    intro t htl
    obtain ⟨j, hj, hjt⟩ := Mirakc.BehindSync.of_log hran htl
    rcases hjt with hjt | ⟨t', hjt, ht1, ht2⟩
    · cases hjt
    cases hjt
    rcases comes j hj with ⟨c1, c2⟩ | ⟨c1, c2⟩
    · obtain ⟨k, b, _, rfl⟩ := Mirakc.Pipeline.mem_seen c1
      exact .inl ⟨by rw [ht2]; exact c2, k, ht1⟩
    · obtain ⟨_, q, p, v, c3, c4, c5, c6⟩ := c2 t ht1 (ht2.trans c1)
      refine .inr ⟨ht2.trans c1, p, q, c3, c6, ?_⟩
      have ofw : ∀ i ∈ seen (arrived w.codec w.tables) 0 ps, ∀ t ∈ i.tables, ∃ n, t ∈ w.tables n := by
        intro i hi t htt
        obtain ⟨k, b, _, rfl⟩ := Mirakc.Pipeline.mem_seen hi
        exact ⟨k, htt⟩
      obtain ⟨k, hk⟩ := Mirakc.Joined.received_of ofw hrun v c4
      exact ⟨k, v, hk, usable_body c5⟩
  cases hout : y.st.out with
  | none => left; simp
  | some es =>
  right
  obtain ⟨q1, q2⟩ := C52_clocks_partial _ _ _ _ _ hran hout
  have q3 := C53_time_partial _ _ _ _ _ hran hout
  have one : ∀ pid k, Spec.PcrSynchronizer.Listed { sids := a, xsids := b } (Spec.PcrSynchronizer.log y.items) k pid →
      k = sid ∧ ∃ p, (sid, pid) ∈ p.pmts.entries ∧ ∃ k, ∃ u ∈ w.tables k, u.body = .pat p := by
    intro pid k ⟨_, pat, g1, g2⟩
    obtain ⟨ev, g3, g4⟩ := Mirakc.BehindSync.latestPat_mem g1
    obtain ⟨t, rfl, g5, g6, g7⟩ := Mirakc.BehindSync.patOf_eq g4
    rcases tabs t g3 with ⟨c, _⟩ | ⟨_, p, q, c1, ⟨_, _, _, pid', c2, c3⟩, c4⟩
    · exact absurd g5 c
    · rw [g7] at c1; cases c1
      obtain ⟨rfl, rfl⟩ := find_single c3 g2
      exact ⟨rfl, p, c2, c4⟩
  have all : ∀ x ∈ es, x.sid = sid := fun x hx => by
    obtain ⟨⟨pid, g⟩, _⟩ := q2 x hx
    exact (one pid _ g).1
  match es, q1, all, q2, q3 with
  | [], _, _, _, _ => left; simp
  | x :: x' :: es, q1, all, _, _ =>
    have := (List.pairwise_cons.1 q1).1 x' List.mem_cons_self
    rw [all x List.mem_cons_self, all x' (by simp)] at this
    exact absurd this (Nat.lt_irrefl _)
  | [x], _, all, q2, q3 =>
    right
    obtain ⟨⟨pid, g⟩, g2, g3, _⟩ := q2 x List.mem_cons_self
    have hsid := all x List.mem_cons_self
    refine ⟨x, by simp, hsid, ?_, ?_, ?_, ?_⟩
    · rw [← hsid]; exact (asked_iff hx hy h1 h2 _).1 g.1
    · obtain ⟨t, k1, k2, m, k3, k4, k5, k6⟩ := Mirakc.BehindSync.clockPid_mem g2
      obtain ⟨_, p, p1, k, u, p2, p3⟩ := one _ _ k6
      rcases tabs t k1 with ⟨_, n, c⟩ | ⟨_, p, q, c1, _⟩
      · exact ⟨n, t, c, k2, m, k3, k4.trans hsid, k5, k, u, p2, p, p3, p1⟩
      · rw [k3] at c1; cases c1
    · intro hp
      obtain ⟨l1, p, l2, hl', _, hp1, hp2, _⟩ := g3
      obtain ⟨j, hj, hjt⟩ := Mirakc.BehindSync.of_log (ev := .pkt p) hran (by rw [hl']; simp)
      rcases hjt with hjt | ⟨_, hjt, _⟩
      · cases hjt
        rcases comes j hj with ⟨c1, c2⟩ | ⟨c1, c2⟩
        · obtain ⟨k, b, hb, rfl⟩ := Mirakc.Pipeline.mem_seen c1
          exact ⟨b, hb, hp1, hp2⟩
        · exact absurd (hp1.symm.trans c1) hp
      · cases hjt
    · obtain ⟨t, k1, k2, k3⟩ := Mirakc.BehindSync.latestTot_mem g3
      have := (q3 x List.mem_cons_self).1
      rcases tabs t k1 with ⟨_, n, c⟩ | ⟨_, p, q, c1, _⟩
      · exact ⟨n, t, c, k2, by rw [k3, this]; congr 1; omega⟩
      · rw [k3] at c1; cases c1

namespace C156ex
open C68ex (raw clk)

/-- A stream with two services. -/
def ps : List (List UInt8) :=
  [raw 0 0 1, raw 0x11 0 2, raw 0x100 0 4, raw 0x200 0 4, raw 0x14 0 5, clk 0x2ff 900000, clk 0x1ff 900100]
/-- The tables completed by its packets. -/
def tables : Nat → List Table
  | 0 => [C56ex.pat 0x10]
  | 1 => [C52ex.sdt 0x01 0x01]
  | 2 => [C52ex.pmt 0x100 1 0x1ff]
  | 3 => [C52ex.pmt 0x200 2 0x2ff]
  | 4 => [C52ex.tot 32400000]
  | _ => []
def world : World := { C90ex.world with tables := tables, read := [some ps.flatten] }
theorem reads : Reads world ps := by
  refine ⟨fun r hr => ?_, ?_⟩
  · have : ∀ r ∈ world.read, (r.getD []).length ≤ 16384 := by decide +kernel
    exact this _ hr
  · have : contents world = ps.flatten := by decide +kernel
    rw [this]
    exact Mirakc.Pipeline.packets_flatten (by decide +kernel)
/-- The history of filter-service for the service 1. -/
def result := ServiceFilter.run { sid := 1 } (ServiceFilter.init { sid := 1 })
  (seen (arrived world.codec world.tables) 0 ps)
def items : List ServiceFilter.Item := match result with | .ok x => x.2 | .error _ => []
theorem ran : ∃ f, ServiceFilter.run { sid := 1 } (ServiceFilter.init { sid := 1 })
    (seen (arrived world.codec world.tables) 0 ps) = .ok (f, items) := by
  have key : result.isOk = true := by decide +kernel
  cases h : result with
  | error x => rw [h] at key; cases key
  | ok x =>
    refine ⟨x.1, ?_⟩
    have : items = x.2 := by simp only [items, h]
    rw [this]
    exact h
/-- The tables completed by its output. -/
def ts : List (List Table) :=
  [[{ sourcePid := 0, body := .pat { tsId := 7, nitPid := 0x10, pmts := ⟨[(1, 0x100)], by simp⟩ } }], [C52ex.sdt 0x01 0x01],
    [C52ex.pmt 0x100 1 0x1ff], [C52ex.tot 32400000], []]
def out : List (List UInt8) := (sent items).map (serviceBytes world.codec)
def world2 : World := { C90ex.world with read := [some out.flatten], tables := fun k => (ts[k]?).getD [] }
theorem reads2 : Reads world2 out := by
  refine ⟨fun r hr => ?_, ?_⟩
  · have : ∀ r ∈ world2.read, (r.getD []).length ≤ 16384 := by decide +kernel
    exact this _ hr
  · have : contents world2 = out.flatten := by decide +kernel
    rw [this]
    exact Mirakc.Pipeline.packets_flatten (by decide +kernel)

end C156ex

open C156ex in
/-- Non-trivial case for C156: two clocks for the stream, one behind filter-service. -/
example : Faithful world.codec ∧ Reads world ps ∧
    (∃ f, ServiceFilter.run { sid := 1 } (ServiceFilter.init { sid := 1 })
      (seen (arrived world.codec world.tables) 0 ps) = .ok (f, items)) ∧
    Again (seen (arrived world.codec world.tables) 0 ps) items ts ∧
    Reads world2 ((sent items).map (serviceBytes world.codec)) ∧
    (∀ k l, ts[k]? = some l → world2.tables k = l) ∧ Numbers none ∧
    (∃ e, main world (.syncClocks none none) = .ok e ∧
      decide (e.code = 0 ∧ e.docs.map (fun d => match d with | .clocks es => es.map (·.sid) | _ => []) = [[1, 2]]) = true) ∧
    ∃ e, main world2 (.syncClocks none none) = .ok e ∧
      decide (e.code = 0 ∧ e.docs.map (fun d => match d with | .clocks es => es.map (·.sid) | _ => []) = [[1]]) = true :=
  ⟨C68ex.faithful, reads, ran, again_sound (by decide +kernel), reads2, fun k l h => by simp [world2, h], C90ex.numbers_none,
    C95ex.check (by decide +kernel), C95ex.check (by decide +kernel)⟩

end Mirakc.Props
