import Verif.Spec.PesAborts
import Verif.Proof.PesPrinter
import Verif.Proof.StopsAt
/-
print-pes terminates abnormally exactly at a packet that cannot be printed.
-/
namespace Mirakc.PesPrinter
open Mirakc.Spec Mirakc.Spec.PesPrinter

theorem valid_stamp {x : Int} : isValidPcr (300 * x) = true ↔ 0 ≤ x ∧ x < 2 ^ 33 := by
  rw [isValidPcr_iff, show (2 : Int) ^ 33 = 8589934592 from by decide]
  omega

theorem valid_pcr {x : Int} : isValidPcr x = true ↔ 0 ≤ x ∧ x < 2 ^ 33 * 300 := by
  rw [isValidPcr_iff, Clock.two_pow]

theorem handleStamp_valid {s s' : St} {pid : Nat} {v : Option Int} {m : Msg} (h : handleStamp s pid v m = .ok s') :
    ∀ x ∈ v, 0 ≤ x ∧ x < 2 ^ 33 := by
  intro x hx
  rw [Option.mem_def] at hx
  subst hx
  unfold handleStamp at h
  simp only at h
  obtain ⟨_, h1, _⟩ := bind_eq_ok h
  have := assert_ok h1
  rw [Int.mul_comm] at this
  exact valid_stamp.1 this

theorem handlePcr_valid {s s' : St} {p : Packet} {l : List PEv} (hi : Inv s l) (hc : HasClock p.pid l)
    (h : handlePcr s p = .ok s') : PcrInRange p := by
  intro v hv
  rw [Option.mem_def] at hv
  unfold handlePcr at h
  obtain ⟨c, hc⟩ := hi.some_clock _ hc
  simp only [hv, hc] at h
  obtain ⟨_, _, h2⟩ := bind_eq_ok h
  exact valid_pcr.1 (printPcr_valid h2)

theorem handlePcr_fine {s : St} {p : Packet} {l : List PEv} (hi : Inv s l) (hs : Sane s)
    (h : HasClock p.pid l → PcrInRange p) : ∃ s', handlePcr s p = .ok s' ∧ Sane s' := by
  by_cases hc : HasClock p.pid l
  · exact handlePcr_total hs fun v hv => valid_pcr.2 (h hc v hv)
  · have hn : s.clockMap.find? p.pid = none := none_of_not fun c k => hc ((hi.clocks _ _).1 k).1
    refine ⟨s, ?_, hs⟩
    unfold handlePcr
    cases p.pcr with
    | none => rfl
    | some v => simp only [hn]

/-- Printable packets are printed. -/
theorem step_fine {s : St} {l : List PEv} {i : Input} (hi : Inv s l) (hs : Sane s) (h : ¬ Unprintable l i.packet) :
    ∃ s' d more, step s i = .ok (s', d, more) ∧ Sane s' := by
  have h1 : HasClock i.packet.pid l → PcrInRange i.packet := fun hc =>
    Classical.byContradiction fun hn => h (.inl ⟨hc, hn⟩)
  have h2 : Stamps33 i.packet := Classical.byContradiction fun hn => h (.inr hn)
  obtain ⟨s1, e1, k1⟩ := handlePcr_fine hi hs h1
  obtain ⟨s2, e2, k2⟩ := handleStamp_total (pid := i.packet.pid) (m := .pts i.packet.pid) (v := i.packet.pts) k1
    (fun x hx => valid_stamp.2 (h2.1 x hx))
  obtain ⟨s3, e3, k3⟩ := handleStamp_total (pid := i.packet.pid) (m := .dts i.packet.pid) (v := i.packet.dts) k2
    (fun x hx => valid_stamp.2 (h2.2 x hx))
  obtain ⟨⟨s4, log⟩, e4, k4⟩ := feedDemux_total (watched := St.demux) (handle := handleTable) (pid := i.packet.pid)
    Sane (fun _ => True) (fun s t hs _ _ _ => handleTable_total hs t) i.tables s3 (fun _ _ => trivial) k3
  refine ⟨s4, ⟨log, s4.out.drop s.out.length⟩, if s4.done then false else true, ?_, k4⟩
  unfold step
  simp only [e1, e2, e3, e4, ok_bind]

/-- Packets that are printed are printable. -/
theorem step_printable {s s' : St} {l : List PEv} {i : Input} {d : Did} {more : Bool} (hi : Inv s l)
    (h : step s i = .ok (s', d, more)) : ¬ Unprintable l i.packet := by
  unfold step at h
  obtain ⟨s1, h1, h⟩ := bind_eq_ok h
  obtain ⟨s2, h2, h⟩ := bind_eq_ok h
  obtain ⟨s3, h3, h⟩ := bind_eq_ok h
  rintro (⟨hc, hn⟩ | hn)
  · exact hn (handlePcr_valid hi hc h1)
  · exact hn ⟨handleStamp_valid h2, handleStamp_valid h3⟩

theorem reach_sane {items : List (Line Input Did)} {s : St} (h : Reach step {} items s) : Sane s := by
  induction h with
  | nil =>
    intro pid c hf
    simp [OMap.find?_empty] at hf
  | @snoc items s i s' a more h1 h2 h3 ih =>
    obtain ⟨s2, d, m, k1, k2⟩ := step_fine (reach_inv h1) ih (step_printable (reach_inv h1) h3)
    rw [h3] at k1
    cases k1
    exact k2

theorem aborts {is : List Input} : Aborts sink { st := {} } is ↔
    StopsAt sink {} (fun items i => Unprintable (log items) i.packet) is := by
  refine aborts_iff _ (fun s => ⟨s, rfl⟩) (fun items s h1 _ i => ?_) is
  by_cases hu : Unprintable (log items) i.packet
  · refine iff_of_true ?_ hu
    cases hs : step s i with
    | error f => exact ⟨f, rfl⟩
    | ok r => exact absurd hu (step_printable (reach_inv h1) hs)
  · refine iff_of_false ?_ hu
    rintro ⟨f, hf⟩
    obtain ⟨_, _, _, k, _⟩ := step_fine (reach_inv h1) (reach_sane h1) hu
    rw [hf] at k
    cases k

end Mirakc.PesPrinter
