import Verif.Proof.Retimed
import Verif.Props.Margins
/-
Properties: the clock given to filter-program.
-/
namespace Mirakc.Props
open Mirakc.Main Mirakc.Spec Mirakc.Spec.Main Mirakc.Spec.Pipeline Mirakc.Spec.Margins Mirakc.Spec.Retimed

private theorem jst_val (t : Int) : unixToJst t = t + 32400000 := by
  unfold unixToJst
  have : jstTzOffset = 32400000 := by decide
  omega

private theorem near {x : Int} (h : Recent x) : Mirakc.Retimed.Near x ∧ Mirakc.Retimed.Near (x + 32400000) := by
  unfold Recent at h
  unfold Mirakc.Retimed.Near
  omega

private theorem load_retimed {a : Options.ProgramArgs} {p t : Int} (ht : Recent t) {A : ProgramFilter.Opt}
    (hA : Options.loadProgramFilter a = .ok A) :
    A.clockPcr = a.clockPcr ∧ A.clockTime = a.clockTime + 32400000 ∧
      Options.loadProgramFilter { a with clockPcr := p, clockTime := t } = .ok (Mirakc.Retimed.retime p (t + 32400000) A) := by
  obtain ⟨c, h1, hA⟩ := bind_ok_iff.1 hA
  obtain ⟨x, h2, hA⟩ := bind_ok_iff.1 hA
  obtain ⟨y, h3, hA⟩ := bind_ok_iff.1 hA
  obtain ⟨z, h4, hA⟩ := bind_ok_iff.1 hA
  have hc : c = a.clockTime + 32400000 := by
    unfold Options.toJst at h1
    split at h1
    · cases h1; exact jst_val _
    · cases h1
  have ht' : Options.toJst t = .ok (t + 32400000) := by
    unfold Recent at ht
    unfold Options.toJst
    rw [jst_val, if_pos]
    simp only [Bool.and_eq_true, decide_eq_true_eq]
    omega
  cases hA
  refine ⟨rfl, hc, ?_⟩
  refine bind_ok_iff.2 ⟨_, ht', bind_ok_iff.2 ⟨_, h2, bind_ok_iff.2 ⟨_, h3, bind_ok_iff.2 ⟨_, h4, rfl⟩⟩⟩⟩

private theorem retimed (w : World) (ps : List (List UInt8)) (hr : Reads w ps)
    (a : Options.ProgramArgs) (hs : 0 ≤ a.sid ∧ a.sid < 65536)
    (he : 0 ≤ a.eid ∧ a.eid < 65536) (hp : 0 ≤ a.clockPid ∧ a.clockPid < 65536)
    (p t : Int) (hv : PcrValue a.clockPcr) (hv' : PcrValue p) (hsame : SameClock a.clockPcr a.clockTime p t)
    (ht : Recent a.clockTime) (ht' : Recent t)
    (hev : ∀ o, Means a o → ∀ ev, Described o (TableOf w) ev →
      Recent (startWith o.startMargin ev) ∧ Recent (endWith o.endMargin ev)) (e : Ended)
    (h : main w (.filterProgram a) = .ok e) : main w (.filterProgram { a with clockPcr := p, clockTime := t }) = .ok e := by
  obtain ⟨A, hA, h⟩ := bind_ok_iff.1 h
  rw [mapError_ok_iff] at hA
  obtain ⟨k1, k2, k3⟩ := load_retimed (p := p) ht' hA
  refine bind_ok_iff.2 ⟨_, mapError_ok_iff.2 k3, ?_⟩
  refine Mirakc.Retimed.filterProgram_same hr A p (t + 32400000) (by rw [k1]; exact hv) hv' ?_ (by rw [k2]; exact (near ht).2)
    (near ht').2 (fun ev hd => ?_) h
  · obtain ⟨k, hk⟩ := hsame
    refine ⟨k, ?_⟩
    rw [k1, k2, hk]
    omega
  · have := hev A (load_means hs he hp hA) ev hd
    exact ⟨(near this.1).1, (near this.2).1⟩

/-- **C144**.  It does not matter when the clock given to filter-program was taken: with another pair of a PCR and a time that
says the same about the clock, the command ends with the same exit code and has written the same.  All times are to be
within 3000 years of 1970, so that no number is too large. -/
theorem C144_clock (w : World) (ps : List (List UInt8)) (hr : Reads w ps)
    (a : Options.ProgramArgs) (hs : 0 ≤ a.sid ∧ a.sid < 65536)
    (he : 0 ≤ a.eid ∧ a.eid < 65536) (hp : 0 ≤ a.clockPid ∧ a.clockPid < 65536)
    (p t : Int) (hv : PcrValue a.clockPcr) (hv' : PcrValue p) (hsame : SameClock a.clockPcr a.clockTime p t)
    (ht : Recent a.clockTime) (ht' : Recent t)
    (hev : ∀ o, Means a o → ∀ ev, Described o (TableOf w) ev →
      Recent (startWith o.startMargin ev) ∧ Recent (endWith o.endMargin ev)) (e : Ended) :
    main w (.filterProgram a) = .ok e ↔ main w (.filterProgram { a with clockPcr := p, clockTime := t }) = .ok e := by
  refine ⟨retimed w ps hr a hs he hp p t hv hv' hsame ht ht' hev e, fun h => ?_⟩
  refine retimed w ps hr { a with clockPcr := p, clockTime := t } hs he hp a.clockPcr a.clockTime hv' hv ?_ ht' ht ?_ e h
  · obtain ⟨k, hk⟩ := hsame
    refine ⟨-k, ?_⟩
    show a.clockPcr = p + (a.clockTime - t) * 27000 + -k * (2 ^ 33 * 300)
    omega
  · intro o ho ev hd
    have hm : Means a { o with clockPcr := a.clockPcr, clockTime := a.clockTime + 32400000 } :=
      ⟨ho.1, ho.2, ho.3, rfl, rfl, ho.6, ho.7, ho.8, ho.9, ho.10, ho.11⟩
    exact hev _ hm ev hd

/-- A clock taken a day later, after the PCR started over. -/
example : Reads C142ex.world C142ex.ps ∧ PcrValue C95ex.args.clockPcr ∧
    SameClock C95ex.args.clockPcr C95ex.args.clockTime (1000 + 100000000 * 27000 - 2 ^ 33 * 300) (C95ex.args.clockTime + 100000000) ∧
    PcrValue (1000 + 100000000 * 27000 - 2 ^ 33 * 300) ∧ Recent C95ex.args.clockTime ∧ Recent (C95ex.args.clockTime + 100000000) ∧
    (∀ o, Means C95ex.args o → ∀ ev, Described o (TableOf C142ex.world) ev →
      Recent (startWith o.startMargin ev) ∧ Recent (endWith o.endMargin ev)) ∧
    ∃ e, main C142ex.world (.filterProgram C95ex.args) = .ok e ∧ decide (e.bytes.length = 188 * 5) = true := by
  refine ⟨C142ex.reads, ⟨by decide, by decide⟩, ⟨-1, by decide⟩, ⟨by decide, by decide⟩, ⟨by decide, by decide⟩, ⟨by decide, by decide⟩, ?_, C95ex.check (by decide +kernel)⟩
  intro o ho ev hd
  obtain ⟨d1, d2⟩ := C142ex.described hd
  have h1 : o.startMargin = 0 := ho.startMargin
  have h2 : o.endMargin = 0 := ho.endMargin
  unfold startWith endWith Recent
  omega

end Mirakc.Props
