import Verif.Proof.Entered
import Verif.Proof.Joined
import Verif.Proof.Agree
/-
For C150: the program filter behind two service filters started at different times.
-/
namespace Mirakc.Entered
open Mirakc.ProgramFilter Mirakc.Spec Mirakc.Spec.Entered Mirakc.Spec.Pipeline
open Mirakc.Spec.EventsJson (Pairwise₂)
open Mirakc.Spec.ProgramFilter (ReachedNoWrap)
open Mirakc.Joined (Both)
open Mirakc.Main (bind_ok_iff)
open Mirakc.Pipeline (Codec)

/-- What comes after the end does not matter. -/
theorem run_extend {extra : Pmt → Nat} {o : Opt} : ∀ (is js : List Input) (s g : St) (items : List Item),
    run extra o s is = .ok (g, items) → (∃ pre it, items = pre ++ [it] ∧ it.more = false) →
    run extra o s (is ++ js) = .ok (g, items)
  | [], js, s, g, items, h, hm => by
    cases h
    obtain ⟨pre, it, e, _⟩ := hm
    simp at e
  | i :: is, js, s, g, items, h, hm => by
    obtain ⟨s1, log, outs, more, h1, h⟩ := run_cons h
    rcases h with ⟨rfl, rfl, rfl⟩ | ⟨rfl, rest, hr, rfl⟩
    · rw [List.cons_append, run, h1]
      rfl
    · have hm' : ∃ pre it, rest = pre ++ [it] ∧ it.more = false := by
        obtain ⟨pre, it, e, hf⟩ := hm
        cases pre with
        | nil =>
          simp only [List.nil_append, List.cons.injEq] at e
          rw [← e.1] at hf
          cases hf
        | cons x pre =>
          simp only [List.cons_append, List.cons.injEq] at e
          exact ⟨pre, it, e.2, hf⟩
      have := run_extend is js s1 g rest hr hm'
      rw [List.cons_append, run, h1]
      simp only [bind, Except.bind] at this ⊢
      rw [this]
      rfl

/-- What has been done after the first packets. -/
theorem run_take {extra : Pmt → Nat} {o : Opt} : ∀ (is js : List Input) (s g : St) (items : List Item),
    run extra o s (is ++ js) = .ok (g, items) → ∃ g0, run extra o s is = .ok (g0, items.take is.length)
  | [], js, s, g, items, h => ⟨s, rfl⟩
  | i :: is, js, s, g, items, h => by
    obtain ⟨s1, log, outs, more, h1, h⟩ := run_cons h
    rcases h with ⟨rfl, rfl, rfl⟩ | ⟨rfl, rest, hr, rfl⟩
    · refine ⟨g, ?_⟩
      rw [run, h1]
      simp
    · obtain ⟨g0, h0⟩ := run_take is js s1 g rest hr
      refine ⟨g0, ?_⟩
      rw [run, h1]
      simp only [bind, Except.bind] at h0 ⊢
      rw [h0]
      rfl

/-- What the two service filters pass on once both know the service. -/
theorem alike_of {c : Codec} (hc : Faithful c) (hpu : ∀ t n, (c.packet (c.patBytes t n)).pusi = true)
    {t2 t2' : Nat → ServiceFilter.Out → List Table} : ∀ (bs : List (List UInt8)) (as as' : List ServiceFilter.Item)
    (n n' : Nat), as.length = bs.length → as'.length = bs.length →
    (∀ (k : Nat) (b : List UInt8) (x y : ServiceFilter.Item), bs[k]? = some b → as[k]? = some x → as'[k]? = some y → Both c True b x.act y.act) →
    Pairwise₂ (fun i j => Alike i.packet j.packet) (seen (forwarded c t2) n (ServiceFilter.sent as))
      (seen (forwarded c t2') n' (ServiceFilter.sent as')) := by
  intro bs
  induction bs with
  | nil =>
    intro as as' n n' h h' _
    cases as with
    | nil => cases as' with
      | nil => exact .nil
      | cons y l => cases h'
    | cons x l => cases h
  | cons b bs rec =>
    intro as as' n n' h h' hb
    cases as with
    | nil => cases h
    | cons x as => cases as' with
      | nil => cases h'
      | cons y as' =>
        have ih := fun n n' => rec as as' n n' (by simpa using h) (by simpa using h')
          (fun k b x y h1 h2 h3 => hb (k + 1) b x y (by simpa using h1) (by simpa using h2) (by simpa using h3))
        have h0 := hb 0 b x y rfl rfl rfl
        have sx : ∀ (x : ServiceFilter.Item) l, ServiceFilter.sent (x :: l) =
            (match ServiceFilter.sentOf x with | some o => [o] | none => []) ++ ServiceFilter.sent l := by
          intro x l
          simp only [ServiceFilter.sent, List.filterMap_cons]
          split <;> simp_all
        rw [sx, sx]
        generalize ex : x.act = a at h0
        generalize ey : y.act = a' at h0
        cases h0 with
        | neither => simpa [ServiceFilter.sentOf, ex, ey] using ih n n'
        | both hp =>
          simp only [ServiceFilter.sentOf, ex, ey, List.cons_append, List.nil_append]
          exact .cons ⟨rfl, rfl, rfl, fun _ => rfl⟩ (ih _ _)
        | pats hp =>
          simp only [ServiceFilter.sentOf, ex, ey, List.cons_append, List.nil_append]
          refine .cons ⟨?_, ?_, ?_, fun h => absurd (hc.patPid _ _) h⟩ (ih _ _)
          · exact (hc.patPid _ _).trans (hc.patPid _ _).symm
          · exact (hpu _ _).trans (hpu _ _).symm
          · exact (hc.patPcr _ _).trans (hc.patPcr _ _).symm
        | early h => exact absurd trivial h
        | earlyPat h => exact absurd trivial h

theorem both_true {c : Codec} {K : Prop} (hK : K) {b : List UInt8} {x y : ServiceFilter.Act} (h : Both c K b x y) :
    Both c True b x y := by
  cases h with
  | neither => exact .neither
  | both h => exact .both h
  | pats h => exact .pats h
  | early h => exact absurd hK h
  | earlyPat h => exact absurd hK h

theorem known_mono {c : Codec} {tabs : Nat → List Table} {sid : Nat} {q : Prop} {l l' : List (List UInt8)}
    (h : l <+: l') (hk : Joined.Known c tabs sid q l) : Joined.Known c tabs sid q l' := by
  have mono : ∀ n t, Joined.Brings c tabs l n t → Joined.Brings c tabs l' n t := by
    rintro n t ⟨h1, b, h2, h3⟩
    obtain ⟨r, rfl⟩ := h
    exact ⟨h1, b, by rw [List.getElem?_append_left (List.getElem?_eq_some_iff.1 h2).1]; exact h2, h3⟩
  obtain ⟨⟨i, j, t, u, pat, pmt, h1, h2, h3, h4, h5⟩, hq⟩ := hk
  refine ⟨⟨i, j, t, u, pat, pmt, h1, mono _ _ h2, h3, mono _ _ h4, h5⟩, fun x => ?_⟩
  obtain ⟨k, t, cat, h1, h2⟩ := hq x
  exact ⟨k, t, cat, mono _ _ h1, h2⟩

/-- As bytes. -/
theorem bytes_alike {c : Codec} (hc : Faithful c) {G G' : Packet → Prop}
    (hg : ∀ p q, p.pid = 0 → q.pid = 0 → G p → G' q → ∃ t i j, p = c.packet (c.patBytes t i) ∧ q = c.packet (c.patBytes t j)) :
    ∀ {xs ys : List Out}, Pairwise₂ AlikeOut xs ys → (∀ p, .orig p ∈ xs → G p) → (∀ p, .orig p ∈ ys → G' p) →
    Pairwise₂ (SameOrPat c) (xs.map (eventBytes c)) (ys.map (eventBytes c)) := by
  intro xs ys h
  induction h with
  | nil => intros; exact .nil
  | @cons x y xs ys hxy _ ih =>
    intro hx hy
    refine .cons ?_ (ih (fun p hp => hx p (List.mem_cons_of_mem _ hp)) (fun p hp => hy p (List.mem_cons_of_mem _ hp)))
    cases x with
    | pmt a b d e =>
      have : y = .pmt a b d e := by cases y <;> exact hxy
      exact .inl (by rw [this])
    | orig p =>
      cases y with
      | pmt a b d e => cases hxy
      | orig q =>
        by_cases h0 : p.pid = 0
        · obtain ⟨t, i, j, rfl, rfl⟩ := hg p q h0 (hxy.1.trans h0) (hx p List.mem_cons_self) (hy q List.mem_cons_self)
          exact .inr ⟨t, i, j, hc.keep _ (hc.pat _ _), hc.keep _ (hc.pat _ _)⟩
        · exact .inl (by rw [hxy.2.2.2 h0])

/-- The packets passed on are packets received. -/
theorem from_input {extra : Pmt → Nat} {o : Opt} {is : List Input} {g : St} {items : List Item}
    (h : run extra o (init o) is = .ok (g, items)) (hp : ∀ i ∈ is, i.packet.pid = 0 → i.packet.pcr = none) :
    ∀ p, .orig p ∈ Spec.ProgramFilter.sent items → ∃ i ∈ is, i.packet = p := by
  intro p hm
  have := Agree.run_origs is (init o) g items h hp (fun _ => rfl)
  have hp' : p ∈ Agree.origs (Spec.ProgramFilter.sent items) := by
    simp only [Agree.origs, List.mem_filterMap]
    exact ⟨_, hm, rfl⟩
  have := this.subset hp'
  simpa [init] using this

theorem convert_mod {o : Opt} {t r : Int} (h : convertTimeToPcr (init o) t = .ok r) :
    r = (o.clockPcr + 27000 * (t - o.clockTime)) % (2 ^ 33 * 300) ∧ isValidPcr r = true := by
  simp only [convertTimeToPcr, init, bind_ok_iff] at h
  obtain ⟨_, _, _, _, _, _, a, h1, b, h2, _, h3, h4⟩ := h
  cases int64_eq h1
  cases int64_eq h2
  cases h4
  have := liftNegative_spec (o.clockPcr + (t - o.clockTime) * pcrTicksPerMs)
  rw [tmod_nonneg_eq _ _ this.1, upper_val, isValidPcr_iff]
  simp only [ticks_val] at this ⊢
  omega

theorem compare_neg {q r c : Int} (hq : 0 ≤ q ∧ q < 2 ^ 33 * 300) (hr : isValidPcr r = true)
    (hn : ¬ ReachedNoWrap q r) (h : comparePcr q r = .ok c) : c < 0 := by
  rw [isValidPcr_iff] at hr
  unfold ReachedNoWrap at hn
  simp only [comparePcr, bind_ok_iff, upper_val] at h
  obtain ⟨_, _, _, _, h⟩ := h
  split at h <;> (cases h; omega)

/-- As long as the PCRs are early the programme does not begin. -/
theorem early_waiting {extra : Pmt → Nat} {o : Opt} {P : Nat} {m : Pmt} {e : Event} {T : Table → Prop}
    (hS : Steady o P m e T) : ∀ (is : List Input) (s z : St) (items : List Item) (rs : List Table),
      (∀ i ∈ is, ∀ t ∈ i.tables, T t) → Inv o P m e s → Knows o P s rs → Idle s →
      (∀ i ∈ is, i.packet.pid = o.clockPid → ∀ q, i.packet.pcr = some q → Early o e q) →
      run extra o s is = .ok (z, items) → Waiting items ∧ items.length = is.length := by
  intro is
  induction is with
  | nil =>
    intro s z items rs _ _ _ _ _ h
    cases h
    exact ⟨fun _ h => (List.not_mem_nil h).elim, rfl⟩
  | cons i is ih =>
    intro s z items rs hT hi hk hd he h
    simp only [run, bind_ok_iff] at h
    obtain ⟨⟨s1, log, outs, more⟩, h1, h2⟩ := h
    obtain ⟨s0, f1, f2⟩ := step_eq extra o s i h1
    obtain ⟨i0, k0, kept, _⟩ := feed_step hS _ _ _ _ _ rs (hT i List.mem_cons_self) hi hk f1
    have hd0 : Idle s0 := ⟨by rw [kept.2.1, hd.streaming], by rw [kept.2.2.1, hd.cur], by rw [kept.2.2.2, hd.count]⟩
    have start : ∀ {s' : St} {r : Option (List Out × Bool)}, waitStart o s0 i.packet = .ok (s', r) →
        ∃ os, r = some (os, true) ∧ ∀ x ∈ os, ∃ q, x = .orig q ∧ q.pid = 0 := by
      intro s' r hst
      rcases waitStart_cases i0 hst with ⟨a, _, _, rfl⟩ | ⟨_, _, ⟨_, rfl⟩ | ⟨a, b, c, q, v, d, w1, w2⟩⟩
      · exact ⟨_, rfl, by simp [a]⟩
      · exact ⟨_, rfl, by simp⟩
      · obtain ⟨x1, x2, x3, x4⟩ := he i List.mem_cons_self (by rw [c, (i0.pmt a).1, hS.clock]) q d
        obtain ⟨_, _, y1, y2⟩ := i0.ev b
        obtain ⟨y1, v1⟩ := convert_mod y1
        obtain ⟨y2, v2⟩ := convert_mod y2
        have n2 := compare_neg ⟨x1, x2⟩ v2 (by
          rw [y2, upTo, show e.startTime + (e.duration * 1000 + o.endMargin) - o.clockTime =
            e.startTime + 1000 * e.duration + o.endMargin - o.clockTime by omega]
          exact x4) w1
        rcases w2 with ⟨w2, _⟩ | ⟨_, c2, w3, ⟨_, rfl⟩ | ⟨w4, _⟩⟩
        · omega
        · exact ⟨_, rfl, by simp⟩
        · have := compare_neg ⟨x1, x2⟩ v1 (by rw [y1]; exact x3) w3
          omega
    have hm : more = true ∧ ∀ x ∈ outs, ∃ q, x = .orig q ∧ q.pid = 0 := by
      have f3 := f2
      unfold packetPart at f3
      rw [hd0.streaming] at f3
      simp only [Bool.false_eq_true, if_false] at f3
      rcases waitReady_cases f3 with h | ⟨s1, s2, pmts, fuel, h, _⟩
      · obtain ⟨os, e1, e2⟩ := start h
        cases e1
        exact ⟨rfl, e2⟩
      · obtain ⟨os, e1, _⟩ := start h
        cases e1
    obtain ⟨mv, hd1, _⟩ := wait_idle i0 hd0 f2 hm.2
    rw [if_pos hm.1] at h2
    simp only [bind_ok_iff] at h2
    obtain ⟨⟨s2, its⟩, h3, h4⟩ := h2
    cases h4
    obtain ⟨r1, r2⟩ := ih s1 _ its _ (fun j hj => hT j (List.mem_cons_of_mem _ hj)) (mv.inv i0)
      (mv.knows k0) hd1 (fun j hj => he j (List.mem_cons_of_mem _ hj)) h3
    refine ⟨fun it hit => ?_, by simp [r2]⟩
    rcases List.mem_cons.1 hit with rfl | hit
    · exact hm
    · exact r1 it hit

end Mirakc.Entered
