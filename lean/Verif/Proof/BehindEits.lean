import Verif.Spec.BehindEits
import Verif.Proof.Joined
import Verif.Proof.History
import Verif.Proof.EitCollector
import Verif.Proof.EitpfCollector
/-
For C154: collect-eits and collect-eitpf behind filter-service.
-/
namespace Mirakc.BehindEits
open Mirakc.Spec Mirakc.Spec.ServiceFilter Mirakc.Spec.BehindEits

section
variable {ι σ α : Type} {step : σ → ι → Except Fault (σ × List α × Bool)}

/-- The lines of a run, from the front. -/
inductive Runs (step : σ → ι → Except Fault (σ × List α × Bool)) : σ → List ι → List (Line ι (List α)) → Prop
  | nil {s} : Runs step s [] []
  | stop {s i is s' a} : step s i = .ok (s', a, false) → Runs step s (i :: is) [⟨i, a, false⟩]
  | go {s i is s' a items} : step s i = .ok (s', a, true) → Runs step s' is items →
      Runs step s (i :: is) (⟨i, a, true⟩ :: items)

theorem Runs.consumes {finish : σ → Except Fault σ} {exitCode : σ → Nat} {ps cs : List ι} {h h' : History ι σ (List α)}
    (hc : Consumes (historySink step finish exitCode) h ps cs h') :
    ∃ items, h'.items = h.items ++ items ∧ Runs step h.st ps items := by
  induction hc with
  | eof => exact ⟨[], by simp, .nil⟩
  | @refuse h h' p ps he =>
    simp only [historySink] at he
    obtain ⟨⟨s, a, more⟩, h1, h2⟩ := bind_eq_ok he
    cases h2
    exact ⟨_, rfl, .stop h1⟩
  | @accept h h1 h' p ps cs he _ ih =>
    simp only [historySink] at he
    obtain ⟨⟨s, a, more⟩, h1, h2⟩ := bind_eq_ok he
    cases h2
    obtain ⟨items, k1, k2⟩ := ih
    exact ⟨⟨p, a, true⟩ :: items, by rw [k1]; simp, .go h1 k2⟩

theorem Runs.ran {finish : σ → Except Fault σ} {exitCode : σ → Nat} {s0 : σ} {is : List ι} {code : Nat}
    {h : History ι σ (List α)} (hr : Ran (historySink step finish exitCode) { st := s0 } is code h) :
    Runs step s0 is h.items := by
  obtain ⟨τ, src, t, fuel, hy, hf, hr⟩ := hr
  unfold feedPackets at hr
  obtain ⟨⟨ok, h1⟩, e1, hr⟩ := bind_eq_ok hr
  simp only [historySink] at e1
  cases e1
  simp only [if_true] at hr
  obtain ⟨⟨t', h2⟩, e2, hr⟩ := bind_eq_ok hr
  obtain ⟨h3, e3, hr⟩ := bind_eq_ok hr
  simp only [Except.ok.injEq, Prod.mk.injEq] at hr
  obtain ⟨rfl, rfl⟩ := hr
  obtain ⟨cs, hc⟩ := feedLoop_consumes src _ hy fuel _ _ _ hf e2
  obtain ⟨items, k1, k2⟩ := Runs.consumes hc
  simp only [historySink] at e3
  obtain ⟨s, e4, e5⟩ := bind_eq_ok e3
  cases e5
  simp only [List.nil_append] at k1
  show Runs step s0 is h2.items
  rw [k1]
  exact k2

/-- The same packets, but for packets that bring nothing. -/
inductive Thin (Q : ι → Prop) : List ι → List ι → Prop
  | nil : Thin Q [] []
  | skip {i is js} : Q i → Thin Q is js → Thin Q (i :: is) js
  | add {is j js} : Q j → Thin Q is js → Thin Q is (j :: js)
  | keep {i is js} : Thin Q is js → Thin Q (i :: is) (i :: js)

theorem thin_runs {Q : ι → Prop} {G : σ → Prop} (hq : ∀ s i, G s → Q i → step s i = .ok (s, [], true))
    (hg : ∀ s i s' a, step s i = .ok (s', a, true) → G s') {is js : List ι} (ht : Thin Q is js) :
    ∀ (s : σ) (l m : List (Line ι (List α))), G s → Runs step s is l → Runs step s js m →
      l.flatMap (·.did) = m.flatMap (·.did) := by
  induction ht with
  | nil => intro s l m _ h1 h2; cases h1; cases h2; rfl
  | skip q _ ih =>
    intro s l m g h1 h2
    have k := hq _ _ g q
    cases h1 with
    | stop h => rw [k] at h; cases h
    | go h h1 =>
      rw [k] at h; cases h
      simpa using ih _ _ _ g h1 h2
  | add q _ ih =>
    intro s l m g h1 h2
    have k := hq _ _ g q
    cases h2 with
    | stop h => rw [k] at h; cases h
    | go h h2 =>
      rw [k] at h; cases h
      simpa using ih _ _ _ g h1 h2
  | keep _ ih =>
    intro s l m g h1 h2
    cases h1 with
    | stop h =>
      cases h2 with
      | stop h' => rw [h] at h'; cases h'; rfl
      | go h' => rw [h] at h'; cases h'
    | go h h1 =>
      cases h2 with
      | stop h' => rw [h] at h'; cases h'
      | go h' h2 =>
        rw [h] at h'; cases h'
        simp only [List.flatMap_cons, ih _ _ _ (hg _ _ _ _ h) h1 h2]

end

/-- The packet brings no EIT and no time. -/
def Quiet (i : SectionInput) : Prop := ∀ e ∈ i.events, e.pid = i.packet.pid → e.pid ≠ 0x12 ∧ e.pid ≠ 0x14

theorem quiet_pid {i : SectionInput} (h1 : i.packet.pid ≠ 0x12) (h2 : i.packet.pid ≠ 0x14) : Quiet i :=
  fun e _ he => by rw [he]; exact ⟨h1, h2⟩

theorem quiet_nil {i : SectionInput} {w : PidSet} (hw : ∀ p, w.contains p = true → p = 0x12 ∨ p = 0x14) (h : Quiet i) :
    handedOver w i = [] := by
  unfold handedOver
  rw [List.filter_eq_nil_iff]
  intro e he hc
  rw [Bool.and_eq_true, beq_iff_eq] at hc
  obtain ⟨a, b⟩ := h e he hc.1
  rcases hw _ hc.2 with c | c
  · exact a (hc.1.trans c)
  · exact b (hc.1.trans c)

theorem eitpf_quiet {o : EitpfCollector.Opt} {s : EitpfCollector.St} {i : SectionInput}
    (hg : EitpfCollector.done o s = .ok false) (hq : Quiet i) : EitpfCollector.step o s i = .ok (s, [], true) := by
  have : handedOver EitpfCollector.watched i = [] :=
    quiet_nil (fun p hp => .inl (by simpa [EitpfCollector.watched, pidEit] using hp)) hq
  simp only [EitpfCollector.step, this, EitpfCollector.handleEvents, ok_bind, hg]
  rfl

theorem eitpf_good {o : EitpfCollector.Opt} {s s' : EitpfCollector.St} {i : SectionInput} {a : List EitCollector.DemuxCall}
    (h : EitpfCollector.step o s i = .ok (s', a, true)) : EitpfCollector.done o s' = .ok false := by
  unfold EitpfCollector.step at h
  obtain ⟨⟨s1, cs⟩, _, h⟩ := bind_eq_ok h
  obtain ⟨d, h1, h⟩ := bind_eq_ok h
  cases d with
  | true => cases h
  | false => cases h; exact h1

/-- The collector goes on. -/
def GoesOn (o : EitCollector.Opt) (s : EitCollector.St) : Prop :=
  EitCollector.isCompleted o s = false ∧ EitCollector.checkTimeout o s = false

theorem eits_quiet {o : EitCollector.Opt} {s : EitCollector.St} {i : SectionInput}
    (hg : GoesOn o s) (hq : Quiet i) : EitCollector.step o s i = .ok (s, [], true) := by
  have : handedOver EitCollector.watched i = [] :=
    quiet_nil (fun p hp => by
      have := List.contains_iff_mem.1 hp
      simp only [EitCollector.watched, pidEit, pidTot, List.mem_cons, List.not_mem_nil, or_false] at this
      exact this.symm) hq
  simp only [EitCollector.step, this, EitCollector.handleEvents, ok_bind, hg.1, hg.2]
  rfl

theorem eits_good {o : EitCollector.Opt} {s s' : EitCollector.St} {i : SectionInput} {a : List EitCollector.DemuxCall}
    (h : EitCollector.step o s i = .ok (s', a, true)) : GoesOn o s' := by
  unfold EitCollector.step at h
  obtain ⟨⟨s1, cs⟩, _, h⟩ := bind_eq_ok h
  simp only [Except.ok.injEq, Prod.mk.injEq] at h
  obtain ⟨rfl, rfl, h⟩ := h
  unfold GoesOn
  cases h1 : EitCollector.isCompleted o s1 <;> cases h2 : EitCollector.checkTimeout o s1 <;> simp_all

theorem eits_same {o : EitCollector.Opt} (hg : GoesOn o {}) {is js : List SectionInput} (ht : Thin Quiet is js) {c c' : Nat}
    {y y' : EitCollector.Hist} (h : Spec.EitCollector.Collected o is c y) (h' : Spec.EitCollector.Collected o js c' y') :
    y.items.flatMap (·.did) = y'.items.flatMap (·.did) ∧ c = 0 ∧ c' = 0 := by
  refine ⟨?_, (EitCollector.Collected.reach h).2.1, (EitCollector.Collected.reach h').2.1⟩
  obtain ⟨h0, hi, hr⟩ := h
  obtain ⟨h0', hi', hr'⟩ := h'
  rw [hi] at hi'
  cases hi'
  have h00 : h0 = { st := {} } := by
    unfold EitCollector.init at hi
    obtain ⟨_, _, h2⟩ := bind_eq_ok hi
    cases h2; rfl
  subst h00
  have r := Runs.ran (step := EitCollector.step o) (finish := .ok) (exitCode := fun _ => exitSuccess) hr
  have r' := Runs.ran (step := EitCollector.step o) (finish := .ok) (exitCode := fun _ => exitSuccess) hr'
  exact thin_runs (step := EitCollector.step o) (G := GoesOn o) (fun s i g q => eits_quiet g q)
    (fun s i s' a h => eits_good h) ht {} y.items y'.items hg r r'

theorem eitpf_same {o : EitpfCollector.Opt} (hg : EitpfCollector.done o {} = .ok false) {is js : List SectionInput}
    (ht : Thin Quiet is js) {c c' : Nat} {y y' : EitpfCollector.Hist} (h : Spec.EitpfCollector.Collected o is c y)
    (h' : Spec.EitpfCollector.Collected o js c' y') :
    y.items.flatMap (·.did) = y'.items.flatMap (·.did) ∧ c = 0 ∧ c' = 0 := by
  refine ⟨?_, (EitpfCollector.Collected.reach h).2.1, (EitpfCollector.Collected.reach h').2.1⟩
  have r := Runs.ran (step := EitpfCollector.step o) (finish := .ok) (exitCode := fun _ => exitSuccess) h
  have r' := Runs.ran (step := EitpfCollector.step o) (finish := .ok) (exitCode := fun _ => exitSuccess) h'
  exact thin_runs (step := EitpfCollector.step o) (G := fun s => EitpfCollector.done o s = .ok false)
    (fun s i g q => eitpf_quiet g q) (fun s i s' a h => eitpf_good h) ht {} y.items y'.items hg r r'

theorem goesOn_init {o : EitCollector.Opt} (h : o.streaming = true ∨ 0 < o.timeLimit) : GoesOn o {} := by
  unfold GoesOn EitCollector.isCompleted EitCollector.checkTimeout
  cases hs : o.streaming with
  | true => exact ⟨rfl, rfl⟩
  | false =>
    have h : 0 < o.timeLimit := by
      rcases h with h | h
      · rw [hs] at h; cases h
      · exact h
    refine ⟨rfl, ?_⟩
    simp only [Bool.false_eq_true, if_false, decide_eq_false_iff_not]
    omega

theorem done_init {o : EitpfCollector.Opt}
    (h : o.streaming = true ∨ (o.sids ≠ [] ∧ (o.present = true ∨ o.following = true))) :
    EitpfCollector.done o {} = .ok false := by
  unfold EitpfCollector.done
  rcases h with h | ⟨h1, h2⟩
  · rw [h]; rfl
  · have hne : EitpfCollector.sidsSize o.sids ≠ 0 := by
      unfold EitpfCollector.sidsSize
      cases hs : o.sids with
      | nil => exact absurd hs h1
      | cons x l =>
        intro e
        have hm : x ∈ EitpfCollector.distinct (x :: l) := EitpfCollector.mem_distinct.2 List.mem_cons_self
        rw [List.eq_nil_of_length_eq_zero e] at hm
        cases hm
    have h0 : (([] : EitpfCollector.Versions).length != EitpfCollector.sidsSize o.sids) = true := by
      simp only [bne_iff_ne]; exact fun h => hne h.symm
    rw [h0]
    split
    · rfl
    · rcases h2 with h2 | h2 <;> simp [h2]

/-- What the output of filter-service brings. -/
theorem thin_repeats {fields : ServiceFilter.Out → Packet} (hpat : ∀ t n, (fields (.pat t n)).pid = 0)
    {ls : List (List SectionEvent)} {items : List ServiceFilter.Item} {ss : List (List SectionEvent)} (ha : Repeats ls items ss) :
    ∀ ps : List Packet, ps.length = ls.length →
    (∀ (k : Nat) (p : Packet) (l : List SectionEvent) (it : ServiceFilter.Item), ps[k]? = some p → ls[k]? = some l → items[k]? = some it →
      (it.act = .drop → Quiet ⟨p, l⟩) ∧ (∀ q, it.act = .send (.orig q) → fields (.orig q) = p) ∧
      ∀ t n, it.act = .send (.pat t n) → Quiet ⟨p, l⟩) →
    Thin Quiet (List.zipWith SectionInput.mk ps ls) (List.zipWith (fun x l => ⟨fields x, l⟩) (sent items) ss) := by
  induction ha with
  | nil => intro ps _ _; cases ps <;> exact .nil
  | drop e _ ih =>
    intro ps hl h
    cases ps with
    | nil => cases hl
    | cons p ps =>
      have h0 := h 0 _ _ _ rfl rfl rfl
      have ih := ih ps (by simpa using hl) fun k p l it h1 h2 h3 =>
        h (k + 1) p l it (by simpa using h1) (by simpa using h2) (by simpa using h3)
      simp only [sent, List.filterMap_cons, sentOf, e] at ih ⊢
      exact .skip (h0.1 e) ih
  | orig e _ ih =>
    intro ps hl h
    cases ps with
    | nil => cases hl
    | cons p ps =>
      have h0 := h 0 _ _ _ rfl rfl rfl
      have ih := ih ps (by simpa using hl) fun k p l it h1 h2 h3 =>
        h (k + 1) p l it (by simpa using h1) (by simpa using h2) (by simpa using h3)
      simp only [sent, List.filterMap_cons, sentOf, e] at ih ⊢
      have hf := h0.2.1 _ e
      simp only [List.zipWith_cons_cons, hf]
      exact .keep ih
  | pat e _ ih =>
    intro ps hl h
    cases ps with
    | nil => cases hl
    | cons p ps =>
      have h0 := h 0 _ _ _ rfl rfl rfl
      have ih := ih ps (by simpa using hl) fun k p l it h1 h2 h3 =>
        h (k + 1) p l it (by simpa using h1) (by simpa using h2) (by simpa using h3)
      simp only [sent, List.filterMap_cons, sentOf, e] at ih ⊢
      simp only [List.zipWith_cons_cons]
      exact .skip (h0.2.2 _ _ e) (.add (quiet_pid (by show (fields _).pid ≠ _; rw [hpat]; decide)
        (by show (fields _).pid ≠ _; rw [hpat]; decide)) ih)

theorem repeats_length {ls : List (List SectionEvent)} {items : List ServiceFilter.Item} {ss : List (List SectionEvent)}
    (ha : Repeats ls items ss) : ss.length = (sent items).length ∧ ∀ it ∈ items, it.act ≠ .stop := by
  induction ha with
  | nil => exact ⟨rfl, by simp⟩
  | drop e _ ih => simpa [sent, sentOf, e] using ih
  | orig e _ ih => simpa [sent, sentOf, e] using ih
  | pat e _ ih => simpa [sent, sentOf, e] using ih

end Mirakc.BehindEits
