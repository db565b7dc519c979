import Verif.Proof.MarginsRun
import Verif.Proof.Agree
/-
For C142 and C143: the steps and the runs.
-/
namespace Mirakc.Margins
open Mirakc.ProgramFilter Mirakc.Spec.Margins Mirakc.Spec.ProgramFilter
open Mirakc.Main (bind_ok_iff)

section
variable {A B : Opt} {P : Int → Prop} {T : Table → Prop} {a b a' b' : St}

theorem step_form {extra : Pmt → Nat} {o : Opt} {s s' : St} {i : Input} {log : List Table} {outs : List Out} {more : Bool}
    (h : step extra o s i = .ok (s', log, outs, more)) :
    ∃ s1, feedDemux St.demux (handleTable o) i.packet.pid i.tables s = .ok (s1, log) ∧
      ((s1.streaming = true ∧ doStreaming extra s1 i.packet = .ok (s', outs, more)) ∨
       (s1.streaming = false ∧ waitReady extra o s1 i.packet = .ok (s', outs, more))) := by
  unfold step at h
  obtain ⟨⟨s1, l⟩, h1, h⟩ := bind_ok_iff.1 h
  dsimp only at h
  split at h
  · next hs =>
    obtain ⟨⟨s2, outs', ok⟩, h2, h⟩ := bind_ok_iff.1 h
    cases h
    exact ⟨s1, h1, Or.inl ⟨hs, h2⟩⟩
  · next hs =>
    obtain ⟨⟨s2, outs', ok⟩, h2, h⟩ := bind_ok_iff.1 h
    cases h
    exact ⟨s1, h1, Or.inr ⟨by simpa using hs, h2⟩⟩

theorem stream_kept {extra : Pmt → Nat} {s s' : St} {p : Packet} {outs : List Out} {more : Bool}
    (h : doStreaming extra s p = .ok (s', outs, more)) (hm : more = true) : (s.pcrPidReady = true → s'.pcrPidReady = true) ∧
    (s.eventTimeReady = true → s'.eventTimeReady = true) := by
  have fwd : ∀ {t : St}, forward extra t p = .ok (s', outs, more) →
      s'.pcrPidReady = t.pcrPidReady ∧ s'.eventTimeReady = t.eventTimeReady := by
    intro t h
    rcases (forward_form h).2 with ⟨_, _, _, _, _, rfl⟩ | ⟨_, rfl, _⟩ <;> exact ⟨rfl, rfl⟩
  rcases stream_form h with ⟨h0, h1, h2⟩ | ⟨_, ⟨_, _, rfl, _⟩ | ⟨_, e⟩ | ⟨q, s1, _, _, e, k⟩⟩
  · rw [hm] at h2; cases h2
  · exact ⟨id, id⟩
  · obtain ⟨e1, e2⟩ := fwd e
    rw [e1, e2]
    exact ⟨id, id⟩
  · obtain ⟨x, _, _⟩ := sync_kept e
    rcases k with ⟨_, rfl, _⟩ | ⟨_, c, hc, k⟩
    · exact ⟨x.pcrPidReady, x.eventTimeReady⟩
    · rcases k with ⟨_, _, h2⟩ | ⟨_, k⟩
      · rw [hm] at h2; cases h2
      · obtain ⟨e1, e2⟩ := fwd k
        rw [e1, e2]
        exact ⟨x.pcrPidReady, x.eventTimeReady⟩

/-- What is supposed of a packet. -/
structure Fit (P : Int → Prop) (T : Table → Prop) (i : Input) : Prop where
  pcr : ∀ q, i.packet.pcr = some q → P q
  tables : ∀ t ∈ i.tables, T t
  pat : i.packet.pid = 0 → i.packet.pcr = none

/-- In step with each other. -/
structure Exact (A B : Opt) (P : Int → Prop) (T : Table → Prop) (a b : St) : Prop where
  pair : Pair A B P T a b
  same : Same a b
  phase : (a.streaming = false ∧ Pats a) ∨ (a.streaming = true ∧ a.pcrPidReady = true ∧ a.eventTimeReady = true)

/-- Both streaming. -/
structure Running (A B : Opt) (P : Int → Prop) (T : Table → Prop) (a b : St) : Prop where
  pair : Pair A B P T a b
  streamingA : a.streaming = true
  streamingB : b.streaming = true
  stop : a.stop = b.stop
  pcrPid : a.pcrPidReady = true
  event : a.eventTimeReady = true

theorem exact_step (hw : Wider A B P T) (h : Exact A B P T a b) {extra : Pmt → Nat} {i : Input} (hi : Fit P T i)
    {la lb : List Table} {oa ob : List Out} {ma mb : Bool}
    (ha : step extra A a i = .ok (a', la, oa, ma)) (hb : step extra B b i = .ok (b', lb, ob, mb)) :
    (oa = [] ∧ ma = false) ∨
    (ma = true ∧ mb = true ∧ ob = oa ∧ Exact A B P T a' b' ∧ (a.streaming = true → a'.streaming = true) ∧
      (a'.streaming = false → ∀ x ∈ oa, Header x)) ∨
    (A.startMargin ≠ B.startMargin ∧ oa = [] ∧ ma = true ∧ mb = true ∧ a.streaming = false ∧ Ahead A B P T a' b') := by
  obtain ⟨a1, ha1, ha⟩ := step_form ha
  obtain ⟨b1, hb1, hb⟩ := step_form hb
  obtain ⟨h1, x⟩ := pair_tables hw.twins h.pair hi.tables ha1 hb1
  have hst : a1.streaming = b1.streaming := by rw [x.keptA.streaming, x.keptB.streaming, h.same.streaming]
  have hs1 : Same a1 b1 := by
    refine ⟨hst, x.same h.same.streaming h.same.stop, by rw [x.keptA.lastPat, x.keptB.lastPat, h.same.lastPat], ?_⟩
    have e1 := x.weak.pkPid
    have e2 := x.weak.pkTable
    have e3 : b1.pk.cur = a1.pk.cur := by rw [x.keptA.cur, x.keptB.cur, h.same.pk]
    have e4 : b1.pk.count = a1.pk.count := by rw [x.keptA.count, x.keptB.count, h.same.pk]
    revert e1 e2 e3 e4
    cases b1.pk
    cases a1.pk
    intro e1 e2 e3 e4
    cases e1; cases e2; cases e3; cases e4
    rfl
  rcases h.phase with ⟨p1, p2⟩ | ⟨p1, p2, p3⟩
  · have q1 : a1.streaming = false := x.keptA.streaming.trans p1
    rcases ha with ⟨ha0, _⟩ | ⟨_, ha⟩
    · rw [q1] at ha0; cases ha0
    rcases hb with ⟨hb0, _⟩ | ⟨_, hb⟩
    · rw [← hst, q1] at hb0; cases hb0
    have hp : Pats a1 := by
      intro y hy
      rw [x.keptA.lastPat] at hy
      exact p2 y hy
    rcases wait_same hw h1 hs1 q1 hp hi.pcr ha hb with k | ⟨k1, k2, k3, k4, k5, k6⟩ | ⟨k1, k2, k3, k4, k5⟩
    · exact Or.inl k
    · refine Or.inr (Or.inl ⟨k1, k2, k3, ⟨k4, k5, ?_⟩, fun h0 => ?_, fun h0 => ?_⟩)
      · rcases k6 with ⟨u, v, _⟩ | u
        · exact Or.inl ⟨u, v⟩
        · exact Or.inr u
      · rw [p1] at h0; cases h0
      · rcases k6 with ⟨_, _, u⟩ | ⟨u, _⟩
        · exact u
        · rw [h0] at u; cases u
    · exact Or.inr (Or.inr ⟨k1, k2, k3, k4, p1, k5⟩)
  · have q1 : a1.streaming = true := x.keptA.streaming.trans p1
    rcases ha with ⟨_, ha⟩ | ⟨ha0, _⟩
    · rcases hb with ⟨_, hb⟩ | ⟨hb0, _⟩
      · have r1 := x.keptA.pcrPidReady p2
        have r2 := x.keptA.eventTimeReady p3
        rcases stream_pair hw h1 hs1.stop r1 r2 hi.pcr ha hb with k | ⟨k1, k2, k3, k4, k5, k6, k7, k8, k9, k10⟩
        · exact Or.inl k
        · obtain ⟨k10, k11⟩ := k10 hs1.pk
          have kr := stream_kept ha k1
          refine Or.inr (Or.inl ⟨k1, k2, k10, ⟨k3, ⟨by rw [k6, k7, hst], k5, by rw [k8, k9, hs1.lastPat], k11⟩,
            Or.inr ⟨k6.trans q1, kr.1 r1, kr.2 r2⟩⟩, fun _ => k6.trans q1, fun h0 => ?_⟩)
          rw [k6, q1] at h0; cases h0
      · rw [← hst, q1] at hb0; cases hb0
    · rw [q1] at ha0; cases ha0

theorem ahead_step (hw : Wider A B P T) (h : Ahead A B P T a b) {extra : Pmt → Nat} {i : Input} (hi : Fit P T i)
    {la lb : List Table} {oa ob : List Out} {ma mb : Bool}
    (ha : step extra A a i = .ok (a', la, oa, ma)) (hb : step extra B b i = .ok (b', lb, ob, mb)) :
    (oa = [] ∧ ma = false) ∨
    (ma = true ∧ mb = true ∧ Ahead A B P T a' b' ∧ ∀ x ∈ oa, Header x) ∨
    (ma = true ∧ mb = true ∧ Running A B P T a' b' ∧ ∃ l x, oa = l ++ [x] ∧ ∀ y ∈ l, Header y) := by
  obtain ⟨a1, ha1, ha⟩ := step_form ha
  obtain ⟨b1, hb1, hb⟩ := step_form hb
  obtain ⟨h1, x⟩ := pair_tables hw.twins h.pair hi.tables ha1 hb1
  have q1 : a1.streaming = false := x.keptA.streaming.trans h.waiting
  have q2 : b1.streaming = true := x.keptB.streaming.trans h.streaming
  rcases ha with ⟨ha0, _⟩ | ⟨_, ha⟩
  · rw [q1] at ha0; cases ha0
  rcases hb with ⟨_, hb⟩ | ⟨hb0, _⟩
  · have h2 : Ahead A B P T a1 b1 := ⟨h1, q1, q2, x.less h.waiting h.stop, x.keptA.pcrPidReady h.pcrPid,
      x.keptA.eventTimeReady h.event, fun y hy => h.pats y (by rw [← x.keptA.lastPat]; exact hy)⟩
    rcases wait_ahead hw h2 hi.pcr hi.pat ha hb with k | k | ⟨k1, k2, k3, k4, k5, k6, k7, k8, k9⟩
    · exact Or.inl k
    · exact Or.inr (Or.inl k)
    · exact Or.inr (Or.inr ⟨k1, k2, ⟨k3, k4, k5, k6, k7, k8⟩, k9⟩)
  · rw [q2] at hb0; cases hb0

theorem both_step (hw : Wider A B P T) (h : Running A B P T a b) {extra : Pmt → Nat} {i : Input} (hi : Fit P T i)
    {la lb : List Table} {oa ob : List Out} {ma mb : Bool}
    (ha : step extra A a i = .ok (a', la, oa, ma)) (hb : step extra B b i = .ok (b', lb, ob, mb)) :
    (oa = [] ∧ ma = false) ∨ (ma = true ∧ mb = true ∧ Running A B P T a' b' ∧ AllLike oa ob) := by
  obtain ⟨a1, ha1, ha⟩ := step_form ha
  obtain ⟨b1, hb1, hb⟩ := step_form hb
  obtain ⟨h1, x⟩ := pair_tables hw.twins h.pair hi.tables ha1 hb1
  have q1 : a1.streaming = true := x.keptA.streaming.trans h.streamingA
  have q2 : b1.streaming = true := x.keptB.streaming.trans h.streamingB
  rcases ha with ⟨_, ha⟩ | ⟨ha0, _⟩
  · rcases hb with ⟨_, hb⟩ | ⟨hb0, _⟩
    · have r1 := x.keptA.pcrPidReady h.pcrPid
      have r2 := x.keptA.eventTimeReady h.event
      rcases stream_pair hw h1 (x.same (h.streamingA.trans h.streamingB.symm) h.stop) r1 r2 hi.pcr ha hb with
        k | ⟨k1, k2, k3, k4, k5, k6, k7, _⟩
      · exact Or.inl k
      · have kr := stream_kept ha k1
        exact Or.inr ⟨k1, k2, ⟨k3, k6.trans q1, k7.trans q2, k5, kr.1 r1, kr.2 r2⟩, k4⟩
    · rw [q2] at hb0; cases hb0
  · rw [q1] at ha0; cases ha0

/-! Runs. -/

/-- Two runs, of which the first does not go on where the second has stopped. -/
theorem two_runs {extra : Pmt → Nat} {Φ : St → St → Prop} {Q : St → St → List Out → List Out → Prop} {Ok : Input → Prop}
    (base : ∀ a b ys, Φ a b → Q a b [] ys)
    (next : ∀ a b i a' b' la lb oa ob ma mb, Ok i → Φ a b → step extra A a i = .ok (a', la, oa, ma) →
      step extra B b i = .ok (b', lb, ob, mb) → (oa = [] ∧ ma = false) ∨
        (ma = true ∧ mb = true ∧ Φ a' b' ∧ ∀ xs ys, Q a' b' xs ys → Q a b (oa ++ xs) (ob ++ ys))) :
    ∀ (is js : List Input) (a b f g : St) (items items' : List Item), Φ a b → run extra A a is = .ok (f, items) →
      run extra B b js = .ok (g, items') → (∀ i ∈ is, Ok i) →
      (is <+: js ∨ (js <+: is ∧ ∃ pre it, items' = pre ++ [it] ∧ it.more = false)) → Q a b (sent items) (sent items')
  | [], js, a, b, f, g, items, items', hΦ, ha, _, _, _ => by cases ha; exact base a b _ hΦ
  | i :: is, [], a, b, f, g, items, items', hΦ, _, hb, _, hr => by
    cases hb
    rcases hr with ⟨t, ht⟩ | ⟨_, pre, it, ht, _⟩
    · cases ht
    · cases pre <;> cases ht
  | i :: is, j :: js, a, b, f, g, items, items', hΦ, ha, hb, ho, hr => by
    have hij : j = i ∧ (is <+: js ∨ js <+: is ∧ ∃ pre it, items' = pre ++ [it] ∧ it.more = false) := by
      rcases hr with hr | ⟨hr, hl⟩
      · exact ⟨(List.cons_prefix_cons.1 hr).1.symm, Or.inl (List.cons_prefix_cons.1 hr).2⟩
      · exact ⟨(List.cons_prefix_cons.1 hr).1, Or.inr ⟨(List.cons_prefix_cons.1 hr).2, hl⟩⟩
    obtain ⟨rfl, hij⟩ := hij
    clear hr
    obtain ⟨a1, la, oa, ma, sa, ra⟩ := run_cons ha
    obtain ⟨b1, lb, ob, mb, sb, rb⟩ := run_cons hb
    rcases next a b j a1 b1 la lb oa ob ma mb (ho j (by simp)) hΦ sa sb with ⟨rfl, rfl⟩ | ⟨rfl, rfl, hΦ', hQ⟩
    · rcases ra with ⟨_, _, rfl⟩ | ⟨h0, _⟩
      · exact base a b _ hΦ
      · cases h0
    · rcases ra with ⟨h0, _⟩ | ⟨_, xs, ra, rfl⟩
      · cases h0
      rcases rb with ⟨h0, _⟩ | ⟨_, ys, rb, rfl⟩
      · cases h0
      refine hQ _ _ (two_runs base next is js a1 b1 f g xs ys hΦ' ra rb (fun i hi => ho i (by simp [hi])) ?_)
      rcases hij with hr | ⟨hr, pre, it, e, hm⟩
      · exact Or.inl hr
      · refine Or.inr ⟨hr, ?_⟩
        cases pre with
        | nil => cases e; cases hm
        | cons x pre => cases e; exact ⟨pre, it, rfl, hm⟩

theorem init_weak (ht : Twins A B) : Weak A B (init A) (init B) :=
  ⟨rfl, rfl, rfl, rfl, ht.pid, ht.pcr, ht.time, rfl, rfl, rfl, rfl, rfl, rfl, (fun h => by cases h), (fun h => by cases h)⟩

theorem exact_init (ht : Twins A B) : Exact A B P T (init A) (init B) where
  pair := ⟨init_weak ht, known_init A P T, known_init B P T⟩
  same := ⟨rfl, rfl, rfl, rfl⟩
  phase := Or.inl ⟨rfl, fun x hx => by cases hx⟩

/-- With the same start, the one is a beginning of the other. -/
theorem run_prefix (hw : Wider A B P T) (hm : A.startMargin = B.startMargin) {extra : Pmt → Nat} {is js : List Input} {f g : St}
    {items items' : List Item} (ha : run extra A (init A) is = .ok (f, items)) (hb : run extra B (init B) js = .ok (g, items'))
    (hi : ∀ i ∈ is, Fit P T i)
    (hr : is <+: js ∨ (js <+: is ∧ ∃ pre it, items' = pre ++ [it] ∧ it.more = false)) : sent items <+: sent items' := by
  refine two_runs (Φ := Exact A B P T) (Q := fun _ _ xs ys => xs <+: ys) (Ok := Fit P T) (fun _ _ _ _ => List.nil_prefix)
    (fun a b i a' b' la lb oa ob ma mb h0 h1 h2 h3 => ?_) is js _ _ f g items items' (exact_init hw.twins) ha hb hi hr
  rcases exact_step hw h1 h0 h2 h3 with k | ⟨k1, k2, rfl, k4, _⟩ | ⟨k, _⟩
  · exact Or.inl k
  · exact Or.inr ⟨k1, k2, k4, fun xs ys h => (List.prefix_append_right_inj _).2 h⟩
  · exact absurd hm k

/-- Packets with which the first starts; then both send the same. -/
def Within (xs ys : List Out) : Prop :=
  ∃ l c r u m v, xs = l ++ c ++ r ∧ ys = u ++ m ++ v ∧ (∀ x ∈ l, Header x) ∧ c.length ≤ 1 ∧ AllLike r m

/-- In general. -/
theorem run_within (hw : Wider A B P T) {extra : Pmt → Nat} {is js : List Input} {f g : St}
    {items items' : List Item} (ha : run extra A (init A) is = .ok (f, items)) (hb : run extra B (init B) js = .ok (g, items'))
    (hi : ∀ i ∈ is, Fit P T i)
    (hr : is <+: js ∨ (js <+: is ∧ ∃ pre it, items' = pre ++ [it] ∧ it.more = false)) : Within (sent items) (sent items') := by
  have := two_runs (A := A) (B := B) (extra := extra) (Φ := fun a b => Exact A B P T a b ∨ Ahead A B P T a b ∨ Running A B P T a b)
    (Q := fun a _ xs ys => (a.streaming = true → ∃ m v, ys = m ++ v ∧ AllLike xs m) ∧ (a.streaming = false → Within xs ys))
    (Ok := Fit P T)
    (fun a b ys _ => ⟨fun _ => ⟨[], ys, rfl, trivial⟩, fun _ => ⟨[], [], [], [], [], ys, rfl, rfl, (fun _ hx => by cases hx), by simp,
      trivial⟩⟩)
    (fun a b i a' b' la lb oa ob ma mb h0 h1 h2 h3 => ?_) is js _ _ f g items items' (Or.inl (exact_init hw.twins)) ha hb hi hr
  · exact this.2 rfl
  -- going on in step
  have keep : ∀ {xs ys : List Out}, AllLike oa ob → (∃ m v, ys = m ++ v ∧ AllLike xs m) →
      ∃ m v, ob ++ ys = m ++ v ∧ AllLike (oa ++ xs) m := by
    rintro xs ys h ⟨m, v, rfl, h'⟩
    exact ⟨ob ++ m, v, by simp, allLike_append h h'⟩
  have wait : ∀ {xs ys : List Out}, (∀ x ∈ oa, Header x) → Within xs ys → Within (oa ++ xs) (ob ++ ys) := by
    rintro xs ys h ⟨l, c, r, u, m, v, rfl, rfl, h1, h2, h3⟩
    refine ⟨oa ++ l, c, r, ob ++ u, m, v, by simp, by simp, fun x hx => ?_, h2, h3⟩
    rcases List.mem_append.1 hx with hx | hx
    · exact h x hx
    · exact h1 x hx
  have begun : ∀ {xs ys : List Out}, (∃ m v, ys = m ++ v ∧ AllLike xs m) → Within xs ys := by
    rintro xs ys ⟨m, v, rfl, h⟩
    exact ⟨[], [], xs, [], m, v, rfl, rfl, (fun _ hx => by cases hx), by simp, h⟩
  rcases h1 with h1 | h1 | h1
  · rcases exact_step hw h1 h0 h2 h3 with k | ⟨k1, k2, rfl, k4, k5, k6⟩ | ⟨_, rfl, k3, k4, k5, k6⟩
    · exact Or.inl k
    · refine Or.inr ⟨k1, k2, Or.inl k4, fun xs ys h => ⟨fun hs => keep (allLike_refl _) (h.1 (k5 hs)), fun hs => ?_⟩⟩
      cases hx : a'.streaming with
      | true => exact begun (keep (allLike_refl _) (h.1 hx))
      | false => exact wait (k6 hx) (h.2 hx)
    · refine Or.inr ⟨k3, k4, Or.inr (Or.inl k6), fun xs ys h => ⟨fun hs => ?_, fun _ => ?_⟩⟩
      · rw [k5] at hs; cases hs
      · exact wait (fun _ hx => by cases hx) (h.2 k6.waiting)
  · rcases ahead_step hw h1 h0 h2 h3 with k | ⟨k1, k2, k3, k4⟩ | ⟨k1, k2, k3, l, x, rfl, k4⟩
    · exact Or.inl k
    · refine Or.inr ⟨k1, k2, Or.inr (Or.inl k3), fun xs ys h => ⟨fun hs => ?_, fun _ => ?_⟩⟩
      · rw [h1.waiting] at hs; cases hs
      · exact wait k4 (h.2 k3.waiting)
    · refine Or.inr ⟨k1, k2, Or.inr (Or.inr k3), fun xs ys h => ⟨fun hs => ?_, fun _ => ?_⟩⟩
      · rw [h1.waiting] at hs; cases hs
      · obtain ⟨m, v, rfl, e⟩ := h.1 k3.streamingA
        exact ⟨l, [x], xs, ob, m, v, rfl, by simp, k4, by simp, e⟩
  · rcases both_step hw h1 h0 h2 h3 with k | ⟨k1, k2, k3, k4⟩
    · exact Or.inl k
    · refine Or.inr ⟨k1, k2, Or.inr (Or.inr k3), fun xs ys h => ⟨fun _ => keep k4 (h.1 k3.streamingA), fun hs => ?_⟩⟩
      rw [h1.streamingA] at hs; cases hs

end

end Mirakc.Margins
