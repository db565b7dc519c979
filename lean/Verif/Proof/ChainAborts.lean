import Verif.Proof.MainAborts
import Verif.Proof.ServiceAborts
import Verif.Proof.ProgramAborts
import Verif.Proof.SeekAborts
/-
When the commands with filters terminate abnormally.
-/
namespace Mirakc.Main
open Mirakc.Spec Mirakc.Spec.Pipeline Mirakc.Spec.Main Mirakc.Pipeline

private theorem map_error {α β : Type} {x : Except Fault α} {g : α → β} :
    (∃ f, x.map g = .error f) ↔ ∃ f, x = .error f := by
  cases x with
  | error f => exact iff_of_true ⟨f, rfl⟩ ⟨f, rfl⟩
  | ok a => exact iff_of_false (by rintro ⟨_, h⟩; cases h) (by rintro ⟨_, h⟩; cases h)

/-- The service filter goes wrong at a packet exactly if it is bad. -/
theorem sf_error {o : ServiceFilter.Opt} {pre : List Input} {i : Input} {s : ServiceFilter.St}
    {items : List ServiceFilter.Item} (h : ServiceFilter.run o (ServiceFilter.init o) pre = .ok (s, items))
    (hn : ∀ it ∈ items, it.act ≠ .stop) :
    (∃ f, ServiceFilter.step o s i = .error f) ↔
      Spec.ServiceFilter.Aborts o.sid o.timeLimit (Spec.ServiceFilter.received items) i := by
  have key := at_last (Q := fun _ : Input => True) (R := fun is => ∃ f, ServiceFilter.run o (ServiceFilter.init o) is = .error f)
    (B := fun pre i => ∃ s items, ServiceFilter.run o (ServiceFilter.init o) pre = .ok (s, items) ∧
      (∀ it ∈ items, it.act ≠ .stop) ∧ Spec.ServiceFilter.Aborts o.sid o.timeLimit (Spec.ServiceFilter.received items) i)
    (fun is _ => by
      have := ServiceFilter.run_exact is _ [] (ServiceFilter.full_init o) rfl
      simp only [List.nil_append] at this
      rw [this]
      constructor
      · rintro ⟨a, b, c, d, e, h1, h2⟩; exact ⟨a, b, c, h1, d, e, h2⟩
      · rintro ⟨a, b, c, h1, d, e, h2⟩; exact ⟨a, b, c, d, e, h1, h2⟩)
    (pre := pre) (i := i) (fun _ _ => trivial) (by rintro ⟨f, hf⟩; rw [h] at hf; cases hf)
  simp only [sf_run_snoc h hn, map_error] at key
  rw [key]
  constructor
  · rintro ⟨s', items', h', _, hA⟩
    rw [h] at h'
    cases h'
    exact hA
  · exact fun hA => ⟨s, items, h, hn, hA⟩

/-- The program filter goes wrong at a packet exactly if it is bad. -/
theorem pf_error {extra : Pmt → Nat} {o : ProgramFilter.Opt} {pre : List Input} {i : Input} {s : ProgramFilter.St}
    {items : List ProgramFilter.Item} (hq : ∀ j ∈ pre ++ [i], j.packet.pid = 0 → j.packet.pcr = none)
    (h : ProgramFilter.run extra o (ProgramFilter.init o) pre = .ok (s, items)) (hn : ∀ it ∈ items, it.more = true) :
    (∃ f, ProgramFilter.step extra o s i = .error f) ↔ Spec.ProgramFilter.Unfilterable o items i := by
  have key := at_last (Q := fun j : Input => j.packet.pid = 0 → j.packet.pcr = none)
    (R := fun is => ∃ f, ProgramFilter.run extra o (ProgramFilter.init o) is = .error f)
    (B := fun pre i => ∃ s items, ProgramFilter.run extra o (ProgramFilter.init o) pre = .ok (s, items) ∧
      (∀ it ∈ items, it.more = true) ∧ Spec.ProgramFilter.Unfilterable o items i)
    (fun is hq => by
      have := ProgramFilter.run_exact is _ [] (ProgramFilter.full_init extra o) (ProgramFilter.free_init (fun _ => .inl hq))
      simp only [List.nil_append] at this
      rw [this]
      constructor
      · rintro ⟨a, b, c, d, e, h1, h2⟩; exact ⟨a, b, c, h1, d, e, h2⟩
      · rintro ⟨a, b, c, h1, d, e, h2⟩; exact ⟨a, b, c, d, e, h1, h2⟩)
    (pre := pre) (i := i) hq (by rintro ⟨f, hf⟩; rw [h] at hf; cases hf)
  simp only [pf_run_snoc h hn, map_error] at key
  rw [key]
  constructor
  · rintro ⟨s', items', h', _, hA⟩
    rw [h] at h'
    cases h'
    exact hA
  · exact fun hA => ⟨s, items, h, hn, hA⟩

/-- What the program filter sends before it goes wrong. -/
theorem pf_announced {extra : Pmt → Nat} {o : ProgramFilter.Opt} {pre : List Input} {i : Input} {s : ProgramFilter.St}
    {items : List ProgramFilter.Item} (hq : ∀ j ∈ pre ++ [i], j.packet.pid = 0 → j.packet.pcr = none)
    (h : ProgramFilter.run extra o (ProgramFilter.init o) pre = .ok (s, items)) (hn : ∀ it ∈ items, it.more = true) :
    (Spec.ProgramFilter.FailsAtOnce o items i → ProgramFilter.announced o s i = []) ∧
    (¬ Spec.ProgramFilter.FailsAtOnce o items i → ∀ pats, Spec.ProgramFilter.FailsAtStart o items i pats →
      ProgramFilter.announced o s i = pats) := by
  obtain ⟨hF, hP⟩ := ProgramFilter.run_full pre [i] _ _ [] items (ProgramFilter.full_init extra o)
    (ProgramFilter.free_init (fun _ => .inl hq)) h hn
  exact ProgramFilter.announced_exact hF hP.head

/-- The seeker goes wrong at a packet exactly if it is bad. -/
theorem seek_error {o : StartSeeker.Opt} {pre : List Input} {i : Input} {s : StartSeeker.St}
    {items : List StartSeeker.Item}
    (h : StartSeeker.run o StartSeeker.init pre = .ok (s, items)) :
    (∃ f, StartSeeker.step o s i = .error f) ↔ Spec.StartSeeker.Unseekable o items i := by
  have key := at_last (Q := fun _ : Input => True)
    (R := fun is => ∃ f, StartSeeker.run o StartSeeker.init is = .error f)
    (B := fun pre i => ∃ s items, StartSeeker.run o StartSeeker.init pre = .ok (s, items) ∧
      Spec.StartSeeker.Unseekable o items i)
    (fun is _ => by
      have := StartSeeker.run_exact is _ [] (StartSeeker.state_init o)
      simp only [List.nil_append] at this
      rw [this]
      constructor
      · rintro ⟨a, b, c, d, e, h1, h2⟩; exact ⟨a, b, c, h1, d, e, h2⟩
      · rintro ⟨a, b, c, h1, d, e, h2⟩; exact ⟨a, b, c, d, e, h1, h2⟩)
    (pre := pre) (i := i) (fun _ _ => trivial) (by rintro ⟨f, hf⟩; rw [h] at hf; cases hf)
  simp only [seek_run_snoc h, map_error] at key
  rw [key]
  constructor
  · rintro ⟨s', items', h', hA⟩
    rw [h] at h'
    cases h'
    exact hA
  · exact fun hA => ⟨s, items, h, hA⟩

/-- The service filter, connected to a sink, fails exactly as `Chain` says, if `Fine` and `Bad` say
which packets the sink accepts and at which it fails. -/
theorem chain_fails {σ H : Type} {w : World} {sid : Nat} {ps : List (List UInt8)} {snk : Sink ServiceFilter.Out σ}
    {d1 : σ} {Fine : H → List ServiceFilter.Out → Prop} {Bad : H → List ServiceFilter.Out → ServiceFilter.Out → Prop}
    (h1 : ∀ pre items, pre <+: ps → Served w sid pre items →
      ((∃ h, Fine h (Spec.ServiceFilter.sent items)) ↔ ∃ d, Accepts snk d1 (Spec.ServiceFilter.sent items) d))
    (h2 : ∀ pre items, pre <+: ps → Served w sid pre items → ∀ xs x d, Spec.ServiceFilter.sent items = xs ++ [x] →
      Accepts snk d1 xs d → ((∃ h, Fine h xs ∧ Bad h xs x) ↔ ∃ f, snk.handle d x = .error f)) :
    Fails (ServiceFilter.sink { sid := sid } snk) (ServiceFilter.init { sid := sid }, d1) (seen (arrival w) 0 ps) ↔
      ∃ h, Chain w sid ps (Fine h) (Bad h) := by
  have hsent : ∀ (items : List ServiceFilter.Item) it, Spec.ServiceFilter.sent (items ++ [it]) =
      Spec.ServiceFilter.sent items ++ (Spec.ServiceFilter.sentOf it).toList := by
    intro items it
    unfold Spec.ServiceFilter.sent
    rw [List.filterMap_append]
    congr 1
  have hseen : ∀ (pre : List (List UInt8)) b, seen (arrival w) 0 (pre ++ [b]) =
      seen (arrival w) 0 pre ++ [arrival w pre.length b] := by
    intro pre b
    rw [seen_append]
    simp [seen]
  constructor
  · rintro ⟨pre', i, post', ⟨s', d'⟩, e, ha, f, hf⟩
    obtain ⟨pre, ys, rfl, rfl, e'⟩ := seen_split e
    cases ys with
    | nil => cases e'
    | cons b post =>
      simp only [seen, List.cons.injEq, Nat.zero_add] at e'
      obtain ⟨rfl, rfl⟩ := e'
      obtain ⟨items, k1, k2, k3⟩ := sf_accepts.1 ha
      have hserv : Served w sid pre items := ⟨s', k1, k2⟩
      simp only [ServiceFilter.sink] at hf
      cases hstep : ServiceFilter.step { sid := sid } s' (arrival w pre.length b) with
      | error g =>
        obtain ⟨h, hh⟩ := (h1 pre items ⟨_, rfl⟩ hserv).2 ⟨d', k3⟩
        exact ⟨h, pre, b, post, items, rfl, hserv, hh, .inl ((sf_error k1 k2).1 ⟨g, hstep⟩)⟩
      | ok r =>
        obtain ⟨s1, log, act⟩ := r
        simp only [hstep, ok_bind] at hf
        cases act with
        | stop => cases hf
        | drop => cases hf
        | send x =>
          have hh : ∃ g, snk.handle d' x = .error g := by
            cases hx : snk.handle d' x with
            | error g => exact ⟨g, rfl⟩
            | ok r => simp only [hx, ok_bind] at hf; cases hf
          have hs2 : Served w sid (pre ++ [b]) (items ++ [⟨(arrival w pre.length b).packet, log, .send x⟩]) := by
            refine ⟨s1, ?_, ?_⟩
            · rw [hseen, sf_run_snoc k1 k2, hstep]; rfl
            · intro it hit
              rcases List.mem_append.1 hit with hit | hit
              · exact k2 it hit
              · rw [List.mem_singleton] at hit; rw [hit]; simp
          have hs3 : Spec.ServiceFilter.sent (items ++ [⟨(arrival w pre.length b).packet, log, .send x⟩]) =
              Spec.ServiceFilter.sent items ++ [x] := by rw [hsent]; rfl
          obtain ⟨h, hF, hB⟩ := (h2 (pre ++ [b]) _ ⟨post, by simp⟩ hs2 _ _ d' hs3 k3).2 hh
          exact ⟨h, pre, b, post, items, rfl, hserv, hF, .inr ⟨_, x, hs2, hs3, hB⟩⟩
  · rintro ⟨h, pre, b, post, items, rfl, hserv, hF, hbad⟩
    obtain ⟨d', k3⟩ := (h1 pre items ⟨_, rfl⟩ hserv).1 ⟨h, hF⟩
    obtain ⟨s', k1, k2⟩ := hserv
    refine ⟨seen (arrival w) 0 pre, arrival w pre.length b, _, (s', d'), by rw [seen_append, Nat.zero_add]; rfl,
      sf_accepts.2 ⟨items, k1, k2, k3⟩, ?_⟩
    rcases hbad with hbad | ⟨items', x, hs2, hs3, hB⟩
    · obtain ⟨g, hg⟩ := (sf_error k1 k2).2 hbad
      exact ⟨g, by simp only [ServiceFilter.sink, hg]; rfl⟩
    · obtain ⟨g, hg⟩ := (h2 (pre ++ [b]) _ ⟨post, by simp⟩ hs2 _ _ d' hs3 k3).1 ⟨h, hF, hB⟩
      obtain ⟨s2, j1, j2⟩ := hs2
      rw [hseen, sf_run_snoc k1 k2] at j1
      cases hstep : ServiceFilter.step { sid := sid } s' (arrival w pre.length b) with
      | error e => rw [hstep] at j1; cases j1
      | ok r =>
        obtain ⟨s1, log, act⟩ := r
        rw [hstep] at j1
        cases j1
        rw [hsent] at hs3
        have hs3 := List.append_cancel_left hs3
        cases act with
        | stop => cases hs3
        | drop => cases hs3
        | send y =>
          cases hs3
          exact ⟨g, by simp only [ServiceFilter.sink, hstep, ok_bind, hg]; rfl⟩

end Mirakc.Main
