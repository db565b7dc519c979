import Verif.Spec.Pipeline
import Verif.Proof.PacketLoop
import Verif.Proof.ServiceFilter
import Verif.Proof.ProgramFilterTotal
import Verif.Proof.ServiceRecorder
import Verif.Proof.StartSeeker
import Verif.Proof.StdoutSink
import Verif.Proof.Run
/-
Lemmas about connected sinks.
-/
set_option linter.unusedSimpArgs false

namespace Mirakc.Pipeline
open Mirakc.Spec Mirakc.Spec.Pipeline

/-! Sinks in general. -/

theorem refuses_cons {P σ : Type} {snk : Sink P σ} {s s1 s' : σ} {p : P} {ps : List P}
    (h : snk.handle s p = .ok (true, s1)) (hr : Refuses snk s1 ps s') :
    Refuses snk s (p :: ps) s' := by
  obtain ⟨pre, q, s2, rfl, ha, hq⟩ := hr
  exact ⟨p :: pre, q, s2, rfl, .cons h ha, hq⟩

theorem refuses_one {P σ : Type} {snk : Sink P σ} {s s' : σ} {p : P}
    (h : snk.handle s p = .ok (false, s')) : Refuses snk s [p] s' :=
  ⟨[], p, s, rfl, .nil, h⟩

theorem consumes_iff {P σ : Type} {snk : Sink P σ} {s s' : σ} {ps cs : List P} :
    Consumes snk s ps cs s' ↔
      (cs = ps ∧ Accepts snk s ps s') ∨ (∃ rest, ps = cs ++ rest ∧ Refuses snk s cs s') := by
  constructor
  · intro h
    induction h with
    | eof => exact .inl ⟨rfl, .nil⟩
    | refuse h => exact .inr ⟨_, rfl, refuses_one h⟩
    | accept h _ ih =>
      rcases ih with ⟨rfl, ha⟩ | ⟨rest, rfl, hr⟩
      · exact .inl ⟨rfl, .cons h ha⟩
      · exact .inr ⟨rest, rfl, refuses_cons h hr⟩
  · rintro (⟨rfl, ha⟩ | ⟨rest, rfl, pre, p, s1, rfl, ha, hp⟩)
    · induction ha with
      | nil => exact .eof
      | cons h _ ih => exact .accept h ih
    · induction ha with
      | nil => exact .refuse hp
      | cons h _ ih => exact .accept h (ih hp)

theorem accepts_append {P σ : Type} {snk : Sink P σ} {s s1 s2 : σ} {a b : List P}
    (h : Accepts snk s a s1) (g : Accepts snk s1 b s2) : Accepts snk s (a ++ b) s2 := by
  induction h with
  | nil => exact g
  | cons h _ ih => exact .cons h (ih g)

theorem refuses_append {P σ : Type} {snk : Sink P σ} {s s1 s2 : σ} {a b : List P}
    (h : Accepts snk s a s1) (g : Refuses snk s1 b s2) : Refuses snk s (a ++ b) s2 := by
  induction h with
  | nil => exact g
  | cons h _ ih => exact refuses_cons h (ih g)

/-- The packets received are in the representation of the sink. -/
theorem via_accepts {P Q σ : Type} {f : Nat → Q → P} {snk : Sink P σ} {qs : List Q} :
    ∀ {n m : Nat} {d d' : σ}, Accepts (via f snk) (n, d) qs (m, d') ↔
      Accepts snk d (seen f n qs) d' ∧ m = n + qs.length := by
  induction qs with
  | nil =>
    intro n m d d'
    constructor
    · intro h; cases h; exact ⟨.nil, rfl⟩
    · rintro ⟨h, rfl⟩; cases h; exact .nil
  | cons q qs ih =>
    intro n m d d'
    constructor
    · intro h
      cases h with
      | @cons _ s' _ _ _ h1 h2 =>
        simp only [via] at h1
        obtain ⟨⟨ok, d1⟩, g, h1⟩ := bind_eq_ok h1
        simp only [Except.ok.injEq, Prod.mk.injEq] at h1
        obtain ⟨rfl, rfl⟩ := h1
        obtain ⟨h3, rfl⟩ := ih.1 h2
        exact ⟨.cons g h3, by simp only [List.length_cons]; omega⟩
    · rintro ⟨h, rfl⟩
      cases h with
      | @cons _ d1 _ _ _ h1 h2 =>
        refine .cons (s' := (n + 1, d1)) (by simp [via, h1]) (ih.2 ⟨h2, ?_⟩)
        simp only [List.length_cons]; omega

theorem seen_append {P Q : Type} (f : Nat → Q → P) (a b : List Q) :
    ∀ n, seen f n (a ++ b) = seen f n a ++ seen f (n + a.length) b := by
  induction a with
  | nil => intro n; rfl
  | cons q a ih =>
    intro n
    simp only [List.cons_append, seen, ih, List.length_cons]
    rw [show n + 1 + a.length = n + (a.length + 1) by omega]

theorem seen_length {P Q : Type} (f : Nat → Q → P) (a : List Q) : ∀ n, (seen f n a).length = a.length := by
  induction a with
  | nil => intro n; rfl
  | cons q a ih => intro n; simp [seen, ih]

theorem seen_const {P Q : Type} (g : Q → P) (a : List Q) : ∀ n, seen (fun _ => g) n a = a.map g := by
  induction a with
  | nil => intro n; rfl
  | cons q a ih => intro n; simp [seen, ih]

/-- A prefix of the packets seen is what is seen of a prefix. -/
theorem seen_split {P Q : Type} {f : Nat → Q → P} {qs : List Q} {a b : List P} {n : Nat}
    (h : seen f n qs = a ++ b) : ∃ xs ys, qs = xs ++ ys ∧ a = seen f n xs ∧ b = seen f (n + xs.length) ys := by
  induction a generalizing qs n with
  | nil => exact ⟨[], qs, rfl, rfl, by simpa using h.symm⟩
  | cons x a ih =>
    cases qs with
    | nil => cases h
    | cons q qs =>
      simp only [seen, List.cons_append, List.cons.injEq] at h
      obtain ⟨xs, ys, rfl, rfl, rfl⟩ := ih h.2
      refine ⟨q :: xs, ys, rfl, by simp [seen, h.1], ?_⟩
      rw [show n + 1 + xs.length = n + (q :: xs).length by simp only [List.length_cons]; omega]

theorem mem_seen {P Q : Type} {f : Nat → Q → P} {qs : List Q} {p : P} :
    ∀ {n : Nat}, p ∈ seen f n qs → ∃ m q, q ∈ qs ∧ p = f m q := by
  induction qs with
  | nil => intro n h; cases h
  | cons q qs ih =>
    intro n h
    rcases List.mem_cons.1 h with rfl | h
    · exact ⟨n, q, by simp, rfl⟩
    · obtain ⟨m, q', h1, h2⟩ := ih h
      exact ⟨m, q', by simp [h1], h2⟩

theorem via_refuses {P Q σ : Type} {f : Nat → Q → P} {snk : Sink P σ} {qs : List Q} {n m : Nat}
    {d d' : σ} : Refuses (via f snk) (n, d) qs (m, d') ↔
      Refuses snk d (seen f n qs) d' ∧ m = n + qs.length := by
  constructor
  · rintro ⟨pre, q, ⟨k, s1⟩, rfl, ha, hq⟩
    obtain ⟨h1, rfl⟩ := via_accepts.1 ha
    simp only [via] at hq
    obtain ⟨⟨ok, d1⟩, g, hq⟩ := bind_eq_ok hq
    simp only [Except.ok.injEq, Prod.mk.injEq] at hq
    obtain ⟨rfl, rfl, rfl⟩ := hq
    exact ⟨⟨_, _, s1, by rw [seen_append]; rfl, h1, g⟩, by simp; omega⟩
  · rintro ⟨⟨pre, p, s1, e, ha, hp⟩, rfl⟩
    obtain ⟨xs, ys, rfl, rfl, e2⟩ := seen_split e
    match ys, e2 with
    | [q], e2 =>
      simp only [seen, List.cons.injEq, and_true] at e2
      subst e2
      refine ⟨xs, q, (n + xs.length, s1), rfl, via_accepts.2 ⟨ha, rfl⟩, ?_⟩
      simp [via, hp]; omega

theorem via_consumes {P Q σ : Type} {f : Nat → Q → P} {snk : Sink P σ} {qs cs : List Q} {n m : Nat}
    {d d' : σ} (h : Consumes (via f snk) (n, d) qs cs (m, d')) :
    Consumes snk d (seen f n qs) (seen f n cs) d' ∧ m = n + cs.length := by
  rcases consumes_iff.1 h with ⟨rfl, ha⟩ | ⟨rest, rfl, hr⟩
  · obtain ⟨h1, h2⟩ := via_accepts.1 ha
    exact ⟨consumes_iff.2 (.inl ⟨rfl, h1⟩), h2⟩
  · obtain ⟨h1, h2⟩ := via_refuses.1 hr
    exact ⟨consumes_iff.2 (.inr ⟨_, seen_append _ _ _ _, h1⟩), h2⟩

theorem consumes_via {P Q σ : Type} {f : Nat → Q → P} {snk : Sink P σ} {qs : List Q} {cs : List P}
    {n : Nat} {d d' : σ} (h : Consumes snk d (seen f n qs) cs d') :
    ∃ xs, cs = seen f n xs ∧ Consumes (via f snk) (n, d) qs xs (n + xs.length, d') := by
  rcases consumes_iff.1 h with ⟨rfl, ha⟩ | ⟨rest, e, hr⟩
  · exact ⟨qs, rfl, consumes_iff.2 (.inl ⟨rfl, via_accepts.2 ⟨ha, rfl⟩⟩)⟩
  · obtain ⟨xs, ys, rfl, rfl, _⟩ := seen_split e
    exact ⟨xs, rfl, consumes_iff.2 (.inr ⟨ys, rfl, via_refuses.2 ⟨hr, rfl⟩⟩)⟩

/-! The packet loop. -/

theorem feedLoop_of_consumes {P τ σ : Type} {src : Source P τ} {snk : Sink P σ} {t : τ} {ps : List P}
    (hy : Yields src t ps) : ∀ {fuel : Nat} {s s' : σ} {cs : List P}, ps.length < fuel →
      Consumes snk s ps cs s' → ∃ t', feedLoop src snk fuel t s = .ok (t', s') := by
  induction hy with
  | @stop t t' h =>
    intro fuel s s' cs hf hc
    cases fuel with
    | zero => omega
    | succ n =>
      cases hc
      exact ⟨t', by simp only [feedLoop, h, ok_bind]⟩
  | @more t t1 p ps h _ ih =>
    intro fuel s s' cs hf hc
    cases fuel with
    | zero => omega
    | succ n =>
      simp only [List.length_cons] at hf
      cases hc with
      | refuse g => exact ⟨t1, by simp only [feedLoop, h, ok_bind, g, Bool.false_eq_true, if_false]⟩
      | accept g hc =>
        obtain ⟨t', e⟩ := ih (fuel := n) (by omega) hc
        exact ⟨t', by simp only [feedLoop, h, ok_bind, g, if_true, e]⟩

/-- How a command ends: the start fails; or packets are consumed and the end is
handled. -/
theorem feedPackets_cases {P τ σ : Type} {src : Source P τ} {snk : Sink P σ} {t : τ} {ps : List P}
    (hy : Yields src t ps) {fuel : Nat} (hf : ps.length < fuel) {s s' : σ} {code : Nat}
    (h : feedPackets src snk fuel t s = .ok (code, s')) :
    (snk.start s = .ok (false, s') ∧ code = 1) ∨
    ∃ s1 s2 cs, snk.start s = .ok (true, s1) ∧ Consumes snk s1 ps cs s2 ∧
      snk.finish s2 = .ok s' ∧ code = snk.exitCode s' := by
  simp only [feedPackets] at h
  obtain ⟨⟨ok, s1⟩, h1, h⟩ := bind_eq_ok h
  cases ok with
  | false =>
    simp only [Bool.false_eq_true, if_false, Except.ok.injEq, Prod.mk.injEq] at h
    obtain ⟨rfl, rfl⟩ := h
    exact .inl ⟨h1, rfl⟩
  | true =>
    simp only [if_true] at h
    obtain ⟨⟨t', s2⟩, h2, h⟩ := bind_eq_ok h
    obtain ⟨s3, h3, h⟩ := bind_eq_ok h
    simp only [Except.ok.injEq, Prod.mk.injEq] at h
    obtain ⟨rfl, rfl⟩ := h
    obtain ⟨cs, hc⟩ := feedLoop_consumes src snk hy fuel s1 t' s2 hf h2
    exact .inr ⟨s1, s2, cs, h1, hc, h3, rfl⟩

theorem feedPackets_of {P τ σ : Type} {src : Source P τ} {snk : Sink P σ} {t : τ} {ps cs : List P}
    (hy : Yields src t ps) {fuel : Nat} (hf : ps.length < fuel) {s s1 s2 s' : σ}
    (h1 : snk.start s = .ok (true, s1)) (h2 : Consumes snk s1 ps cs s2)
    (h3 : snk.finish s2 = .ok s') :
    feedPackets src snk fuel t s = .ok (snk.exitCode s', s') := by
  obtain ⟨t', e⟩ := feedLoop_of_consumes hy hf h2
  simp only [feedPackets, h1, ok_bind, if_true, e, h3]

/-! The service filter. -/

section
open ServiceFilter Mirakc.Spec.ServiceFilter

theorem sf_back {σ : Type} {o : Opt} {snk : Sink Out σ} {is cs : List Input} {a b : St × σ}
    (h : Consumes (sink o snk) a is cs b) :
    ∃ items rest, is = cs ++ rest ∧ run o a.1 cs = .ok (b.1, items) ∧ items.length = cs.length ∧
      ((Accepts snk a.2 (sent items) b.2 ∧ run o a.1 is = .ok (b.1, items)) ∨
        Refuses snk a.2 (sent items) b.2) := by
  induction h with
  | eof => exact ⟨[], [], rfl, rfl, rfl, .inl ⟨.nil, rfl⟩⟩
  | @refuse s s' i is h =>
    simp only [sink] at h
    obtain ⟨⟨f, log, act⟩, h1, h⟩ := bind_eq_ok h
    refine ⟨[⟨i.packet, log, act⟩], is, rfl, ?_, rfl, ?_⟩
    · simp only [run, h1, ok_bind]
      cases act with
      | stop => simp only [Except.ok.injEq, Prod.mk.injEq] at h; simp [← h.2]
      | drop => simp at h
      | send x =>
        obtain ⟨⟨ok, d⟩, h2, h⟩ := bind_eq_ok h
        simp only [Except.ok.injEq, Prod.mk.injEq] at h; simp [← h.2]
    · cases act with
      | stop =>
        simp only [Except.ok.injEq, Prod.mk.injEq, true_and] at h
        subst h
        refine .inl ⟨.nil, ?_⟩
        simp only [run, h1, ok_bind, if_true]
      | drop => simp at h
      | send x =>
        obtain ⟨⟨ok, d⟩, h2, h⟩ := bind_eq_ok h
        simp only [Except.ok.injEq, Prod.mk.injEq] at h
        obtain ⟨rfl, rfl⟩ := h
        exact .inr (refuses_one h2)
  | @accept s s' s'' i is cs h _ ih =>
    obtain ⟨items, rest, i1, i2, i3, i4⟩ := ih
    simp only [sink] at h
    obtain ⟨⟨f, log, act⟩, h1, h⟩ := bind_eq_ok h
    have hs : act ≠ .stop := by rintro rfl; simp at h
    have hf : s'.1 = f := by
      cases act with
      | stop => exact absurd rfl hs
      | drop => simp only [Except.ok.injEq, Prod.mk.injEq] at h; simp [← h.2]
      | send x =>
        obtain ⟨⟨ok, d⟩, h2, h⟩ := bind_eq_ok h
        simp only [Except.ok.injEq, Prod.mk.injEq] at h; simp [← h.2]
    rw [hf] at i2 i4
    have hrun : ∀ is, run o f is = .ok (s''.1, items) →
        run o s.1 (i :: is) = .ok (s''.1, ⟨i.packet, log, act⟩ :: items) := by
      intro is hr
      simp only [run, h1, ok_bind, hs, if_false, hr]
    refine ⟨⟨i.packet, log, act⟩ :: items, rest, by simp [i1], hrun _ i2, by simp [i3], ?_⟩
    cases act with
    | stop => exact absurd rfl hs
    | drop =>
      simp only [Except.ok.injEq, Prod.mk.injEq, true_and] at h
      subst h
      rw [sent_cons]
      rcases i4 with ⟨h2, h3⟩ | h2
      · exact .inl ⟨h2, hrun _ h3⟩
      · exact .inr h2
    | send x =>
      obtain ⟨⟨ok, d⟩, h2, h⟩ := bind_eq_ok h
      simp only [Except.ok.injEq, Prod.mk.injEq] at h
      obtain ⟨rfl, rfl⟩ := h
      rw [sent_cons]
      rcases i4 with ⟨h3, h4⟩ | h3
      · exact .inl ⟨.cons h2 h3, hrun _ h4⟩
      · exact .inr (refuses_cons h2 h3)

theorem sf_accept {σ : Type} {o : Opt} {snk : Sink Out σ} : ∀ {is : List Input} {s f : St}
    {items : List Item} {d d' : σ}, run o s is = .ok (f, items) → Accepts snk d (sent items) d' →
    Consumes (sink o snk) (s, d) is (is.take items.length) (f, d') := by
  intro is
  induction is with
  | nil =>
    intro s f items d d' h ha
    simp only [run, Except.ok.injEq, Prod.mk.injEq] at h
    obtain ⟨rfl, rfl⟩ := h
    cases ha
    exact .eof
  | cons i is ih =>
    intro s f items d d' h ha
    obtain ⟨s1, log, act, h1, h⟩ := run_cons h
    rcases h with ⟨rfl, rfl, rfl⟩ | ⟨hs, rest, h2, rfl⟩
    · cases ha
      exact .refuse (by simp [sink, h1])
    · simp only [List.length_cons, List.take_succ_cons]
      rw [sent_cons] at ha
      cases act with
      | stop => exact absurd rfl hs
      | drop => exact .accept (s' := (s1, d)) (by simp [sink, h1]) (ih h2 ha)
      | send x =>
        cases ha with
        | @cons _ d1 _ _ _ g1 g2 => exact .accept (s' := (s1, d1)) (by simp [sink, h1, g1]) (ih h2 g2)

theorem sf_refuse {σ : Type} {o : Opt} {snk : Sink Out σ} : ∀ {is : List Input} {s f : St}
    {items : List Item} {d d' : σ} {xs rest : List Out}, run o s is = .ok (f, items) →
    sent items = xs ++ rest → Refuses snk d xs d' →
    ∃ cs f', Consumes (sink o snk) (s, d) is cs (f', d') := by
  intro is
  induction is with
  | nil =>
    intro s f items d d' xs rest h e hr
    simp only [run, Except.ok.injEq, Prod.mk.injEq] at h
    obtain ⟨rfl, rfl⟩ := h
    obtain ⟨pre, p, _, rfl, _⟩ := hr
    simp [sent] at e
  | cons i is ih =>
    intro s f items d d' xs rest h e hr
    obtain ⟨s1, log, act, h1, h⟩ := run_cons h
    have hne : xs ≠ [] := by obtain ⟨pre, p, _, rfl, _⟩ := hr; simp
    rcases h with ⟨rfl, rfl, rfl⟩ | ⟨hs, its, h2, rfl⟩
    · exfalso
      cases xs with
      | nil => exact hne rfl
      | cons => rw [sent_cons] at e; cases e
    · rw [sent_cons] at e
      cases act with
      | stop => exact absurd rfl hs
      | drop =>
        obtain ⟨cs, f', hc⟩ := ih h2 e hr
        exact ⟨i :: cs, f', .accept (s' := (s1, d)) (by simp [sink, h1]) hc⟩
      | send x =>
        obtain ⟨pre, p, d1, rfl, ha, hp⟩ := hr
        cases ha with
        | nil =>
          simp [sentOf] at e
          obtain ⟨rfl, _⟩ := e
          exact ⟨[i], s1, .refuse (by simp [sink, h1, hp])⟩
        | @cons _ d2 _ q pre g1 g2 =>
          simp [sentOf] at e
          obtain ⟨rfl, e⟩ := e
          obtain ⟨cs, f', hc⟩ := ih (xs := pre ++ [p]) (rest := rest) h2 (by simpa using e) ⟨pre, p, d1, rfl, g2, hp⟩
          exact ⟨i :: cs, f', .accept (s' := (s1, d2)) (by simp [sink, h1, g1]) hc⟩

/-- A sink connected to the filter that consumes all that is sent keeps the command from
no end. -/
theorem sf_forward {σ : Type} {o : Opt} {snk : Sink Out σ} {is : List Input} {s f : St}
    {items : List Item} {d d' : σ} {xs : List Out} (h : run o s is = .ok (f, items))
    (hc : Consumes snk d (sent items) xs d') :
    ∃ cs f', Consumes (sink o snk) (s, d) is cs (f', d') := by
  rcases consumes_iff.1 hc with ⟨_, ha⟩ | ⟨rest, e, hr⟩
  · exact ⟨_, f, sf_accept h ha⟩
  · exact sf_refuse h e hr

end

/-! The program filter. -/

section
open ProgramFilter Mirakc.Spec.ProgramFilter

theorem sendAll_spec {σ : Type} {snk : Sink Out σ} : ∀ {xs : List Out} {d d' : σ} {ok : Bool},
    sendAll snk xs d = .ok (ok, d') →
    (ok = true ∧ Accepts snk d xs d') ∨ (ok = false ∧ ∃ ys, ys <+: xs ∧ Refuses snk d ys d') := by
  intro xs
  induction xs with
  | nil =>
    intro d d' ok h
    simp only [sendAll, Except.ok.injEq, Prod.mk.injEq] at h
    obtain ⟨rfl, rfl⟩ := h
    exact .inl ⟨rfl, .nil⟩
  | cons x xs ih =>
    intro d d' ok h
    simp only [sendAll] at h
    obtain ⟨⟨ok1, d1⟩, h1, h⟩ := bind_eq_ok h
    cases ok1 with
    | true =>
      simp only [if_true] at h
      rcases ih h with ⟨rfl, ha⟩ | ⟨rfl, ys, hp, hr⟩
      · exact .inl ⟨rfl, .cons h1 ha⟩
      · exact .inr ⟨rfl, x :: ys, by simpa using hp, refuses_cons h1 hr⟩
    | false =>
      simp only [Bool.false_eq_true, if_false, Except.ok.injEq, Prod.mk.injEq] at h
      obtain ⟨rfl, rfl⟩ := h
      exact .inr ⟨rfl, [x], ⟨xs, rfl⟩, refuses_one h1⟩

theorem sendAll_accepts {σ : Type} {snk : Sink Out σ} {xs : List Out} {d d' : σ}
    (h : Accepts snk d xs d') : sendAll snk xs d = .ok (true, d') := by
  induction h with
  | nil => rfl
  | cons h _ ih => simp only [sendAll, h, ok_bind, if_true, ih]

/-- The sink connected to the filter, whose state is `s` after `items`, refuses one of the packets of
the PAT with which the programme would start, if the filter did not fail afterwards. -/
def StartRefused {σ : Type} (extra : Pmt → Nat) (o : Opt) (snk : Sink Out σ) (s : St) (items : List Item)
    (i : Input) (a b : σ) : Prop :=
  (∀ it ∈ items, it.more = true) ∧ (∃ e, step extra o s i = .error e) ∧
    ∃ ys, ys ≠ [] ∧ ys <+: announced o s i ∧ Refuses snk a (sent items ++ ys) b

theorem pf_back {σ : Type} {extra : Pmt → Nat} {o : Opt} {snk : Sink Out σ} {is cs : List Input}
    {a b : St × σ} (h : Consumes (sink extra o snk) a is cs b) :
    ∃ items rest, is = cs ++ rest ∧
      ((run extra o a.1 cs = .ok (b.1, items) ∧ items.length = cs.length ∧
        ((Accepts snk a.2 (sent items) b.2 ∧ run extra o a.1 is = .ok (b.1, items)) ∨
          ∃ xs, xs <+: sent items ∧ Refuses snk a.2 xs b.2)) ∨
       ∃ pre i, cs = pre ++ [i] ∧ run extra o a.1 pre = .ok (b.1, items) ∧ items.length = pre.length ∧
        StartRefused extra o snk b.1 items i a.2 b.2) := by
  induction h with
  | eof => exact ⟨[], [], rfl, .inl ⟨rfl, rfl, .inl ⟨.nil, rfl⟩⟩⟩
  | @refuse s s' i is h =>
    rcases sink_cases h with ⟨log, outs, more, ok, h1, h2, hk⟩ | ⟨_, h0, h1, h2⟩
    · refine ⟨[⟨i.packet, log, outs, more⟩], is, rfl, .inl ⟨?_, rfl, ?_⟩⟩
      · simp only [run, h1, ok_bind]
        split <;> simp [run]
      · have e : sent [⟨i.packet, log, outs, more⟩] = outs := by simp [sent]
        rw [e]
        rcases sendAll_spec h2 with ⟨rfl, ha⟩ | ⟨rfl, ys, hp, hr⟩
        · have : more = false := by simpa using hk.symm
          subst this
          exact .inl ⟨ha, by simp [run, h1]⟩
        · exact .inr ⟨ys, hp, hr⟩
    · rcases sendAll_spec h2 with ⟨h, _⟩ | ⟨_, ys, hp, hr⟩
      · cases h
      · refine ⟨[], is, rfl, .inr ⟨[], i, rfl, by rw [h0]; rfl, rfl, by simp, by rw [h0]; exact h1, ys, ?_,
          by rw [h0]; exact hp, by simpa [sent] using hr⟩⟩
        rintro rfl
        obtain ⟨_, _, _, h, _⟩ := hr
        simp at h
  | @accept s s' s'' i is cs h _ ih =>
    obtain ⟨items, rest, i1, i4⟩ := ih
    rcases sink_cases h with ⟨log, outs, more, ok, h1, h2, hk⟩ | ⟨h0, _⟩
    case inr => cases h0
    simp only [Bool.true_eq, Bool.and_eq_true] at hk
    obtain ⟨rfl, rfl⟩ := hk
    have hrun : ∀ is, run extra o s'.1 is = .ok (s''.1, items) →
        run extra o s.1 (i :: is) = .ok (s''.1, ⟨i.packet, log, outs, true⟩ :: items) := by
      intro is hr
      simp only [run, h1, ok_bind, if_true, hr]
    refine ⟨⟨i.packet, log, outs, true⟩ :: items, rest, by simp [i1], ?_⟩
    have e : sent (⟨i.packet, log, outs, true⟩ :: items) = outs ++ sent items := by simp [sent]
    rcases sendAll_spec h2 with ⟨_, ha⟩ | ⟨hk, _⟩
    case inr => cases hk
    rcases i4 with ⟨i2, i3, i4⟩ | ⟨pre, j, rfl, i2, i3, i4, i5, ys, i6, i7, i8⟩
    · refine .inl ⟨hrun _ i2, by simp [i3], ?_⟩
      rw [e]
      rcases i4 with ⟨h3, h4⟩ | ⟨xs, hp, hr⟩
      · exact .inl ⟨accepts_append ha h3, hrun _ h4⟩
      · exact .inr ⟨outs ++ xs, (List.prefix_append_right_inj outs).2 hp, refuses_append ha hr⟩
    · refine .inr ⟨i :: pre, j, rfl, hrun _ i2, by simp [i3], ?_, i5, ys, i6, i7, ?_⟩
      · intro it hit
        rcases List.mem_cons.1 hit with rfl | hit
        · rfl
        · exact i4 it hit
      · rw [e, List.append_assoc]
        exact refuses_append ha i8

theorem accepts_split {P σ : Type} {snk : Sink P σ} {a b : List P} : ∀ {s s2 : σ},
    Accepts snk s (a ++ b) s2 → ∃ s1, Accepts snk s a s1 ∧ Accepts snk s1 b s2 := by
  induction a with
  | nil => intro s s2 h; exact ⟨s, .nil, h⟩
  | cons p a ih =>
    intro s s2 h
    cases h with
    | cons h1 h2 =>
      obtain ⟨s1, g1, g2⟩ := ih h2
      exact ⟨s1, .cons h1 g1, g2⟩

theorem pf_accept {σ : Type} {extra : Pmt → Nat} {o : Opt} {snk : Sink Out σ} :
    ∀ {is : List Input} {s f : St} {items : List Item} {d d' : σ},
    run extra o s is = .ok (f, items) → Accepts snk d (sent items) d' →
    Consumes (sink extra o snk) (s, d) is (is.take items.length) (f, d') := by
  intro is
  induction is with
  | nil =>
    intro s f items d d' h ha
    simp only [run, Except.ok.injEq, Prod.mk.injEq] at h
    obtain ⟨rfl, rfl⟩ := h
    cases ha
    exact .eof
  | cons i is ih =>
    intro s f items d d' h ha
    obtain ⟨s1, log, outs, more, h1, h⟩ := run_cons h
    rcases h with ⟨rfl, rfl, rfl⟩ | ⟨rfl, rest, h2, rfl⟩
    · have ha : Accepts snk d outs d' := by simpa [sent] using ha
      exact .refuse (by rw [handle_of_ok h1 (sendAll_accepts ha)]; rfl)
    · have ha : Accepts snk d (outs ++ sent rest) d' := by simpa [sent] using ha
      obtain ⟨d1, g1, g2⟩ := accepts_split ha
      simp only [List.length_cons, List.take_succ_cons]
      exact .accept (s' := (s1, d1)) (by rw [handle_of_ok h1 (sendAll_accepts g1)]; rfl) (ih h2 g2)

end

/-! The start seeker. -/

section
open StartSeeker Mirakc.Spec.StartSeeker

theorem seek_sendAll {σ : Type} {snk : Sink Packet σ} {xs : List Packet} {d d' : σ}
    (h : Accepts snk d xs d') : StartSeeker.sendAll snk xs d = .ok (true, d') := by
  induction h with
  | nil => rfl
  | cons h _ ih => simp only [StartSeeker.sendAll, h, ok_bind, if_true, ih]

theorem perform_accepts {σ : Type} {snk : Sink Packet σ} {act : StartSeeker.Act} {d d' : σ}
    (h : Accepts snk d (Act.out act) d') : perform snk d act = .ok (true, d') := by
  cases act with
  | hold => cases h; rfl
  | lead q l =>
    cases h with
    | cons h1 h2 => simp only [perform, h1, ok_bind, seek_sendAll h2]
  | burst l =>
    have h : Accepts snk d l d' := h
    simp only [perform, seek_sendAll h, ok_bind]
  | pass p =>
    cases h with
    | cons h1 h2 => cases h2; exact h1

theorem seek_accept {σ : Type} {o : StartSeeker.Opt} {snk : Sink Packet σ} :
    ∀ {is : List Input} {s f : StartSeeker.St} {items : List StartSeeker.Item} {d d' : σ},
    StartSeeker.run o s is = .ok (f, items) → Accepts snk d (sent items) d' →
    Accepts (StartSeeker.sink o snk) (s, d) is (f, d') := by
  intro is
  induction is with
  | nil =>
    intro s f items d d' h ha
    simp only [StartSeeker.run, Except.ok.injEq, Prod.mk.injEq] at h
    obtain ⟨rfl, rfl⟩ := h
    cases ha
    exact .nil
  | cons i is ih =>
    intro s f items d d' h ha
    simp only [StartSeeker.run] at h
    obtain ⟨⟨s1, log, act⟩, h1, h⟩ := bind_eq_ok h
    obtain ⟨⟨s2, its⟩, h2, h⟩ := bind_eq_ok h
    simp only [Except.ok.injEq, Prod.mk.injEq] at h
    obtain ⟨rfl, rfl⟩ := h
    have ha : Accepts snk d (Act.out act ++ sent its) d' := by simpa [sent] using ha
    obtain ⟨d1, g1, g2⟩ := accepts_split ha
    exact .cons (s' := (s1, d1)) (by simp [StartSeeker.sink, h1, perform_accepts g1]) (ih h2 g2)

end

/-! Standard output. -/

/-- Without failing writes, nothing is refused. -/
theorem stdout_willing {writes : List Int} (hw : ∀ w ∈ writes, 0 ≤ w) {ps : List (List UInt8)}
    (hp : ∀ p ∈ ps, p.length = 188) {s : StdoutSink.St} :
    ¬ Refuses StdoutSink.sink (StdoutSink.init writes) ps s := by
  intro h
  obtain ⟨pre, p, s1, rfl, ha, hr⟩ := h
  have hi := StdoutSink.accepts_spec (StdoutSink.inv_init writes) ha (fun q hq => hp q (by simp [hq]))
  rcases StdoutSink.handle_spec hi p (hp p (by simp)) with ⟨s', h1, _⟩ | ⟨s', h1, h2⟩
  · change StdoutSink.handlePacket s1 p = _ at hr
    rw [h1] at hr; cases hr
  · obtain ⟨used, w, _, h4, h5⟩ := h2.oracle
    have := hw w (by rw [h5]; simp)
    omega

/-- Without failing writes, everything is accepted and written in the end. -/
theorem stdout_accepts {writes : List Int} (hw : ∀ w ∈ writes, 0 ≤ w) :
    ∀ {ps : List (List UInt8)}, (∀ p ∈ ps, p.length = 188) →
    ∃ s, Accepts StdoutSink.sink (StdoutSink.init writes) ps s := by
  have key : ∀ (ps : List (List UInt8)) F s, (∀ p ∈ ps, p.length = 188) →
      StdoutSink.Inv writes F s → ∃ s', Accepts StdoutSink.sink s ps s' := by
    intro ps
    induction ps with
    | nil => intro F s _ _; exact ⟨s, .nil⟩
    | cons p ps ih =>
      intro F s hp hi
      rcases StdoutSink.handle_spec hi p (hp p (by simp)) with ⟨s', h1, h2⟩ | ⟨s', h1, h2⟩
      · obtain ⟨s'', h3⟩ := ih _ s' (fun q hq => hp q (by simp [hq])) h2
        exact ⟨s'', .cons h1 h3⟩
      · obtain ⟨used, w, _, h4, h5⟩ := h2.oracle
        have := hw w (by rw [h5]; simp)
        omega
  intro ps hp
  exact key _ _ _ hp (StdoutSink.inv_init writes)

theorem stdout_flush {writes : List Int} (hw : ∀ w ∈ writes, 0 ≤ w) {ps : List (List UInt8)}
    (hp : ∀ p ∈ ps, p.length = 188) {s : StdoutSink.St}
    (h : Accepts StdoutSink.sink (StdoutSink.init writes) ps s) :
    (StdoutSink.flush s).2.out = ps.flatten := by
  have hi := StdoutSink.accepts_spec (StdoutSink.inv_init writes) h hp
  rw [List.nil_append] at hi
  obtain ⟨h1, h2, used0, h3, h4⟩ := hi
  obtain ⟨used, h | h⟩ := StdoutSink.flush_spec s
  · obtain ⟨rest, _, _, h7⟩ := h
    simp [h7, h2]
  · obtain ⟨rest, k, w, _, h6, h7, _⟩ := h
    have := hw w (by rw [h4, h6]; simp)
    omega

/-! The frames of the input. -/

theorem packets_yield {reads : List (List UInt8)} (hr : ∀ r ∈ reads, r.length ≤ 16384)
    {ps : List (List UInt8)} (h : Packets (streamOf reads) ps) :
    Yields FileSource.source (FileSource.init reads) ps := by
  obtain ⟨offs, h1, rfl⟩ := h
  obtain ⟨offs', h2, hy⟩ := FileSource.yields_init reads hr
  rw [FileSource.Frames.unique h1 h2]
  exact hy

theorem frames_slice {bs : List UInt8} {o : Nat} {offs : List Nat} (h : Frames bs o offs) :
    ∀ p ∈ offs.map (slice bs), p.length = 188 := by
  induction h with
  | done => simp
  | @packet o os h1 h2 _ ih =>
    intro p hp
    rw [List.map_cons] at hp
    rcases List.mem_cons.1 hp with rfl | hp
    · simp only [slice, List.length_take, List.length_drop]; omega
    · exact ih p hp
  | short => simp
  | lost => simp
  | @skip o os i h1 h2 h3 h4 h5 _ ih =>
    intro p hp
    rw [List.map_cons] at hp
    rcases List.mem_cons.1 hp with rfl | hp
    · simp only [slice, List.length_take, List.length_drop]; omega
    · exact ih p hp

theorem packets_188 {bs : List UInt8} {ps : List (List UInt8)} (h : Packets bs ps) :
    ∀ p ∈ ps, p.length = 188 := by
  obtain ⟨offs, h1, rfl⟩ := h
  exact frames_slice h1

theorem packets_length {bs : List UInt8} {ps : List (List UInt8)} (h : Packets bs ps) :
    ps.length ≤ bs.length := by
  obtain ⟨offs, h1, rfl⟩ := h
  have := FileSource.frames_length h1
  simpa using this

theorem packets_exist {reads : List (List UInt8)} (hr : ∀ r ∈ reads, r.length ≤ 16384) :
    ∃ ps, Packets (streamOf reads) ps := by
  obtain ⟨offs, h, _⟩ := FileSource.yields_init reads hr
  exact ⟨_, offs, h, rfl⟩

theorem seen_input (c : Codec) (tabs : Nat → List Table) (ps : List (List UInt8)) :
    ∀ n, (seen (input c tabs) n ps).map (·.packet) = ps.map c.packet := by
  induction ps with
  | nil => intro n; rfl
  | cons b ps ih => intro n; simp [seen, ih, input]

theorem seen_take {P Q : Type} (f : Nat → Q → P) (qs : List Q) : ∀ n k,
    (seen f n qs).take k = seen f n (qs.take k) := by
  induction qs with
  | nil => intro n k; simp [seen]
  | cons q qs ih =>
    intro n k
    cases k with
    | zero => simp [seen]
    | succ k => simp [seen, ih]

/-- What the service filter sends, as bytes. -/
theorem derived_selected {c : Codec} (hc : Faithful c) : ∀ {bs : List (List UInt8)}
    {os : List ServiceFilter.Out}, (∀ b ∈ bs, b.length = 188) →
    Spec.ServiceFilter.Derived (bs.map c.packet) os → Selected c bs (os.map (outBytes c)) := by
  intro bs
  induction bs with
  | nil => intro os _ h; cases h; exact .nil
  | cons b bs ih =>
    intro os hb h
    have hb' : ∀ b ∈ bs, b.length = 188 := fun x hx => hb x (by simp [hx])
    generalize e : (b :: bs).map c.packet = l at h
    cases h with
    | nil => cases e
    | drop h =>
      simp only [List.map_cons, List.cons.injEq] at e
      obtain ⟨rfl, rfl⟩ := e
      exact .drop (ih hb' h)
    | keep h0 h =>
      simp only [List.map_cons, List.cons.injEq] at e
      obtain ⟨rfl, rfl⟩ := e
      simp only [List.map_cons, outBytes, hc.keep b (hb b (by simp))]
      exact .keep h0 (ih hb' h)
    | pat h0 h =>
      simp only [List.map_cons, List.cons.injEq] at e
      obtain ⟨rfl, rfl⟩ := e
      exact .pat h0 (ih hb' h)

theorem selected_188 {c : Codec} (hc : Faithful c) {bs os : List (List UInt8)}
    (h : Selected c bs os) (hb : ∀ b ∈ bs, b.length = 188) : ∀ x ∈ os, x.length = 188 := by
  induction h with
  | nil => simp
  | drop _ ih => exact ih (fun x hx => hb x (by simp [hx]))
  | @keep b bs os _ _ ih =>
    intro x hx
    rcases List.mem_cons.1 hx with rfl | hx
    · exact hb _ (by simp)
    · exact ih (fun x hx => hb x (by simp [hx])) x hx
  | pat _ _ ih =>
    intro x hx
    rcases List.mem_cons.1 hx with rfl | hx
    · exact hc.pat _ _
    · exact ih (fun x hx => hb x (by simp [hx])) x hx

/-- The history of the service filter on framed input. -/
theorem sf_selected {c : Codec} (hc : Faithful c) {tabs : Nat → List Table} {o : ServiceFilter.Opt}
    {ps : List (List UInt8)} (hp : ∀ p ∈ ps, p.length = 188) {f : ServiceFilter.St}
    {items : List ServiceFilter.Item}
    (h : ServiceFilter.run o (ServiceFilter.init o) (seen (input c tabs) 0 ps) = .ok (f, items)) :
    Selected c (ps.take items.length) ((Spec.ServiceFilter.sent items).map (outBytes c)) := by
  have h1 := (ServiceFilter.run_shape _ _ _ _ h).1
  have h2 := ServiceFilter.run_derived _ _ _ [] _ (ServiceFilter.inv_init o) h
  rw [h1, seen_take, seen_input] at h2
  exact derived_selected hc (fun b hb => hp b (List.mem_of_mem_take hb)) h2

/-- What the service filter sends: packets of the input not on PID 0, and PATs that list
exactly the service, at a PMT PID at which a received PAT lists it. -/
theorem sf_sent {o : ServiceFilter.Opt} {is : List Input} {f : ServiceFilter.St}
    {items : List ServiceFilter.Item}
    (h : ServiceFilter.run o (ServiceFilter.init o) is = .ok (f, items)) :
    ∀ x ∈ Spec.ServiceFilter.sent items,
      (∃ i ∈ is, i.packet.pid ≠ 0 ∧ x = .orig i.packet) ∨
      ∃ p k, x = .pat p k ∧ ∃ t ∈ Spec.ServiceFilter.received items, ∃ pat,
        Spec.ServiceFilter.usablePat t = some pat ∧ Spec.ServiceFilter.Restricted o.sid pat p := by
  intro x hx
  have h1 := (ServiceFilter.run_shape _ _ _ _ h).1
  have h2 := ServiceFilter.run_derived _ _ _ [] _ (ServiceFilter.inv_init o) h
  have key : ∀ {l : List Packet} {os : List ServiceFilter.Out}, Spec.ServiceFilter.Derived l os →
      ∀ p, .orig p ∈ os → p ∈ l ∧ p.pid ≠ 0 := by
    intro l os hd
    induction hd with
    | nil => intro p hp; cases hp
    | drop _ ih => intro p hp; exact ⟨by simp [(ih p hp).1], (ih p hp).2⟩
    | keep h0 _ ih =>
      intro p hp
      rcases List.mem_cons.1 hp with e | hp
      · cases e; exact ⟨by simp, h0⟩
      · exact ⟨by simp [(ih p hp).1], (ih p hp).2⟩
    | pat _ _ ih =>
      intro p hp
      rcases List.mem_cons.1 hp with e | hp
      · cases e
      · exact ⟨by simp [(ih p hp).1], (ih p hp).2⟩
  cases x with
  | orig p =>
    obtain ⟨h3, h4⟩ := key h2 p hx
    rw [h1] at h3
    obtain ⟨i, hi, rfl⟩ := List.mem_map.1 h3
    exact .inl ⟨i, List.mem_of_mem_take hi, h4, rfl⟩
  | pat p k =>
    right
    refine ⟨p, k, rfl, ?_⟩
    obtain ⟨it, hit, hs⟩ := List.mem_filterMap.1 hx
    obtain ⟨pre, post, rfl⟩ := List.append_of_mem hit
    obtain ⟨s1, s2, i, _, _, _, _, _, h6⟩ :=
      (ServiceFilter.run_spec is _ _ [] _ (ServiceFilter.inv_init o) h).2 pre it post rfl
    have ha : it.act = .send (.pat p k) := by
      unfold Spec.ServiceFilter.sentOf at hs
      split at hs
      · next e => rw [e]; cases hs; rfl
      · cases hs
    obtain ⟨_, _, _, pat, hl, hr⟩ := h6.pat p k ha
    obtain ⟨t, ht, hu⟩ := ServiceFilter.latest_mem hl
    refine ⟨t, ?_, pat, hu, hr⟩
    simp only [List.nil_append] at ht
    rcases List.mem_append.1 ht with ht | ht
    · simp only [Spec.ServiceFilter.received, List.flatMap_append, List.mem_append]
      exact .inl ht
    · simp only [Spec.ServiceFilter.received, List.flatMap_append, List.mem_append, List.flatMap_cons]
      exact .inr (.inl ht)

theorem _root_.Mirakc.Spec.Pipeline.Reading.yields {reads ps fuel} (h : Reading reads ps fuel) :
    Yields FileSource.source (FileSource.init reads) ps := packets_yield h.fits h.packets
theorem _root_.Mirakc.Spec.Pipeline.Reading.len {reads ps fuel} (h : Reading reads ps fuel) :
    ps.length < fuel := Nat.lt_of_le_of_lt (packets_length h.packets) h.bound

theorem consumes_prefix {P σ : Type} {snk : Sink P σ} {s s' : σ} {ps cs : List P}
    (h : Consumes snk s ps cs s') : cs <+: ps := by
  rcases consumes_iff.1 h with ⟨rfl, _⟩ | ⟨rest, rfl, _⟩
  · exact List.prefix_refl _
  · exact List.prefix_append _ _


/-- How a command with a sink behind the service filter ends. -/
theorem behind {σ : Type} {c : Codec} {tabs : Nat → List Table} {sid : Nat}
    {snk : Sink ServiceFilter.Out σ} {reads ps : List (List UInt8)} {fuel : Nat}
    (hr : Reading reads ps fuel) {d0 d : σ} {code n : Nat} {f0 f : ServiceFilter.St}
    (h : exec (via (input c tabs) (ServiceFilter.sink { sid := sid } snk)) fuel reads (0, f0, d0) =
      .ok (code, n, f, d)) :
    (snk.start d0 = .ok (false, d) ∧ code = 1 ∧ f = f0) ∨
    ∃ cs items d1 d2, cs <+: ps ∧
      ServiceFilter.run { sid := sid } f0 (seen (input c tabs) 0 cs) = .ok (f, items) ∧
      items.length = cs.length ∧ snk.start d0 = .ok (true, d1) ∧ snk.finish d2 = .ok d ∧
      code = (if snk.exitCode d = 0 then (if f.error = true then 1 else 0) else snk.exitCode d) ∧
      ((Accepts snk d1 (Spec.ServiceFilter.sent items) d2 ∧
        ServiceFilter.run { sid := sid } f0 (seen (input c tabs) 0 ps) = .ok (f, items)) ∨
        Refuses snk d1 (Spec.ServiceFilter.sent items) d2) := by
  rcases feedPackets_cases hr.yields hr.len h with ⟨h1, rfl⟩ | ⟨⟨n1, f1, d1⟩, ⟨n2, f2, d2⟩, cs, h1, h2, h3, h4⟩
  · left
    simp only [via, ServiceFilter.sink] at h1
    obtain ⟨⟨ok, x⟩, g1, h1⟩ := bind_eq_ok h1
    obtain ⟨⟨ok', y⟩, g2, g1⟩ := bind_eq_ok g1
    simp only [Except.ok.injEq, Prod.mk.injEq] at g1 h1
    obtain ⟨rfl, rfl, rfl⟩ := g1
    obtain ⟨rfl, rfl, rfl, rfl⟩ := h1
    exact ⟨g2, rfl, rfl⟩
  · right
    simp only [via, ServiceFilter.sink] at h1
    obtain ⟨⟨ok, x⟩, g1, h1⟩ := bind_eq_ok h1
    obtain ⟨⟨ok', y⟩, g2, g1⟩ := bind_eq_ok g1
    simp only [Except.ok.injEq, Prod.mk.injEq] at g1 h1
    obtain ⟨rfl, rfl, rfl⟩ := g1
    obtain ⟨rfl, rfl, rfl, rfl⟩ := h1
    simp only [via, ServiceFilter.sink] at h3
    obtain ⟨x, g3, h3⟩ := bind_eq_ok h3
    obtain ⟨y, g4, g3⟩ := bind_eq_ok g3
    simp only [Except.ok.injEq, Prod.mk.injEq] at g3 h3
    subst g3
    obtain ⟨rfl, rfl, rfl⟩ := h3
    obtain ⟨items, rest, k1, k2, k3, k4⟩ := sf_back (via_consumes h2).1
    rw [seen_length] at k3
    refine ⟨cs, items, _, d2, consumes_prefix h2, k2, k3, g2, g4, ?_, k4⟩
    rw [h4]
    simp [via, ServiceFilter.sink, exitSuccess, exitFailure]
    split <;> simp_all

/-- A command with a sink behind the service filter ends normally if the filter does on
the whole stream and the sink does on what the filter sends. -/
theorem behind_total {σ : Type} {c : Codec} {tabs : Nat → List Table} {sid : Nat}
    {snk : Sink ServiceFilter.Out σ} {reads ps : List (List UInt8)} {fuel : Nat}
    (hr : Reading reads ps fuel) {d0 d1 d2 d : σ} {f0 f : ServiceFilter.St}
    {items : List ServiceFilter.Item} {xs : List ServiceFilter.Out}
    (h : ServiceFilter.run { sid := sid } f0 (seen (input c tabs) 0 ps) = .ok (f, items))
    (h1 : snk.start d0 = .ok (true, d1))
    (h2 : Consumes snk d1 (Spec.ServiceFilter.sent items) xs d2) (h3 : snk.finish d2 = .ok d) :
    ∃ x, exec (via (input c tabs) (ServiceFilter.sink { sid := sid } snk)) fuel reads (0, f0, d0) =
      .ok x := by
  obtain ⟨cs, f', hc⟩ := sf_forward h h2
  obtain ⟨ys, _, hy⟩ := consumes_via hc
  exact ⟨_, feedPackets_of hr.yields hr.len (s' := (0 + ys.length, f', d))
    (by simp only [via, ServiceFilter.sink, h1, ok_bind]) hy
    (by simp only [via, ServiceFilter.sink, h3, ok_bind])⟩

/-- The bytes of what the service filter sends. -/
theorem sf_188 {c : Codec} (hc : Faithful c) {tabs : Nat → List Table} {o : ServiceFilter.Opt}
    {ps : List (List UInt8)} (hp : ∀ p ∈ ps, p.length = 188) {f : ServiceFilter.St}
    {items : List ServiceFilter.Item}
    (h : ServiceFilter.run o (ServiceFilter.init o) (seen (input c tabs) 0 ps) = .ok (f, items)) :
    ∀ x ∈ Spec.ServiceFilter.sent items, (outBytes c x).length = 188 := by
  intro x hx
  exact selected_188 hc (sf_selected hc hp h) (fun b hb => hp b (List.mem_of_mem_take hb)) _
    (List.mem_map_of_mem hx)

/-- Behind the service filter, packets of the PID of the PAT are those it made, without PCR. -/
theorem sf_noPcr {c : Codec} (hc : Faithful c) {tabs' : Nat → ServiceFilter.Out → List Table} {o : ServiceFilter.Opt}
    {is : List Input} {f : ServiceFilter.St} {items : List ServiceFilter.Item}
    (h : ServiceFilter.run o (ServiceFilter.init o) is = .ok (f, items)) (n : Nat) :
    ∀ i ∈ seen (between c tabs') n (Spec.ServiceFilter.sent items), i.packet.pid = 0 → i.packet.pcr = none := by
  intro i hi h0
  obtain ⟨m, x, hx, rfl⟩ := mem_seen hi
  rcases sf_sent h x hx with ⟨j, hj, h1, rfl⟩ | ⟨p, k, rfl, _⟩
  · exact absurd h0 h1
  · exact hc.patPcr p k

theorem sf_patFree {c : Codec} (hc : Faithful c) {tabs' : Nat → ServiceFilter.Out → List Table} {o : ServiceFilter.Opt}
    {is : List Input} {f : ServiceFilter.St} {items : List ServiceFilter.Item}
    (h : ServiceFilter.run o (ServiceFilter.init o) is = .ok (f, items)) {extra : Pmt → Nat} {o' : ProgramFilter.Opt}
    {g0 g : ProgramFilter.St} {items2 : List ProgramFilter.Item}
    (h2 : ProgramFilter.run extra o' g0 (seen (between c tabs') 0 (Spec.ServiceFilter.sent items)) = .ok (g, items2)) :
    Spec.ProgramFilter.PatFree o' items2 := by
  rintro _ pre it post rfl h0 x ⟨_, _, _, hx⟩
  have hm : it.packet ∈ (pre ++ it :: post).map (·.packet) := by simp
  rw [(ProgramFilter.run_shape _ _ _ _ h2).1] at hm
  obtain ⟨i, hi, he⟩ := List.mem_map.1 hm
  have := sf_noPcr hc h 0 i (List.mem_of_mem_take hi) (by rw [he]; exact h0)
  rw [he, hx] at this
  cases this

/-- The fields and the bytes of a packet belong together. -/
theorem sf_same {c : Codec} (hc : Faithful c) {tabs : Nat → List Table} {o : ServiceFilter.Opt}
    {ps : List (List UInt8)} {f : ServiceFilter.St}
    {items : List ServiceFilter.Item}
    (h : ServiceFilter.run o (ServiceFilter.init o) (seen (input c tabs) 0 ps) = .ok (f, items)) :
    ∀ x ∈ Spec.ServiceFilter.sent items, c.bytes (outPacket c x) = outBytes c x := by
  intro x hx
  rcases sf_sent h x hx with ⟨i, hi, _, rfl⟩ | ⟨p, k, rfl, _⟩
  · rfl
  · exact hc.keep _ (hc.pat p k)

section
open ProgramFilter Mirakc.Spec.ProgramFilter

theorem handleTable_lastPat {o : Opt} {s s' : St} {t : Table} (h : handleTable o s t = .ok s') :
    s'.lastPat = s.lastPat := by
  have ev : ∀ {e : Event}, updateEventTime o s e = .ok s' → s'.lastPat = s.lastPat := by
    intro e h
    have h := (updateEventTime_ok h).2
    split at h
    · rw [range_spec h]
    · cases h; rfl
  unfold handleTable at h
  split at h
  · unfold handlePat at h
    split at h
    · cases h; rfl
    · split at h
      · cases h; rfl
      · split at h
        · cases h; rfl
        · split at h
          · cases h
          · cases h; rfl
  · unfold handlePmt at h
    split at h
    · cases h; rfl
    · split at h
      · cases h; rfl
      · simp only [Except.ok.injEq] at h
        subst h
        dsimp only
        split <;> rfl
  · unfold handleEit at h
    split at h
    · cases h; rfl
    · split at h
      · cases h; rfl
      · split at h
        · cases h; rfl
        · split at h
          · exact ev h
          · split at h
            · split at h <;> · cases h; rfl
            · split at h
              · exact ev h
              · split at h
                · cases h; rfl
                · split at h <;> · cases h; rfl
  · unfold handleTot at h
    split at h
    · cases h; rfl
    · have hl : ∀ time, (if !s.streaming then checkTimeLimit o s time else s).lastPat = s.lastPat := by
        intro time
        split
        · unfold checkTimeLimit
          split
          · rfl
          · split <;> rfl
        · rfl
      dsimp only at h
      generalize hs1 : (if (!s.streaming) = true then checkTimeLimit o s _ else s) = s1 at h
      have e1 : s1.lastPat = s.lastPat := by rw [← hs1]; exact hl _
      split at h
      · cases h; exact e1
      · unfold updateClockTime at h
        obtain ⟨_, _, h⟩ := bind_eq_ok h
        dsimp only at h
        split at h
        · rw [range_spec h]; exact e1
        · cases h; exact e1
  · cases h; rfl

theorem feedDemux_lastPat {o : Opt} {s s1 : St} {pid : Nat} {ts log : List Table}
    (h : feedDemux St.demux (handleTable o) pid ts s = .ok (s1, log)) :
    s1.lastPat = s.lastPat :=
  feedDemux_inv (fun s' _ => s'.lastPat = s.lastPat)
    (fun _ _ _ _ h1 _ _ h2 => (handleTable_lastPat h2).trans h1) ts s s1 log [] rfl h

/-- Packets passed on are the packet at hand or saved ones. -/
theorem decide_known {extra : Pmt → Nat} {o : Opt} {s s' : St} {p : Packet} {outs : List Out}
    {more : Bool} {Q : Packet → Prop} (hs : ∀ q ∈ s.lastPat, Q q) (hp : Q p)
    (h : (if s.streaming then doStreaming extra s p
        else waitReady extra o s p) = .ok (s', outs, more)) :
    (∀ q ∈ s'.lastPat, Q q) ∧ ∀ q, .orig q ∈ outs → Q q := by
  have sync : ∀ {a b : St} {x : Int}, syncClock a x = .ok b → b.lastPat = a.lastPat := by
    intro a b x h
    unfold syncClock at h
    split at h
    · unfold updateClockPcr at h
      obtain ⟨_, _, h⟩ := bind_eq_ok h
      dsimp only at h
      split at h
      · rw [range_spec h]
      · cases h; rfl
    · cases h; rfl
  have next : ∀ {a b : St} {x : Out}, nextPmt extra a = .ok (x, b) →
      b.lastPat = a.lastPat ∧ ∀ q, x ≠ .orig q := by
    intro a b x h
    unfold nextPmt at h
    obtain ⟨⟨y, pk⟩, h1, h⟩ := bind_eq_ok h
    obtain ⟨_, _, h⟩ := bind_eq_ok h
    simp only [Except.ok.injEq, Prod.mk.injEq] at h
    obtain ⟨rfl, rfl⟩ := h
    refine ⟨rfl, fun q e => ?_⟩
    unfold Packetizer.next at h1
    split at h1
    · cases h1
    · simp only [Except.ok.injEq, Prod.mk.injEq] at h1
      rw [← h1.1] at e; cases e
  have cyc : ∀ (fuel : Nat) {a b : St} {xs : List Out}, sendCycle extra fuel a = .ok (xs, b) →
      b.lastPat = a.lastPat ∧ ∀ q, .orig q ∉ xs := by
    intro fuel
    induction fuel with
    | zero => intro a b xs h; cases h
    | succ fuel ih =>
      intro a b xs h
      unfold sendCycle at h
      obtain ⟨⟨y, s1⟩, h1, h⟩ := bind_eq_ok h
      have e1 := next h1
      dsimp only at h
      split at h
      · simp only [Except.ok.injEq, Prod.mk.injEq] at h
        obtain ⟨rfl, rfl⟩ := h
        exact ⟨e1.1, fun q hq => e1.2 q (List.mem_singleton.1 hq).symm⟩
      · obtain ⟨⟨ys, s2⟩, h2, h⟩ := bind_eq_ok h
        simp only [Except.ok.injEq, Prod.mk.injEq] at h
        obtain ⟨rfl, rfl⟩ := h
        have e2 := ih h2
        refine ⟨e2.1.trans e1.1, fun q hq => ?_⟩
        rcases List.mem_cons.1 hq with hq | hq
        · exact e1.2 q hq.symm
        · exact e2.2 q hq
  have fwd : ∀ {a b : St} {xs : List Out} {m : Bool}, forward extra a p = .ok (b, xs, m) →
      b.lastPat = a.lastPat ∧ ∀ q, .orig q ∈ xs → Q q := by
    intro a b xs m h
    unfold forward at h
    split at h
    · obtain ⟨⟨y, s1⟩, h1, h⟩ := bind_eq_ok h
      simp only [Except.ok.injEq, Prod.mk.injEq] at h
      obtain ⟨rfl, rfl, rfl⟩ := h
      have e1 := next h1
      exact ⟨e1.1, fun q hq => absurd (List.mem_singleton.1 hq).symm (e1.2 q)⟩
    · split at h <;>
      · simp only [Except.ok.injEq, Prod.mk.injEq] at h
        obtain ⟨rfl, rfl, rfl⟩ := h
        refine ⟨rfl, fun q hq => ?_⟩
        first
        | cases hq; done
        | (have := List.mem_singleton.1 hq; cases this; exact hp)
  have done : ∀ {a : St} {xs : List Out} {m : Bool}, (∀ q ∈ a.lastPat, Q q) →
      (∀ q, .orig q ∈ xs → Q q) →
      (Except.ok (a, xs, m) : Except Fault _) = .ok (s', outs, more) →
      (∀ q ∈ s'.lastPat, Q q) ∧ ∀ q, .orig q ∈ outs → Q q := by
    intro a xs m h1 h2 h
    simp only [Except.ok.injEq, Prod.mk.injEq] at h
    obtain ⟨rfl, rfl, rfl⟩ := h
    exact ⟨h1, h2⟩
  have none : ∀ q, Out.orig q ∈ ([] : List Out) → Q q := by intro q h; cases h
  have one : ∀ q, Out.orig q ∈ [Out.orig p] → Q q := by
    intro q h; have := List.mem_singleton.1 h; cases this; exact hp
  split at h
  · unfold doStreaming at h
    split at h
    · exact done hs none h
    · split at h
      · split at h
        · exact done hs one h
        · obtain ⟨s1, h1, h⟩ := bind_eq_ok h
          have e1 := sync h1
          split at h
          · exact done (by rw [e1]; exact hs) one h
          · obtain ⟨c, _, h⟩ := bind_eq_ok h
            split at h
            · exact done (by rw [e1]; exact hs) none h
            · have e2 := fwd h
              exact ⟨by rw [e2.1, e1]; exact hs, e2.2⟩
      · have e2 := fwd h
        exact ⟨by rw [e2.1]; exact hs, e2.2⟩
  · rw [waitReady_eq] at h
    split at h
    · exact done (a := { s with retry := true }) hs none h
    · split at h
      · exact done hs one h
      · have hsv : ∀ q ∈ (savePat s p).lastPat, Q q := by
          intro q hq
          unfold savePat at hq
          split at hq
          · dsimp only at hq
            rcases List.mem_append.1 hq with hq | hq
            · split at hq
              · cases hq
              · exact hs q hq
            · rw [List.mem_singleton.1 hq]; exact hp
          · exact hs q hq
        dsimp only at h
        generalize savePat s p = s1 at h hsv
        split at h
        · exact done hsv none h
        · split at h
          · exact done hsv none h
          · split at h
            · exact done hsv none h
            · obtain ⟨s2, h1, h⟩ := bind_eq_ok h
              have e1 := sync h1
              rw [← e1] at hsv
              split at h
              · exact done hsv none h
              · obtain ⟨c, _, h⟩ := bind_eq_ok h
                split at h
                · exact done hsv none h
                · obtain ⟨c2, _, h⟩ := bind_eq_ok h
                  split at h
                  · exact done hsv none h
                  · obtain ⟨_, _, h⟩ := bind_eq_ok h
                    obtain ⟨⟨pmts, s3⟩, h3, h⟩ := bind_eq_ok h
                    have e3 := cyc _ h3
                    refine done (a := { s3 with streaming := true }) ?_ ?_ h
                    · intro q hq
                      have hq : q ∈ s3.lastPat := hq
                      rw [e3.1] at hq
                      split at hq
                      · exact hsv q hq
                      · cases hq
                    · intro q hq
                      simp only [List.mem_append, List.mem_singleton] at hq
                      rcases hq with (hq | hq) | hq
                      · split at hq
                        · cases hq
                        · obtain ⟨x, hx, e⟩ := List.mem_map.1 hq
                          cases e; exact hsv q hx
                      · exact absurd hq (e3.2 q)
                      · cases hq; exact hp

/-- What the program filter passes on are packets it received and generated packets. -/
theorem pf_sent {extra : Pmt → Nat} {o : Opt} {Q : Packet → Prop} : ∀ {is : List Input} {s f : St}
    {items : List Item}, (∀ q ∈ s.lastPat, Q q) → (∀ i ∈ is, Q i.packet) →
    run extra o s is = .ok (f, items) → ∀ q, .orig q ∈ sent items → Q q := by
  intro is
  induction is with
  | nil =>
    intro s f items _ _ h
    simp only [run, Except.ok.injEq, Prod.mk.injEq] at h
    obtain ⟨rfl, rfl⟩ := h
    intro q hq; cases hq
  | cons i is ih =>
    intro s f items hs hi h
    obtain ⟨s1, log, outs, more, h1, h⟩ := run_cons h
    obtain ⟨s0, h0, h1⟩ := step_split h1
    have hk := decide_known (by rw [feedDemux_lastPat h0]; exact hs) (hi i (by simp)) h1
    rcases h with ⟨rfl, rfl, rfl⟩ | ⟨rfl, rest, h2, rfl⟩
    · intro q hq
      have hq : .orig q ∈ outs := by simpa [sent] using hq
      exact hk.2 q hq
    · intro q hq
      have hq : .orig q ∈ outs ∨ .orig q ∈ sent rest := by simpa [sent] using hq
      rcases hq with hq | hq
      · exact hk.2 q hq
      · exact ih hk.1 (fun i hi' => hi i (by simp [hi'])) h2 q hq

/-- A refusal of the program filter is its own or that of the sink. -/
theorem pf_refuses {σ : Type} {extra : Pmt → Nat} {o : Opt} {snk : Sink Out σ} {is : List Input}
    {a b : St × σ} (h : Refuses (sink extra o snk) a is b) :
    ∃ items, (run extra o a.1 is = .ok (b.1, items) ∧ items.length = is.length ∧
      ((Accepts snk a.2 (sent items) b.2 ∧ ∃ pre it, items = pre ++ [it] ∧ it.more = false) ∨
        ∃ xs, xs <+: sent items ∧ Refuses snk a.2 xs b.2)) ∨
      ∃ pre i, is = pre ++ [i] ∧ run extra o a.1 pre = .ok (b.1, items) ∧ items.length = pre.length ∧
        StartRefused extra o snk b.1 items i a.2 b.2 := by
  have hne : is ≠ [] := by obtain ⟨pre, p, _, rfl, _⟩ := h; simp
  obtain ⟨i, hi⟩ : ∃ i, i ∈ is := List.exists_mem_of_ne_nil is hne
  have hc : Consumes (sink extra o snk) a (is ++ [i]) is b := consumes_iff.2 (.inr ⟨_, rfl, h⟩)
  obtain ⟨items, rest, h1, ⟨h2, h3, h4⟩ | h2⟩ := pf_back hc
  · refine ⟨items, .inl ⟨h2, h3, ?_⟩⟩
    rcases h4 with ⟨ha, hr⟩ | h4
    · exact .inl ⟨ha, (run_shape _ _ _ _ hr).2.2 (by simp [h3])⟩
    · exact .inr h4
  · exact ⟨items, .inr h2⟩

end

section
open StartSeeker Mirakc.Spec.StartSeeker

/-- What the seeker passes on or holds are packets it received. -/
theorem seek_sent {o : StartSeeker.Opt} {Q : Packet → Prop} : ∀ {is : List Input}
    {s f : StartSeeker.St} {items : List StartSeeker.Item}, (∀ q ∈ s.packets, Q q) →
    (∀ i ∈ is, Q i.packet) → StartSeeker.run o s is = .ok (f, items) →
    (∀ q ∈ sent items, Q q) ∧ ∀ q ∈ f.packets, Q q := by
  have tab : ∀ {a b : StartSeeker.St} {t : Table}, StartSeeker.handleTable o a t = .ok b →
      b.packets = a.packets := by
    intro a b t h
    unfold StartSeeker.handleTable at h
    split at h
    · unfold StartSeeker.handlePat at h
      split at h
      · cases h; rfl
      · split at h
        · cases h; rfl
        · split at h
          · cases h; rfl
          · split at h
            · cases h
            · cases h; rfl
    · unfold StartSeeker.handlePmt at h
      split at h
      · cases h; rfl
      · split at h
        · cases h; rfl
        · dsimp only at h
          split at h <;> · cases h; rfl
    · cases h; rfl
  have sk : ∀ {a b : StartSeeker.St} {p : Packet} {act : StartSeeker.Act}, (∀ q ∈ a.packets, Q q) →
      Q p → StartSeeker.seek o a p = .ok (b, act) → (∀ q ∈ b.packets, Q q) ∧ ∀ q ∈ Act.out act, Q q := by
    intro a b p act ha hp h
    have hap : ∀ q ∈ a.packets ++ [p], Q q := by
      intro q hq
      rcases List.mem_append.1 hq with hq | hq
      · exact ha q hq
      · rw [List.mem_singleton.1 hq]; exact hp
    have hold : ∀ q ∈ Act.out .hold, Q q := by intro q hq; cases hq
    have none : ∀ q ∈ ([] : List Packet), Q q := by intro q hq; cases hq
    unfold StartSeeker.seek at h
    dsimp only at h
    split at h
    · split at h
      · cases h
      · next q e =>
        simp only [Except.ok.injEq, Prod.mk.injEq] at h
        obtain ⟨rfl, rfl⟩ := h
        refine ⟨none, fun x hx => ?_⟩
        rcases List.mem_cons.1 hx with rfl | hx
        · exact hap _ (List.mem_of_getElem? e)
        · exact hap _ (List.mem_of_mem_drop hx)
    · split at h
      · simp only [Except.ok.injEq, Prod.mk.injEq] at h
        obtain ⟨rfl, rfl⟩ := h
        exact ⟨none, hap⟩
      · obtain ⟨_, _, h⟩ := bind_eq_ok h
        split at h
        · simp only [Except.ok.injEq, Prod.mk.injEq] at h
          obtain ⟨rfl, rfl⟩ := h
          exact ⟨hap, hold⟩
        · split at h
          · simp only [Except.ok.injEq, Prod.mk.injEq] at h
            obtain ⟨rfl, rfl⟩ := h
            exact ⟨hap, hold⟩
          · split at h
            · obtain ⟨_, _, h⟩ := bind_eq_ok h
              simp only [Except.ok.injEq, Prod.mk.injEq] at h
              obtain ⟨rfl, rfl⟩ := h
              exact ⟨hap, hold⟩
            · obtain ⟨c, _, h⟩ := bind_eq_ok h
              split at h
              · simp only [Except.ok.injEq, Prod.mk.injEq] at h
                obtain ⟨rfl, rfl⟩ := h
                exact ⟨hap, hold⟩
              · simp only [Except.ok.injEq, Prod.mk.injEq] at h
                obtain ⟨rfl, rfl⟩ := h
                exact ⟨none, hap⟩
  intro is
  induction is with
  | nil =>
    intro s f items hs _ h
    simp only [StartSeeker.run, Except.ok.injEq, Prod.mk.injEq] at h
    obtain ⟨rfl, rfl⟩ := h
    exact ⟨(by intro q hq; cases hq), hs⟩
  | cons i is ih =>
    intro s f items hs hi h
    simp only [StartSeeker.run] at h
    obtain ⟨⟨s1, log, act⟩, h1, h⟩ := bind_eq_ok h
    obtain ⟨⟨s2, its⟩, h2, h⟩ := bind_eq_ok h
    simp only [Except.ok.injEq, Prod.mk.injEq] at h
    obtain ⟨rfl, rfl⟩ := h
    have hk : (∀ q ∈ s1.packets, Q q) ∧ ∀ q ∈ Act.out act, Q q := by
      unfold StartSeeker.step at h1
      obtain ⟨⟨s0, log0⟩, h0, h1⟩ := bind_eq_ok h1
      have e0 : s0.packets = s.packets :=
        feedDemux_inv (fun s' _ => s'.packets = s.packets)
          (fun _ _ _ _ h1 _ _ h2 => (tab h2).trans h1) i.tables s s0 log0 [] rfl h0
      rw [← e0] at hs
      dsimp only at h1
      split at h1
      · simp only [Except.ok.injEq, Prod.mk.injEq] at h1
        obtain ⟨rfl, rfl, rfl⟩ := h1
        exact ⟨hs, fun q hq => by rw [List.mem_singleton.1 hq]; exact hi i (by simp)⟩
      · obtain ⟨⟨s3, act3⟩, h3, h1⟩ := bind_eq_ok h1
        simp only [Except.ok.injEq, Prod.mk.injEq] at h1
        obtain ⟨rfl, rfl, rfl⟩ := h1
        exact sk hs (hi i (by simp)) h3
    obtain ⟨k1, k2⟩ := ih hk.1 (fun j hj => hi j (by simp [hj])) h2
    refine ⟨fun q hq => ?_, k2⟩
    have hq : q ∈ Act.out act ∨ q ∈ sent its := by simpa [sent] using hq
    rcases hq with hq | hq
    · exact hk.2 q hq
    · exact k1 q hq

end


/-- A sequence of packets, framed. -/
theorem packets_flatten {ps : List (List UInt8)}
    (h : ∀ p ∈ ps, p.length = 188 ∧ p[0]? = some 0x47) : Packets ps.flatten ps := by
  have key : ∀ (ps : List (List UInt8)) (pre : List UInt8),
      (∀ p ∈ ps, p.length = 188 ∧ p[0]? = some 0x47) →
      ∃ offs, Frames (pre ++ ps.flatten) pre.length offs ∧ ps = offs.map (slice (pre ++ ps.flatten)) := by
    intro ps
    induction ps with
    | nil => intro pre _; exact ⟨[], .done (by simp), rfl⟩
    | cons p ps ih =>
      intro pre h
      obtain ⟨h1, h2⟩ := h p (by simp)
      obtain ⟨offs, h3, h4⟩ := ih (pre ++ p) (fun q hq => h q (by simp [hq]))
      have e : pre ++ (p :: ps).flatten = pre ++ p ++ ps.flatten := by simp
      rw [e]
      refine ⟨pre.length :: offs, .packet (by simp [h1]) ?_ (by simpa [h1] using h3), ?_⟩
      · rw [List.append_assoc, List.getElem?_append_right (by omega), Nat.sub_self,
          List.getElem?_append_left (by omega), h2]
      · rw [List.map_cons, ← h4]
        congr 1
        simp [slice, List.append_assoc, List.take_left' h1]
  obtain ⟨offs, h1, h2⟩ := key ps [] h
  exact ⟨offs, h1, h2⟩

end Mirakc.Pipeline
