import Verif.Spec.Foreign
import Verif.Proof.Main
/-
Lemmas: packets that do not matter.
-/
namespace Mirakc.Main
open Mirakc.Pipeline Mirakc.Spec Mirakc.Spec.Main Mirakc.Spec.Pipeline

/-- The packet loop on a list. -/
def foldP {P σ : Type} (snk : Sink P σ) : List P → σ → Except Fault σ
  | [], s => .ok s
  | p :: ps, s => do
    let (ok, s) ← snk.handle s p
    if ok then foldP snk ps s else .ok s

theorem feedLoop_fold {P σ : Type} (snk : Sink P σ) : ∀ (ps : List P) (s : σ),
    (feedLoop listSource snk (ps.length + 1) ps s).map (·.2) = foldP snk ps s
  | [], s => rfl
  | p :: ps, s => by
    have ih := feedLoop_fold snk ps
    simp only [feedLoop, listSource, foldP, List.length_cons]
    change Except.map (·.2) (snk.handle s p >>= fun x => if x.1 = true then feedLoop listSource snk (ps.length + 1) ps x.2 else .ok (ps, x.2)) = _
    cases snk.handle s p with
    | error e => rfl
    | ok r =>
      obtain ⟨ok, s1⟩ := r
      cases ok with
      | true => exact ih s1
      | false => rfl

/-- Everything but the loop. -/
def around {σ P : Type} (snk : Sink P σ) (s : σ) (f : σ → Except Fault σ) : Except Fault (Nat × σ) := do
  let (ok, s) ← snk.start s
  if ok then
    let s ← f s
    let s ← snk.finish s
    .ok (snk.exitCode s, s)
  else .ok (exitFailure, s)

theorem feedPackets_fold {P σ : Type} (snk : Sink P σ) (ps : List P) (s : σ) :
    feedPackets listSource snk (ps.length + 1) ps s = around snk s (foldP snk ps) := by
  unfold feedPackets around
  cases snk.start s with
  | error e => rfl
  | ok r =>
    obtain ⟨ok, s1⟩ := r
    cases ok with
    | false => rfl
    | true =>
      show (feedLoop listSource snk (ps.length + 1) ps s1 >>= fun x => _) = (foldP snk ps s1 >>= fun x => _)
      rw [← feedLoop_fold]
      cases feedLoop listSource snk (ps.length + 1) ps s1 <;> rfl

theorem foldP_via {P Q σ : Type} (f : Nat → Q → P) (snk : Sink P σ) : ∀ (qs : List Q) (n : Nat) (s : σ),
    (foldP (via f snk) qs (n, s)).map (·.2) = foldP snk (seen f n qs) s
  | [], n, s => rfl
  | q :: qs, n, s => by
    simp only [foldP, seen]
    have ih := foldP_via f snk qs (n + 1)
    change Except.map (·.2) ((snk.handle s (f n q) >>= fun r => Except.ok (r.1, n + 1, r.2)) >>= fun x =>
      if x.1 = true then foldP (via f snk) qs x.2 else .ok x.2) = _
    cases snk.handle s (f n q) with
    | error e => rfl
    | ok r =>
      obtain ⟨ok, s1⟩ := r
      cases ok with
      | true => exact ih s1
      | false => rfl

theorem feedPackets_via {P Q σ : Type} (f : Nat → Q → P) (snk : Sink P σ) (qs : List Q) (n : Nat) (s : σ) :
    (feedPackets listSource (via f snk) (qs.length + 1) qs (n, s)).map (fun r => (r.1, r.2.2)) =
      around snk s (foldP snk (seen f n qs)) := by
  rw [feedPackets_fold]
  unfold around
  change Except.map _ ((snk.start s >>= fun r => Except.ok (r.1, n, r.2)) >>= fun x => _) = _
  cases snk.start s with
  | error e => rfl
  | ok r =>
    obtain ⟨ok, s1⟩ := r
    cases ok with
    | false => rfl
    | true =>
      show Except.map _ (foldP (via f snk) qs (n, s1) >>= fun x => _) = (foldP snk (seen f n qs) s1 >>= fun x => _)
      rw [← foldP_via]
      cases foldP (via f snk) qs (n, s1) with
      | error e => rfl
      | ok t =>
        show Except.map _ ((snk.finish t.2 >>= fun d => Except.ok (t.1, d)) >>= fun x => _) = (snk.finish t.2 >>= fun x => _)
        cases snk.finish t.2 <;> rfl

/-- What the command does, without the counter. -/
theorem feed_around {w : World} {ps : List (List UInt8)} (h : Reads w ps) {P σ : Type}
    (f : Nat → List UInt8 → P) (snk : Sink P σ) (s : σ) {β : Type} (k : Nat × σ → Except Stop β) :
    (feed w (via f snk) (0, s) >>= fun r => k (r.1, r.2.2)) =
      ((around snk s (foldP snk (seen f 0 ps))).mapError .fault >>= k) := by
  rw [feed_eq h, ← feedPackets_via]
  cases feedPackets listSource (via f snk) (ps.length + 1) ps (0, s) <;> rfl

/-- A packet that changes nothing can be left out. -/
theorem foldP_skip {σ : Type} {o : ServiceFilter.Opt} (snk : Sink ServiceFilter.Out σ) (i : Input) (c : List Input) :
    ∀ (a : List Input) (s : ServiceFilter.St) (d : σ)
      (_ : ∀ f items, ServiceFilter.run o s a = .ok (f, items) → items.length = a.length →
        (∀ it ∈ items, it.act ≠ .stop) → ServiceFilter.step o f i = .ok (f, [], .drop)),
      foldP (ServiceFilter.sink o snk) (a ++ i :: c) (s, d) = foldP (ServiceFilter.sink o snk) (a ++ c) (s, d)
  | [], s, d, h => by
    have := h s [] rfl rfl (by simp)
    simp only [List.nil_append, foldP]
    have e : (ServiceFilter.sink o snk).handle (s, d) i = .ok (true, s, d) := by
      simp only [ServiceFilter.sink, this]; rfl
    rw [e]; rfl
  | x :: a, s, d, h => by
    simp only [List.cons_append, foldP]
    change ((ServiceFilter.sink o snk).handle (s, d) x >>= fun y => _) = ((ServiceFilter.sink o snk).handle (s, d) x >>= fun y => _)
    cases hh : (ServiceFilter.sink o snk).handle (s, d) x with
    | error e => rfl
    | ok r =>
      obtain ⟨ok, s1, d1⟩ := r
      cases ok with
      | false => rfl
      | true =>
        refine foldP_skip snk i c a s1 d1 fun f items hr hl hn => ?_
        obtain ⟨⟨f1, log, act⟩, h1, h2⟩ := bind_ok_iff.1 hh
        have hs : s1 = f1 ∧ act ≠ .stop := by
          cases act with
          | stop => cases h2
          | drop => cases h2; exact ⟨rfl, by simp⟩
          | send y =>
            obtain ⟨⟨ok, d2⟩, h3, h4⟩ := bind_ok_iff.1 h2
            cases h4; exact ⟨rfl, by simp⟩
        obtain ⟨rfl, hact⟩ := hs
        refine h f (⟨x.packet, log, act⟩ :: items) ?_ (by simp [hl]) ?_
        · simp only [ServiceFilter.run, h1]
          show (if act = .stop then _ else (ServiceFilter.run o s1 a >>= fun z => _)) = _
          rw [if_neg hact, hr]; rfl
        · intro it hit
          rcases List.mem_cons.1 hit with rfl | hit
          · exact hact
          · exact hn it hit

theorem feedDemux_none {σ : Type} {watched : σ → PidSet} {handle : σ → Table → Except Fault σ} {pid : Nat}
    {s : σ} : ∀ (ts : List Table), ((∀ t ∈ ts, t.sourcePid ≠ pid) ∨ pid ∉ watched s) →
      feedDemux watched handle pid ts s = .ok (s, [])
  | [], _ => rfl
  | t :: ts, h => by
    have hc : ¬ ((t.sourcePid == pid && (watched s).contains pid) = true) := by
      rcases h with h | h
      · simp [h t List.mem_cons_self]
      · simp [h]
    simp only [feedDemux, if_neg hc]
    refine feedDemux_none ts ?_
    rcases h with h | h
    · exact .inl fun u hu => h u (List.mem_cons_of_mem _ hu)
    · exact .inr h

end Mirakc.Main

namespace Mirakc.ServiceFilter
open Mirakc.Spec Mirakc.Spec.ServiceFilter

/-- The PIDs watched without a time limit. -/
def Few (s : St) : Prop :=
  ∀ pid ∈ s.demux, pid = 0 ∨ pid = 1 ∨ pid = 0x1FFF ∨ pid = s.pmtPid

theorem few_init (sid : Nat) : Few (init { sid := sid }) := by
  intro pid h
  simp [init, pidCat, pidPat] at h
  omega

theorem few_handle {o : Opt} {s s' : St} {t : Table} (hs : Few s) (h : handleTable o s t = .ok s') : Few s' := by
  intro pid hp
  rcases handle_demux h with ⟨pat, q, _, _, h1, _, h2⟩ | ⟨_, h1, h2, _⟩
  · rw [h2, PidSet.add, List.mem_cons] at hp
    rcases hp with hp | hp
    · exact .inr (.inr (.inr (by rw [h1, hp])))
    · split at hp
      · rw [PidSet.remove, List.mem_filter, bne_iff_ne] at hp
        rcases hs pid hp.1 with h | h | h | h
        · exact .inl h
        · exact .inr (.inl h)
        · exact .inr (.inr (.inl h))
        · exact absurd h hp.2
      · next hn =>
        simp only [bne_iff_ne, ne_eq, Decidable.not_not, pidNull] at hn
        rcases hs pid hp with h | h | h | h
        · exact .inl h
        · exact .inr (.inl h)
        · exact .inr (.inr (.inl h))
        · exact .inr (.inr (.inl (h.trans hn)))
  · rw [h1] at hp; rw [h2]; exact hs pid hp

theorem few_step {o : Opt} {s s' : St} {i : Input} {log : List Table} {act : Act} (hs : Few s)
    (h : step o s i = .ok (s', log, act)) : Few s' := by
  unfold step at h
  obtain ⟨⟨s1, log1⟩, hf, h⟩ := bind_eq_ok h
  have h1 : Few s1 :=
    feedDemux_inv (fun s _ => Few s) (fun a t b rs hI _ _ h => few_handle hI h) _ s s1 log1 [] hs hf
  simp only at h
  repeat' split at h
  · cases h; exact h1
  · cases h; exact h1
  · cases h
  · cases h; exact h1
  · obtain ⟨_, _, h⟩ := bind_eq_ok h
    cases h; exact h1

theorem few_run {o : Opt} : ∀ (is : List Input) (s s' : St) (items : List Item), Few s →
    run o s is = .ok (s', items) → Few s'
  | [], s, s', items, hs, h => by cases h; exact hs
  | i :: is, s, s', items, hs, h => by
    obtain ⟨s1, log, act, h1, ⟨_, rfl, _⟩ | ⟨_, rest, h2, _⟩⟩ := run_cons h
    · exact few_step hs h1
    · exact few_run is s1 s' rest (few_step hs h1) h2

/-- A packet that is not to be forwarded and carries no table that matters changes nothing. -/
theorem step_foreign {o : Opt} {s : St} {rs : List Table} {i : Input} (hI : Inv o s rs) (hF : Few s)
    (hd : s.done = false) (hf : ¬ Forward o.sid rs i.packet.pid)
    (ht : (∀ t ∈ i.tables, t.sourcePid ≠ i.packet.pid) ∨
      (i.packet.pid ≠ 0 ∧ i.packet.pid ≠ 1 ∧ i.packet.pid ≠ 0x1FFF)) :
    step o s i = .ok (s, [], .drop) := by
  have he : s.error = false := by
    cases e : s.error with
    | false => rfl
    | true =>
      obtain ⟨t, ht, hm⟩ := hI.error.1 e
      rw [hI.done.2 ⟨t, ht, .inl hm⟩] at hd; cases hd
  have hn : feedDemux St.demux (handleTable o) i.packet.pid i.tables s = .ok (s, []) := by
    refine Mirakc.Main.feedDemux_none _ (ht.imp_right fun h hm => ?_)
    rcases hF _ hm with h1 | h1 | h1 | h1
    · exact h.1 h1
    · exact h.2.1 h1
    · exact h.2.2 h1
    · have hp := hI.pat he
      cases hl : latest usablePat rs with
      | none => rw [hl] at hp; exact h.2.2 (h1.trans hp.2.2)
      | some pat =>
        rw [hl] at hp
        obtain ⟨pid, h2, _, _, h3⟩ := hp
        exact hf (.inl ⟨pat, hl, .inr (by rw [h1, h3]; exact h2)⟩)
  have hc : checkFilterForDrop s i.packet.pid = true := by
    cases e : checkFilterForDrop s i.packet.pid with
    | true => rfl
    | false => exact absurd ((checkFilter_spec hI he _).1 e) hf
  unfold step
  rw [hn]
  show (if s.done = true then _ else _) = _
  rw [hd, hc]; rfl

theorem run_done {o : Opt} : ∀ (is : List Input) (s s' : St) (items : List Item), s.done = false →
    run o s is = .ok (s', items) → (∀ it ∈ items, it.act ≠ .stop) → s'.done = false
  | [], s, s', items, hs, h, _ => by cases h; exact hs
  | i :: is, s, s', items, hs, h, hn => by
    obtain ⟨s1, log, act, h1, ⟨ha, _, rfl⟩ | ⟨ha, rest, h2, rfl⟩⟩ := run_cons h
    · exact absurd ha (hn _ List.mem_cons_self)
    · refine run_done is s1 s' rest ?_ h2 fun it hit => hn it (List.mem_cons_of_mem _ hit)
      unfold step at h1
      obtain ⟨⟨s2, log1⟩, hf, h1⟩ := bind_eq_ok h1
      simp only at h1
      repeat' split at h1
      · cases h1; exact absurd rfl ha
      · next hd _ => cases h1; simpa using hd
      · cases h1
      · next hd _ _ _ _ _ => cases h1; simpa using hd
      · next hd _ _ =>
        obtain ⟨_, _, h1⟩ := bind_eq_ok h1
        cases h1; simpa using hd

end Mirakc.ServiceFilter

namespace Mirakc.Main
open Mirakc.Pipeline Mirakc.Spec Mirakc.Spec.Main Mirakc.Spec.Pipeline

theorem seen_append {P Q : Type} (f : Nat → Q → P) : ∀ (a b : List Q) (n : Nat),
    seen f n (a ++ b) = seen f n a ++ seen f (n + a.length) b
  | [], b, n => by simp [seen]
  | x :: a, b, n => by
    simp only [List.cons_append, seen, List.length_cons, seen_append f a b (n + 1)]
    rw [show n + 1 + a.length = n + (a.length + 1) by omega]

theorem seen_congr {P Q : Type} (f g : Nat → Q → P) : ∀ (a : List Q) (n m : Nat),
    (∀ k < a.length, ∀ q, f (n + k) q = g (m + k) q) → seen f n a = seen g m a
  | [], _, _, _ => rfl
  | x :: a, n, m, h => by
    simp only [seen]
    rw [show f n x = g m x from h 0 (by simp) x, seen_congr f g a (n + 1) (m + 1) fun k hk q => by
      rw [show n + 1 + k = n + (k + 1) by omega, show m + 1 + k = m + (k + 1) by omega]
      exact h (k + 1) (by simpa using hk) q]

/-- The packets seen without the one. -/
theorem seen_without (w : World) (a c : List (List UInt8)) (op : Bool) (rd : List (Option (List UInt8))) :
    seen (input w.codec (without w a.length op rd).tables) 0 (a ++ c) =
      seen (input w.codec w.tables) 0 a ++ seen (input w.codec w.tables) (a.length + 1) c := by
  rw [seen_append]
  congr 1
  · refine seen_congr _ _ a 0 0 fun k hk q => ?_
    simp [input, without, hk]
  · refine seen_congr _ _ c _ _ fun k _ q => ?_
    rw [Nat.zero_add]
    have : ¬ a.length + k < a.length := by omega
    simp only [input, without, if_neg this]
    rw [show a.length + k + 1 = a.length + 1 + k by omega]

/-- Leaving out the packet. -/
theorem around_skip {w : World} {a c : List (List UInt8)} {b : List UInt8} {sid : Nat}
    (hf : ∀ f items, ServiceFilter.run { sid := sid } (ServiceFilter.init { sid := sid })
        (seen (input w.codec w.tables) 0 a) = .ok (f, items) → (∀ it ∈ items, it.act ≠ .stop) →
      ¬ ServiceFilter.Forward sid (ServiceFilter.received items) (w.codec.packet b).pid)
    (ht : (∀ t ∈ w.tables a.length, t.sourcePid ≠ (w.codec.packet b).pid) ∨
      ((w.codec.packet b).pid ≠ 0 ∧ (w.codec.packet b).pid ≠ 1 ∧ (w.codec.packet b).pid ≠ 0x1FFF))
    {σ : Type} (snk : Sink ServiceFilter.Out σ) (d : σ) (op : Bool) (rd : List (Option (List UInt8))) :
    around (ServiceFilter.sink { sid := sid } snk) (ServiceFilter.init { sid := sid }, d)
      (foldP (ServiceFilter.sink { sid := sid } snk) (seen (input w.codec w.tables) 0 (a ++ b :: c))) =
    around (ServiceFilter.sink { sid := sid } snk) (ServiceFilter.init { sid := sid }, d)
      (foldP (ServiceFilter.sink { sid := sid } snk)
        (seen (input w.codec (without w a.length op rd).tables) 0 (a ++ c))) := by
  have key : ∀ d, foldP (ServiceFilter.sink { sid := sid } snk) (seen (input w.codec w.tables) 0 (a ++ b :: c))
      (ServiceFilter.init { sid := sid }, d) = foldP (ServiceFilter.sink { sid := sid } snk)
        (seen (input w.codec (without w a.length op rd).tables) 0 (a ++ c)) (ServiceFilter.init { sid := sid }, d) := by
    intro d
    rw [seen_without, seen_append, Nat.zero_add]
    refine foldP_skip snk _ _ _ _ d fun f items hr hl hn => ?_
    refine ServiceFilter.step_foreign
      (ServiceFilter.run_spec _ _ _ [] items (ServiceFilter.inv_init _) hr).1
      (ServiceFilter.few_run _ _ _ _ (ServiceFilter.few_init sid) hr)
      (ServiceFilter.run_done _ _ _ _ rfl hr hn) (hf f items hr hn) ht
  unfold around
  change ((snk.start d >>= fun r => Except.ok (r.1, ServiceFilter.init { sid := sid }, r.2)) >>= fun x => _) =
    ((snk.start d >>= fun r => Except.ok (r.1, ServiceFilter.init { sid := sid }, r.2)) >>= fun x => _)
  cases snk.start d with
  | error e => rfl
  | ok r =>
    obtain ⟨ok, d1⟩ := r
    cases ok with
    | false => rfl
    | true =>
      show (foldP _ _ (ServiceFilter.init { sid := sid }, d1) >>= fun x => _) = (foldP _ _ (ServiceFilter.init { sid := sid }, d1) >>= fun x => _)
      rw [key d1]

end Mirakc.Main
