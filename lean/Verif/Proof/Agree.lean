import Verif.Spec.Agree
import Verif.Proof.ExitCodes
import Verif.Proof.PreStreaming
/-
Lemmas for C136: commands on the same stream agree.
-/
namespace Mirakc.Agree
open Mirakc.Main Mirakc.Pipeline Mirakc.Spec.Main Mirakc.Spec.Pipeline Mirakc.Spec.Agree

section
open ServiceFilter

/-- The filter on a longer input does the same at first. -/
theorem sf_prefix {o : Opt} : ∀ (is js : List Input) (s f g : St) (items items' : List Item),
    run o s is = .ok (f, items) → items.length = is.length → run o s (is ++ js) = .ok (g, items') → items <+: items'
  | [], js, s, f, g, items, items', h, hl, h' => by
    cases h; exact List.nil_prefix
  | i :: is, js, s, f, g, items, items', h, hl, h' => by
    obtain ⟨s1, log, act, h1, h⟩ := run_cons h
    obtain ⟨s2, log2, act2, h2, h'⟩ := run_cons h'
    rw [h1] at h2
    cases h2
    rcases h with ⟨ha, rfl, rfl⟩ | ⟨ha, rest, hr, rfl⟩
    · rcases h' with ⟨_, rfl, rfl⟩ | ⟨hb, _⟩
      · exact List.prefix_rfl
      · exact absurd ha hb
    · rcases h' with ⟨hb, _⟩ | ⟨_, rest', hr', rfl⟩
      · exact absurd hb ha
      · have := sf_prefix is js s1 f g rest rest' hr (by simpa using hl) hr'
        exact (List.cons_prefix_cons).2 ⟨rfl, this⟩

/-- The tables looked at are among those of the packets. -/
theorem sf_handled {o : Opt} : ∀ (is : List Input) (s f : St) (items : List Item),
    run o s is = .ok (f, items) → ∀ t ∈ Spec.ServiceFilter.received items, ∃ i ∈ is, t ∈ i.tables
  | [], s, f, items, h, t, ht => by cases h; cases ht
  | i :: is, s, f, items, h, t, ht => by
    obtain ⟨s1, log, act, h1, h⟩ := run_cons h
    have hl : ∀ t ∈ log, t ∈ i.tables := by
      intro t ht
      unfold step at h1
      have key : ∃ s2, feedDemux St.demux (handleTable o) i.packet.pid i.tables s = .ok (s2, log) := by
        split at h1
        all_goals
          obtain ⟨⟨s2, log2⟩, h2, h1⟩ := bind_ok_iff.1 h1
          have : log = log2 := by
            dsimp only at h1
            repeat' split at h1
            all_goals first
              | (cases h1; rfl; done)
              | (cases h1; done)
              | (obtain ⟨_, _, h1⟩ := bind_ok_iff.1 h1; cases h1; rfl)
          subst this
          exact ⟨s2, h2⟩
      obtain ⟨s2, h2⟩ := key
      exact (feedDemux_log _ _ _ _ h2 t ht).1
    rcases h with ⟨ha, rfl, rfl⟩ | ⟨ha, rest, hr, rfl⟩
    · simp [Spec.ServiceFilter.received] at ht
      exact ⟨i, by simp, hl t ht⟩
    · rw [show Spec.ServiceFilter.received (⟨i.packet, log, act⟩ :: rest) =
        log ++ Spec.ServiceFilter.received rest from rfl] at ht
      rcases List.mem_append.1 ht with ht | ht
      · exact ⟨i, by simp, hl t ht⟩
      · obtain ⟨j, hj, htj⟩ := sf_handled is s1 f rest hr t ht
        exact ⟨j, by simp [hj], htj⟩

end

section
open ProgramFilter

/-- The packets of the input among what is passed on. -/
def origs (xs : List Out) : List Packet := xs.filterMap fun | .orig p => some p | _ => none

theorem origs_append (a b : List Out) : origs (a ++ b) = origs a ++ origs b := by simp [origs]
theorem origs_map (l : List Packet) : origs (l.map .orig) = l := by
  unfold origs
  rw [List.filterMap_map]
  induction l with
  | nil => rfl
  | cons x l ih => simpa using ih

theorem next_origs {extra : Pmt → Nat} {s s' : St} {x : Out} (h : nextPmt extra s = .ok (x, s')) : origs [x] = [] := by
  unfold nextPmt at h
  obtain ⟨⟨y, pk⟩, h1, h⟩ := bind_ok_iff.1 h
  obtain ⟨_, _, h⟩ := bind_ok_iff.1 h
  cases h
  unfold Packetizer.next at h1
  split at h1
  · cases h1
  · cases h1; rfl

theorem cycle_origs {extra : Pmt → Nat} : ∀ (fuel : Nat) (s s' : St) (xs : List Out),
    sendCycle extra fuel s = .ok (xs, s') → origs xs = []
  | 0, _, _, _, h => by cases h
  | fuel + 1, s, s', xs, h => by
    unfold sendCycle at h
    obtain ⟨⟨x, s1⟩, h1, h⟩ := bind_ok_iff.1 h
    dsimp only at h
    split at h
    · cases h; exact next_origs h1
    · obtain ⟨⟨ys, s2⟩, h2, h⟩ := bind_ok_iff.1 h
      cases h
      rw [show x :: ys = [x] ++ ys from rfl, origs_append, next_origs h1, cycle_origs fuel _ _ _ h2]
      rfl

theorem cycle_kept {extra : Pmt → Nat} {fuel : Nat} {s s' : St} {xs : List Out}
    (h : sendCycle extra fuel s = .ok (xs, s')) : s'.lastPat = s.lastPat := by
  have := PreStreaming.cycle_keep extra s.lastPat fuel s
  change sendCycle extra fuel s = _ at this
  rw [h] at this
  have := Except.ok.inj this
  exact congrArg (fun r => r.2.lastPat) this

theorem streaming_kept {extra : Pmt → Nat} {s s' : St} {p : Packet} {r : List Out × Bool}
    (h : doStreaming extra s p = .ok (s', r)) : s'.lastPat = s.lastPat := by
  have := PreStreaming.streaming_keep extra s.lastPat s p
  change doStreaming extra s p = _ at this
  rw [h] at this
  have := Except.ok.inj this
  exact congrArg (fun r => r.1.lastPat) this

theorem forward_origs {extra : Pmt → Nat} {s s' : St} {p : Packet} {outs : List Out} {more : Bool}
    (h : forward extra s p = .ok (s', outs, more)) : (origs outs).Sublist [p] := by
  unfold forward at h
  split at h
  · obtain ⟨⟨x, s1⟩, h1, h⟩ := bind_ok_iff.1 h
    cases h
    rw [next_origs h1]; exact List.nil_sublist _
  · split at h
    · cases h; exact List.nil_sublist _
    · cases h; exact List.Sublist.refl _

theorem streaming_origs {extra : Pmt → Nat} {s s' : St} {p : Packet} {outs : List Out} {more : Bool}
    (h : doStreaming extra s p = .ok (s', outs, more)) : (origs outs).Sublist [p] := by
  unfold doStreaming at h
  split at h
  · cases h; exact List.nil_sublist _
  · split at h
    · split at h
      · cases h; exact List.Sublist.refl _
      · obtain ⟨s1, _, h⟩ := bind_ok_iff.1 h
        split at h
        · cases h; exact List.Sublist.refl _
        · obtain ⟨c, _, h⟩ := bind_ok_iff.1 h
          split at h
          · cases h; exact List.nil_sublist _
          · exact forward_origs h
    · exact forward_origs h

theorem save_sub (s : St) (p : Packet) : (savePat s p).lastPat.Sublist (s.lastPat ++ [p]) := by
  rw [PreStreaming.save_eq]
  show (PreStreaming.after s p).Sublist _
  unfold PreStreaming.after
  split
  · split
    · exact List.sublist_append_right _ _
    · exact List.Sublist.refl _
  · exact List.sublist_append_left _ _

theorem save_pre {s : St} {p : Packet} (h : p.pid ≠ 0) : (savePat s p).lastPat = s.lastPat := by
  rw [PreStreaming.save_eq]
  show PreStreaming.after s p = _
  unfold PreStreaming.after
  rw [if_neg h]

/-- Nothing is kept when it is not needed. -/
def Tidy (o : Opt) (s : St) : Prop := s.streaming = true ∨ o.preStreaming = true → s.lastPat = []

/-- `waitStart`, packet by packet. -/
theorem wait_origs {o : Opt} {s s' : St} {p : Packet} {r : Option (List Out × Bool)}
    (h : waitStart o s p = .ok (s', r)) (hp : p.pid = 0 → p.pcr = none) (ht : o.preStreaming = true → s.lastPat = []) :
    (o.preStreaming = true → s'.lastPat = []) ∧
    (∀ outs more, r = some (outs, more) → (origs outs ++ s'.lastPat).Sublist (s.lastPat ++ [p])) ∧
    (r = none → s'.lastPat = s.lastPat) := by
  have sub1 : s.lastPat.Sublist (s.lastPat ++ [p]) := List.sublist_append_left _ _
  rw [PreStreaming.waitStart_later] at h
  split at h
  · cases h
    exact ⟨ht, (fun outs more e => by cases e; simp [origs]), (fun e => by cases e)⟩
  · split at h
    · next hpre =>
      cases h
      simp only [Bool.and_eq_true] at hpre
      refine ⟨ht, (fun outs more e => ?_), (fun e => by cases e)⟩
      cases e
      rw [ht hpre.2]
      exact List.Sublist.refl _
    · next hpre =>
      have hsave : o.preStreaming = true → (savePat s p).lastPat = [] := by
        intro e
        rw [save_pre (fun h0 => hpre (by simp [h0, e, pidPat])), ht e]
      have base : ∀ {s' : St} {b : Bool}, s'.lastPat = (savePat s p).lastPat →
          (o.preStreaming = true → s'.lastPat = []) ∧
          (∀ outs more, some (([] : List Out), b) = some (outs, more) →
            (origs outs ++ s'.lastPat).Sublist (s.lastPat ++ [p])) ∧
          (some (([] : List Out), b) = none → s'.lastPat = s.lastPat) := by
        intro s' b hs
        refine ⟨fun e => by rw [hs, hsave e], (fun outs more e => ?_), (fun e => by cases e)⟩
        cases e
        rw [hs]
        exact save_sub s p
      unfold PreStreaming.later at h
      split at h
      · cases h; exact base rfl
      · split at h
        · cases h; exact base rfl
        · split at h
          · cases h; exact base rfl
          · next pcr hpcr =>
            obtain ⟨s1, h1, h⟩ := bind_ok_iff.1 h
            have e1 := PreStreaming.sync_kept h1
            split at h
            · cases h; exact base e1
            · obtain ⟨c, _, h⟩ := bind_ok_iff.1 h
              split at h
              · cases h; exact base e1
              · obtain ⟨c, _, h⟩ := bind_ok_iff.1 h
                split at h
                · cases h; exact base e1
                · obtain ⟨_, _, h⟩ := bind_ok_iff.1 h
                  cases h
                  have h0 : p.pid ≠ 0 := fun h0 => by rw [hp h0] at hpcr; cases hpcr
                  exact ⟨fun e => by rw [e1, hsave e], (fun _ _ e => by cases e),
                    fun _ => by rw [e1, save_pre h0]⟩

/-- One packet. -/
theorem step_origs {extra : Pmt → Nat} {o : Opt} {s s' : St} {i : Input} {log : List Table} {outs : List Out}
    {more : Bool} (h : step extra o s i = .ok (s', log, outs, more)) (hp : i.packet.pid = 0 → i.packet.pcr = none)
    (ht : Tidy o s) : Tidy o s' ∧ (origs outs ++ s'.lastPat).Sublist (s.lastPat ++ [i.packet]) := by
  unfold step at h
  obtain ⟨⟨s1, log1⟩, h1, h⟩ := bind_ok_iff.1 h
  have k1 := PreStreaming.tables_kept h1
  have f1 := (ExitCodes.tables_flags h1).1
  dsimp only at h
  split at h
  · next hst =>
    obtain ⟨⟨s2, outs2, more2⟩, h2, h⟩ := bind_ok_iff.1 h
    cases h
    have hl : s.lastPat = [] := ht (.inl (by rw [← f1]; exact hst))
    have hl' : s2.lastPat = [] := by rw [streaming_kept h2, k1, hl]
    refine ⟨fun _ => hl', ?_⟩
    rw [hl, hl', List.append_nil]
    exact streaming_origs h2
  · next hst =>
    obtain ⟨⟨s2, outs2, more2⟩, h2, h⟩ := bind_ok_iff.1 h
    cases h
    unfold waitReady at h2
    obtain ⟨⟨s3, r⟩, h3, h2⟩ := bind_ok_iff.1 h2
    obtain ⟨w1, w2, w3⟩ := wait_origs h3 hp (fun e => by rw [k1]; exact ht (.inr e))
    cases r with
    | some r =>
      obtain ⟨outs3, more3⟩ := r
      cases h2
      have f3 := (ExitCodes.waitStart_flags h3).1
      refine ⟨fun hor => ?_, by rw [← k1]; exact w2 _ _ rfl⟩
      rcases hor with e | e
      · exact absurd (by rw [← f3]; exact e) hst
      · exact w1 e
    | none =>
      dsimp only at h2
      obtain ⟨⟨pmts, s4⟩, h4, h2⟩ := bind_ok_iff.1 h2
      cases h2
      have e4 := cycle_kept h4
      by_cases hb : o.preStreaming = true
      · rw [if_pos hb] at e4
        have : s4.lastPat = [] := by rw [e4, w1 hb]
        refine ⟨fun _ => this, ?_⟩
        show (origs _ ++ s4.lastPat).Sublist _
        rw [this, List.append_nil, origs_append, origs_append, cycle_origs _ _ _ _ h4]
        unfold pendingPat
        rw [if_pos hb]
        exact List.sublist_append_right _ _
      · rw [if_neg hb] at e4
        refine ⟨fun _ => e4, ?_⟩
        show (origs _ ++ s4.lastPat).Sublist _
        rw [e4, List.append_nil, origs_append, origs_append, cycle_origs _ _ _ _ h4, List.append_nil]
        unfold pendingPat
        rw [if_neg hb, origs_map, w3 rfl, k1]
        exact List.Sublist.refl _

/-- The whole input. -/
theorem run_origs {extra : Pmt → Nat} {o : Opt} : ∀ (is : List Input) (s s' : St) (items : List Item),
    run extra o s is = .ok (s', items) → (∀ i ∈ is, i.packet.pid = 0 → i.packet.pcr = none) → Tidy o s →
    (origs (Spec.ProgramFilter.sent items)).Sublist (s.lastPat ++ is.map (·.packet))
  | [], s, s', items, h, hp, ht => by
    cases h; exact List.nil_sublist _
  | i :: is, s, s', items, h, hp, ht => by
    obtain ⟨s1, log, outs, more, h1, h⟩ := run_cons h
    obtain ⟨t1, t2⟩ := step_origs h1 (hp i (by simp)) ht
    have e : s.lastPat ++ (i :: is).map (·.packet) = (s.lastPat ++ [i.packet]) ++ is.map (·.packet) := by simp
    rw [e]
    rcases h with ⟨_, _, rfl⟩ | ⟨_, rest, hr, rfl⟩
    · have : Spec.ProgramFilter.sent [⟨i.packet, log, outs, more⟩] = outs := by simp [Spec.ProgramFilter.sent]
      rw [this]
      exact ((List.sublist_append_left _ _).trans t2).trans (List.sublist_append_left _ _)
    · have := run_origs is s1 s' rest hr (fun j hj => hp j (by simp [hj])) t1
      rw [show Spec.ProgramFilter.sent (⟨i.packet, log, outs, more⟩ :: rest) =
        outs ++ Spec.ProgramFilter.sent rest from rfl, origs_append]
      refine (List.Sublist.append_left this _).trans ?_
      rw [← List.append_assoc]
      exact List.Sublist.append_right t2 _

/-- As bytes. -/
theorem excerpt_of {c : Codec} : ∀ (xs : List Out) (l : List Packet), (origs xs).Sublist l →
    Excerpt c (l.map c.bytes) (xs.map (eventBytes c)) := by
  intro xs
  induction xs with
  | nil =>
    intro l h
    clear h
    induction l with
    | nil => exact .nil
    | cons _ _ ih => exact .drop ih
  | cons x xs ih =>
    intro l h
    cases x with
    | pmt pid t i n => exact .pmt (ih l h)
    | orig p =>
      change (p :: origs xs).Sublist l at h
      induction l with
      | nil => cases h
      | cons q l ih2 =>
        cases h with
        | cons _ h => exact .drop (ih2 h)
        | cons_cons _ h => exact .keep (ih l h)

end

theorem excerpt_drop {c : Codec} {a rs : List (List UInt8)} (h : Excerpt c a rs) : ∀ b, Excerpt c (a ++ b) rs := by
  have nil : ∀ b, Excerpt c b [] := fun b => by
    induction b with
    | nil => exact .nil
    | cons _ _ ih => exact .drop ih
  intro b
  induction h with
  | nil => exact nil b
  | drop _ ih => exact .drop ih
  | keep _ ih => exact .keep ih
  | pmt _ ih => exact .pmt ih

theorem seen_map {P Q R : Type} (f : Nat → Q → P) (g : P → R) (k : Q → R) (h : ∀ n q, g (f n q) = k q) :
    ∀ (l : List Q) (n : Nat), (seen f n l).map g = l.map k
  | [], _ => rfl
  | q :: l, n => by simp [seen, h, seen_map f g k h l]

theorem drop_flatten : ∀ (l : List (List UInt8)) (k : Nat), (∀ b ∈ l, b.length = 188) →
    l.flatten.drop (188 * k) = (l.drop k).flatten
  | [], k, _ => by simp
  | b :: l, 0, _ => by simp
  | b :: l, k + 1, h => by
    have hb := h b (by simp)
    rw [List.drop_succ_cons, ← drop_flatten l k (fun x hx => h x (by simp [hx])), List.flatten_cons,
      List.drop_append, List.drop_of_length_le (by omega), List.nil_append]
    congr 1
    omega

theorem length_188 : ∀ (l : List (List UInt8)), (∀ b ∈ l, b.length = 188) → l.flatten.length = 188 * l.length
  | [], _ => rfl
  | b :: l, h => by
    rw [List.flatten_cons, List.length_append, length_188 l (fun x hx => h x (by simp [hx])), h b (by simp),
      List.length_cons]
    omega

end Mirakc.Agree
