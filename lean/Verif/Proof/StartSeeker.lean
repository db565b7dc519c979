import Verif.Spec.StartSeeker
import Verif.Proof.ServiceFilter
import Verif.Proof.ProgramFilterRun
/-
Invariants of the start seeker.
-/
namespace Mirakc.StartSeeker
open Mirakc.Spec Mirakc.Spec.StartSeeker
open Mirakc.Spec.ServiceFilter (usablePat validPmt latest)
open Mirakc.Spec.ProgramFilter (Reached ReachedNoWrap)
open Mirakc.ServiceFilter (latest_append latest_some latest_none)
set_option linter.unusedSimpArgs false

/-! PID sets. -/

theorem sorted_ext : ∀ {l l' : List Nat}, l.Pairwise (· < ·) → l'.Pairwise (· < ·) →
    (∀ x, x ∈ l ↔ x ∈ l') → l = l' := by
  intro l
  induction l with
  | nil =>
    intro l' _ _ h
    cases l' with
    | nil => rfl
    | cons a l' => have := (h a).2 (by simp); simp at this
  | cons a l ih =>
    intro l' hs hs' h
    cases l' with
    | nil => have := (h a).1 (by simp); simp at this
    | cons b l' =>
      rw [List.pairwise_cons] at hs hs'
      have hab : a = b := by
        have h1 := (h a).1 (by simp)
        have h2 := (h b).2 (by simp)
        rcases List.mem_cons.mp h1 with e | h1
        · exact e
        · rcases List.mem_cons.mp h2 with e | h2
          · exact e.symm
          · have := hs.1 _ h2; have := hs'.1 _ h1; omega
      subst hab
      congr 1
      refine ih hs.2 hs'.2 fun x => ?_
      have := h x
      simp only [List.mem_cons] at this
      constructor
      · intro hx
        rcases this.1 (Or.inr hx) with e | h
        · subst e; have := hs.1 _ hx; omega
        · exact h
      · intro hx
        rcases this.2 (Or.inr hx) with e | h
        · subst e; have := hs'.1 _ hx; omega
        · exact h

theorem mem_pidsOf {f : Stream → Bool} {p : Pmt} {pid : Nat} :
    pid ∈ pidsOf f p ↔ ∃ st, (pid, st) ∈ p.streams.entries ∧ f st = true := by
  simp only [pidsOf, List.mem_map, List.mem_filter]
  constructor
  · rintro ⟨⟨a, b⟩, ⟨h1, h2⟩, rfl⟩; exact ⟨b, h1, h2⟩
  · rintro ⟨b, h1, h2⟩; exact ⟨(pid, b), ⟨h1, h2⟩, rfl⟩

theorem pidsOf_sorted (f : Stream → Bool) (p : Pmt) : (pidsOf f p).Pairwise (· < ·) := by
  unfold pidsOf
  rw [List.pairwise_map]
  exact p.streams.sorted.filter _

theorem differs_iff (f : Stream → Bool) (p p' : Pmt) :
    (!(pidsOf f p).isEmpty && pidsOf f p != pidsOf f p') = true ↔ Differs f p p' := by
  unfold Differs
  simp only [← mem_pidsOf]
  rw [Bool.and_eq_true, Bool.not_eq_true', bne_iff_ne, List.isEmpty_eq_false_iff_exists_mem]
  constructor
  · rintro ⟨⟨x, h1⟩, h2⟩
    exact ⟨⟨x, h1⟩, fun h => h2 (sorted_ext (pidsOf_sorted _ _) (pidsOf_sorted _ _) h)⟩
  · rintro ⟨⟨x, h1⟩, h2⟩
    exact ⟨⟨x, h1⟩, fun h => h2 (by simp [h])⟩

/-! Table state. -/

/-- What the seeker remembers of the tables received. -/
structure Tabs (o : Opt) (s : St) (rs : List Table) : Prop where
  video : s.video = (latest (validPmt o.sid) rs).elim [] (pidsOf (·.isVideo))
  audio : s.audio = (latest (validPmt o.sid) rs).elim [] (pidsOf (·.isAudio))
  pcr : s.pcrPid = (latest (validPmt o.sid) rs).elim pidNull (·.pcrPid)
  pat : s.patIndex = (patAt rs).getD 0
  demux : patAt rs = none → ∀ pid ∈ s.demux, pid = 0

/-- The transition index after the tables `ts`. -/
def Trans (o : Opt) (s : St) (rs ts : List Table) : Prop :=
  (s.transition = 0 ∧ ∀ a t b, ts = a ++ t :: b → ¬ Transition o.sid (rs ++ a) t) ∨
  ∃ t, LastTransition o.sid rs ts t ∧ s.transition = t.firstPacket

theorem tabs_init (o : Opt) : Tabs o init [] := by
  refine ⟨rfl, rfl, rfl, rfl, ?_⟩
  intro _ pid h
  simpa [init, pidPat] using h

/-- A table that is not a PMT of the service is no transition. -/
theorem not_transition {sid : Nat} {rs : List Table} {t : Table} (h : validPmt sid t = none) :
    ¬ Transition sid rs t := by
  rintro ⟨p, p', _, h2, _⟩
  rw [h] at h2; cases h2

theorem snoc_split {α} {ts a b : List α} {t u : α} (h : ts ++ [u] = a ++ t :: b) :
    (b = [] ∧ a = ts ∧ t = u) ∨ ∃ b', b = b' ++ [u] ∧ ts = a ++ t :: b' := by
  rcases List.eq_nil_or_concat b with rfl | ⟨b', x, rfl⟩
  · have := List.append_inj' h rfl
    simp at this
    exact Or.inl ⟨rfl, this.1.symm, this.2.symm⟩
  · right
    rw [List.concat_eq_append] at h
    have h' : ts ++ [u] = (a ++ t :: b') ++ [x] := by simpa using h
    have := List.append_inj' h' rfl
    simp only [List.cons.injEq, and_true] at this
    exact ⟨b', by rw [List.concat_eq_append, this.2], this.1⟩

theorem trans_keep {o : Opt} {s s' : St} {rs ts : List Table} {t : Table} (h : Trans o s rs ts)
    (hn : ¬ Transition o.sid (rs ++ ts) t) (he : s'.transition = s.transition) :
    Trans o s' rs (ts ++ [t]) := by
  rcases h with ⟨h1, h2⟩ | ⟨u, ⟨a, b, h1, h2, h3⟩, h4⟩
  · refine Or.inl ⟨by rw [he, h1], ?_⟩
    intro a u b e
    rcases snoc_split e with ⟨_, rfl, rfl⟩ | ⟨b', _, e⟩
    · exact hn
    · exact h2 _ _ _ e
  · refine Or.inr ⟨u, ⟨a, b ++ [t], by simp [h1], h2, ?_⟩, by rw [he, h4]⟩
    intro b1 v b2 e
    rcases snoc_split e with ⟨_, rfl, rfl⟩ | ⟨b', _, e⟩
    · simpa [h1] using hn
    · exact h3 _ _ _ e

theorem trans_new {o : Opt} {s' : St} {rs ts : List Table} {t : Table}
    (hn : Transition o.sid (rs ++ ts) t) (he : s'.transition = t.firstPacket) :
    Trans o s' rs (ts ++ [t]) :=
  Or.inr ⟨t, ⟨ts, [], rfl, hn, by intro b1 u b2 e; simp at e⟩, he⟩

/-- The members no table changes. -/
def Same (s s' : St) : Prop := s'.streaming = s.streaming ∧ s'.packets = s.packets ∧ s'.endPcr = s.endPcr

theorem tabs_other {o : Opt} {s : St} {rs : List Table} {t : Table} (h : Tabs o s rs)
    (h1 : validPmt o.sid t = none) (h2 : usablePat t = none) : Tabs o s (rs ++ [t]) := by
  have e : patAt (rs ++ [t]) = patAt rs := latest_none _ _ _ (by simp [h2])
  have e' : latest (validPmt o.sid) (rs ++ [t]) = latest (validPmt o.sid) rs := latest_none _ _ _ h1
  obtain ⟨a, b, c, d, f⟩ := h
  exact ⟨by rw [e']; exact a, by rw [e']; exact b, by rw [e']; exact c, by rw [e]; exact d,
    by rw [e]; exact f⟩

theorem handle_spec {o : Opt} {s s' : St} {rs ts : List Table} {t : Table}
    (h1 : Tabs o s (rs ++ ts)) (h : handleTable o s t = .ok s') :
    Tabs o s' (rs ++ (ts ++ [t])) ∧ (Trans o s rs ts → Trans o s' rs (ts ++ [t])) ∧ Same s s' := by
  unfold handleTable at h
  rw [← List.append_assoc]
  split at h
  · next pat hb =>
    have hv : validPmt o.sid t = none := by simp [validPmt, hb]
    unfold handlePat at h
    by_cases hu : t.sourcePid = 0 ∧ t.valid = true ∧ pat.tsId ≠ 0
    · have hup : usablePat t = some pat := by simp [usablePat, hb, hu]
      rw [if_neg (by simp [hu.1, pidPat]), if_neg (by simp [hu.2.1]), if_neg (by simp [hu.2.2])] at h
      split at h
      · cases h
      · next pid hpid =>
        simp only [Except.ok.injEq] at h
        subst h
        have e : patAt (rs ++ ts ++ [t]) = some t.firstPacket := latest_some _ _ _ (by simp [hup])
        have e' : latest (validPmt o.sid) (rs ++ ts ++ [t]) = latest (validPmt o.sid) (rs ++ ts) :=
          latest_none _ _ _ hv
        obtain ⟨a, b, c, d, f⟩ := h1
        refine ⟨⟨by rw [e']; exact a, by rw [e']; exact b, by rw [e']; exact c, by rw [e]; rfl,
          by rw [e]; intro h; cases h⟩, ?_, rfl, rfl, rfl⟩
        exact fun h2 => trans_keep h2 (not_transition hv) rfl
    · have hup : usablePat t = none := by simp [usablePat, hb, hu]
      have : s' = s := by
        split at h
        · cases h; rfl
        · split at h
          · cases h; rfl
          · split at h
            · cases h; rfl
            · next h1 h2 h3 =>
              exact absurd ⟨by simpa [pidPat] using h1, by simpa using h2, by simpa using h3⟩ hu
      subst this
      exact ⟨tabs_other h1 hv hup, fun h2 => trans_keep h2 (not_transition hv) rfl, rfl, rfl, rfl⟩
  · next pmt hb =>
    have hup : usablePat t = none := by simp [usablePat, hb]
    unfold handlePmt at h
    by_cases hu : t.valid = true ∧ pmt.serviceId = o.sid
    · have hv : validPmt o.sid t = some pmt := by simp [validPmt, hb, hu]
      rw [if_neg (by simp [hu.1]), if_neg (by simp [hu.2])] at h
      have e : patAt (rs ++ ts ++ [t]) = patAt (rs ++ ts) := latest_none _ _ _ (by simp [hup])
      have e' : latest (validPmt o.sid) (rs ++ ts ++ [t]) = some pmt := latest_some _ _ _ hv
      obtain ⟨a, b, c, d, f⟩ := h1
      have hch : ((!s.video.isEmpty && s.video != pidsOf (·.isVideo) pmt) ||
          (!s.audio.isEmpty && s.audio != pidsOf (·.isAudio) pmt)) = true ↔
          Transition o.sid (rs ++ ts) t := by
        unfold Transition
        rw [hv]
        cases hl : latest (validPmt o.sid) (rs ++ ts) with
        | none => rw [a, b, hl]; simp
        | some p =>
          rw [a, b, hl]
          simp only [Option.elim, Bool.or_eq_true, differs_iff]
          constructor
          · intro h; exact ⟨p, pmt, rfl, rfl, h⟩
          · rintro ⟨_, _, h1, h2, h⟩; cases h1; cases h2; exact h
      dsimp only at h
      split at h
      · next hc =>
        simp only [Except.ok.injEq] at h
        subst h
        refine ⟨⟨by rw [e']; rfl, by rw [e']; rfl, by rw [e']; rfl, by rw [e]; exact d, ?_⟩,
          fun _ => trans_new (hch.1 hc) rfl, rfl, rfl, rfl⟩
        intro hn pid hp
        rw [e] at hn
        simp only [PidSet.remove, List.mem_filter] at hp
        exact f hn pid hp.1.1
      · next hc =>
        simp only [Except.ok.injEq] at h
        subst h
        refine ⟨⟨by rw [e']; rfl, by rw [e']; rfl, by rw [e']; rfl, by rw [e]; exact d, ?_⟩,
          fun h2 => trans_keep h2 (fun h => hc (hch.2 h)) rfl, rfl, rfl, rfl⟩
        rw [e]; exact f
    · have hv : validPmt o.sid t = none := by simp [validPmt, hb, hu]
      have : s' = s := by
        split at h
        · cases h; rfl
        · split at h
          · cases h; rfl
          · next h1 h2 => exact absurd ⟨by simpa using h1, by simpa using h2⟩ hu
      subst this
      exact ⟨tabs_other h1 hv hup, fun h2 => trans_keep h2 (not_transition hv) rfl, rfl, rfl, rfl⟩
  · next hb1 hb2 =>
    simp only [Except.ok.injEq] at h
    subst h
    have hv : validPmt o.sid t = none := by
      unfold validPmt; split
      · next p hp => exact absurd hp (hb2 _)
      · rfl
    have hup : usablePat t = none := by
      unfold usablePat; split
      · next p hp => exact absurd hp (hb1 _)
      · rfl
    exact ⟨tabs_other h1 hv hup, fun h2 => trans_keep h2 (not_transition hv) rfl, rfl, rfl, rfl⟩

theorem feed_spec {o : Opt} {s s' : St} {rs log : List Table} {pid : Nat} {ts : List Table}
    (h1 : Tabs o s rs) (h2 : s.transition = 0)
    (h : feedDemux St.demux (handleTable o) pid ts s = .ok (s', log)) :
    Tabs o s' (rs ++ log) ∧ Trans o s' rs log ∧ Same s s' := by
  have := feedDemux_inv (pid := pid) (watched := St.demux) (handle := handleTable o)
    (fun x l => ∃ l', l = rs ++ l' ∧ Tabs o x (rs ++ l') ∧ Trans o x rs l' ∧ Same s x)
    (by
      rintro x t x' l ⟨l', rfl, g1, g2, g3⟩ _ _ hh
      obtain ⟨k1, k2, k3⟩ := handle_spec (ts := l') g1 hh
      exact ⟨l' ++ [t], by simp, k1, k2 g2, k3.1.trans g3.1, k3.2.1.trans g3.2.1, k3.2.2.trans g3.2.2⟩)
    ts s s' log rs ⟨[], by simp, by simpa using h1, Or.inl ⟨h2, by simp⟩, rfl, rfl, rfl⟩ h
  obtain ⟨l', e, g⟩ := this
  have := List.append_cancel_left e
  subst this
  exact g

/-! PCRs. -/

/-- No PCR of the service in the history. -/
def NoPcr (o : Opt) (items : List Item) : Prop :=
  ∀ a j b, items = a ++ j :: b → ∀ y, ¬ PcrOf o.sid (received a ++ j.handled) j.packet y

theorem firstPcr_append {o : Opt} {pre : List Item} {it : Item} {x : Int} (h : FirstPcr o pre x) :
    FirstPcr o (pre ++ [it]) x := by
  obtain ⟨a, j, b, e, h1, h2⟩ := h
  exact ⟨a, j, b ++ [it], by simp [e], h1, h2⟩

theorem firstPcr_new {o : Opt} {pre : List Item} {it : Item} {x : Int} (h : NoPcr o pre)
    (hx : PcrOf o.sid (received pre ++ it.handled) it.packet x) : FirstPcr o (pre ++ [it]) x :=
  ⟨pre, it, [], rfl, hx, h⟩

theorem noPcr_append {o : Opt} {pre : List Item} {it : Item} (h : NoPcr o pre)
    (hx : ∀ x, ¬ PcrOf o.sid (received pre ++ it.handled) it.packet x) : NoPcr o (pre ++ [it]) := by
  intro a j b e
  rcases snoc_split e with ⟨_, rfl, rfl⟩ | ⟨b', _, e⟩
  · exact hx
  · exact h _ _ _ e

theorem firstPcr_noPcr {o : Opt} {pre : List Item} {x : Int} (h : NoPcr o pre) : ¬ FirstPcr o pre x := by
  rintro ⟨a, j, b, e, h1, _⟩
  exact h _ _ _ e _ h1

theorem pcrOf_unique {sid : Nat} {rs : List Table} {p : Packet} {x y : Int} (h : PcrOf sid rs p x)
    (h' : PcrOf sid rs p y) : x = y := by
  obtain ⟨_, _, _, _, h⟩ := h
  obtain ⟨_, _, _, _, h'⟩ := h'
  rw [h] at h'; cases h'; rfl

theorem firstPcr_unique {o : Opt} {pre : List Item} {x y : Int} (h : FirstPcr o pre x)
    (h' : FirstPcr o pre y) : x = y := by
  obtain ⟨a, j, b, e, h1, h2⟩ := h
  obtain ⟨a', j', b', e', h1', h2'⟩ := h'
  rw [e] at e'
  rcases List.append_eq_append_iff.mp e' with ⟨c, rfl, e3⟩ | ⟨c, rfl, e3⟩
  · cases c with
    | nil =>
      simp only [List.nil_append, List.cons.injEq] at e3
      rw [← e3.1, List.append_nil] at h1'
      exact pcrOf_unique h1 h1'
    | cons d c =>
      simp only [List.cons_append, List.cons.injEq] at e3
      rw [← e3.1] at h2'
      exact absurd h1 (h2' _ _ _ rfl _)
  · cases c with
    | nil =>
      simp only [List.nil_append, List.cons.injEq] at e3
      rw [← e3.1, List.append_nil] at h1
      exact pcrOf_unique h1 h1'
    | cons d c =>
      simp only [List.cons_append, List.cons.injEq] at e3
      rw [← e3.1] at h2
      exact absurd h1' (h2 _ _ _ rfl _)

/-! The state while seeking. -/

/-- State while all packets are held back. -/
structure Seeking (o : Opt) (s : St) (pre : List Item) : Prop where
  tabs : Tabs o s (received pre)
  streaming : s.streaming = false
  packets : s.packets = packets pre
  transition : s.transition = 0
  limit : (s.endPcr = -1 ∧ NoPcr o pre) ∨
    ∃ x, FirstPcr o pre x ∧ s.endPcr = limit o x

theorem limit_range (o : Opt) (x : Int) : 0 ≤ limit o x ∧ limit o x < 2 ^ 33 * 300 :=
  ⟨Int.emod_nonneg _ (by decide), Int.emod_lt_of_pos _ (by decide)⟩

theorem seeking_init (o : Opt) : Seeking o init [] :=
  ⟨tabs_init o, rfl, rfl, rfl, Or.inl ⟨rfl, by intro a j b e; simp at e⟩⟩

/-- What is done with a packet while seeking. -/
inductive Outcome (o : Opt) (pre : List Item) (it : Item) : Prop
  | lead (k j : Nat) (q : Packet) (ht : TransitionAt o pre it k)
      (hj : (patAt (received pre ++ it.handled)).getD 0 = j)
      (hq : (packets (pre ++ [it]))[j]? = some q)
      (hl : ∀ t ∈ it.handled, t.sourcePid = it.packet.pid)
      (hn : patAt (received pre) = none → it.handled ≠ [] → it.packet.pid = 0)
      (ha : it.act = .lead q ((packets (pre ++ [it])).drop k))
  | full (ht : ∀ k, ¬ TransitionAt o pre it k) (hf : Full o pre)
      (ha : it.act = .burst (packets (pre ++ [it])))
  | over (ht : ∀ k, ¬ TransitionAt o pre it k) (hf : ¬ Full o pre) (hd : DurationOver ReachedNoWrap o pre it)
      (ha : it.act = .burst (packets (pre ++ [it])))
  | hold (ht : ∀ k, ¬ TransitionAt o pre it k) (hf : ¬ Full o pre) (hd : ¬ DurationOver ReachedNoWrap o pre it)
      (ha : it.act = .hold) (hl : o.maxPackets ≠ 0 → pre.length + 1 < o.maxPackets)

theorem packets_append (a b : List Item) : packets (a ++ b) = packets a ++ packets b := by
  simp [packets]

theorem received_append (a b : List Item) : received (a ++ b) = received a ++ received b := by
  simp [received]

theorem pcrOf_iff {o : Opt} {s : St} {rs : List Table} (h : Tabs o s rs) (p : Packet) (x : Int) :
    PcrOf o.sid rs p x ↔ (s.pcrPid ≠ 0x1FFF ∧ p.pid = s.pcrPid ∧ p.pcr = some x) := by
  unfold PcrOf
  rw [h.pcr]
  cases latest (validPmt o.sid) rs with
  | none => simp [pidNull]
  | some p => simp

theorem feed_unwatched {o : Opt} {pid : Nat} : ∀ {ts : List Table} {s s' : St} {log : List Table},
    pid ∉ s.demux → feedDemux St.demux (handleTable o) pid ts s = .ok (s', log) → log = [] := by
  intro ts
  induction ts with
  | nil =>
    intro s s' log _ h
    simp only [feedDemux, Except.ok.injEq, Prod.mk.injEq] at h
    exact h.2.symm
  | cons t ts ih =>
    intro s s' log hp h
    simp only [feedDemux] at h
    rw [if_neg (by simp [hp])] at h
    exact ih hp h

/-- While seeking, one packet. -/
theorem step_seeking {o : Opt} {s s' : St} {pre : List Item} {i : Input} {log : List Table} {act : Act}
    (hI : Seeking o s pre) (h : step o s i = .ok (s', log, act)) :
    Outcome o pre ⟨i.packet, log, act⟩ ∧
    (act = .hold → Seeking o s' (pre ++ [⟨i.packet, log, act⟩])) ∧
    (act ≠ .hold → s'.streaming = true ∧ s'.packets = []) := by
  unfold step at h
  obtain ⟨⟨s1, log1⟩, h1, h⟩ := bind_eq_ok h
  obtain ⟨ht, htr, hsame⟩ := feed_spec hI.tabs hI.transition h1
  dsimp only at h
  rw [if_neg (by rw [hsame.1, hI.streaming]; simp)] at h
  obtain ⟨⟨s2, act2⟩, h2, h⟩ := bind_eq_ok h
  simp only [Except.ok.injEq, Prod.mk.injEq] at h
  obtain ⟨rfl, rfl, rfl⟩ := h
  have hpk : s1.packets ++ [i.packet] = packets (pre ++ [⟨i.packet, log1, act2⟩]) := by
    rw [hsame.2.1, hI.packets, packets_append]; rfl
  have hlen : (s1.packets ++ [i.packet]).length = pre.length + 1 := by
    rw [hpk]; simp [packets]
  have hrec : received (pre ++ [(⟨i.packet, log1, act2⟩ : Item)]) = received pre ++ log1 := by
    simp [received]
  have hta : ∀ k, TransitionAt o pre ⟨i.packet, log1, act2⟩ k ↔ 0 < k ∧ s1.transition = k := by
    intro k
    unfold TransitionAt
    dsimp only
    constructor
    · rintro ⟨hk, t, hl, hf⟩
      refine ⟨hk, ?_⟩
      rcases htr with ⟨_, hn⟩ | ⟨u, hu, hk⟩
      · obtain ⟨a, b, e, ht, _⟩ := hl
        exact absurd ht (hn _ _ _ e)
      · rw [hk, ← hf]
        congr 1
        obtain ⟨a, b, e, g1, g2⟩ := hl
        obtain ⟨a', b', e', g1', g2'⟩ := hu
        rw [e] at e'
        rcases List.append_eq_append_iff.mp e' with ⟨c, rfl, e3⟩ | ⟨c, rfl, e3⟩
        · cases c with
          | nil => simp at e3; exact e3.1.symm
          | cons d c =>
            simp only [List.cons_append, List.cons.injEq] at e3
            obtain ⟨rfl, e3⟩ := e3
            refine absurd ?_ (g2 _ _ _ e3)
            simpa using g1'
        · cases c with
          | nil => simp at e3; exact e3.1
          | cons d c =>
            simp only [List.cons_append, List.cons.injEq] at e3
            obtain ⟨rfl, e3⟩ := e3
            refine absurd ?_ (g2' _ _ _ e3)
            simpa using g1
    · rintro ⟨hk, e⟩
      refine ⟨hk, ?_⟩
      rcases htr with ⟨h0, _⟩ | ⟨u, hu, hk'⟩
      · omega
      · exact ⟨u, hu, by rw [← hk', e]⟩
  unfold seek at h2
  dsimp only at h2
  split at h2
  · next hpos =>
    split at h2
    · cases h2
    · next q hq =>
      simp only [Except.ok.injEq, Prod.mk.injEq] at h2
      obtain ⟨rfl, rfl⟩ := h2
      refine ⟨.lead s1.transition s1.patIndex q ((hta _).2 ⟨hpos, rfl⟩) ?_ ?_ ?_ ?_ ?_, by simp, by simp⟩
      · exact ht.pat.symm
      · rw [← hq, hpk]
        simp [packets]
      · exact fun t ht => (feedDemux_log _ _ _ _ h1 t ht).2
      · intro hn hne
        dsimp only
        exact hI.tabs.demux hn _ (Decidable.byContradiction fun hp => hne (feed_unwatched hp h1))
      · dsimp only
        congr 1
        rw [hpk]; simp [packets]
  · next hpos =>
    have h0 : s1.transition = 0 := by omega
    have hnt : ∀ k, ¬ TransitionAt o pre ⟨i.packet, log1, act2⟩ k := by
      intro k hk
      have := (hta k).1 hk
      omega
    split at h2
    · next hc =>
      simp only [Bool.and_eq_true, bne_iff_ne, ne_eq, beq_iff_eq] at hc
      simp only [Except.ok.injEq, Prod.mk.injEq] at h2
      obtain ⟨rfl, rfl⟩ := h2
      refine ⟨.full hnt ⟨hc.1, by rw [hc.2, hlen]⟩ ?_, by simp, by simp⟩
      dsimp only
      congr 1
    · next hc =>
      have hnf : ¬ Full o pre := by
        rintro ⟨f1, f2⟩
        apply hc
        simp only [Bool.and_eq_true, bne_iff_ne, ne_eq, beq_iff_eq]
        exact ⟨f1, by rw [hlen, f2]⟩
      obtain ⟨_, h3, h2⟩ := bind_eq_ok h2
      have h3 := assert_ok h3
      have hl : o.maxPackets ≠ 0 → pre.length + 1 < o.maxPackets := by
        intro hne
        simp only [Bool.or_eq_true, beq_iff_eq, decide_eq_true_eq] at h3
        rw [hlen] at h3
        rcases h3 with e | h3
        · exact absurd e hne
        · exact h3
      have hpc := pcrOf_iff ht i.packet
      have base : ∀ (s'' : St) (lim : (s''.endPcr = -1 ∧ NoPcr o (pre ++ [⟨i.packet, log1, act2⟩])) ∨
          ∃ x, FirstPcr o (pre ++ [⟨i.packet, log1, act2⟩]) x ∧ s''.endPcr = limit o x),
          s'' = { s1 with packets := s1.packets ++ [i.packet], endPcr := s''.endPcr } →
          Seeking o s'' (pre ++ [⟨i.packet, log1, act2⟩]) := by
        intro s'' lim e
        refine ⟨?_, ?_, ?_, ?_, lim⟩
        · rw [hrec, e]
          exact ⟨ht.video, ht.audio, ht.pcr, ht.pat, ht.demux⟩
        · rw [e]; exact hsame.1.trans hI.streaming
        · rw [e]; exact hpk
        · rw [e]; exact h0
      have hold : (∀ x, ¬ PcrOf o.sid (received pre ++ log1) i.packet x) →
          Seeking o { s1 with packets := s1.packets ++ [i.packet] } (pre ++ [⟨i.packet, log1, act2⟩]) := by
        intro hn
        apply base _ _ rfl
        rcases hI.limit with ⟨e, hno⟩ | ⟨x, hx1, hx3⟩
        · exact Or.inl ⟨by dsimp only; rw [hsame.2.2, e], noPcr_append hno hn⟩
        · exact Or.inr ⟨x, firstPcr_append hx1, by dsimp only; rw [hsame.2.2, hx3]⟩
      split at h2
      · next hpid =>
        have hn : ∀ x, ¬ PcrOf o.sid (received pre ++ log1) i.packet x := by
          intro x hx
          obtain ⟨g1, g2, _⟩ := (hpc x).1 hx
          simp only [Bool.or_eq_true, beq_iff_eq, bne_iff_ne, pidNull] at hpid
          rcases hpid with e | e
          · exact g1 e
          · exact e g2.symm
        simp only [Except.ok.injEq, Prod.mk.injEq] at h2
        obtain ⟨rfl, rfl⟩ := h2
        refine ⟨.hold hnt hnf ?_ rfl hl, fun _ => hold hn, by simp⟩
        rintro ⟨_, x, _, hx, _⟩
        exact hn x hx
      · next hpid =>
        simp only [Bool.or_eq_true, beq_iff_eq, bne_iff_ne, pidNull, not_or, ne_eq, Decidable.not_not] at hpid
        split at h2
        · next hp =>
          have hn : ∀ x, ¬ PcrOf o.sid (received pre ++ log1) i.packet x := by
            intro x hx
            obtain ⟨_, _, g3⟩ := (hpc x).1 hx
            rw [hp] at g3; cases g3
          simp only [Except.ok.injEq, Prod.mk.injEq] at h2
          obtain ⟨rfl, rfl⟩ := h2
          refine ⟨.hold hnt hnf ?_ rfl hl, fun _ => hold hn, by simp⟩
          rintro ⟨_, x, _, hx, _⟩
          exact hn x hx
        · next pcr hp =>
          have hof : PcrOf o.sid (received pre ++ log1) i.packet pcr := (hpc _).2 ⟨hpid.1, hpid.2.symm, hp⟩
          split at h2
          · next hneg =>
            have hno : NoPcr o pre := by
              rcases hI.limit with ⟨_, hno⟩ | ⟨x, _, e⟩
              · exact hno
              · rw [hsame.2.2, e] at hneg
                have := limit_range o x
                omega
            obtain ⟨ticks, ht1, h2⟩ := bind_eq_ok h2
            obtain ⟨rfl, _, _⟩ := int64_ok ht1
            simp only [Except.ok.injEq, Prod.mk.injEq] at h2
            obtain ⟨rfl, rfl⟩ := h2
            refine ⟨.hold hnt hnf ?_ rfl hl, fun _ => base _ (Or.inr ⟨pcr, firstPcr_new hno hof, rfl⟩) rfl, by simp⟩
            rintro ⟨x, _, hf, _⟩
            exact firstPcr_noPcr hno hf
          · next hneg =>
            obtain ⟨x0, hx1, hx3⟩ := hI.limit.resolve_left (fun ⟨e, _⟩ => by
              rw [hsame.2.2, e] at hneg; omega)
            obtain ⟨c, hc1, h2⟩ := bind_eq_ok h2
            have hcs := ProgramFilter.compare_spec hc1
            rw [hsame.2.2, hx3] at hcs
            split at h2
            · next hlt =>
              simp only [Except.ok.injEq, Prod.mk.injEq] at h2
              obtain ⟨rfl, rfl⟩ := h2
              refine ⟨.hold hnt hnf ?_ rfl hl, fun _ => ?_, by simp⟩
              · rintro ⟨x, y, g1, g2, g3⟩
                rw [firstPcr_unique g1 hx1, pcrOf_unique g2 hof] at g3
                have := hcs.2 g3
                omega
              · exact base _ (Or.inr ⟨x0, firstPcr_append hx1, by dsimp only; rw [hsame.2.2, hx3]⟩) rfl
            · next hlt =>
              simp only [Except.ok.injEq, Prod.mk.injEq] at h2
              obtain ⟨rfl, rfl⟩ := h2
              refine ⟨.over hnt hnf ⟨x0, pcr, hx1, hof, hcs.1 (by omega)⟩ ?_, by simp, by simp⟩
              dsimp only
              congr 1

theorem run_cons {o : Opt} {s s' : St} {i : Input} {is : List Input} {items : List Item}
    (h : run o s (i :: is) = .ok (s', items)) :
    ∃ s1 log act rest, step o s i = .ok (s1, log, act) ∧ run o s1 is = .ok (s', rest) ∧
      items = ⟨i.packet, log, act⟩ :: rest := by
  simp only [run] at h
  obtain ⟨⟨s1, log, act⟩, h1, h⟩ := bind_eq_ok h
  obtain ⟨⟨s2, rest⟩, h2, h⟩ := bind_eq_ok h
  simp only [Except.ok.injEq, Prod.mk.injEq] at h
  obtain ⟨rfl, rfl⟩ := h
  exact ⟨s1, log, act, rest, h1, h2, rfl⟩

theorem feed_same {o : Opt} {s s' : St} {log : List Table} {pid : Nat} {ts : List Table}
    (h : feedDemux St.demux (handleTable o) pid ts s = .ok (s', log)) : Same s s' := by
  have := feedDemux_inv (pid := pid) (watched := St.demux) (handle := handleTable o)
    (fun x _ => Same s x)
    (by
      intro x t x' l g _ _ hh
      have : Same x x' := by
        unfold handleTable at hh
        split at hh
        · unfold handlePat at hh
          repeat' split at hh
          all_goals first | cases hh | (simp only [Except.ok.injEq] at hh; subst hh)
          all_goals exact ⟨rfl, rfl, rfl⟩
        · unfold handlePmt at hh
          dsimp only at hh
          repeat' split at hh
          all_goals (simp only [Except.ok.injEq] at hh; subst hh)
          all_goals exact ⟨rfl, rfl, rfl⟩
        · simp only [Except.ok.injEq] at hh; subst hh; exact ⟨rfl, rfl, rfl⟩
      exact ⟨this.1.trans g.1, this.2.1.trans g.2.1, this.2.2.trans g.2.2⟩)
    ts s s' log [] ⟨rfl, rfl, rfl⟩ h
  exact this

/-- Once streaming, every packet is passed on. -/
theorem run_streaming {o : Opt} : ∀ (is : List Input) (s s' : St) (items : List Item),
    s.streaming = true → s.packets = [] → run o s is = .ok (s', items) →
    items.map (·.packet) = is.map (·.packet) ∧ (∀ it ∈ items, it.act = .pass it.packet) ∧
    s'.packets = [] := by
  intro is
  induction is with
  | nil =>
    intro s s' items h1 h2 h
    simp only [run, Except.ok.injEq, Prod.mk.injEq] at h
    obtain ⟨rfl, rfl⟩ := h
    exact ⟨rfl, by simp, h2⟩
  | cons i is ih =>
    intro s s' items h1 h2 h
    obtain ⟨s1, log, act, rest, g1, g2, rfl⟩ := run_cons h
    unfold step at g1
    obtain ⟨⟨sa, la⟩, k1, g1⟩ := bind_eq_ok g1
    have hs := feed_same k1
    dsimp only at g1
    rw [if_pos (hs.1.trans h1)] at g1
    simp only [Except.ok.injEq, Prod.mk.injEq] at g1
    obtain ⟨rfl, rfl, rfl⟩ := g1
    obtain ⟨a, b, c⟩ := ih _ _ _ (hs.1.trans h1) (hs.2.1.trans h2) g2
    exact ⟨by simp [a], by simpa using b, c⟩

/-- The shape of a run. -/
theorem run_seeking {o : Opt} : ∀ (is : List Input) (s s' : St)
    (pre items : List Item), Seeking o s pre → Held pre → run o s is = .ok (s', items) →
    packets items = is.map (·.packet) ∧
    ((Held items ∧ Seeking o s' (pre ++ items)) ∨
      ∃ a it b, items = a ++ it :: b ∧ Held a ∧ it.act ≠ .hold ∧
        (∀ x ∈ b, x.act = .pass x.packet) ∧ s'.packets = []) ∧
    (∀ a it b, items = a ++ it :: b → Held a → Outcome o (pre ++ a) it) := by
  intro is
  induction is with
  | nil =>
    intro s s' pre items hI _ h
    simp only [run, Except.ok.injEq, Prod.mk.injEq] at h
    obtain ⟨rfl, rfl⟩ := h
    exact ⟨rfl, Or.inl ⟨by simp [Held], by simpa using hI⟩, by intro a it b e; simp at e⟩
  | cons i is ih =>
    intro s s' pre items hI hh h
    obtain ⟨s1, log, act, rest, g1, g2, rfl⟩ := run_cons h
    obtain ⟨ho, hs1, hs2⟩ := step_seeking hI g1
    by_cases ha : act = .hold
    · have hh' : Held (pre ++ [⟨i.packet, log, act⟩]) := by
        intro x hx
        rcases List.mem_append.mp hx with hx | hx
        · exact hh x hx
        · simp at hx; subst hx; exact ha
      obtain ⟨k1, k2, k3⟩ := ih _ _ _ _ (hs1 ha) hh' g2
      refine ⟨by simp [packets] at k1 ⊢; exact k1, ?_, ?_⟩
      · rcases k2 with ⟨k, k'⟩ | ⟨a, it, b, rfl, k4, k5, k6, k7⟩
        · refine Or.inl ⟨?_, by simpa using k'⟩
          intro x hx
          rcases List.mem_cons.mp hx with rfl | hx
          · exact ha
          · exact k x hx
        · refine Or.inr ⟨⟨i.packet, log, act⟩ :: a, it, b, rfl, ?_, k5, k6, k7⟩
          intro x hx
          rcases List.mem_cons.mp hx with rfl | hx
          · exact ha
          · exact k4 x hx
      · intro a it b e hha
        cases a with
        | nil =>
          simp only [List.nil_append, List.cons.injEq] at e
          rw [← e.1, List.append_nil]; exact ho
        | cons c a =>
          simp only [List.cons_append, List.cons.injEq] at e
          obtain ⟨rfl, e⟩ := e
          have := k3 a it b e (fun x hx => hha x (List.mem_cons_of_mem _ hx))
          simpa using this
    · obtain ⟨st, sp⟩ := hs2 ha
      obtain ⟨k1, k2, k3⟩ := run_streaming _ _ _ _ st sp g2
      refine ⟨by simp [packets] at k1 ⊢; exact k1,
        Or.inr ⟨[], _, rest, rfl, by simp [Held], ha, k2, k3⟩, ?_⟩
      intro a it b e hha
      cases a with
      | nil =>
        simp only [List.nil_append, List.cons.injEq] at e
        rw [← e.1, List.append_nil]; exact ho
      | cons c a =>
        simp only [List.cons_append, List.cons.injEq] at e
        have := hha c (by simp)
        rw [← e.1] at this
        exact absurd this ha

/-! Held back packets and triggers. -/

theorem outcome_hold {o : Opt} {pre : List Item} {it : Item} (h : Outcome o pre it) :
    it.act = .hold ↔ ¬ Trigger ReachedNoWrap o pre it := by
  unfold Trigger
  cases h with
  | lead k j q ht hj hq hl hn ha =>
    exact ⟨fun h => (by rw [ha] at h; cases h), fun h => absurd (Or.inl ⟨k, ht⟩) h⟩
  | full ht hf ha =>
    exact ⟨fun h => (by rw [ha] at h; cases h), fun h => absurd (Or.inr (Or.inl hf)) h⟩
  | over ht hf hd ha =>
    exact ⟨fun h => (by rw [ha] at h; cases h), fun h => absurd (Or.inr (Or.inr hd)) h⟩
  | hold ht hf hd ha hl =>
    refine ⟨fun _ => ?_, fun _ => ha⟩
    rintro (⟨k, h⟩ | h | h)
    · exact ht k h
    · exact hf h
    · exact hd h

theorem within_held {o : Opt} {items : List Item}
    (ho : ∀ a it b, items = a ++ it :: b → Held a → Outcome o a it) :
    ∀ pre post, items = pre ++ post → (Held pre ↔ Within ReachedNoWrap o pre) := by
  intro pre
  induction hn : pre.length generalizing pre with
  | zero =>
    intro post _
    have : pre = [] := List.length_eq_zero_iff.1 hn
    subst this
    simp [Held, Within]
  | succ n ih =>
    intro post e
    rcases List.eq_nil_or_concat pre with rfl | ⟨a, it, rfl⟩
    · simp at hn
    · rw [List.concat_eq_append] at *
      have e' : items = a ++ it :: post := by simpa using e
      have iha := ih a (by simpa using hn) _ e'
      constructor
      · intro h
        have ha : Held a := fun x hx => h x (by simp [hx])
        intro b x c e2
        rcases snoc_split e2 with ⟨_, rfl, rfl⟩ | ⟨b', _, e2⟩
        · exact (outcome_hold (ho _ _ _ e' ha)).1 (h x (by simp))
        · exact iha.1 ha _ _ _ e2
      · intro h
        have ha : Held a := iha.2 fun b x c e2 => h b x (c ++ [it]) (by simp [e2])
        intro x hx
        rcases List.mem_append.mp hx with hx | hx
        · exact ha x hx
        · simp at hx; subst hx
          exact (outcome_hold (ho _ _ _ e' ha)).2 (h a x [] rfl)

/-! The connected sink. -/

theorem logged_handle {P σ : Type} {snk : Sink P σ} {d : σ × List (Call P)} {p : P}
    {r : Bool × σ × List (Call P)} (h : (logged snk).handle d p = .ok r) :
    snk.handle d.1 p = .ok (r.1, r.2.1) ∧ r.2.2 = d.2 ++ [.handle p] := by
  simp only [logged] at h
  cases hx : snk.handle d.1 p with
  | error e => rw [hx] at h; cases h
  | ok x =>
    rw [hx] at h
    simp only [Except.map, Except.ok.injEq] at h
    subst h; exact ⟨rfl, rfl⟩

theorem sendAll_willing {σ : Type} {snk : Sink Packet σ} (hw : Willing snk) :
    ∀ (xs : List Packet) (d d' : σ × List (Call Packet)) (ok : Bool),
    sendAll (logged snk) xs d = .ok (ok, d') → d'.2 = d.2 ++ xs.map .handle := by
  intro xs
  induction xs with
  | nil =>
    intro d d' ok h
    simp only [sendAll, Except.ok.injEq, Prod.mk.injEq] at h
    rw [← h.2]; simp
  | cons x xs ih =>
    intro d d' ok h
    simp only [sendAll] at h
    obtain ⟨⟨ok1, d1⟩, h1, h⟩ := bind_eq_ok h
    obtain ⟨g1, g2⟩ := logged_handle h1
    have := hw _ _ _ g1
    dsimp only at this h g2
    subst this
    rw [if_pos rfl] at h
    rw [ih _ _ _ h, g2]; simp

theorem perform_willing {σ : Type} {snk : Sink Packet σ} (hw : Willing snk)
    {d d' : σ × List (Call Packet)} {act : Act} {ok : Bool}
    (h : perform (logged snk) d act = .ok (ok, d')) : ok = true ∧ d'.2 = d.2 ++ (Act.out act).map .handle := by
  cases act with
  | hold =>
    simp only [perform, Except.ok.injEq, Prod.mk.injEq] at h
    exact ⟨h.1.symm, by rw [← h.2]; simp [Act.out]⟩
  | lead q l =>
    simp only [perform] at h
    obtain ⟨⟨ok1, d1⟩, h1, h⟩ := bind_eq_ok h
    obtain ⟨⟨ok2, d2⟩, h2, h⟩ := bind_eq_ok h
    simp only [Except.ok.injEq, Prod.mk.injEq] at h
    obtain ⟨rfl, rfl⟩ := h
    refine ⟨rfl, ?_⟩
    rw [sendAll_willing hw _ _ _ _ h2, (logged_handle h1).2]; simp [Act.out]
  | burst l =>
    simp only [perform] at h
    obtain ⟨⟨ok2, d2⟩, h2, h⟩ := bind_eq_ok h
    simp only [Except.ok.injEq, Prod.mk.injEq] at h
    obtain ⟨rfl, rfl⟩ := h
    exact ⟨rfl, sendAll_willing hw _ _ _ _ h2⟩
  | pass p =>
    simp only [perform] at h
    have := logged_handle h
    exact ⟨hw _ _ _ this.1, by rw [this.2]; rfl⟩

theorem sink_willing {σ : Type} {o : Opt} {snk : Sink Packet σ} (hw : Willing snk) {is cs : List Input}
    {a b : St × σ × List (Call Packet)} (h : Consumes (sink o (logged snk)) a is cs b) :
    cs = is ∧ ∃ items, run o a.1 is = .ok (b.1, items) ∧ b.2.2 = a.2.2 ++ (sent items).map .handle := by
  induction h with
  | eof => exact ⟨rfl, [], rfl, by simp [sent]⟩
  | @refuse s s' i is h =>
    simp only [sink] at h
    obtain ⟨⟨f, log, act⟩, h1, h'⟩ := bind_eq_ok h
    obtain ⟨⟨ok, d⟩, h2, h''⟩ := bind_eq_ok h'
    have := (perform_willing hw h2).1
    subst this
    simp at h''
  | @accept s s' s'' i is cs h _ ih =>
    obtain ⟨rfl, items, i1, i2⟩ := ih
    simp only [sink] at h
    obtain ⟨⟨f, log, act⟩, h1, h'⟩ := bind_eq_ok h
    obtain ⟨⟨ok, d⟩, h2, h''⟩ := bind_eq_ok h'
    simp only [Except.ok.injEq, Prod.mk.injEq] at h''
    clear h h'
    obtain ⟨_, rfl⟩ := h''
    have := (perform_willing hw h2).2
    refine ⟨rfl, ⟨i.packet, log, act⟩ :: items, ?_, ?_⟩
    · simp only [run, h1, ok_bind]
      dsimp only at i1
      rw [i1]; rfl
    · rw [i2]
      dsimp only
      rw [this]
      simp [sent]

theorem judged_handle {P σ : Type} {snk : Sink P σ} {d : σ × List (P × Bool)} {p : P}
    {r : Bool × σ × List (P × Bool)} (h : (judged snk).handle d p = .ok r) :
    snk.handle d.1 p = .ok (r.1, r.2.1) ∧ r.2.2 = d.2 ++ [(p, r.1)] := by
  simp only [judged] at h
  cases hx : snk.handle d.1 p with
  | error e => rw [hx] at h; cases h
  | ok x =>
    rw [hx] at h
    simp only [Except.map, Except.ok.injEq] at h
    subst h; exact ⟨rfl, rfl⟩

theorem sendAll_judged {σ : Type} {snk : Sink Packet σ} :
    ∀ (xs : List Packet) (d d' : σ × List (Packet × Bool)) (ok : Bool),
    sendAll (judged snk) xs d = .ok (ok, d') →
    ∃ l, d'.2 = d.2 ++ l ∧ l.map (·.1) <+: xs ∧ StopsAtRefusal l ∧ (ok = true → l = xs.map (·, true)) := by
  intro xs
  induction xs with
  | nil =>
    intro d d' ok h
    simp only [sendAll, Except.ok.injEq, Prod.mk.injEq] at h
    exact ⟨[], by rw [← h.2]; simp, by simp, by intro a p b e; simp at e, by simp⟩
  | cons x xs ih =>
    intro d d' ok h
    simp only [sendAll] at h
    obtain ⟨⟨ok1, d1⟩, h1, h⟩ := bind_eq_ok h
    obtain ⟨g1, g2⟩ := judged_handle h1
    dsimp only at h g2
    cases ok1 with
    | true =>
      rw [if_pos rfl] at h
      obtain ⟨l, k1, k2, k3, k4⟩ := ih _ _ _ h
      refine ⟨(x, true) :: l, by rw [k1, g2]; simp, by simpa using k2, ?_, fun e => by simp [k4 e]⟩
      intro a p b e
      cases a with
      | nil => simp at e
      | cons y a => simp only [List.cons_append, List.cons.injEq] at e; exact k3 _ _ _ e.2
    | false =>
      rw [if_neg (by simp)] at h
      simp only [Except.ok.injEq, Prod.mk.injEq] at h
      obtain ⟨rfl, rfl⟩ := h
      refine ⟨[(x, false)], g2, by simp, ?_, by simp⟩
      intro a p b e
      cases a with
      | nil => simp at e; exact e.2
      | cons y a => simp at e

theorem passed_cons_of_ne {it : Item} {items : List Item} (h : ∀ p, it.act ≠ .pass p) :
    passed (it :: items) = passed items := by
  unfold passed
  rw [List.filterMap_cons]
  cases ha : it.act with
  | pass p => exact absurd ha (h p)
  | hold => rfl
  | lead q l => rfl
  | burst l => rfl

theorem perform_judged {σ : Type} {snk : Sink Packet σ} {d d' : σ × List (Packet × Bool)} {act : Act}
    {ok : Bool} (h : perform (judged snk) d act = .ok (ok, d')) :
    (∃ p, act = .pass p ∧ d'.2 = d.2 ++ [(p, ok)]) ∨
    ((∀ p, act ≠ .pass p) ∧ ok = true ∧ ∃ l, d'.2 = d.2 ++ l ∧ (l.map (·.1)).Sublist (Act.out act)) := by
  cases act with
  | hold =>
    simp only [perform, Except.ok.injEq, Prod.mk.injEq] at h
    exact Or.inr ⟨by simp, h.1.symm, [], by rw [← h.2]; simp, by simp [Act.out]⟩
  | lead q l =>
    simp only [perform] at h
    obtain ⟨⟨ok1, d1⟩, h1, h⟩ := bind_eq_ok h
    obtain ⟨⟨ok2, d2⟩, h2, h⟩ := bind_eq_ok h
    simp only [Except.ok.injEq, Prod.mk.injEq] at h
    obtain ⟨rfl, rfl⟩ := h
    obtain ⟨l', k1, k2, _⟩ := sendAll_judged _ _ _ _ h2
    refine Or.inr ⟨by simp, rfl, (q, ok1) :: l', ?_, ?_⟩
    · rw [k1, (judged_handle h1).2]; simp
    · simpa [Act.out] using k2.sublist
  | burst l =>
    simp only [perform] at h
    obtain ⟨⟨ok2, d2⟩, h2, h⟩ := bind_eq_ok h
    simp only [Except.ok.injEq, Prod.mk.injEq] at h
    obtain ⟨rfl, rfl⟩ := h
    obtain ⟨l', k1, k2, _⟩ := sendAll_judged _ _ _ _ h2
    exact Or.inr ⟨by simp, rfl, l', k1, k2.sublist⟩
  | pass p =>
    simp only [perform] at h
    exact Or.inl ⟨p, rfl, (judged_handle h).2⟩

theorem bulk_cons_of_ne {it : Item} {items : List Item} (h : ∀ p, it.act ≠ .pass p) :
    bulk (it :: items) = Act.out it.act ++ bulk items := by
  unfold bulk
  rw [List.flatMap_cons]
  cases ha : it.act with
  | pass p => exact absurd ha (h p)
  | hold => rfl
  | lead q l => rfl
  | burst l => rfl

theorem streaming_judged {σ : Type} {o : Opt} {snk : Sink Packet σ} {is cs : List Input}
    {a b : St × σ × List (Packet × Bool)} (h : Consumes (sink o (judged snk)) a is cs b)
    (hs : a.1.streaming = true) (hp : a.1.packets = []) :
    ∃ items l, run o a.1 cs = .ok (b.1, items) ∧ b.2.2 = a.2.2 ++ l ∧ l.map (·.1) = cs.map (·.packet) ∧
      (∀ it ∈ items, it.act = .pass it.packet) ∧ StopsAtRefusal l := by
  induction h with
  | eof => exact ⟨[], [], rfl, by simp, rfl, by simp, by intro a p b e; simp at e⟩
  | @refuse s s' i is h =>
    simp only [sink] at h
    obtain ⟨⟨f, log, act⟩, h1, h'⟩ := bind_eq_ok h
    obtain ⟨⟨ok, d⟩, h2, h''⟩ := bind_eq_ok h'
    simp only [Except.ok.injEq, Prod.mk.injEq] at h''
    have hr : run o s.1 [i] = .ok (f, [⟨i.packet, log, act⟩]) := by simp [run, h1]
    have hact := (run_streaming _ _ _ _ hs hp hr).2.1 _ (List.mem_singleton.2 rfl)
    dsimp only at hact
    subst hact
    clear h h'
    obtain ⟨rfl, rfl⟩ := h''
    rcases perform_judged h2 with ⟨p, e, k⟩ | ⟨k, _⟩
    · cases e
      refine ⟨_, [(i.packet, false)], hr, k, rfl, by simp, ?_⟩
      intro a p b e
      cases a with
      | nil => simp at e; exact e.2
      | cons y a => simp at e
    · exact absurd rfl (k _)
  | @accept s s' s'' i is cs h _ ih =>
    simp only [sink] at h
    obtain ⟨⟨f, log, act⟩, h1, h'⟩ := bind_eq_ok h
    obtain ⟨⟨ok, d⟩, h2, h''⟩ := bind_eq_ok h'
    simp only [Except.ok.injEq, Prod.mk.injEq] at h''
    have hr : run o s.1 [i] = .ok (f, [⟨i.packet, log, act⟩]) := by simp [run, h1]
    obtain ⟨_, hact, hp'⟩ := run_streaming _ _ _ _ hs hp hr
    have hact := hact _ (List.mem_singleton.2 rfl)
    dsimp only at hact
    subst hact
    clear h h'
    obtain ⟨rfl, rfl⟩ := h''
    have hst : f.streaming = true := by
      unfold step at h1
      obtain ⟨⟨sa, la⟩, k1, g1⟩ := bind_eq_ok h1
      have hs' := feed_same k1
      dsimp only at g1
      rw [if_pos (hs'.1.trans hs)] at g1
      simp only [Except.ok.injEq, Prod.mk.injEq] at g1
      rw [← g1.1]; exact hs'.1.trans hs
    obtain ⟨items, l, k1, k2, k3, k4, k5⟩ := ih hst hp'
    dsimp only at k1 k2
    rcases perform_judged h2 with ⟨p, e, k⟩ | ⟨k, _⟩
    · cases e
      refine ⟨⟨i.packet, log, .pass i.packet⟩ :: items, (i.packet, true) :: l, ?_, ?_, by simp [k3], ?_, ?_⟩
      · simp only [run, h1, ok_bind, k1]
      · rw [k2, k]; simp
      · simpa using k4
      · intro a p b e
        cases a with
        | nil => simp at e
        | cons y a => simp only [List.cons_append, List.cons.injEq] at e; exact k5 _ _ _ e.2
    · exact absurd rfl (k _)

theorem sink_judged {σ : Type} {o : Opt} {snk : Sink Packet σ} {is cs : List Input}
    {a b : St × σ × List (Packet × Bool)} (h : Consumes (sink o (judged snk)) a is cs b) :
    ∀ pre, Seeking o a.1 pre →
    ∃ items l1 l2, run o a.1 cs = .ok (b.1, items) ∧ b.2.2 = a.2.2 ++ l1 ++ l2 ∧
      l2.map (·.1) = passed items ∧ (l1.map (·.1)).Sublist (bulk items) ∧ StopsAtRefusal l2 := by
  induction h with
  | eof =>
    intro pre _
    exact ⟨[], [], [], rfl, by simp, rfl, by simp, by intro a p b e; simp at e⟩
  | @refuse s s' i is h =>
    intro pre hI
    simp only [sink] at h
    obtain ⟨⟨f, log, act⟩, h1, h'⟩ := bind_eq_ok h
    obtain ⟨⟨ok, d⟩, h2, h''⟩ := bind_eq_ok h'
    simp only [Except.ok.injEq, Prod.mk.injEq] at h''
    clear h h'
    obtain ⟨rfl, rfl⟩ := h''
    obtain ⟨ho, _, _⟩ := step_seeking hI h1
    rcases perform_judged h2 with ⟨p, e, k⟩ | ⟨_, k, _⟩
    · subst e
      exfalso
      cases ho with
      | lead _ _ _ _ _ _ _ _ ha => cases ha
      | full _ _ ha => cases ha
      | over _ _ _ ha => cases ha
      | hold _ _ _ ha => cases ha
    · cases k
  | @accept s s' s'' i is cs h hrest ih =>
    intro pre hI
    simp only [sink] at h
    obtain ⟨⟨f, log, act⟩, h1, h'⟩ := bind_eq_ok h
    obtain ⟨⟨ok, d⟩, h2, h''⟩ := bind_eq_ok h'
    simp only [Except.ok.injEq, Prod.mk.injEq] at h''
    clear h h'
    obtain ⟨rfl, rfl⟩ := h''
    obtain ⟨ho, hs1, hs2⟩ := step_seeking hI h1
    have hne : ∀ p, act ≠ .pass p := by
      intro p e
      subst e
      cases ho with
      | lead _ _ _ _ _ _ _ _ ha => cases ha
      | full _ _ ha => cases ha
      | over _ _ _ ha => cases ha
      | hold _ _ _ ha => cases ha
    rcases perform_judged h2 with ⟨p, e, k⟩ | ⟨_, _, l, k1, k2⟩
    · exact absurd e (hne p)
    · by_cases ha : act = .hold
      · obtain ⟨items, l1, l2, j1, j2, j3, j4, j5⟩ := ih _ (hs1 ha)
        refine ⟨⟨i.packet, log, act⟩ :: items, l ++ l1, l2, ?_, ?_, ?_, ?_, j5⟩
        · dsimp only at j1
          simp only [run, h1, ok_bind, j1]
        · rw [j2]; dsimp only; rw [k1]; simp
        · rw [passed_cons_of_ne hne]; exact j3
        · rw [bulk_cons_of_ne hne, List.map_append]
          exact k2.append j4
      · obtain ⟨st, sp⟩ := hs2 ha
        obtain ⟨items, l2, j1, j2, j3, j4, j5⟩ := streaming_judged hrest st sp
        have hpk : packets items = cs.map (·.packet) := (run_streaming _ _ _ _ st sp j1).1
        refine ⟨⟨i.packet, log, act⟩ :: items, l, l2, ?_, ?_, ?_, ?_, j5⟩
        · dsimp only at j1
          simp only [run, h1, ok_bind, j1]
        · rw [j2]; dsimp only; rw [k1]
        · rw [passed_cons_of_ne hne, j3, ← hpk]
          clear hpk j1 j2 j3 j5
          induction items with
          | nil => rfl
          | cons x items ih =>
            have hx := j4 x (by simp)
            have := ih (fun y hy => j4 y (by simp [hy]))
            simp only [packets, passed, List.map_cons, List.filterMap_cons, hx] at this ⊢
            rw [this]
        · rw [bulk_cons_of_ne hne]
          exact k2.trans (List.sublist_append_left _ _)

/-! No abnormal termination. -/

/-- State from which the next packet is handled without abnormal outcome. -/
def Safe (o : Opt) (s : St) (n : Nat) : Prop :=
  s.streaming = true ∨ (s.streaming = false ∧ s.packets.length = n ∧ s.patIndex ≤ n ∧
    (o.maxPackets ≠ 0 → n < o.maxPackets) ∧ (s.endPcr = -1 ∨ (0 ≤ s.endPcr ∧ s.endPcr < 2 ^ 33 * 300)))

theorem handle_total {o : Opt} {n : Nat} {s : St} {t : Table} (hs : s.patIndex ≤ n)
    (ht : t.firstPacket ≤ n ∧ ∀ pat, usablePat t = some pat → ∃ pid, (o.sid, pid) ∈ pat.pmts.entries) :
    ∃ s', handleTable o s t = .ok s' ∧ Same s s' ∧ s'.patIndex ≤ n := by
  unfold handleTable
  split
  · next pat hb =>
    unfold handlePat
    split
    · exact ⟨_, rfl, ⟨rfl, rfl, rfl⟩, hs⟩
    · next h1 =>
      split
      · exact ⟨_, rfl, ⟨rfl, rfl, rfl⟩, hs⟩
      · next h2 =>
        split
        · exact ⟨_, rfl, ⟨rfl, rfl, rfl⟩, hs⟩
        · next h3 =>
          have hu : usablePat t = some pat := by
            simp only [usablePat, hb]
            rw [if_pos ⟨by simpa [pidPat] using h1, by simpa using h2, by simpa using h3⟩]
          obtain ⟨pid, hm⟩ := ht.2 _ hu
          rw [(OMap.find?_iff _ _ _).2 hm]
          exact ⟨_, rfl, ⟨rfl, rfl, rfl⟩, ht.1⟩
  · unfold handlePmt
    dsimp only
    repeat' split
    all_goals exact ⟨_, rfl, ⟨rfl, rfl, rfl⟩, hs⟩
  · exact ⟨_, rfl, ⟨rfl, rfl, rfl⟩, hs⟩

theorem ticks_fit {o : Opt} (hd : DurationFits o) :
    int64 (o.maxDuration * pcrTicksPerMs) = .ok (o.maxDuration * pcrTicksPerMs) := by
  obtain ⟨h1, h2⟩ := hd
  have e : o.maxDuration * pcrTicksPerMs = o.maxDuration * 27000 := rfl
  exact int64_of (by rw [e]; omega)

theorem step_total {o : Opt} (hd : DurationFits o) {s : St} {n : Nat} {i : Input} (hs : Safe o s n)
    (hi : Harmless o n i) : ∃ s' log act, step o s i = .ok (s', log, act) ∧ Safe o s' (n + 1) := by
  by_cases hst : s.streaming = true
  · obtain ⟨⟨s1, log⟩, h1, h2⟩ := feedDemux_total (pid := i.packet.pid) (watched := St.demux)
      (handle := handleTable o) (fun x => Same s x ∧ x.patIndex ≤ max s.patIndex n)
      (fun t => t.firstPacket ≤ max s.patIndex n ∧
        ∀ pat, usablePat t = some pat → ∃ pid, (o.sid, pid) ∈ pat.pmts.entries)
      (by
        rintro x t ⟨g1, g2⟩ ht _ _
        obtain ⟨x', k1, k2, k3⟩ := handle_total g2 ht
        exact ⟨x', k1, ⟨k2.1.trans g1.1, k2.2.1.trans g1.2.1, k2.2.2.trans g1.2.2⟩, k3⟩)
      i.tables s (fun t ht => ⟨by have := (hi.1 t ht).1; omega, (hi.1 t ht).2⟩) ⟨⟨rfl, rfl, rfl⟩, by omega⟩
    refine ⟨s1, log, .pass i.packet, ?_, Or.inl (h2.1.1.trans hst)⟩
    unfold step
    rw [h1]
    simp only [ok_bind]
    rw [if_pos (h2.1.1.trans hst)]
  · rcases hs with h | ⟨hf, hl, hp, hm, he⟩
    · exact absurd h hst
    · obtain ⟨⟨s1, log⟩, h1, h2, h3⟩ := feedDemux_total (pid := i.packet.pid) (watched := St.demux)
        (handle := handleTable o) (fun x => Same s x ∧ x.patIndex ≤ n)
        (fun t => t.firstPacket ≤ n ∧
          ∀ pat, usablePat t = some pat → ∃ pid, (o.sid, pid) ∈ pat.pmts.entries)
        (by
          rintro x t ⟨g1, g2⟩ ht _ _
          obtain ⟨x', k1, k2, k3⟩ := handle_total g2 ht
          exact ⟨x', k1, ⟨k2.1.trans g1.1, k2.2.1.trans g1.2.1, k2.2.2.trans g1.2.2⟩, k3⟩)
        i.tables s hi.1 ⟨⟨rfl, rfl, rfl⟩, hp⟩
      dsimp only at h2 h3
      have hl1 : s1.packets.length = n := by rw [h2.2.1]; exact hl
      have hlen : (s1.packets ++ [i.packet]).length = n + 1 := by simp [hl1]
      suffices ∃ s' act, seek o s1 i.packet = .ok (s', act) ∧ Safe o s' (n + 1) by
        obtain ⟨s', act, k1, k2⟩ := this
        refine ⟨s', log, act, ?_, k2⟩
        unfold step
        rw [h1]
        simp only [ok_bind]
        rw [if_neg (by rw [h2.1, hf]; simp), k1]
        rfl
      unfold seek
      dsimp only
      split
      · split
        · next hq =>
          rw [List.getElem?_eq_none_iff, hlen] at hq
          omega
        · exact ⟨_, _, rfl, Or.inl rfl⟩
      · split
        · exact ⟨_, _, rfl, Or.inl rfl⟩
        · next hc =>
          have hm' : o.maxPackets ≠ 0 → n + 1 < o.maxPackets := by
            intro hne
            have := hm hne
            rw [hlen] at hc
            simp [hne] at hc
            omega
          rw [assert_of (by
            rw [hlen]
            simp only [Bool.or_eq_true, beq_iff_eq, decide_eq_true_eq]
            by_cases hz : o.maxPackets = 0
            · exact Or.inl hz
            · exact Or.inr (hm' hz))]
          simp only [ok_bind]
          have hsafe : ∀ e : Int, (e = -1 ∨ (0 ≤ e ∧ e < 2 ^ 33 * 300)) →
              Safe o { s1 with packets := s1.packets ++ [i.packet], endPcr := e } (n + 1) := by
            intro e he
            exact Or.inr ⟨h2.1.trans hf, hlen, by dsimp only; omega, hm', he⟩
          have he1 : s1.endPcr = -1 ∨ (0 ≤ s1.endPcr ∧ s1.endPcr < 2 ^ 33 * 300) := by
            rw [h2.2.2]; exact he
          split
          · exact ⟨_, _, rfl, hsafe _ he1⟩
          · split
            · exact ⟨_, _, rfl, hsafe _ he1⟩
            · next pcr hpcr =>
              have hv := hi.2 _ hpcr
              split
              · rw [ticks_fit hd]
                simp only [ok_bind]
                refine ⟨_, _, rfl, hsafe _ (Or.inr ?_)⟩
                exact ⟨Int.emod_nonneg _ (by decide), Int.emod_lt_of_pos _ (by decide)⟩
              · next hneg =>
                have he2 := he1.resolve_left (by intro e; rw [e] at hneg; omega)
                obtain ⟨c, hc⟩ := ProgramFilter.compare_total ((isValidPcr_iff pcr).2 (by omega))
                  ((isValidPcr_iff s1.endPcr).2 (by omega))
                rw [hc]
                simp only [ok_bind]
                split
                · exact ⟨_, _, rfl, hsafe _ he1⟩
                · exact ⟨_, _, rfl, Or.inl rfl⟩

theorem run_total {o : Opt} (hd : DurationFits o) : ∀ (is : List Input) (s : St) (n : Nat),
    Safe o s n → (∀ k i, is[k]? = some i → Harmless o (n + k) i) → ∃ r, run o s is = .ok r := by
  intro is
  induction is with
  | nil => intro s n _ _; exact ⟨_, rfl⟩
  | cons i is ih =>
    intro s n hs hi
    obtain ⟨s', log, act, h1, h2⟩ := step_total hd hs (hi 0 i rfl)
    obtain ⟨r, hr⟩ := ih s' (n + 1) h2 (fun k j hj => by
      have := hi (k + 1) j (by simpa using hj)
      rwa [show n + 1 + k = n + (k + 1) by omega])
    simp only [run, h1, ok_bind, hr]
    exact ⟨_, rfl⟩

end Mirakc.StartSeeker
