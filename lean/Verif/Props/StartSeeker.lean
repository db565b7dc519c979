import Verif.Proof.StartSeeker
import Verif.Proof.ProgramFilterTotal
/-
Properties C34-C36, C72-C74 and C118: seek-start.

Tables carry the index of their first packet (`firstPacket`), as TSDuck's demultiplexer
counts packets; `Placed` and `Fresh` state what TSDuck guarantees about it.
-/
set_option linter.unusedSimpArgs false

namespace Mirakc.Props
open Mirakc.Spec Mirakc.Spec.StartSeeker Mirakc.StartSeeker
open Mirakc.Spec.ServiceFilter (usablePat validPmt latest)
open Mirakc.Spec.ProgramFilter (Reached ReachedNoWrap)

namespace C34ex

/-- A PAT starting at packet `k`. -/
def pat (k : Nat) : Table :=
  { sourcePid := 0, body := .pat { tsId := 7, pmts := ⟨[(1, 0x100)], by decide⟩ }, firstPacket := k }
/-- A PMT with one audio stream. -/
def pmt0 : Pmt :=
  { serviceId := 1, pcrPid := 0x1ff
    streams := ⟨[(0x111, { isVideo := true }), (0x113, { isAudio := true })], by decide⟩ }
/-- A PMT with two audio streams. -/
def pmt1 : Pmt :=
  { serviceId := 1, pcrPid := 0x1ff
    streams := ⟨[(0x111, { isVideo := true }), (0x113, { isAudio := true }),
      (0x114, { isAudio := true })], by decide⟩ }
/-- The table of a PMT starting at packet `k`. -/
def pmt (p : Pmt) (k : Nat) : Table := { sourcePid := 0x100, body := .pmt p, firstPacket := k }
/-- A packet with a PCR. -/
def pcr (x : Int) : Packet := { pid := 0x1ff, pcr := some x }
/-- Options. -/
def opt : Opt := { sid := 1, maxDuration := 1000, maxPackets := 100 }
/-- The history before the transition. -/
def hist : List Item :=
  [ ⟨{ pid := 0 }, [pat 0], .hold⟩,
    ⟨{ pid := 0x100 }, [pmt pmt0 1], .hold⟩,
    ⟨pcr 1000, [], .hold⟩,
    ⟨{ pid := 0, content := 3 }, [pat 3], .hold⟩,
    ⟨{ pid := 0x100, content := 4 }, [], .hold⟩ ]
/-- The packet completing the PMT of the transition. -/
def trans : Item :=
  ⟨{ pid := 0x100, content := 5 }, [pmt pmt1 4],
    .lead { pid := 0, content := 3 } [{ pid := 0x100, content := 4 }, { pid := 0x100, content := 5 }]⟩
/-- The rest. -/
def rest : List Item := [ ⟨pcr 2000, [], .pass (pcr 2000)⟩ ]
/-- The stream of a history. -/
def inputs (items : List Item) : List Input := items.map fun it => ⟨it.packet, it.handled⟩

theorem run_stream : ∃ s, run opt init (inputs (hist ++ trans :: rest)) = .ok (s, hist ++ trans :: rest) :=
  ok_of_eval (by decide +kernel)

theorem transition : TransitionAt opt hist trans 4 := by
  refine ⟨by decide, pmt pmt1 4, ⟨[], [], rfl, ⟨pmt0, pmt1, rfl, rfl, Or.inr ⟨⟨0x113, { isAudio := true }, by decide⟩, ?_⟩⟩, by simp⟩, rfl⟩
  intro h
  have := (h 0x114).2 ⟨{ isAudio := true }, by decide⟩
  simp [pmt0] at this

theorem placed : Placed (hist ++ trans :: rest) := by
  intro pre it post e t ht
  have key : ∀ (n : Nat), pre.length = n → n < 7 → t.firstPacket ≤ pre.length ∧
      ∀ p, (packets (hist ++ trans :: rest))[t.firstPacket]? = some p → p.pid = t.sourcePid := by
    intro n hn hlt
    have hit : (hist ++ trans :: rest)[pre.length]? = some it := by rw [e]; simp
    rw [hn] at hit ⊢
    match n, hlt with
    | 0, _ => simp [hist] at hit; subst hit; simp at ht; subst ht; exact ⟨by decide, by decide⟩
    | 1, _ => simp [hist] at hit; subst hit; simp at ht; subst ht; exact ⟨by decide, by decide⟩
    | 2, _ => simp [hist] at hit; subst hit; simp at ht
    | 3, _ => simp [hist] at hit; subst hit; simp at ht; subst ht; exact ⟨by decide, by decide⟩
    | 4, _ => simp [hist] at hit; subst hit; simp at ht
    | 5, _ => simp [hist] at hit; subst hit; simp [trans] at ht; subst ht; exact ⟨by decide, by decide⟩
    | 6, _ => simp [hist, rest] at hit; subst hit; simp at ht
  have hl : pre.length < 7 := by
    have := congrArg List.length e
    simp [hist, rest] at this; omega
  exact key _ rfl hl

theorem fresh : Fresh opt (hist ++ trans :: rest) := by
  intro pre it post e t ht hv
  have hit : (hist ++ trans :: rest)[pre.length]? = some it := by rw [e]; simp
  have hl : pre.length < 7 := by
    have := congrArg List.length e
    simp [hist, rest] at this; omega
  have key : ∀ (n : Nat), pre.length = n → n < 7 → t.sourcePid ≠ 0 ∧
      ∀ a j b, pre = a ++ j :: b → (∃ u ∈ j.handled, usablePat u ≠ none) → a.length < t.firstPacket := by
    intro n hn hlt
    rw [hn] at hit
    match n, hlt with
    | 0, _ => simp [hist] at hit; subst hit; simp at ht; subst ht; exact absurd rfl hv
    | 1, _ =>
      simp [hist] at hit; subst hit; simp at ht; subst ht
      refine ⟨by decide, ?_⟩
      intro a j b e2 _
      have := congrArg List.length e2
      simp only [hn, List.length_append, List.length_cons] at this
      simp only [pmt]; omega
    | 2, _ => simp [hist] at hit; subst hit; simp at ht
    | 3, _ => simp [hist] at hit; subst hit; simp at ht; subst ht; exact absurd rfl hv
    | 4, _ => simp [hist] at hit; subst hit; simp at ht
    | 5, _ =>
      simp [hist] at hit; subst hit; simp [trans] at ht; subst ht
      refine ⟨by decide, ?_⟩
      intro a j b e2 hu
      have hal := congrArg List.length e2
      simp [hn] at hal
      have hj : (hist ++ trans :: rest)[a.length]? = some j := by
        rw [e, e2]; simp
      by_cases h4 : a.length = 4
      · rw [h4] at hj
        simp [hist] at hj
        subst hj
        simp at hu
      · simp [pmt]; omega
    | 6, _ => simp [hist, rest] at hit; subst hit; simp at ht
  exact key _ rfl hl

end C34ex

/-- **C34.**  What is sent in total, including the packets sent at the end of the stream
(`s.packets`), is the complete input; or, if there was a transition, the first packet
`q` of the latest PAT, which is before the first packet `k` of the PMT announcing the
transition, followed by the complete input from packet `k` on. -/
theorem C34_output (o : Opt) (is : List Input) (s : St) (items : List Item)
    (h : run o init is = .ok (s, items))
    (hp : Placed items) (hf : Fresh o items) :
    sent items ++ s.packets = is.map (·.packet) ∨
    ∃ pre it post k j q, items = pre ++ it :: post ∧ Held pre ∧ TransitionAt o pre it k ∧
      patAt (received pre) = some j ∧ j < k ∧ k ≤ pre.length ∧
      (is.map (·.packet))[j]? = some q ∧ q.pid = 0 ∧
      sent items ++ s.packets = q :: (is.map (·.packet)).drop k := by
  obtain ⟨h1, h2, h3⟩ := run_seeking is init s [] items (seeking_init o) (by simp [Held]) h
  have sent_held : ∀ l : List Item, Held l → sent l = [] := by
    intro l hl
    simp only [sent, List.flatMap_eq_nil_iff]
    intro it hit
    rw [hl it hit]; rfl
  rcases h2 with ⟨hh, hs⟩ | ⟨pre, it, post, rfl, hh, hne, hpost, hpk⟩
  · left
    rw [sent_held _ hh, hs.packets, List.nil_append, List.nil_append]
    exact h1
  · have hsent : sent (pre ++ it :: post) = Act.out it.act ++ packets post := by
      have : sent post = packets post := by
        clear h h1 h3 hp hf
        induction post with
        | nil => rfl
        | cons x post ih =>
          have := ih (fun y hy => hpost y (by simp [hy]))
          simp only [sent, packets, List.flatMap_cons, List.map_cons] at this ⊢
          rw [hpost x (by simp), this]; rfl
      simp only [sent, List.flatMap_append, List.flatMap_cons] at this ⊢
      rw [this]
      have := sent_held pre hh
      simp only [sent] at this
      rw [this]; rfl
    have hcut : packets (pre ++ [it]) ++ packets post = is.map (·.packet) := by
      rw [← h1]; simp [packets]
    have ho := h3 pre it post rfl hh
    rw [List.nil_append] at ho
    rw [hpk, List.append_nil, hsent]
    cases ho with
    | lead k j q ht hj hq hl hn ha =>
      right
      obtain ⟨hk, t, hlt, htk⟩ := ht
      obtain ⟨a, b, e, htr, hrest⟩ := hlt
      have htm : t ∈ it.handled := by rw [e]; simp
      have htr' := htr
      obtain ⟨p, p', _, hv, _⟩ := htr'
      obtain ⟨hs0, hbefore⟩ := hf pre it post rfl t htm (by rw [hv]; simp)
      have hpid : it.packet.pid ≠ 0 := by rw [← hl t htm]; exact hs0
      have hpat : patAt (received pre ++ it.handled) = patAt (received pre) := by
        unfold patAt latest
        rw [List.filterMap_append]
        have : it.handled.filterMap (fun t => (usablePat t).map fun _ => t.firstPacket) = [] := by
          rw [List.filterMap_eq_nil_iff]
          intro u hu
          have hsu := hl u hu
          cases hup : usablePat u with
          | none => rfl
          | some pat =>
            exfalso
            have := ProgramFilter.usable_source hup
            rw [hsu] at this
            exact hpid this
        rw [this, List.append_nil]
      rw [hpat] at hj
      cases hpn : patAt (received pre) with
      | none =>
        exact absurd (hn hpn (by rw [e]; simp)) hpid
      | some j' =>
        rw [hpn] at hj
        simp only [Option.getD_some] at hj
        subst hj
        obtain ⟨u, hu, huj⟩ := ServiceFilter.latest_mem hpn
        simp only [received, List.mem_flatMap] at hu
        obtain ⟨x, hx, hux⟩ := hu
        obtain ⟨c, d, hcd⟩ := List.append_of_mem hx
        cases hup : usablePat u with
        | none => rw [hup] at huj; cases huj
        | some pat =>
          rw [hup] at huj
          simp only [Option.map_some, Option.some.injEq] at huj
          have b1 := hbefore c x d hcd ⟨u, hux, by rw [hup]; simp⟩
          have b2 := hp c x (d ++ it :: post) (by rw [hcd]; simp) u hux
          have b3 := hp pre it post rfl t htm
          have hj1 : (is.map (·.packet))[j']? = some q := by
            rw [← hcut, List.getElem?_append_left]
            · exact hq
            · have := (List.getElem?_eq_some_iff.1 hq).1
              exact this
          refine ⟨pre, it, post, k, j', q, rfl, hh, ⟨hk, t, ⟨a, b, e, htr, hrest⟩, htk⟩, hpn, by omega, by omega, hj1, ?_, ?_⟩
          · have := b2.2 q (by rw [huj, h1]; exact hj1)
            rw [this]; exact ProgramFilter.usable_source hup
          · rw [ha, ← hcut, List.drop_append_of_le_length (by simp [packets]; omega)]
            rfl
    | full ht hf ha => left; rw [ha]; exact hcut
    | over ht hf hd ha => left; rw [ha]; exact hcut
    | hold ht hf hd ha hl => exact absurd ha hne

example : (∃ s, run C34ex.opt init (C34ex.inputs (C34ex.hist ++ C34ex.trans :: C34ex.rest)) =
      .ok (s, C34ex.hist ++ C34ex.trans :: C34ex.rest)) ∧
    Placed (C34ex.hist ++ C34ex.trans :: C34ex.rest) ∧
    Fresh C34ex.opt (C34ex.hist ++ C34ex.trans :: C34ex.rest) ∧
    TransitionAt C34ex.opt C34ex.hist C34ex.trans 4 :=
  ⟨C34ex.run_stream, C34ex.placed, C34ex.fresh, C34ex.transition⟩

/-- **C34**, connected sink.  A sink that refuses nothing receives exactly this, and then
the end of the stream. -/
theorem C34_downstream {σ : Type} (o : Opt) (snk : Sink Packet σ) (hw : Willing snk)
    (is cs : List Input) (d : σ) (b c : St × σ × List (Call Packet))
    (h : Consumes (sink o (logged snk)) (init, d, []) is cs b)
    (hf : (sink o (logged snk)).finish b = .ok c) :
    cs = is ∧ ∃ items, run o init is = .ok (b.1, items) ∧
      c.2.2 = (sent items ++ b.1.packets).map .handle ++ [.finish] := by
  obtain ⟨h1, items, h2, h3⟩ := sink_willing hw h
  refine ⟨h1, items, h2, ?_⟩
  simp only [sink] at hf
  obtain ⟨⟨ok, d1⟩, g1, hf⟩ := bind_eq_ok hf
  obtain ⟨d2, g2, hf⟩ := bind_eq_ok hf
  simp only [Except.ok.injEq] at hf
  subst hf
  have k := sendAll_willing hw _ _ _ _ g1
  dsimp only at g2 ⊢
  simp only [logged] at g2
  cases hx : snk.finish d1.1 with
  | error e => rw [hx] at g2; cases g2
  | ok x =>
    rw [hx] at g2
    simp only [Except.map, Except.ok.injEq] at g2
    subst g2
    dsimp only
    rw [k, h3]; simp

/-- A sink that accepts everything. -/
example : Willing (σ := Unit)
    { start := fun d => .ok (true, d), handle := fun d (_ : Packet) => .ok (true, d),
      finish := fun d => .ok d, exitCode := fun _ => 0 } := by
  intro d p r h
  cases h; rfl

/-- **C35.**  While nothing has been sent, fewer than `--max-packets` packets are held
back after each packet (and hence at most that many during it); once something has been
sent, every packet is passed on immediately. -/
theorem C35_bounded (o : Opt) (is : List Input) (s : St) (items : List Item)
    (h : run o init is = .ok (s, items)) :
    (∀ pre it post, items = pre ++ it :: post →
      (Held (pre ++ [it]) → o.maxPackets ≠ 0 → (pre ++ [it]).length < o.maxPackets) ∧
      (¬ Held pre → it.act = .pass it.packet)) ∧
    (o.maxPackets ≠ 0 → s.packets.length < o.maxPackets) := by
  obtain ⟨h1, h2, h3⟩ := run_seeking is init s [] items (seeking_init o) (by simp [Held]) h
  have hb : ∀ pre it post, items = pre ++ it :: post → Held (pre ++ [it]) → o.maxPackets ≠ 0 →
      (pre ++ [it]).length < o.maxPackets := by
    intro pre it post e hh hm
    have ho := h3 pre it post e (fun x hx => hh x (by simp [hx]))
    rw [List.nil_append] at ho
    have hit := hh it (by simp)
    cases ho with
    | lead k j q ht hj hq hl hn ha => rw [ha] at hit; cases hit
    | full ht hf ha => rw [ha] at hit; cases hit
    | over ht hf hd ha => rw [ha] at hit; cases hit
    | hold ht hf hd ha hl => simpa using hl hm
  refine ⟨fun pre it post e => ⟨hb pre it post e, ?_⟩, ?_⟩
  · intro hn
    rcases h2 with ⟨hh, _⟩ | ⟨a, x, b, e2, hh, hne, hpost, hpk⟩
    · exact absurd (fun y hy => hh y (by rw [e]; simp [hy])) hn
    · rw [e] at e2
      rcases List.append_eq_append_iff.mp e2 with ⟨c, rfl, e3⟩ | ⟨c, rfl, e3⟩
      · exact absurd (fun y hy => hh y (by simp [hy])) hn
      · cases c with
        | nil => exact absurd (by simpa using hh) hn
        | cons d c =>
          simp only [List.cons_append, List.cons.injEq] at e3
          exact hpost it (by rw [e3.2]; simp)
  · intro hm
    rcases h2 with ⟨hh, hs⟩ | ⟨a, x, b, e2, hh, hne, hpost, hpk⟩
    · rw [hs.packets, List.nil_append]
      rcases List.eq_nil_or_concat items with rfl | ⟨a, x, rfl⟩
      · simp [packets]; omega
      · rw [List.concat_eq_append] at *
        have := hb a x [] rfl hh hm
        simpa [packets] using this
    · rw [hpk]; simp; omega

example : (∃ s, run C34ex.opt init (C34ex.inputs (C34ex.hist ++ C34ex.trans :: C34ex.rest)) =
      .ok (s, C34ex.hist ++ C34ex.trans :: C34ex.rest)) ∧ Held (C34ex.hist) ∧
    ¬ Held (C34ex.hist ++ [C34ex.trans]) ∧ C34ex.opt.maxPackets ≠ 0 := by
  refine ⟨C34ex.run_stream, ?_, ?_, by decide⟩
  · intro x hx
    simp [C34ex.hist] at hx
    rcases hx with rfl | rfl | rfl | rfl | rfl <;> rfl
  · intro h
    have := h C34ex.trans (by simp)
    simp [C34ex.trans] at this

/-- **C36, full statement**, `R` telling when a PCR is reached.  Nothing is sent exactly
as long as there was neither a transition nor a limit reached.  The first time, output
starts at the transition exactly if there is one (a PMT of the service whose video or
audio PIDs differ from those of the previous one, which had some), and otherwise with all
packets held back. -/
def C36_claim (R : Int → Int → Prop) : Prop :=
  ∀ (o : Opt) (is : List Input) (s : St) (items : List Item),
    run o init is = .ok (s, items) →
    ∀ pre it post, items = pre ++ it :: post →
      (Held (pre ++ [it]) ↔ Within R o (pre ++ [it])) ∧
      (Within R o pre →
        ((∃ q l, it.act = .lead q l) ↔ ∃ k, TransitionAt o pre it k) ∧
        (it.act = .burst (packets (pre ++ [it])) ↔
          (¬ ∃ k, TransitionAt o pre it k) ∧ (Full o pre ∨ DurationOver R o pre it)))

namespace C36ex

/-- Options. -/
def opt : Opt := { sid := 1, maxDuration := 1000 }
/-- The first PCR is 27000010 ticks before the wrap. -/
def hist : List Item :=
  [ ⟨{ pid := 0 }, [C34ex.pat 0], .hold⟩,
    ⟨{ pid := 0x100 }, [C34ex.pmt C34ex.pmt0 1], .hold⟩,
    ⟨C34ex.pcr 2576953377590, [], .hold⟩,
    ⟨C34ex.pcr 2576980377580, [], .hold⟩ ]
/-- The PCR of the next packet is after the wrap. -/
def last : Item := ⟨C34ex.pcr 5, [], .hold⟩

theorem over : DurationOver Reached opt hist last := by
  refine ⟨2576953377590, 5, ⟨hist.take 2, hist[2], [hist[3]], rfl, ⟨C34ex.pmt0, rfl, by decide, rfl, rfl⟩, ?_⟩,
    ⟨C34ex.pmt0, rfl, by decide, rfl, rfl⟩, ?_⟩
  · intro a j b e y ⟨_, _, _, _, hy⟩
    have hj : j ∈ a ++ j :: b := by simp
    rw [← e] at hj
    simp [hist] at hj
    rcases hj with rfl | rfl <;> cases hy
  · unfold Reached limit; decide

end C36ex

/-- **C36** is false when PCRs are compared modulo the period: if the PCR wraps around
between the end of the duration and the first PCR after it, the limit is missed. -/
theorem C36_claim_false : ¬ C36_claim Reached := by
  intro h
  obtain ⟨s, hr⟩ : ∃ s, run C36ex.opt init (C34ex.inputs (C36ex.hist ++ [C36ex.last])) =
      .ok (s, C36ex.hist ++ [C36ex.last]) := ok_of_eval (by decide +kernel)
  have h := (h _ _ s _ hr
    C36ex.hist C36ex.last [] rfl).1.1 (by
      intro x hx
      simp [C36ex.hist, C36ex.last] at hx
      rcases hx with rfl | rfl | rfl | rfl | rfl <;> rfl)
  exact h _ _ _ rfl (Or.inr (Or.inr C36ex.over))

/-- **C36, what holds**: the statement with PCRs compared without wrap-around. -/
theorem C36_transition_partial : C36_claim ReachedNoWrap := by
  intro o is s items h pre it post e
  obtain ⟨h1, h2, h3⟩ := run_seeking is init s [] items (seeking_init o) (by simp [Held]) h
  have ho : ∀ a it b, items = a ++ it :: b → Held a → Outcome o a it := by
    intro a it b e hh
    have := h3 a it b e hh
    rwa [List.nil_append] at this
  have hw := within_held ho
  refine ⟨hw _ post (by simp [e]), ?_⟩
  intro hwp
  have hout := ho pre it post e ((hw pre (it :: post) e).2 hwp)
  cases hout with
  | lead k j q ht hj hq hl hn ha =>
    refine ⟨⟨fun _ => ⟨k, ht⟩, fun _ => ⟨_, _, ha⟩⟩, ?_⟩
    rw [ha]
    exact ⟨(fun h => by cases h), fun h => absurd ⟨k, ht⟩ h.1⟩
  | full ht hf ha =>
    rw [ha]
    exact ⟨⟨fun ⟨_, _, h⟩ => (by cases h), fun ⟨k, h⟩ => absurd h (ht k)⟩,
      fun _ => ⟨fun ⟨k, h⟩ => ht k h, Or.inl hf⟩, fun _ => rfl⟩
  | over ht hf hd ha =>
    rw [ha]
    exact ⟨⟨fun ⟨_, _, h⟩ => (by cases h), fun ⟨k, h⟩ => absurd h (ht k)⟩,
      fun _ => ⟨fun ⟨k, h⟩ => ht k h, Or.inr hd⟩, fun _ => rfl⟩
  | hold ht hf hd ha hl =>
    rw [ha]
    refine ⟨⟨fun ⟨_, _, h⟩ => (by cases h), fun ⟨k, h⟩ => absurd h (ht k)⟩, (fun h => by cases h), ?_⟩
    rintro ⟨_, h | h⟩
    · exact absurd h hf
    · exact absurd h hd

/-- The stream of C34 meets the hypotheses: the limits are not reached before the
transition. -/
example : (∃ s, run C34ex.opt init (C34ex.inputs (C34ex.hist ++ C34ex.trans :: C34ex.rest)) =
      .ok (s, C34ex.hist ++ C34ex.trans :: C34ex.rest)) ∧
    Within ReachedNoWrap C34ex.opt C34ex.hist := by
  obtain ⟨s, h⟩ := C34ex.run_stream
  refine ⟨⟨s, h⟩, ?_⟩
  have := (C36_transition_partial _ _ _ _ h (C34ex.hist.take 4) C34ex.hist[4]
    (C34ex.trans :: C34ex.rest) rfl).1.1
  exact this (by
    intro x hx
    simp [C34ex.hist] at hx
    rcases hx with rfl | rfl | rfl | rfl | rfl <;> rfl)

/-- **C36**, limit: for a duration that is not negative and less than 10825 years, and a PCR, the limit
is the sum modulo the period. -/
theorem C36_limit (o : Opt) (h0 : 0 ≤ o.maxDuration) (h1 : o.maxDuration ≤ 341606371735362) (x : Int)
    (hx : 0 ≤ x ∧ x < 2 ^ 42) : limit o x = (x + o.maxDuration * 27000) % (2 ^ 33 * 300) := by
  have e : (x + o.maxDuration * 27000) % 2 ^ 64 = x + o.maxDuration * 27000 :=
    Int.emod_eq_of_lt (by omega) (by omega)
  rw [limit, e]

/-- The limit for an hour, and the one for a negative duration, which is not a millisecond before. -/
example : limit { sid := 1, maxDuration := 3600000 } 2576980377000 = 97199999400 ∧
    limit { sid := 1, maxDuration := -1 } 0 ≠ (0 + -1 * 27000) % (2 ^ 33 * 300) := by decide

/-- **C72, full statement.**  After the connected sink has refused a packet, it receives
no further packet. -/
def C72_claim : Prop :=
  ∀ (σ : Type) (o : Opt) (snk : Sink Packet σ) (is cs : List Input) (d : σ)
    (b c : St × σ × List (Packet × Bool)),
    Consumes (sink o (judged snk)) (init, d, []) is cs b →
    (sink o (judged snk)).finish b = .ok c → StopsAtRefusal c.2.2

/-- **C72** is false: refusals of packets that were held back are ignored. -/
theorem C72_claim_false : ¬ C72_claim := by
  intro h
  let snk : Sink Packet Unit :=
    { start := fun d => .ok (true, d), handle := fun d _ => .ok (false, d), finish := fun d => .ok d,
      exitCode := fun _ => 0 }
  let p (n : Nat) : Packet := { pid := 0x200, content := n }
  let o : Opt := { sid := 1, maxPackets := 2 }
  let s (l : List Packet) (b : Bool) : St := { packets := l, streaming := b }
  have h := h Unit o snk [⟨p 1, []⟩, ⟨p 2, []⟩, ⟨p 3, []⟩] [⟨p 1, []⟩, ⟨p 2, []⟩, ⟨p 3, []⟩] ()
    (s [] true, (), [(p 1, false), (p 3, false)]) (s [] true, (), [(p 1, false), (p 3, false)])
    (.accept (s' := (s [p 1] false, (), [])) (by decide +kernel)
      (.accept (s' := (s [] true, (), [(p 1, false)])) (by decide +kernel) (.refuse (by decide +kernel))))
    (by decide +kernel)
  have := h [] (p 1) [(p 3, false)] rfl
  simp at this

/-- **C72, what holds**: every packet passed on one by one is delivered, no packet is
delivered after one of these was refused; refusals are ignored only among the packets
held back, which are sent before (`l1`) or at the end of the stream (`l3`, if there was
no output before). -/
theorem C72_refusal_partial {σ : Type} (o : Opt) (snk : Sink Packet σ) (is cs : List Input) (d : σ)
    (b c : St × σ × List (Packet × Bool))
    (h : Consumes (sink o (judged snk)) (init, d, []) is cs b)
    (hf : (sink o (judged snk)).finish b = .ok c) :
    ∃ items l1 l2 l3, run o init cs = .ok (b.1, items) ∧ c.2.2 = l1 ++ l2 ++ l3 ∧
      (l1.map (·.1)).Sublist (bulk items) ∧
      l2.map (·.1) = passed items ∧ StopsAtRefusal l2 ∧
      StopsAtRefusal l3 ∧ (¬ Held items → l3 = []) ∧ (Held items → l1 = [] ∧ l2 = []) := by
  obtain ⟨items, l1, l2, h1, h2, h3, h4, h5⟩ := sink_judged h [] (seeking_init o)
  simp only [sink] at hf
  obtain ⟨⟨ok, d1⟩, g1, hf⟩ := bind_eq_ok hf
  obtain ⟨d2, g2, hf⟩ := bind_eq_ok hf
  simp only [Except.ok.injEq] at hf
  subst hf
  obtain ⟨l3, k1, k2, k3, _⟩ := sendAll_judged _ _ _ _ g1
  have hfin : d2.2 = d1.2 := by
    dsimp only at g2
    simp only [judged] at g2
    cases hx : snk.finish d1.1 with
    | error e => rw [hx] at g2; cases g2
    | ok x =>
      rw [hx] at g2
      simp only [Except.map, Except.ok.injEq] at g2
      rw [← g2]
  refine ⟨items, l1, l2, l3, h1, ?_, h4, h3, h5, k3, ?_, ?_⟩
  · dsimp only; rw [hfin, k1, h2]; simp
  · intro hn
    obtain ⟨_, j2, _⟩ := run_seeking cs init b.1 [] items (seeking_init o) (by simp [Held]) h1
    rcases j2 with ⟨hh, _⟩ | ⟨_, _, _, _, _, _, _, hpk⟩
    · exact absurd hh hn
    · rw [hpk] at k2
      simpa using k2
  · intro hh
    constructor
    · have : bulk items = [] := by
        simp only [bulk, List.flatMap_eq_nil_iff]
        intro it hit
        rw [hh it hit]; rfl
      rw [this] at h4
      simpa using h4
    · have : passed items = [] := by
        simp only [passed, List.filterMap_eq_nil_iff]
        intro it hit
        rw [hh it hit]
      rw [this] at h3
      simpa using h3

/-- The witness of `C72_claim_false` meets the hypotheses; so does an empty stream. -/
example : Consumes (sink { sid := 1, maxPackets := 2 } (judged (σ := Unit)
      { start := fun d => .ok (true, d), handle := fun d (_ : Packet) => .ok (false, d),
        finish := fun d => .ok d, exitCode := fun _ => 0 }))
    (init, (), []) [⟨{ pid := 0x200 }, []⟩] [⟨{ pid := 0x200 }, []⟩]
    ({ packets := [{ pid := 0x200 }] }, (), []) :=
  .accept (s' := ({ packets := [{ pid := 0x200 }] }, (), [])) (by decide +kernel) .eof

/-- **C73, full statement.**  If only `--max-packets` is given, packets are held back
until there is a transition or that many packets have been received. -/
def C73_claim : Prop :=
  ∀ (o : Opt) (is : List Input) (s : St) (items : List Item), o.maxDuration = 0 →
    run o init is = .ok (s, items) → ∀ pre it post, items = pre ++ it :: post →
    Held pre → (∀ k, ¬ TransitionAt o pre it k) → ¬ Full o pre → it.act = .hold

namespace C73ex

/-- History of a stream with two PCRs. -/
def hist : List Item :=
  [ ⟨{ pid := 0 }, [C34ex.pat 0], .hold⟩,
    ⟨{ pid := 0x100 }, [C34ex.pmt C34ex.pmt0 1], .hold⟩,
    ⟨C34ex.pcr 1000, [], .hold⟩ ]
/-- The second PCR. -/
def last : Item :=
  ⟨C34ex.pcr 2000, [], .burst [{ pid := 0 }, { pid := 0x100 }, C34ex.pcr 1000, C34ex.pcr 2000]⟩

theorem held : Held hist := by
  intro x hx
  simp [hist] at hx
  rcases hx with rfl | rfl | rfl <;> rfl

theorem no_transition (it : Item) (h : it.handled = []) (o : Opt) (pre : List Item) (k : Nat) :
    ¬ TransitionAt o pre it k := by
  rintro ⟨_, t, ⟨a, b, e, _⟩, _⟩
  rw [h] at e
  simp at e

end C73ex

/-- **C73** is false: the default for `--max-duration`, zero, is taken as a limit, so
that output starts with the second PCR. -/
theorem C73_claim_false : ¬ C73_claim := by
  intro h
  obtain ⟨s, hr⟩ : ∃ s, run { sid := 1, maxPackets := 100 } init (C34ex.inputs (C73ex.hist ++ [C73ex.last])) =
      .ok (s, C73ex.hist ++ [C73ex.last]) := ok_of_eval (by decide +kernel)
  have h := h _ _ s _ rfl hr
    C73ex.hist C73ex.last [] rfl C73ex.held (C73ex.no_transition _ rfl _ _)
    (by unfold Full; simp [C73ex.hist])
  simp [C73ex.last] at h

/-- **C73, what holds**: the statement for packets without a PCR of the service, or if
there was none before (and then for any maximum duration). -/
theorem C73_packets_partial (o : Opt) (is : List Input) (s : St) (items : List Item)
    (h : run o init is = .ok (s, items))
    (pre : List Item) (it : Item) (post : List Item) (e : items = pre ++ it :: post) (hh : Held pre)
    (ht : ∀ k, ¬ TransitionAt o pre it k) (hf : ¬ Full o pre)
    (hp : (∀ x, ¬ FirstPcr o pre x) ∨ ∀ x, ¬ PcrOf o.sid (received pre ++ it.handled) it.packet x) :
    it.act = .hold := by
  obtain ⟨_, _, h3⟩ := run_seeking is init s [] items (seeking_init o) (by simp [Held]) h
  have ho := h3 pre it post e hh
  rw [List.nil_append] at ho
  rw [outcome_hold ho]
  rintro (⟨k, hk⟩ | hk | ⟨x0, x, g1, g2, _⟩)
  · exact ht k hk
  · exact hf hk
  · rcases hp with hp | hp
    · exact hp _ g1
    · exact hp _ g2

/-- **C73**, exactly: if only `--max-packets` is given, a packet is held back if and only if there is no transition,
the number of packets is not reached, and the packet has no PCR of the service in the half period from the first one
on (in the same round). -/
theorem C73_any (o : Opt) (is : List Input) (s : St) (items : List Item) (hd : o.maxDuration = 0)
    (h : run o init is = .ok (s, items)) (pre : List Item) (it : Item) (post : List Item)
    (e : items = pre ++ it :: post) (hh : Held pre) :
    it.act = .hold ↔ (∀ k, ¬ TransitionAt o pre it k) ∧ ¬ Full o pre ∧
      ∀ x0 x, FirstPcr o pre x0 → PcrOf o.sid (received pre ++ it.handled) it.packet x →
        x < x0 % 2 ^ 64 % (2 ^ 33 * 300) ∨ 2 ^ 33 * 300 ≤ 2 * (x - x0 % 2 ^ 64 % (2 ^ 33 * 300)) := by
  obtain ⟨_, _, h3⟩ := run_seeking is init s [] items (seeking_init o) (by simp [Held]) h
  have ho := h3 pre it post e hh
  rw [List.nil_append] at ho
  have hl : ∀ x0, limit o x0 = x0 % 2 ^ 64 % (2 ^ 33 * 300) := by
    intro x0; unfold limit; rw [hd]; simp only [Int.zero_mul, Int.add_zero]
  rw [outcome_hold ho]
  unfold Trigger DurationOver Mirakc.Spec.ProgramFilter.ReachedNoWrap
  constructor
  · intro hn
    refine ⟨fun k hk => hn (.inl ⟨k, hk⟩), fun hf => hn (.inr (.inl hf)), fun x0 x g1 g2 => ?_⟩
    apply Classical.byContradiction
    intro g3
    refine hn (.inr (.inr ⟨x0, x, g1, g2, ?_⟩))
    rw [hl]
    omega
  · rintro ⟨h1, h2, h3⟩ (⟨k, hk⟩ | hk | ⟨x0, x, g1, g2, g3⟩)
    · exact h1 k hk
    · exact h2 hk
    · have := h3 x0 x g1 g2
      rw [hl] at g3
      omega

/-- The first PCR of the witness meets the hypotheses. -/
example : (∃ s, run { sid := 1, maxPackets := 100 } init (C34ex.inputs (C73ex.hist ++ [C73ex.last])) =
      .ok (s, C73ex.hist ++ [C73ex.last])) ∧ Held (C73ex.hist.take 2) ∧
    ∀ x, ¬ FirstPcr { sid := 1, maxPackets := 100 } (C73ex.hist.take 2) x := by
  refine ⟨ok_of_eval (by decide +kernel), fun x hx => C73ex.held x (List.mem_of_mem_take hx), ?_⟩
  rintro x ⟨a, j, b, e, ⟨_, _, _, _, hy⟩, _⟩
  have hj : j ∈ a ++ j :: b := by simp
  rw [← e] at hj
  simp [C73ex.hist] at hj
  rcases hj with rfl | rfl <;> cases hy

/-- **C74, full statement.**  Whatever packets and tables arrive, there is no abnormal
outcome (tables starting at a packet already received). -/
def C74_claim : Prop :=
  ∀ (o : Opt) (is : List Input), 0 ≤ o.maxDuration →
    (∀ (n : Nat) (i : Input), is[n]? = some i → ∀ t ∈ i.tables, t.firstPacket ≤ n) → ∃ r, run o init is = .ok r

/-- **C74** is false: a PAT that does not list the service makes the program abort. -/
theorem C74_claim_false : ¬ C74_claim := by
  intro h
  obtain ⟨r, h⟩ := h { sid := 2, maxPackets := 100 } [⟨{ pid := 0 }, [C34ex.pat 0]⟩] (by decide) (by
    intro n i hi t ht
    cases n with
    | zero => simp at hi; subst hi; simp at ht; subst ht; decide
    | succ n => simp at hi)
  have h' : run { sid := 2, maxPackets := 100 } init [⟨{ pid := 0 }, [C34ex.pat 0]⟩] =
      .error .assertFail := error_of_eval (by decide +kernel)
  rw [h'] at h
  cases h

/-- **C74, what holds**: no abnormal outcome if every usable PAT lists the service (as
ensured by filter-service), PCRs are less than the period, and the maximum duration is less than
10825 years. -/
theorem C74_no_abort_partial (o : Opt) (is : List Input) (hd : DurationFits o)
    (h : ∀ n i, is[n]? = some i → Harmless o n i) : ∃ r, run o init is = .ok r :=
  run_total hd is init 0 (Or.inr ⟨rfl, rfl, Nat.le_refl _, by omega, Or.inl rfl⟩)
    (fun k i hi => by rw [Nat.zero_add]; exact h k i hi)

example : Harmless C34ex.opt 0 ⟨{ pid := 0, pcr := some 5 }, [C34ex.pat 0]⟩ := by
  refine ⟨?_, by intro x hx; simp at hx; omega⟩
  intro t ht
  simp at ht
  subst ht
  refine ⟨by decide, ?_⟩
  intro pat hp
  simp [usablePat, C34ex.pat] at hp
  subst hp
  exact ⟨0x100, by decide⟩

/-- **C118.**  What is done with every packet of a stream, whatever tables it carries and whatever they say about
their first packets.  As long as everything is held back: with a transition whose PMT starts at packet `k`, the first packet of the
latest PAT (the first packet of the stream if there was none) and then all packets from `k` on are sent; otherwise
if one of the limits is reached, all packets received so far are sent; otherwise the packet is held back, too.
After the first packets were sent, every packet is passed on, whatever it is. -/
theorem C118_packet_rule (o : Opt) (is : List Input) (s : St) (items : List Item)
    (h : run o init is = .ok (s, items)) (pre : List Item) (it : Item) (post : List Item)
    (e : items = pre ++ it :: post) :
    (Held pre →
      (∃ k j q, TransitionAt o pre it k ∧ (patAt (received pre ++ it.handled)).getD 0 = j ∧
        (packets (pre ++ [it]))[j]? = some q ∧ it.act = .lead q ((packets (pre ++ [it])).drop k)) ∨
      ((∀ k, ¬ TransitionAt o pre it k) ∧ Trigger ReachedNoWrap o pre it ∧
        it.act = .burst (packets (pre ++ [it]))) ∨
      (¬ Trigger ReachedNoWrap o pre it ∧ it.act = .hold)) ∧
    (¬ Held pre → it.act = .pass it.packet) := by
  obtain ⟨_, h2, h3⟩ := run_seeking is init s [] items (seeking_init o) (by simp [Held]) h
  refine ⟨fun hh => ?_, fun hn => ?_⟩
  · have ho := h3 pre it post e hh
    rw [List.nil_append] at ho
    have hw := outcome_hold ho
    cases ho with
    | lead k j q ht hj hq hl hn ha => exact .inl ⟨k, j, q, ht, hj, hq, ha⟩
    | full ht hf ha => exact .inr (.inl ⟨ht, .inr (.inl hf), ha⟩)
    | over ht hf hd ha => exact .inr (.inl ⟨ht, .inr (.inr hd), ha⟩)
    | hold ht hf hd ha hl => exact .inr (.inr ⟨hw.1 ha, ha⟩)
  · rcases h2 with ⟨hh, _⟩ | ⟨a, jt, b, e2, ha, _, hb, _⟩
    · exact absurd (fun x hx => hh x (by rw [e]; simp [hx])) hn
    · apply hb
      rw [e] at e2
      rcases List.append_eq_append_iff.1 e2 with ⟨c, hc, _⟩ | ⟨c, hc, hd⟩
      · exact absurd (fun x hx => ha x (by rw [hc]; simp [hx])) hn
      · cases c with
        | nil =>
          rw [List.append_nil] at hc
          exact absurd (hc ▸ ha) hn
        | cons y c =>
          simp only [List.cons_append, List.cons.injEq] at hd
          rw [hd.2]; simp

/-- The stream of C34: packet 5 makes the transition, packet 6 is passed on. -/
example : (∃ s, run C34ex.opt init (C34ex.inputs (C34ex.hist ++ C34ex.trans :: C34ex.rest)) =
      .ok (s, C34ex.hist ++ C34ex.trans :: C34ex.rest)) ∧ Held C34ex.hist ∧
    TransitionAt C34ex.opt C34ex.hist C34ex.trans 4 ∧ ¬ Held (C34ex.hist ++ [C34ex.trans]) := by
  refine ⟨C34ex.run_stream, ?_, C34ex.transition, fun h => ?_⟩
  · intro x hx
    simp [C34ex.hist] at hx
    rcases hx with rfl | rfl | rfl | rfl | rfl <;> rfl
  · have := h C34ex.trans (by simp)
    cases this

end Mirakc.Props
