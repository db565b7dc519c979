import Verif.Proof.OtherService
import Verif.Props.BehindSync
import Verif.Props.MainAborts
import Verif.Props.SeekAborts
/-
Property C159: seek-start behind filter-service.
-/
namespace Mirakc.Props
open Mirakc.Main Mirakc.Spec Mirakc.Spec.Main Mirakc.Spec.Pipeline
open Mirakc.Spec.ServiceFilter (sent usablePat validCat validPmt Again)

private theorem again_at {is : List Input} {items : List ServiceFilter.Item} {ts : List (List Table)} (h : Again is items ts) :
    ∀ (k : Nat) (x : ServiceFilter.Out) (l : List Table), (sent items)[k]? = some x → ts[k]? = some l →
      ∃ (j : Nat) (i : Input) (it : ServiceFilter.Item), is[j]? = some i ∧ items[j]? = some it ∧ it.act = .send x ∧
        ∀ t n, x = .pat t n → ∀ u ∈ l, u.sourcePid = 0 → u.valid = true ∧ u.body = .pat t := by
  induction h with
  | nil => intro k x l hx; simp [sent] at hx
  | @drop i is it items ts e _ ih =>
    intro k x l hx hl
    have hx : (sent items)[k]? = some x := by
      simpa only [sent, List.filterMap_cons, Spec.ServiceFilter.sentOf, e] using hx
    obtain ⟨j, i', it', h1, h2, h3⟩ := ih k x l hx hl
    exact ⟨j + 1, i', it', by simpa using h1, by simpa using h2, h3⟩
  | @orig i is it items ts p e _ ih =>
    intro k x l hx hl
    have hs : sent (it :: items) = .orig p :: sent items := by
      simp only [sent, List.filterMap_cons, Spec.ServiceFilter.sentOf, e]
    rw [hs] at hx
    cases k with
    | zero =>
      cases Option.some.inj (show some _ = some x from hx)
      exact ⟨0, i, it, rfl, rfl, e, fun t n h => by cases h⟩
    | succ k =>
      obtain ⟨j, i', it', h1, h2, h3⟩ := ih k x l (by simpa using hx) (by simpa using hl)
      exact ⟨j + 1, i', it', by simpa using h1, by simpa using h2, h3⟩
  | @pat i is it items ts t n l' e h1 _ _ ih =>
    intro k x l hx hl
    have hs : sent (it :: items) = .pat t n :: sent items := by
      simp only [sent, List.filterMap_cons, Spec.ServiceFilter.sentOf, e]
    rw [hs] at hx
    cases k with
    | zero =>
      cases Option.some.inj (show some _ = some x from hx)
      cases Option.some.inj (show some _ = some l from hl)
      exact ⟨0, i, it, rfl, rfl, e, fun t n h => by cases h; exact h1⟩
    | succ k =>
      obtain ⟨j, i', it', g1, g2, g3⟩ := ih k x l (by simpa using hx) (by simpa using hl)
      exact ⟨j + 1, i', it', by simpa using g1, by simpa using g2, g3⟩

/-- **C159.**  seek-start for the same service never terminates abnormally on the output of filter-service: every PAT in it lists the service.
The PCRs of the stream are in range, the maximum duration is less than 10825 years, and a table starts at a packet received;
reads and writes may fail. -/
theorem C159_seek_start (w w2 : World) (hc : Faithful w.codec) (ps : List (List UInt8)) (hr : Reads w ps)
    (sid : Nat) (hs : sid < 65536) (f : ServiceFilter.St) (items : List ServiceFilter.Item)
    (hrun : ServiceFilter.run { sid := sid } (ServiceFilter.init { sid := sid })
      (seen (arrived w.codec w.tables) 0 ps) = .ok (f, items))
    (ts : List (List Table)) (ha : Again (seen (arrived w.codec w.tables) 0 ps) items ts)
    (hcod : w2.codec = w.codec) (hr2 : Reads w2 ((sent items).map (serviceBytes w.codec)))
    (ht : ∀ k l, ts[k]? = some l → w2.tables k = l) (hpcr : PcrsValid w ps)
    (hfirst : ∀ (k : Nat) l, ts[k]? = some l → ∀ t ∈ l, t.firstPacket ≤ k)
    (dur pkts : Option Int) (hd : -341606371735362 ≤ dur.getD 0 ∧ dur.getD 0 ≤ 341606371735362) :
    (∃ e, main w2 (.seekStart sid dur pkts) = .ok e) ∨ ∃ r, main w2 (.seekStart sid dur pkts) = .error (.refused r) := by
  obtain ⟨hl, hn⟩ := again_length ha
  refine (C113_abnormal w2 (.seekStart sid dur pkts) _ (by rw [hcod]; exact hc) hr2 trivial).2.2 ?_
  rintro ⟨o, ho, pre, b, post, s, items2, d, e1, e2, _, log, e4, e5⟩
  have ho : o.sid = sid ∧ o.maxDuration = dur.getD 0 := by
    cases pkts with
    | none =>
      simp only [Options.loadSeeker] at ho
      by_cases hq : (dur.getD 0 == 0 && (0 : Nat) == 0) = true
      · rw [if_pos hq] at ho; cases ho
      · rw [if_neg hq] at ho
        cases Except.ok.inj ho
        exact ⟨by show ((sid : Int) % 65536).toNat = sid; omega, rfl⟩
    | some v =>
      simp only [Options.loadSeeker] at ho
      by_cases hq : (dur.getD 0 == 0 && Options.toSize v % 4294967296 == 0) = true
      · rw [if_pos hq] at ho; cases ho
      · rw [if_neg hq] at ho
        cases Except.ok.inj ho
        exact ⟨by show ((sid : Int) % 65536).toNat = sid; omega, rfl⟩
  have at_ : ∀ (k : Nat) (b : List UInt8), ((sent items).map (serviceBytes w.codec))[k]? = some b →
      (∀ t ∈ w2.tables k, t.firstPacket ≤ k) ∧ (∀ x, (w.codec.packet b).pcr = some x → 0 ≤ x ∧ x < 2 ^ 33 * 300) ∧
      ((w.codec.packet b).pid = 0 → ∃ (t : Pat) (pid : Nat), (sid, pid) ∈ t.pmts.entries ∧
        ∀ u ∈ w2.tables k, u.sourcePid = 0 → u.body = .pat t) := by
    intro k b hb
    obtain ⟨x, hx, rfl⟩ := Option.map_eq_some_iff.1 (List.getElem?_map ▸ hb)
    have hk : k < ts.length := by
      rw [hl]
      exact (List.getElem?_eq_some_iff.1 hx).1
    have hlk : ts[k]? = some ts[k] := List.getElem?_eq_getElem hk
    obtain ⟨j, i, it, g1, g2, g3, g4⟩ := again_at ha k x _ hx hlk
    obtain ⟨_, c⟩ := Mirakc.Joined.acts hrun g2 g1 (hn it (List.mem_of_getElem? g2))
    rw [ht k _ hlk]
    refine ⟨hfirst k _ hlk, ?_⟩
    have hj : ∃ b ∈ ps, i.packet = w.codec.packet b := by
      have hjl : j < ps.length := by
        have := (List.getElem?_eq_some_iff.1 g1).1
        rwa [Mirakc.Pipeline.seen_length] at this
      have := Mirakc.Joined.seen_get (arrived w.codec w.tables) ps 0 j _ (List.getElem?_eq_getElem hjl)
      rw [this] at g1
      cases g1
      exact ⟨_, List.getElem_mem hjl, rfl⟩
    rcases c with c | ⟨c, c1⟩ | ⟨t, n, c, _, pat, _, hr1, _, _, pid, _, hr2⟩
    · rw [c] at g3; cases g3
    · rw [c] at g3
      cases g3
      obtain ⟨b, hb, e⟩ := hj
      have hk : w.codec.packet (serviceBytes w.codec (.orig i.packet)) = w.codec.packet b := by
        show w.codec.packet (w.codec.bytes i.packet) = _
        rw [e, hc.keep b (Mirakc.Pipeline.packets_188 hr.2 b hb)]
      rw [hk]
      exact ⟨hpcr b hb, fun h0 => absurd (e ▸ h0) c1⟩
    · rw [c] at g3
      cases g3
      refine ⟨fun x hx => ?_, fun _ => ⟨t, pid, by rw [hr2]; exact List.mem_cons_self, fun u hu h0 => (g4 t n rfl u hu h0).2⟩⟩
      have hx : (w.codec.packet (w.codec.patBytes t n)).pcr = some x := hx
      rw [hc.patPcr] at hx
      cases hx
  have hb : ((sent items).map (serviceBytes w.codec))[pre.length]? = some b := by rw [e1]; simp
  obtain ⟨q1, q2, q3⟩ := at_ _ _ hb
  have hlen : items2.length = pre.length := by
    have h1 := (Mirakc.StartSeeker.run_seeking _ StartSeeker.init s [] items2 (Mirakc.StartSeeker.seeking_init o)
      (by simp [Spec.StartSeeker.Held]) e2).1
    have := congrArg List.length h1
    simpa [Mirakc.Pipeline.seen_length, Spec.StartSeeker.packets] using this
  rcases e5 with ⟨t, g1, pat, g2, g3⟩ | ⟨_, _, n, g2, g3⟩ | ⟨_, _, _, _, _, g⟩ | ⟨_, _, _, _, x, ⟨_, _, _, _, g1⟩, g2⟩
  · have h0 := (Mirakc.OtherService.usable_pid g2).1
    have h1 := Mirakc.OtherService.handed_pid e4 t g1
    have h2 := Mirakc.OtherService.handed_mem e4 t g1
    have hz : (w.codec.packet b).pid = 0 := by rw [← hcod]; exact h1.symm.trans h0
    obtain ⟨t0, pid, k1, k2⟩ := q3 hz
    have k2 := k2 t h2 h0
    simp only [usablePat, k2] at g2
    split at g2
    · cases g2
      rw [ho.1] at g3
      exact g3 pid k1
    · cases g2
  · obtain ⟨t, h1, h2⟩ := Mirakc.Joined.latest_mem g2
    have h2 : t.firstPacket = n := by
      cases hu : usablePat t with
      | none => rw [hu] at h2; cases h2
      | some p => rw [hu] at h2; exact Option.some.inj h2
    rcases List.mem_append.1 h1 with h1 | h1
    · obtain ⟨it, hit, h1⟩ := List.mem_flatMap.1 h1
      obtain ⟨j, hj⟩ := List.getElem?_of_mem hit
      obtain ⟨post', e, hjl⟩ := Mirakc.Joined.split hj
      rw [e] at e2
      obtain ⟨i, k1, _, k3, _⟩ := C110_any_tables o _ s _ it post' e2
      rw [hjl] at k1
      have hjp : j < pre.length := by
        have := (List.getElem?_eq_some_iff.1 hj).1
        omega
      have k4 := Mirakc.Joined.seen_get (arrival w2) pre 0 j _ (List.getElem?_eq_getElem hjp)
      rw [k4] at k1
      cases k1
      have k5 := Mirakc.OtherService.handed_mem k3 t h1
      have hbj : ((sent items).map (serviceBytes w.codec))[j]? = some pre[j] := by
        rw [e1, List.getElem?_append_left hjp, List.getElem?_eq_getElem hjp]
      have k5 : t ∈ w2.tables j := by simpa [arrival] using k5
      have := (at_ j _ hbj).1 t k5
      omega
    · have := q1 t (Mirakc.OtherService.handed_mem e4 t h1)
      omega
  · exact g ⟨by rw [ho.2]; exact hd.1, by rw [ho.2]; exact hd.2⟩
  · have g1 : (w.codec.packet b).pcr = some x := by rw [← hcod]; exact g1
    have := q2 x g1
    omega

private theorem handed_total (W : List Table → Nat → Prop) (pid : Nat) : ∀ ts rs, ∃ log, Handed W pid rs ts log
  | [], rs => ⟨[], .nil rs⟩
  | t :: ts, rs => by
    by_cases h : t.sourcePid = pid ∧ W rs pid
    · obtain ⟨log, hl⟩ := handed_total W pid ts (rs ++ [t])
      exact ⟨t :: log, .take h hl⟩
    · obtain ⟨log, hl⟩ := handed_total W pid ts rs
      exact ⟨log, .skip h hl⟩

/-- **C159**, the service matters: seek-start for another service terminates abnormally on the output of filter-service, unless there is
no output.  A CAT, or a PMT of the service, is received only after a PAT; a limit is given. -/
theorem C159_other_service (w w2 : World) (hc : Faithful w.codec) (ps : List (List UInt8))
    (sid : Nat) (f : ServiceFilter.St) (items : List ServiceFilter.Item)
    (hrun : ServiceFilter.run { sid := sid } (ServiceFilter.init { sid := sid })
      (seen (arrived w.codec w.tables) 0 ps) = .ok (f, items))
    (hlate : ∀ (k : Nat) it, items[k]? = some it → (∃ t ∈ it.handled, validCat t ≠ none ∨ validPmt sid t ≠ none) →
      ∃ t ∈ Spec.ServiceFilter.received (items.take k), usablePat t ≠ none)
    (ts : List (List Table)) (ha : Again (seen (arrived w.codec w.tables) 0 ps) items ts)
    (hcod : w2.codec = w.codec) (hr2 : Reads w2 ((sent items).map (serviceBytes w.codec)))
    (ht : ∀ k l, ts[k]? = some l → w2.tables k = l) (sid2 : Nat) (hs2 : sid2 < 65536) (hne : sid ≠ sid2) (dur pkts : Option Int)
    (hd : dur.getD 0 ≠ 0) (hout : sent items ≠ []) :
    ∃ f, main w2 (.seekStart sid2 dur pkts) = .error (.fault f) := by
  obtain ⟨_, hn⟩ := again_length ha
  refine (C113_abnormal w2 (.seekStart sid2 dur pkts) _ (by rw [hcod]; exact hc) hr2 trivial).1.2 ?_
  rcases Mirakc.OtherService.first_out hrun ha hn hlate with g | ⟨t, n, l, rest, os, g1, g2, g3, ⟨pid, g4⟩, g5, g6⟩
  · exact absurd g hout
  obtain ⟨o, ho, hos⟩ : ∃ o, Options.loadSeeker sid2 dur pkts = .ok o ∧ o.sid = sid2 := by
    have hq : ∀ q : Nat, ¬ (dur.getD 0 == 0 && q == 0) = true := by simp [hd]
    cases pkts with
    | none =>
      refine ⟨_, by simp only [Options.loadSeeker]; exact if_neg (hq 0), ?_⟩
      show ((sid2 : Int) % 65536).toNat = sid2
      omega
    | some v =>
      refine ⟨_, by simp only [Options.loadSeeker]; exact if_neg (hq _), ?_⟩
      show ((sid2 : Int) % 65536).toNat = sid2
      omega
  have h0 : w2.tables 0 = l := ht 0 l (by rw [g2]; rfl)
  have hp : (w2.codec.packet (serviceBytes w.codec (.pat t n))).pid = 0 := by rw [hcod]; exact hc.patPid t n
  obtain ⟨log, hlog⟩ := handed_total (Spec.StartSeeker.Looked o.sid) 0 l []
  refine ⟨o, ho, [], serviceBytes w.codec (.pat t n), os.map (serviceBytes w.codec), StartSeeker.init, [], _, by rw [g1]; rfl, rfl, .nil,
    log, ?_, .inl ?_⟩
  · show Handed _ (w2.codec.packet (serviceBytes w.codec (.pat t n))).pid [] (w2.tables 0) log
    rw [hp, h0]
    exact hlog
  · have hlook : Spec.StartSeeker.Looked o.sid [] 0 := by
      refine .inl ⟨fun a t b e => ?_, .inr (.inl ⟨rfl, fun t ht => by cases ht⟩)⟩
      simp at e
    obtain ⟨u, u1, u2, u3⟩ := Mirakc.OtherService.handed_first hlog hlook g5
    obtain ⟨v1, v2⟩ := g6 u u2 u3
    refine ⟨u, u1, t, by simp only [usablePat, v2]; exact if_pos ⟨u3, v1, g3⟩, fun p hp => ?_⟩
    rw [g4, hos] at hp
    simp at hp
    exact hne hp.1.symm

open C156ex in
/-- Non-trivial case for C159: the output for service 1 of a stream with the services 1 and 2. -/
example : Faithful world.codec ∧ Reads world ps ∧
    (∃ f, ServiceFilter.run { sid := 1 } (ServiceFilter.init { sid := 1 })
      (seen (arrived world.codec world.tables) 0 ps) = .ok (f, items)) ∧
    (∀ (k : Nat) it, items[k]? = some it → (∃ t ∈ it.handled, validCat t ≠ none ∨ validPmt 1 t ≠ none) →
      ∃ t ∈ Spec.ServiceFilter.received (items.take k), usablePat t ≠ none) ∧
    Again (seen (arrived world.codec world.tables) 0 ps) items ts ∧
    Reads world2 ((sent items).map (serviceBytes world.codec)) ∧
    (∀ k l, ts[k]? = some l → world2.tables k = l) ∧ PcrsValid world ps ∧
    (∀ (k : Nat) l, ts[k]? = some l → ∀ t ∈ l, t.firstPacket ≤ k) ∧ sent items ≠ [] ∧
    (∃ e, main world2 (.seekStart 1 (some 1000) none) = .ok e ∧ decide (e.code = 0 ∧ e.bytes ≠ []) = true) := by
  refine ⟨C68ex.faithful, reads, ran, ?_, again_sound (by decide +kernel), reads2, fun k l h => by simp [world2, h], ?_, ?_,
    by decide +kernel, C95ex.check (by decide +kernel)⟩
  · intro k it hk ⟨t, ht, hv⟩
    have key : ∀ k ∈ List.range items.length, (items.drop k).head?.all (fun it => it.handled.all fun t =>
        (validCat t).isNone && (validPmt 1 t).isNone) = true ∨
        ((Spec.ServiceFilter.received (items.take k)).any fun t => (usablePat t).isSome) = true := by decide +kernel
    rcases key k (List.mem_range.2 (List.getElem?_eq_some_iff.1 hk).1) with h | h
    · rw [List.head?_drop, hk] at h
      have h := List.all_eq_true.1 (show it.handled.all _ = true from h) t ht
      rw [Bool.and_eq_true, Option.isNone_iff_eq_none, Option.isNone_iff_eq_none] at h
      rcases hv with hv | hv
      · exact absurd h.1 hv
      · exact absurd h.2 hv
    · obtain ⟨u, hu, h⟩ := List.any_eq_true.1 h
      exact ⟨u, hu, fun e => by rw [e] at h; cases h⟩
  · intro b hb x hx
    have key : ∀ b ∈ ps, (world.codec.packet b).pcr.all (fun x => decide (0 ≤ x ∧ x < 2 ^ 33 * 300)) = true := by decide +kernel
    have := key b hb
    rw [hx] at this
    exact of_decide_eq_true this
  · intro k l hk t ht
    have key : ∀ l ∈ ts, ∀ t ∈ l, t.firstPacket = 0 := by decide +kernel
    rw [key l (List.mem_of_getElem? hk) t ht]
    exact Nat.zero_le _

end Mirakc.Props
