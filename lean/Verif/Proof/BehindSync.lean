import Verif.Proof.BehindScan
import Verif.Proof.PcrSynchronizer
/-
For C156: what sync-clocks receives.
-/
namespace Mirakc.BehindSync
open Mirakc.Spec.PcrSynchronizer Mirakc.PcrSynchronizer

theorem feed_log {σ : Type} {watched : σ → PidSet} {handle : σ → Table → Except Fault σ} {pid : Nat} :
    ∀ {ts : List Table} {s s' : σ} {log : List Table}, feedDemux watched handle pid ts s = .ok (s', log) →
      ∀ t ∈ log, t ∈ ts ∧ t.sourcePid = pid
  | [], _, _, _, h => by cases h; intro t ht; cases ht
  | t :: ts, s, s', log, h => by
    unfold feedDemux at h
    split at h
    · next hc =>
      obtain ⟨s1, _, h⟩ := bind_eq_ok h
      obtain ⟨⟨s2, l⟩, h2, h⟩ := bind_eq_ok h
      cases h
      intro u hu
      rcases List.mem_cons.1 hu with rfl | hu
      · exact ⟨List.mem_cons_self, by simp at hc; exact hc.1⟩
      · obtain ⟨a, b⟩ := feed_log h2 u hu
        exact ⟨List.mem_cons_of_mem _ a, b⟩
    · intro u hu
      obtain ⟨a, b⟩ := feed_log h u hu
      exact ⟨List.mem_cons_of_mem _ a, b⟩

theorem step_log {o : Opt} {s s' : St} {i : Input} {l : List Table} {more : Bool} (h : step o s i = .ok (s', l, more)) :
    ∀ t ∈ l, t ∈ i.tables ∧ t.sourcePid = i.packet.pid := by
  unfold step at h
  simp only at h
  split at h
  · cases h; intro t ht; cases ht
  · obtain ⟨⟨s1, log⟩, h1, h⟩ := bind_eq_ok h
    have : l = log := by
      split at h
      · cases h; rfl
      · split at h
        · split at h
          · cases h; rfl
          · obtain ⟨_, _, h⟩ := bind_eq_ok h
            simp only at h
            split at h <;> (cases h; rfl)
        · cases h; rfl
    subst this
    exact feed_log h1

theorem received {o : Opt} {items : List (Line Input (List Table))} {s : St} (h : Reach (step o) {} items s) :
    ∀ it ∈ items, ∀ t ∈ it.did, t ∈ it.input.tables ∧ t.sourcePid = it.input.packet.pid := by
  intro it hit
  obtain ⟨a, b, hs⟩ := List.append_of_mem hit
  obtain ⟨s1, s2, _, _, h2, _⟩ := h.split a it b hs
  exact step_log h2

/-- What is in the log comes from the packets. -/
theorem of_log {o : Opt} {is : List Input} {code : Nat} {h : Hist} (hr : Synced o is code h) {ev : Ev}
    (he : ev ∈ log h.items) : ∃ j ∈ is, ev = .pkt j.packet ∨
      ∃ t, ev = .tab t ∧ t ∈ j.tables ∧ t.sourcePid = j.packet.pid := by
  obtain ⟨s, h1, h2, _⟩ := synced hr
  obtain ⟨it, hit, he⟩ := List.mem_flatMap.1 he
  refine ⟨it.input, h2.subset (List.mem_map_of_mem hit), ?_⟩
  rcases List.mem_append.1 he with he | he
  · obtain ⟨t, ht, rfl⟩ := List.mem_map.1 he
    exact .inr ⟨t, rfl, received h1 it hit t ht⟩
  · exact .inl (List.mem_singleton.1 he)

theorem sincePat_sub {l : List Ev} {e : Ev} (h : e ∈ sincePat l) : e ∈ l := by
  unfold sincePat at h
  rw [List.mem_reverse] at h
  simpa using (List.takeWhile_sublist _).subset h

theorem sinceChange_sub {l : List Ev} {e : Ev} (h : e ∈ sinceChange l) : e ∈ l := by
  unfold sinceChange at h
  split at h
  · exact h
  · exact sincePat_sub h

theorem patOf_eq {e : Ev} {p : Pat} (h : patOf e = some p) :
    ∃ t, e = .tab t ∧ t.sourcePid = 0 ∧ t.valid = true ∧ t.body = .pat p := by
  unfold patOf at h
  split at h
  · split at h
    · cases h
    · cases h; exact ⟨_, rfl, rfl, rfl, rfl⟩
  · cases h

theorem pmtOf_eq {e : Ev} {pid : Nat} {x : Pmt} (h : pmtOf e = some (pid, x)) :
    ∃ t, e = .tab t ∧ t.sourcePid = pid ∧ t.valid = true ∧ t.body = .pmt x := by
  unfold pmtOf at h
  split at h
  · cases h; exact ⟨_, rfl, rfl, rfl, rfl⟩
  · cases h

theorem totOf_eq {e : Ev} {x : Int} (h : totOf e = some x) : ∃ t, e = .tab t ∧ t.valid = true ∧ t.body = .tot x := by
  unfold totOf at h
  split at h
  · cases h; exact ⟨_, rfl, rfl, rfl⟩
  · cases h

theorem latestPat_mem {l : List Ev} {p : Pat} (h : latestPat l = some p) : ∃ e ∈ l, patOf e = some p :=
  List.mem_filterMap.1 (List.mem_of_getLast? h)

theorem clockPid_mem {o : Opt} {l : List Ev} {sid pid : Nat} (h : clockPid o l sid = some pid) :
    ∃ t, .tab t ∈ l ∧ t.valid = true ∧ ∃ x, t.body = .pmt x ∧ x.serviceId = sid ∧ x.pcrPid = pid ∧
      Listed o l sid t.sourcePid := by
  unfold clockPid at h
  obtain ⟨x, hx, rfl⟩ := Option.map_eq_some_iff.1 h
  obtain ⟨hx, hs⟩ := List.mem_filter.1 (List.mem_of_getLast? hx)
  have hs : x.serviceId = sid := by simpa using hs
  obtain ⟨⟨p, y⟩, hy, hl⟩ := List.mem_filterMap.1 hx
  obtain ⟨e, he, hp⟩ := List.mem_filterMap.1 hy
  simp only at hl
  split at hl
  · next hli =>
    cases hl
    obtain ⟨t, rfl, rfl, h2, h3⟩ := pmtOf_eq hp
    exact ⟨t, sincePat_sub he, h2, x, h3, hs, rfl, hs ▸ hli⟩
  · cases hl

theorem latestTot_mem {o : Opt} {l : List Ev} {pid : Nat} {v : Int} (h : Captured o l pid v) :
    ∃ t, .tab t ∈ l ∧ t.valid = true ∧ t.body = .tot (latestTot l) := by
  obtain ⟨a, p, b, hl, _, _, _, ⟨_, hk⟩, _⟩ := h
  have hne : l.filterMap totOf ≠ [] := by
    intro hn
    rw [hl, List.filterMap_append] at hn
    have hn := (List.append_eq_nil_iff.1 hn).1
    rw [List.filterMap_eq_nil_iff] at hn
    exact hk (List.filterMap_eq_nil_iff.2 fun x hx => hn x (sinceChange_sub hx))
  obtain ⟨ev, h5, h6⟩ := List.mem_filterMap.1 (List.getLast_mem hne)
  have h7 : latestTot l = List.getLast _ hne := by
    unfold latestTot
    rw [List.getLast?_eq_some_getLast hne]; rfl
  obtain ⟨t, rfl, h8, h9⟩ := totOf_eq h6
  exact ⟨t, h5, h8, by rw [h7]; exact h9⟩

end Mirakc.BehindSync
