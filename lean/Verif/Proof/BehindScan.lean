import Verif.Proof.Again
import Verif.Proof.Joined
import Verif.Proof.Table
/-
For C153: the tables behind filter-service.
-/
namespace Mirakc.BehindScan
open Mirakc.Spec.ServiceFilter
open Mirakc.ServiceFilter (Item Out Opt St run init)

/-- A packet behind filter-service: one of the stream, or one with a PAT restricted to the service. -/
def Comes (sid : Nat) (is : List Input) (items : List Item) (j : Input) : Prop :=
  (j ∈ is ∧ j.packet.pid ≠ 0) ∨
  (j.packet.pid = 0 ∧ ∀ u ∈ j.tables, u.sourcePid = 0 → u.valid = true ∧ ∃ t pat v, u.body = .pat t ∧
    v ∈ received items ∧ usablePat v = some pat ∧ Restricted sid pat t)

theorem comes_again {sid : Nat} {fields : Out → Packet} (hpat : ∀ t n, (fields (.pat t n)).pid = 0) {all : List Input}
    {whole : List Item} {is : List Input} {items : List Item} {ts : List (List Table)} (ha : Again is items ts) :
    (∀ (k : Nat) (i : Input) (it : Item), is[k]? = some i → items[k]? = some it →
      i ∈ all ∧ (∀ p, it.act = .send (.orig p) → fields (.orig p) = i.packet ∧ i.packet.pid ≠ 0) ∧
      ∀ t n, it.act = .send (.pat t n) → ∃ pat v, v ∈ received whole ∧ usablePat v = some pat ∧ Restricted sid pat t) →
    ∀ j ∈ reread fields (sent items) ts, Comes sid all whole j := by
  induction ha with
  | nil => intro _ j hj; cases hj
  | drop e _ ih =>
    intro h j hj
    simp only [sent, List.filterMap_cons, sentOf, e] at ih hj
    exact ih (fun k i it h1 h2 => h (k + 1) i it (by simpa using h1) (by simpa using h2)) j hj
  | @orig i is it items ts p e _ ih =>
    intro h j hj
    have h0 := h 0 _ _ rfl rfl
    simp only [sent, List.filterMap_cons, sentOf, e, reread, List.zipWith_cons_cons] at ih hj
    rcases List.mem_cons.1 hj with rfl | hj
    · obtain ⟨h1, h2⟩ := h0.2.1 p e
      refine .inl ⟨?_, ?_⟩
      · rw [h1]; exact h0.1
      · show (fields (.orig p)).pid ≠ 0
        rw [h1]; exact h2
    · exact ih (fun k i it h1 h2 => h (k + 1) i it (by simpa using h1) (by simpa using h2)) j hj
  | pat e hl _ _ ih =>
    intro h j hj
    have h0 := h 0 _ _ rfl rfl
    simp only [sent, List.filterMap_cons, sentOf, e, reread, List.zipWith_cons_cons] at ih hj
    rcases List.mem_cons.1 hj with rfl | hj
    · obtain ⟨pat, v, h1, h2, h3⟩ := h0.2.2 _ _ e
      refine .inr ⟨hpat _ _, fun u hu hs => ?_⟩
      obtain ⟨a, b⟩ := hl u hu hs
      exact ⟨a, _, pat, v, b, h1, h2, h3⟩
    · exact ih (fun k i it h1 h2 => h (k + 1) i it (by simpa using h1) (by simpa using h2)) j hj

theorem comes_out {o : Opt} {is : List Input} {s : St} {items : List Item} {ts : List (List Table)}
    {fields : Out → Packet} (hpat : ∀ t n, (fields (.pat t n)).pid = 0) (hf : ∀ i ∈ is, fields (.orig i.packet) = i.packet)
    (h : run o (init o) is = .ok (s, items)) (ha : Again is items ts) (hn : ∀ it ∈ items, it.act ≠ .stop) :
    ∀ j ∈ reread fields (sent items) ts, Comes o.sid is items j := by
  refine comes_again hpat ha fun k i it h1 h2 => ?_
  obtain ⟨a, b⟩ := Joined.acts h h2 h1 (hn it (List.mem_of_getElem? h2))
  refine ⟨List.mem_of_getElem? h1, fun p e => ?_, fun t n e => ?_⟩
  · rcases b with b | ⟨b, b'⟩ | ⟨_, _, b, _⟩
    · rw [b] at e; cases e
    · rw [b] at e; cases e
      exact ⟨hf i (List.mem_of_getElem? h1), b'⟩
    · rw [b] at e; cases e
  · rcases b with b | ⟨b, _⟩ | ⟨t', n', b, _, pat, hl, hr⟩
    · rw [b] at e; cases e
    · rw [b] at e; cases e
    · rw [b] at e; cases e
      obtain ⟨v, hv, hv'⟩ := Joined.latest_mem hl
      exact ⟨pat, v, Joined.received_take h2 v hv, hv', hr⟩

theorem restricted_find {sid : Nat} {pat t : Pat} (h : Restricted sid pat t) (s : Nat) :
    (∃ pid, t.pmts.find? s = some pid) ↔ s = sid ∧ ∃ pid, pat.pmts.find? s = some pid := by
  obtain ⟨_, _, _, pid, h1, h2⟩ := h
  constructor
  · rintro ⟨q, hq⟩
    rw [OMap.find?_iff, h2, List.mem_singleton] at hq
    cases hq
    exact ⟨rfl, pid, (OMap.find?_iff _ _ _).2 h1⟩
  · rintro ⟨rfl, _⟩
    exact ⟨pid, (OMap.find?_iff _ _ _).2 (by rw [h2]; exact List.mem_singleton.2 rfl)⟩

end Mirakc.BehindScan
