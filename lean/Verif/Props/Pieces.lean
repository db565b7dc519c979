import Verif.Proof.Foreign
import Verif.Props.MainAborts
/-
Property C149: filter-program-metadata and track-airtime on a stream and on its pieces.
-/
namespace Mirakc.Props
open Mirakc.Main Mirakc.Spec Mirakc.Spec.Main Mirakc.Spec.Pipeline

/-- The tables of a stream of which the first `n` packets are missing. -/
def later (tabs : Nat → List Table) (n : Nat) : Nat → List Table := fun k => tabs (n + k)

private theorem eits_append (a b : List Input) : EitReporters.eits (a ++ b) = EitReporters.eits a ++ EitReporters.eits b := by
  simp [EitReporters.eits, received]

private theorem seen_pieces (w : World) (qs ps : List (List UInt8)) :
    seen (arrived w.codec w.tables) 0 (qs ++ ps) =
      seen (arrived w.codec w.tables) 0 qs ++ seen (arrived w.codec (later w.tables qs.length)) 0 ps := by
  rw [Mirakc.Pipeline.seen_append]
  congr 1
  exact Mirakc.Main.seen_congr _ _ _ _ _ fun k _ q => by simp [arrived, later]

/-- **C149**, filter-program-metadata.  What it prints for a stream is what it prints for the first packets and then
what it prints if it is started after them. -/
theorem C149_metadata (w w1 w2 : World) (hc : w1.codec = w.codec ∧ w2.codec = w.codec) (qs ps : List (List UInt8))
    (hr : Reads w (qs ++ ps)) (hr1 : Reads w1 qs) (hr2 : Reads w2 ps) (ht1 : w1.tables = w.tables)
    (ht2 : w2.tables = later w.tables qs.length) (sid : Option Nat) (hs : ∀ v, sid = some v → v < 65536)
    (e e1 e2 : Ended) (h : main w (.filterProgramMetadata (sid.map fun v : Nat => (v : Int))) = .ok e)
    (h1 : main w1 (.filterProgramMetadata (sid.map fun v : Nat => (v : Int))) = .ok e1)
    (h2 : main w2 (.filterProgramMetadata (sid.map fun v : Nat => (v : Int))) = .ok e2) :
    e.docs = e1.docs ++ e2.docs := by
  rw [(C94_program_metadata w _ hr sid hs e h).2, (C94_program_metadata w1 _ hr1 sid hs e1 h1).2,
    (C94_program_metadata w2 _ hr2 sid hs e2 h2).2, hc.1, hc.2, ht1, ht2, seen_pieces, eits_append,
    List.filterMap_append, List.map_append]

/-- Where track-airtime ends. -/
private def EndsAt (o : AirtimeTracker.Opt) (is : List Input) (n : Nat) : Prop :=
  n ≤ is.length ∧ (∀ x ∈ EitReporters.eits (is.take (n - 1)), ¬ EitReporters.Gone o x) ∧
    ((n = is.length ∧ ∀ x ∈ EitReporters.eits is, ¬ EitReporters.Gone o x) ∨
      ∃ x ∈ EitReporters.eits (is.take n), EitReporters.Gone o x)

private theorem eits_take {is : List Input} {n m : Nat} (h : n ≤ m) {x} (hx : x ∈ EitReporters.eits (is.take n)) :
    x ∈ EitReporters.eits (is.take m) := by
  have : is.take m = is.take n ++ (is.take m).drop n := by
    conv => lhs; rw [← List.take_append_drop n (is.take m)]
    rw [List.take_take, Nat.min_eq_left h]
  rw [this, eits_append]
  exact List.mem_append_left _ hx

private theorem ends_le {o : AirtimeTracker.Opt} {is : List Input} {n m : Nat} (hn : EndsAt o is n) (hm : EndsAt o is m) :
    n ≤ m := by
  rcases Nat.lt_or_ge m n with h | h
  · exfalso
    rcases hm.2.2 with ⟨e, _⟩ | ⟨x, hx, hg⟩
    · have := hn.1; omega
    · exact hn.2.1 x (eits_take (by omega) hx) hg
  · exact h

private theorem ends_unique {o : AirtimeTracker.Opt} {is : List Input} {n m : Nat} (hn : EndsAt o is n)
    (hm : EndsAt o is m) : n = m := Nat.le_antisymm (ends_le hn hm) (ends_le hm hn)

/-- **C149**, track-airtime.  If an EIT of the service in the first packets does not list the event, it prints the same
for the stream as for its first packets; otherwise it prints what it prints for the first packets and then what it prints
if it is started after them. -/
theorem C149_airtime (w w1 w2 : World) (hc : w1.codec = w.codec ∧ w2.codec = w.codec) (qs ps : List (List UInt8))
    (hr : Reads w (qs ++ ps)) (hr1 : Reads w1 qs) (hr2 : Reads w2 ps) (ht1 : w1.tables = w.tables)
    (ht2 : w2.tables = later w.tables qs.length) (sid eid : Nat) (hs : sid < 65536) (he : eid < 65536)
    (e e1 e2 : Ended) (h : main w (.trackAirtime sid eid) = .ok e) (h1 : main w1 (.trackAirtime sid eid) = .ok e1)
    (h2 : main w2 (.trackAirtime sid eid) = .ok e2) :
    let gone := ∃ x ∈ EitReporters.eits (seen (arrived w.codec w.tables) 0 qs),
      EitReporters.Gone { sid := sid, eid := eid } x
    (gone → e.docs = e1.docs) ∧ (¬ gone → e.docs = e1.docs ++ e2.docs) := by
  intro gone
  obtain ⟨_, n, n1, nd, n2, n3⟩ := C94_track_airtime w _ hr sid eid hs he e h
  obtain ⟨_, k, k1, kd, k2, k3⟩ := C94_track_airtime w1 _ hr1 sid eid hs he e1 h1
  obtain ⟨_, l, l1, ld, l2, l3⟩ := C94_track_airtime w2 _ hr2 sid eid hs he e2 h2
  rw [hc.1, ht1] at k1 kd k2 k3
  rw [hc.2, ht2] at l1 ld l2 l3
  have hn : EndsAt _ _ n := ⟨n1, n2, n3⟩
  rw [seen_pieces] at hn nd
  refine ⟨fun ⟨x, hx, hg⟩ => ?_, fun hg => ?_⟩
  · have hk : EndsAt { sid := sid, eid := eid } (seen (arrived w.codec w.tables) 0 qs ++
        seen (arrived w.codec (later w.tables qs.length)) 0 ps) k := by
      refine ⟨by rw [List.length_append]; omega, ?_, ?_⟩
      · rw [List.take_append_of_le_length (by omega)]; exact k2
      · rw [List.take_append_of_le_length k1]
        rcases k3 with ⟨_, k3⟩ | k3
        · exact absurd hg (k3 x hx)
        · exact .inr k3
    have := ends_unique hn hk
    subst this
    rw [nd, kd, List.take_append_of_le_length k1]
  · have none1 : ∀ x ∈ EitReporters.eits (seen (arrived w.codec w.tables) 0 qs),
        ¬ EitReporters.Gone { sid := sid, eid := eid } x := fun x hx hgx => hg ⟨x, hx, hgx⟩
    have hk : k = (seen (arrived w.codec w.tables) 0 qs).length := by
      rcases k3 with ⟨k3, _⟩ | ⟨x, hx, hgx⟩
      · exact k3
      · exact absurd hgx (none1 x (by
          have := eits_take k1 hx
          rwa [List.take_length] at this))
    have hl : EndsAt { sid := sid, eid := eid } (seen (arrived w.codec w.tables) 0 qs ++
        seen (arrived w.codec (later w.tables qs.length)) 0 ps)
        ((seen (arrived w.codec w.tables) 0 qs).length + l) := by
      refine ⟨by rw [List.length_append]; omega, ?_, ?_⟩
      · intro x hx
        cases l with
        | zero =>
          rw [List.take_append_of_le_length (by omega)] at hx
          refine none1 x ?_
          have := eits_take (Nat.sub_le _ 1) hx
          rwa [Nat.add_zero, List.take_length] at this
        | succ l =>
          rw [show (seen (arrived w.codec w.tables) 0 qs).length + (l + 1) - 1 =
            (seen (arrived w.codec w.tables) 0 qs).length + l by omega, List.take_length_add_append, eits_append] at hx
          rcases List.mem_append.1 hx with hx | hx
          · exact none1 x hx
          · exact l2 x hx
      · rw [List.take_length_add_append]
        rcases l3 with ⟨a, b⟩ | ⟨x, hx, hgx⟩
        · refine .inl ⟨by rw [List.length_append, a], fun x hx => ?_⟩
          rw [eits_append] at hx
          rcases List.mem_append.1 hx with hx | hx
          · exact none1 x hx
          · exact b x hx
        · exact .inr ⟨x, by rw [eits_append]; exact List.mem_append_right _ hx, hgx⟩
    have := ends_unique hn hl
    rw [nd, kd, ld, this, List.take_length_add_append, hk, List.take_length, eits_append, List.filterMap_append,
      List.map_append]

/-- A section demux that is started late also delivers the tables that are repeated unchanged.  It delivers what the
other one delivers, and in addition only tables which the other one has delivered before. -/
structure Handover (w w2 : World) (qs ps : List (List UInt8)) : Prop where
  /-- Nothing is missing. -/
  all : ∀ k, List.Sublist (later w.tables qs.length k) (w2.tables k)
  /-- Up to each packet there are no other EITs. -/
  again : ∀ k, ∀ x ∈ EitReporters.eits ((seen (arrived w.codec w2.tables) 0 ps).take k),
    x ∈ EitReporters.eits ((seen (arrived w.codec w.tables) 0 (qs ++ ps)).take (qs.length + k))

private theorem eits_sublist (c : Mirakc.Pipeline.Codec) (s t : Nat → List Table) (h : ∀ k, List.Sublist (s k) (t k)) :
    ∀ (ps : List (List UInt8)) (n k : Nat), List.Sublist (EitReporters.eits ((seen (arrived c s) n ps).take k))
      (EitReporters.eits ((seen (arrived c t) n ps).take k)) := by
  intro ps
  induction ps with
  | nil => intro n k; simp [seen]
  | cons p ps ih =>
    intro n k
    cases k with
    | zero => simp
    | succ k =>
      simp only [seen, List.take_succ_cons]
      have cons : ∀ (i : Input) l, EitReporters.eits (i :: l) = EitReporters.eits [i] ++ EitReporters.eits l :=
        fun i l => eits_append [i] l
      rw [cons (arrived c s n p), cons (arrived c t n p)]
      refine List.Sublist.append ?_ (ih _ _)
      simp only [EitReporters.eits, received, List.flatMap_cons, List.flatMap_nil, List.append_nil, arrived]
      exact ((h n).filter _).filterMap _

/-- **C149**, filter-program-metadata, if one process takes over from another.  Nothing is lost, what is printed is in
order, and the second process prints nothing that would not have been printed. -/
theorem C149_metadata_handover (w w1 w2 : World) (hc : w1.codec = w.codec ∧ w2.codec = w.codec)
    (qs ps : List (List UInt8)) (hr : Reads w (qs ++ ps)) (hr1 : Reads w1 qs) (hr2 : Reads w2 ps)
    (ht1 : w1.tables = w.tables) (ht2 : Handover w w2 qs ps) (sid : Option Nat) (hs : ∀ v, sid = some v → v < 65536)
    (e e1 e2 : Ended) (h : main w (.filterProgramMetadata (sid.map fun v : Nat => (v : Int))) = .ok e)
    (h1 : main w1 (.filterProgramMetadata (sid.map fun v : Nat => (v : Int))) = .ok e1)
    (h2 : main w2 (.filterProgramMetadata (sid.map fun v : Nat => (v : Int))) = .ok e2) :
    List.Sublist e.docs (e1.docs ++ e2.docs) ∧ ∀ d ∈ e2.docs, d ∈ e.docs := by
  rw [(C94_program_metadata w _ hr sid hs e h).2, (C94_program_metadata w1 _ hr1 sid hs e1 h1).2,
    (C94_program_metadata w2 _ hr2 sid hs e2 h2).2, hc.1, hc.2, ht1]
  constructor
  · rw [seen_pieces, eits_append, List.filterMap_append, List.map_append]
    have := eits_sublist w.codec _ _ ht2.all ps 0 (seen (arrived w.codec w2.tables) 0 ps).length
    rw [List.take_length, List.take_of_length_le (by simp [Mirakc.Pipeline.seen_length])] at this
    exact List.Sublist.append (List.Sublist.refl _) ((this.filterMap _).map _)
  · intro d hd
    obtain ⟨m, hm, rfl⟩ := List.mem_map.1 hd
    obtain ⟨x, hx, hm⟩ := List.mem_filterMap.1 hm
    have := ht2.again (seen (arrived w.codec w2.tables) 0 ps).length x (by rwa [List.take_length])
    rw [List.take_of_length_le (by simp [Mirakc.Pipeline.seen_length])] at this
    exact List.mem_map.2 ⟨m, List.mem_filterMap.2 ⟨x, this, hm⟩, rfl⟩

/-- **C149**, track-airtime, if one process takes over from another, the event being still listed.  Nothing is lost, what
is printed is in order, and the second process prints nothing that would not have been printed. -/
theorem C149_airtime_handover (w w1 w2 : World) (hc : w1.codec = w.codec ∧ w2.codec = w.codec)
    (qs ps : List (List UInt8)) (hr : Reads w (qs ++ ps)) (hr1 : Reads w1 qs) (hr2 : Reads w2 ps)
    (ht1 : w1.tables = w.tables) (ht2 : Handover w w2 qs ps) (sid eid : Nat) (hs : sid < 65536) (he : eid < 65536)
    (listed : ∀ x ∈ EitReporters.eits (seen (arrived w.codec w.tables) 0 qs),
      ¬ EitReporters.Gone { sid := sid, eid := eid } x)
    (e e1 e2 : Ended) (h : main w (.trackAirtime sid eid) = .ok e) (h1 : main w1 (.trackAirtime sid eid) = .ok e1)
    (h2 : main w2 (.trackAirtime sid eid) = .ok e2) :
    List.Sublist e.docs (e1.docs ++ e2.docs) ∧ ∀ d ∈ e2.docs, d ∈ e.docs := by
  obtain ⟨_, n, n1, nd, n2, n3⟩ := C94_track_airtime w _ hr sid eid hs he e h
  obtain ⟨_, k, k1, kd, k2, k3⟩ := C94_track_airtime w1 _ hr1 sid eid hs he e1 h1
  obtain ⟨_, l, l1, ld, l2, l3⟩ := C94_track_airtime w2 _ hr2 sid eid hs he e2 h2
  rw [hc.1, ht1] at k1 kd k2 k3
  rw [hc.2] at l1 ld l2 l3
  have hn : EndsAt _ _ n := ⟨n1, n2, n3⟩
  have hk : k = (seen (arrived w.codec w.tables) 0 qs).length := by
    rcases k3 with ⟨k3, _⟩ | ⟨x, hx, hgx⟩
    · exact k3
    · exact absurd hgx (listed x (by
        have := eits_take k1 hx
        rwa [List.take_length] at this))
  have len : (seen (arrived w.codec w.tables) 0 qs).length = qs.length := Mirakc.Pipeline.seen_length ..
  have split : ∀ m, (seen (arrived w.codec w.tables) 0 (qs ++ ps)).take (qs.length + m) =
      seen (arrived w.codec w.tables) 0 qs ++ (seen (arrived w.codec (later w.tables qs.length)) 0 ps).take m := by
    intro m
    rw [seen_pieces, ← len, List.take_length_add_append]
  have none2 : ∀ m, (∀ x ∈ EitReporters.eits ((seen (arrived w.codec w2.tables) 0 ps).take m),
      ¬ EitReporters.Gone { sid := sid, eid := eid } x) →
      ∀ x ∈ EitReporters.eits ((seen (arrived w.codec w.tables) 0 (qs ++ ps)).take (qs.length + m)),
        ¬ EitReporters.Gone { sid := sid, eid := eid } x := by
    intro m hm x hx
    rw [split, eits_append] at hx
    rcases List.mem_append.1 hx with hx | hx
    · exact listed x hx
    · exact hm x ((eits_sublist w.codec _ _ ht2.all ps 0 m).subset hx)
  have hl : EndsAt { sid := sid, eid := eid } (seen (arrived w.codec w.tables) 0 (qs ++ ps)) (qs.length + l) := by
    have all : (seen (arrived w.codec w.tables) 0 (qs ++ ps)).length = qs.length + ps.length := by
      rw [Mirakc.Pipeline.seen_length, List.length_append]
    have all2 : (seen (arrived w.codec w2.tables) 0 ps).length = ps.length := Mirakc.Pipeline.seen_length ..
    refine ⟨by omega, ?_, ?_⟩
    · intro x hx
      exact none2 (l - 1) l2 x (eits_take (by omega) hx)
    · rcases l3 with ⟨a, b⟩ | ⟨x, hx, hgx⟩
      · refine .inl ⟨by omega, fun x hx => ?_⟩
        refine none2 l (by rw [a, List.take_length]; exact b) x ?_
        rwa [List.take_of_length_le (by omega)]
      · exact .inr ⟨x, ht2.again l x hx, hgx⟩
  have := ends_unique hn hl
  subst this
  rw [nd, kd, ld, hk, List.take_length]
  constructor
  · rw [split, eits_append, List.filterMap_append, List.map_append]
    exact List.Sublist.append (List.Sublist.refl _) (((eits_sublist w.codec _ _ ht2.all ps 0 l).filterMap _).map _)
  · intro d hd
    obtain ⟨m, hm, rfl⟩ := List.mem_map.1 hd
    obtain ⟨x, hx, hm⟩ := List.mem_filterMap.1 hm
    exact List.mem_map.2 ⟨m, List.mem_filterMap.2 ⟨x, ht2.again l x hx, hm⟩, rfl⟩

namespace C149ex

/-- The first packets. -/
def qs : List (List UInt8) := C90ex.ps.take 7
/-- The rest. -/
def ps : List (List UInt8) := C90ex.ps.drop 7
/-- The stream ends early. -/
def first : World := { C90ex.world with read := qs.map some }
/-- The command is started late. -/
def second : World := { C90ex.world with read := ps.map some, tables := later C90ex.tables 7 }
theorem reads : Reads C90ex.world (qs ++ ps) := by
  rw [show qs ++ ps = C90ex.ps from List.take_append_drop 7 _]; exact C90ex.reads
theorem reads1 : Reads first qs := by
  refine ⟨fun r hr => ?_, ?_⟩
  · have : ∀ r ∈ first.read, (r.getD []).length ≤ 16384 := by decide +kernel
    exact this _ hr
  · have : contents first = qs.flatten := by decide +kernel
    rw [this]
    exact Mirakc.Pipeline.packets_flatten (by decide +kernel)
theorem reads2 : Reads second ps := by
  refine ⟨fun r hr => ?_, ?_⟩
  · have : ∀ r ∈ second.read, (r.getD []).length ≤ 16384 := by decide +kernel
    exact this _ hr
  · have : contents second = ps.flatten := by decide +kernel
    rw [this]
    exact Mirakc.Pipeline.packets_flatten (by decide +kernel)

/-- The command is started late, and the EIT of the first piece is repeated. -/
def repeated : World :=
  { second with tables := fun n => match n with
      | 1 => [C58ex.eit 1 [⟨4, 0, 60, 0⟩, ⟨5, 32400000, 60, 0⟩]] ++ second.tables 1
      | n => second.tables n }
theorem handover : Handover C90ex.world repeated qs ps where
  all := by
    intro k
    show List.Sublist (second.tables k) (match k with
      | 1 => [C58ex.eit 1 [⟨4, 0, 60, 0⟩, ⟨5, 32400000, 60, 0⟩]] ++ second.tables 1
      | n => second.tables n)
    split
    · exact List.sublist_append_right _ _
    · exact List.Sublist.refl _
  again := by
    intro k
    match k with
    | 0 => decide +kernel
    | 1 => decide +kernel
    | k + 2 =>
      rw [List.take_of_length_le (by rw [Mirakc.Pipeline.seen_length]; exact Nat.le_add_left 2 k),
        List.take_of_length_le (by
          rw [Mirakc.Pipeline.seen_length]; exact Nat.add_le_add_left (Nat.le_add_left 2 k) 7)]
      decide +kernel

end C149ex

open C149ex in
/-- Non-trivial case for C149: both pieces have EITs. -/
example : Reads C90ex.world (qs ++ ps) ∧ Reads first qs ∧ Reads second ps ∧ second.tables = later C90ex.world.tables qs.length ∧
    ∃ e e1 e2, main C90ex.world (.filterProgramMetadata none) = .ok e ∧ main first (.filterProgramMetadata none) = .ok e1 ∧
      main second (.filterProgramMetadata none) = .ok e2 ∧
      (e.docs.length = 3 ∧ e1.docs.length = 1 ∧ e2.docs.length = 2) := by
  refine ⟨reads, reads1, reads2, rfl, ?_⟩
  obtain ⟨e, h, a⟩ := C95ex.check (r := main C90ex.world (.filterProgramMetadata none))
    (P := fun e => decide (e.docs.length = 3)) (by decide +kernel)
  obtain ⟨e1, h1, a1⟩ := C95ex.check (r := main first (.filterProgramMetadata none))
    (P := fun e => decide (e.docs.length = 1)) (by decide +kernel)
  obtain ⟨e2, h2, a2⟩ := C95ex.check (r := main second (.filterProgramMetadata none))
    (P := fun e => decide (e.docs.length = 2)) (by decide +kernel)
  exact ⟨e, e1, e2, h, h1, h2, of_decide_eq_true a, of_decide_eq_true a1, of_decide_eq_true a2⟩

open C149ex in
/-- Non-trivial case for C149: the event is in the EIT of the first piece. -/
example : ∃ e e1 e2, main C90ex.world (.trackAirtime 1 5) = .ok e ∧ main first (.trackAirtime 1 5) = .ok e1 ∧
    main second (.trackAirtime 1 5) = .ok e2 ∧ (e.docs.length = 1 ∧ e1.docs.length = 1 ∧ e2.docs.length = 0) := by
  obtain ⟨e, h, a⟩ := C95ex.check (r := main C90ex.world (.trackAirtime 1 5))
    (P := fun e => decide (e.docs.length = 1)) (by decide +kernel)
  obtain ⟨e1, h1, a1⟩ := C95ex.check (r := main first (.trackAirtime 1 5))
    (P := fun e => decide (e.docs.length = 1)) (by decide +kernel)
  obtain ⟨e2, h2, a2⟩ := C95ex.check (r := main second (.trackAirtime 1 5))
    (P := fun e => decide (e.docs.length = 0)) (by decide +kernel)
  exact ⟨e, e1, e2, h, h1, h2, of_decide_eq_true a, of_decide_eq_true a1, of_decide_eq_true a2⟩

open C149ex in
/-- Non-trivial case for the handover: the repeated EIT is printed twice. -/
example : Reads repeated ps ∧ Handover C90ex.world repeated qs ps ∧
    (∀ x ∈ EitReporters.eits (seen (arrived C90ex.world.codec C90ex.world.tables) 0 qs),
      ¬ EitReporters.Gone { sid := 1, eid := 5 } x) ∧
    ∃ e e2, main C90ex.world (.trackAirtime 1 5) = .ok e ∧ main repeated (.trackAirtime 1 5) = .ok e2 ∧
      e.docs = e2.docs ∧ e2.docs.length = 1 := by
  refine ⟨reads2, handover, ?_, ?_⟩
  · have : EitReporters.eits (seen (arrived C90ex.world.codec C90ex.world.tables) 0 qs) =
        EitReporters.eits [⟨C90ex.world.codec.packet (C68ex.raw 0x12 0 6), C90ex.tables 6⟩] := by decide +kernel
    rw [this]
    intro x hx hg
    rw [List.mem_singleton.1 hx] at hg
    exact absurd rfl (hg.2 ⟨5, 32400000, 60, 0⟩ (by decide +kernel))
  · obtain ⟨e, h, a⟩ := C95ex.check (r := main C90ex.world (.trackAirtime 1 5))
      (P := fun e => decide (e.docs = [.airtime ⟨4, 7, 1, 5, 0, 60000⟩])) (by decide +kernel)
    obtain ⟨e2, h2, a2⟩ := C95ex.check (r := main repeated (.trackAirtime 1 5))
      (P := fun e => decide (e.docs = [.airtime ⟨4, 7, 1, 5, 0, 60000⟩])) (by decide +kernel)
    rw [decide_eq_true_eq] at a a2
    exact ⟨e, e2, h, h2, by rw [a, a2], by rw [a2]; rfl⟩

end Mirakc.Props
