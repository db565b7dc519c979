import Verif.Proof.PesPrinter
import Verif.Spec.PesTables
/-
Proofs about the tables of print-pes.
-/
namespace Mirakc.PesPrinter
open Mirakc.Spec Mirakc.Spec.PesPrinter

/-! ### Services -/

theorem services_none {l : List Table} {t : Table} (h : patOf t = none) : services (l ++ [t]) = services l := by
  unfold services
  rw [List.filterMap_append]
  simp [h]

theorem services_pat {l : List Table} {t : Table} {pid : Nat} {pat : Pat} (h : patOf t = some (pid, pat)) :
    services (l ++ [t]) = if pid = 0 then pat.pmts.entries else [] := by
  unfold services
  rw [List.filterMap_append]
  simp only [List.filterMap_cons, h, List.filterMap_nil, List.getLast?_append, List.getLast?_singleton,
    Option.some_or]
  cases pid with
  | zero => rfl
  | succ n => rfl

theorem deserted_none {l : List Table} {t : Table} (h : patOf t = none) : Deserted (l ++ [t]) ↔ Deserted l := by
  unfold Deserted
  rw [List.filterMap_append]
  simp [h]

theorem deserted_pat {l : List Table} {t : Table} {pid : Nat} {pat : Pat} (h : patOf t = some (pid, pat)) :
    Deserted (l ++ [t]) ↔ pid = 0 ∧ pat.pmts.entries = [] := by
  unfold Deserted
  rw [List.filterMap_append]
  simp only [List.filterMap_cons, h, List.filterMap_nil, List.getLast?_append, List.getLast?_singleton,
    Option.some_or, Option.some.injEq, Prod.mk.injEq]
  constructor
  · rintro ⟨p, ⟨h1, h2⟩, h3⟩; exact ⟨h1, h2 ▸ h3⟩
  · rintro ⟨h1, h2⟩; exact ⟨pat, ⟨h1, rfl⟩, h2⟩

theorem prefix_snoc {l' l : List Table} {t : Table} : l' <+: l ++ [t] ↔ l' <+: l ∨ l' = l ++ [t] := by
  constructor
  · rintro ⟨r, hr⟩
    rcases List.eq_nil_or_concat r with rfl | ⟨r', x, rfl⟩
    · right; simpa using hr
    · left
      rw [List.concat_eq_append, ← List.append_assoc] at hr
      exact ⟨r', (List.append_inj' hr rfl).1⟩
  · rintro (⟨r, rfl⟩ | rfl)
    · exact ⟨r ++ [t], by simp⟩
    · exact List.prefix_refl _

theorem patOf_none_of_body {t : Table} (hb : ∀ x, t.body ≠ .pat x) : patOf t = none :=
  none_of_not fun _ hr => hb _ (patOf_some.1 hr).2.1

theorem patOf_none_of_invalid {t : Table} (hv : t.valid = false) : patOf t = none :=
  none_of_not fun _ hr => by have := (patOf_some.1 hr).1; rw [hv] at this; cases this

/-! ### The tables looked at -/

/-- What the state means for the tables looked at. -/
structure Watch (s : St) (l : List Table) : Prop where
  demux : ∀ pid, pid ∈ s.demux ↔ Watched l pid
  pmts : ∀ pid, pid ∈ s.pmtPids ↔ ∃ sid, (sid, pid) ∈ services l
  done : s.done = true ↔ Deserted l

theorem watch_init : Watch {} [] := by
  refine ⟨fun pid => ?_, fun pid => ?_, ?_⟩
  · simp [Watched, services, pidPat, pidCat, pidEit, pidTot]
  · simp [services]
  · simp [Deserted]

theorem Watch.same {s s' : St} {l : List Table} {t : Table} (h : Watch s l) (hs : Same s s')
    (ht : patOf t = none) : Watch s' (l ++ [t]) := by
  refine ⟨fun pid => ?_, fun pid => ?_, ?_⟩
  · rw [hs.1, h.demux]
    unfold Watched
    rw [services_none ht]
    refine or_congr Iff.rfl (and_congr Iff.rfl ⟨fun k l' hl => ?_, fun k l' hl => ?_⟩)
    · rcases prefix_snoc.1 hl with hl | rfl
      · exact k l' hl
      · rw [services_none ht]; exact k l (List.prefix_refl _)
    · exact k l' (prefix_snoc.2 (.inl hl))
  · rw [hs.2.1, services_none ht]; exact h.pmts pid
  · rw [hs.2.2, deserted_none ht]; exact h.done

theorem printPmts_same (l : List (Nat × Nat)) : ∀ s, Same s (printPmts l s) := by
  induction l with
  | nil => exact Same.refl
  | cons a l ih => intro s; obtain ⟨x, y⟩ := a; unfold printPmts; exact Same.trans ⟨rfl, rfl, rfl⟩ (ih _)

theorem handlePat_watch {s : St} {l : List Table} {t : Table} {x : Pat} (h : Watch s l) (hv : t.valid = true)
    (hb : t.body = .pat x) : Watch (handlePat s t x) (l ++ [t]) := by
  have hp : patOf t = some (t.sourcePid, x) := patOf_some.2 ⟨hv, hb, rfl⟩
  unfold handlePat
  simp only [hv, Bool.not_true, Bool.false_eq_true, if_false]
  -- what remains of the demux
  have rest : ∀ pid, pid ∈ (print (resetStates s) (.pat t.version t.sourcePid)).demux ↔
      pid ∈ [0x00, 0x01, 0x12, 0x14] ∧ ∀ l', l' <+: l → ∀ sid, (sid, pid) ∉ services l' := by
    intro pid
    simp only [print, resetStates, mem_removeAll]
    rw [h.demux, h.pmts]
    unfold Watched
    constructor
    · rintro ⟨k | k, hn⟩
      · exact absurd k hn
      · exact k
    · intro k
      exact ⟨.inr k, fun ⟨sid, hs⟩ => k.2 l (List.prefix_refl _) sid hs⟩
  have later : ∀ pid, ((∃ sid, (sid, pid) ∈ services (l ++ [t])) ∨
      (pid ∈ [0x00, 0x01, 0x12, 0x14] ∧ ∀ l', l' <+: l → ∀ sid, (sid, pid) ∉ services l')) ↔
      Watched (l ++ [t]) pid := by
    intro pid
    unfold Watched
    constructor
    · rintro (k | ⟨k1, k2⟩)
      · exact .inl k
      · by_cases hx : ∃ sid, (sid, pid) ∈ services (l ++ [t])
        · exact .inl hx
        · refine .inr ⟨k1, fun l' hl sid hs => ?_⟩
          rcases prefix_snoc.1 hl with hl | rfl
          · exact k2 l' hl sid hs
          · exact hx ⟨sid, hs⟩
    · rintro (k | ⟨k1, k2⟩)
      · exact .inl k
      · exact .inr ⟨k1, fun l' hl => k2 l' (prefix_snoc.2 (.inl hl))⟩
  split
  · next h0 =>
    have h0 : t.sourcePid = 0 := by simpa [pidPat] using h0
    have hsv : services (l ++ [t]) = x.pmts.entries := by rw [services_pat hp, if_pos h0]
    obtain ⟨k1, k2, k3⟩ := addPmts_spec x.pmts.entries (print (resetStates s) (.pat t.version t.sourcePid))
    have hmem : ∀ pid, pid ∈ x.pmts.entries.map (·.2) ↔ ∃ sid, (sid, pid) ∈ services (l ++ [t]) := by
      intro pid
      rw [hsv, List.mem_map]
      constructor
      · rintro ⟨⟨a, b⟩, hm, rfl⟩; exact ⟨a, hm⟩
      · rintro ⟨sid, hm⟩; exact ⟨_, hm, rfl⟩
    have k2' : (addPmts x.pmts.entries (print (resetStates s) (.pat t.version t.sourcePid))).pmtPids =
        x.pmts.entries.map (·.2) := by rw [k2]; simp [print, resetStates]
    have demux : ∀ pid, pid ∈ (addPmts x.pmts.entries (print (resetStates s) (.pat t.version t.sourcePid))).demux ↔
        Watched (l ++ [t]) pid := by
      intro pid
      rw [k3, hmem, rest, ← later]
      exact or_comm
    have pm : ∀ pid, pid ∈ (addPmts x.pmts.entries (print (resetStates s) (.pat t.version t.sourcePid))).pmtPids ↔
        ∃ sid, (sid, pid) ∈ services (l ++ [t]) := fun pid => by rw [k2', hmem]
    split
    · next hemp =>
      refine ⟨demux, pm, ?_⟩
      rw [k2', List.isEmpty_iff, List.map_eq_nil_iff] at hemp
      simp [deserted_pat hp, h0, hemp]
    · next hemp =>
      refine ⟨demux, pm, ?_⟩
      rw [k2', List.isEmpty_iff, List.map_eq_nil_iff] at hemp
      rw [deserted_pat hp, k1]
      simp [print, resetStates, hemp]
  · next h0 =>
    have h0 : t.sourcePid ≠ 0 := by simpa [pidPat] using h0
    have hsv : services (l ++ [t]) = [] := by rw [services_pat hp, if_neg h0]
    obtain ⟨k1, k2, k3⟩ := printPmts_same x.pmts.entries (print (resetStates s) (.pat t.version t.sourcePid))
    refine ⟨fun pid => ?_, fun pid => ?_, ?_⟩
    · rw [k1, rest, ← later, hsv]
      simp
    · rw [k2, hsv]; simp [print, resetStates]
    · rw [k3, deserted_pat hp]; simp [print, resetStates, h0]

theorem handleTable_watch {s s' : St} {l : List Table} {t : Table} (h : Watch s l)
    (he : handleTable s t = .ok s') : Watch s' (l ++ [t]) := by
  unfold handleTable at he
  split at he
  · next x hb =>
    cases he
    cases hv : t.valid with
    | false =>
      unfold handlePat
      simp only [hv, Bool.not_false, if_true]
      exact h.same (Same.refl _) (patOf_none_of_invalid hv)
    | true => exact handlePat_watch h hv hb
  · next x hb =>
    cases he
    refine h.same ?_ (patOf_none_of_body (by simp [hb]))
    unfold handleCat; split
    · exact Same.refl _
    · exact ⟨rfl, rfl, rfl⟩
  · next x hb =>
    cases he
    refine h.same ?_ (patOf_none_of_body (by simp [hb]))
    unfold handlePmt; split
    · exact Same.refl _
    · simp only
      refine Same.trans (b := if (x.pcrPid != pidNull) = true then _ else _) ?_ (addStreams_same _ _ _)
      split <;> exact ⟨rfl, rfl, rfl⟩
  · next x hb =>
    cases he
    refine h.same ?_ (patOf_none_of_body (by simp [hb]))
    unfold handleEit; split
    · exact Same.refl _
    · split
      · exact Same.refl _
      · exact Same.trans (b := print s _) ⟨rfl, rfl, rfl⟩ (printEvents_same _ _ _)
  · next x hb =>
    refine h.same ?_ (patOf_none_of_body (by simp [hb]))
    unfold handleTot at he
    split at he
    · cases he; exact Same.refl _
    · obtain ⟨m, _, h2⟩ := bind_eq_ok he
      cases h2
      exact ⟨rfl, rfl, rfl⟩
  · next h1 _ _ _ _ =>
    cases he
    exact h.same (Same.refl _) (patOf_none_of_body fun x k => h1 x k)

theorem feed_watch {pid : Nat} : ∀ (ts : List Table) (s s' : St) (log l : List Table), Watch s l →
    feedDemux St.demux handleTable pid ts s = .ok (s', log) →
    Watch s' (l ++ log) ∧ Looked pid l (ts.filter (·.sourcePid == pid)) log := by
  intro ts
  induction ts with
  | nil =>
    intro s s' log l hw h
    simp only [feedDemux, Except.ok.injEq, Prod.mk.injEq] at h
    obtain ⟨rfl, rfl⟩ := h
    exact ⟨by simpa using hw, by simpa using Looked.nil l⟩
  | cons t ts ih =>
    intro s s' log l hw h
    simp only [feedDemux] at h
    split at h
    · next hc =>
      simp only [Bool.and_eq_true, beq_iff_eq, List.contains_iff_mem] at hc
      obtain ⟨s1, h1, h⟩ := bind_eq_ok h
      obtain ⟨⟨s2, log2⟩, h2, h⟩ := bind_eq_ok h
      simp only [Except.ok.injEq, Prod.mk.injEq] at h
      obtain ⟨rfl, rfl⟩ := h
      obtain ⟨k1, k2⟩ := ih s1 s2 log2 (l ++ [t]) (handleTable_watch hw h1) h2
      rw [List.filter_cons, if_pos (by simp [hc.1])]
      exact ⟨by simpa using k1, .look _ _ _ _ ((hw.demux _).1 hc.2) k2⟩
    · next hc =>
      obtain ⟨k1, k2⟩ := ih s s' log l hw h
      refine ⟨k1, ?_⟩
      by_cases hp : t.sourcePid = pid
      · rw [List.filter_cons, if_pos (by simp [hp])]
        exact .skip _ _ _ _ (fun k => hc (by simp [hp, (hw.demux _).2 k])) k2
      · rw [List.filter_cons, if_neg (by simp [hp])]
        exact k2

theorem printPcr_same {s s' : St} {q : Nat} {v : Int} {m : Msg} {lb : Option Kind}
    (h : printPcr s q v m lb = .ok s') : Same s s' := by
  rw [printPcr_ok (printPcr_valid h)] at h
  cases h; exact ⟨rfl, rfl, rfl⟩

theorem handleStamp_same {s s' : St} {q : Nat} {v : Option Int} {m : Msg} (h : handleStamp s q v m = .ok s') :
    Same s s' := by
  unfold handleStamp at h
  split at h
  · cases h; exact Same.refl _
  · obtain ⟨_, _, h⟩ := bind_eq_ok h
    split at h <;> exact printPcr_same h

theorem handlePcr_same {s s' : St} {p : Packet} (h : handlePcr s p = .ok s') : Same s s' := by
  unfold handlePcr at h
  split at h
  · cases h; exact Same.refl _
  · split at h
    · cases h; exact Same.refl _
    · obtain ⟨_, _, h⟩ := bind_eq_ok h
      have := printPcr_same h
      exact ⟨this.1, this.2.1, this.2.2⟩

theorem step_watch {s s' : St} {l : List Table} {i : Input} {d : Did} {more : Bool} (hw : Watch s l)
    (h : step s i = .ok (s', d, more)) :
    Watch s' (l ++ d.tables) ∧ Looked i.packet.pid l (received [i]) d.tables ∧ more = !s'.done := by
  unfold step at h
  obtain ⟨s1, h1, h⟩ := bind_eq_ok h
  obtain ⟨s2, h2, h⟩ := bind_eq_ok h
  obtain ⟨s3, h3, h⟩ := bind_eq_ok h
  obtain ⟨⟨s4, log⟩, h4, h⟩ := bind_eq_ok h
  simp only [Except.ok.injEq, Prod.mk.injEq] at h
  obtain ⟨rfl, rfl, rfl⟩ := h
  have hs := ((handlePcr_same h1).trans (handleStamp_same h2)).trans (handleStamp_same h3)
  have hw3 : Watch s3 l := ⟨by rw [hs.1]; exact hw.demux, by rw [hs.2.1]; exact hw.pmts, by rw [hs.2.2]; exact hw.done⟩
  obtain ⟨k1, k2⟩ := feed_watch i.tables s3 s4 log l hw3 h4
  exact ⟨k1, by simpa [received] using k2, by cases s4.done <;> rfl⟩

theorem looked_snoc (items : List (Line Input Did)) (x : Line Input Did) :
    looked (items ++ [x]) = looked items ++ x.did.tables := by simp [looked]

theorem reach_watch {items : List (Line Input Did)} {s : St} (h : Reach step {} items s) : Watch s (looked items) := by
  induction h with
  | nil => exact watch_init
  | @snoc items s i s' a more h1 h2 h3 ih =>
    rw [looked_snoc]
    exact (step_watch ih h3).1

/-! ### The lines -/

/-- What the state means for the lines. -/
structure Words (s : St) (l : List Table) : Prop where
  sids : ∀ sid, sid ∈ s.sids ↔ sid ∈ (services l).map (·.1)
  kinds : ∀ pid, s.kinds.find? pid = streamKind pid l
  streams : ∀ pid, (s.streamMap.find? pid).isSome = (s.kinds.find? pid).isSome

theorem words_init : Words {} [] := by
  refine ⟨?_, ?_, ?_⟩
  · simp [services]
  · simp [streamKind, OMap.find?_empty]
  · simp [OMap.find?_empty]

theorem kindOf_eq (st : Stream) : kindOf st = kind st := by
  unfold kindOf kind
  cases st.isAudio <;> cases st.isVideo <;> cases st.isSubtitles <;> try rfl
  unfold tagInRange
  cases ht : st.tag with
  | none => rfl
  | some tag =>
    simp only [Bool.false_eq_true, if_false, Bool.and_eq_true, decide_eq_true_eq]
    by_cases h1 : tag / 8 = 6
    · rw [if_pos h1, if_pos (by omega)]
    · rw [if_neg h1, if_neg (by omega)]
      by_cases h2 : tag / 8 = 7
      · rw [if_pos h2, if_pos (by omega)]
      · rw [if_neg h2, if_neg (by omega)]

theorem streamKind_none {l : List Table} {t : Table} (h : pmtOf (.tab t) = none) (pid : Nat) :
    streamKind pid (l ++ [t]) = streamKind pid l := by
  unfold streamKind
  rw [List.filterMap_append]
  simp [h]

theorem streamKind_pmt {l : List Table} {t : Table} {x : Pmt} (h : pmtOf (.tab t) = some x) (pid : Nat) :
    streamKind pid (l ++ [t]) = match x.streams.find? pid with
      | some st => some (kind st)
      | none => streamKind pid l := by
  unfold streamKind
  rw [List.filterMap_append]
  simp only [List.filterMap_cons, h, List.filterMap_nil, List.filterMap_append]
  cases x.streams.find? pid with
  | none => simp
  | some st => simp

/-- The lines of some entries are added, and the rest for the lines stays as it is. -/
def Adds (s s' : St) (ls : List PLine) : Prop :=
  s'.sids = s.sids ∧ s'.kinds = s.kinds ∧ s'.streamMap = s.streamMap ∧ s'.out = s.out ++ ls

theorem Adds.trans {a b c : St} {l m : List PLine} (h1 : Adds a b l) (h2 : Adds b c m) : Adds a c (l ++ m) :=
  ⟨h2.1.trans h1.1, h2.2.1.trans h1.2.1, h2.2.2.1.trans h1.2.2.1, by rw [h2.2.2.2, h1.2.2.2, List.append_assoc]⟩

theorem Adds.nil (s : St) : Adds s s [] := ⟨rfl, rfl, rfl, by simp⟩

theorem print_adds (s : St) (m : Msg) : Adds s (print s m) [{ msg := m }] := ⟨rfl, rfl, rfl, rfl⟩

theorem printPmts_adds (l : List (Nat × Nat)) : ∀ s,
    Adds s (printPmts l s) (l.map fun e => { msg := .service e.1 e.2 }) := by
  induction l with
  | nil => exact Adds.nil
  | cons a l ih =>
    intro s; obtain ⟨x, y⟩ := a; unfold printPmts
    exact (print_adds s _).trans (ih _)

theorem addPmts_words (l : List (Nat × Nat)) : ∀ s,
    (addPmts l s).kinds = s.kinds ∧ (addPmts l s).streamMap = s.streamMap ∧
    (addPmts l s).out = s.out ++ l.map (fun e => { msg := .service e.1 e.2 }) ∧
    ∀ sid, sid ∈ (addPmts l s).sids ↔ sid ∈ s.sids ∨ sid ∈ l.map (·.1) := by
  induction l with
  | nil => intro s; simp [addPmts]
  | cons a l ih =>
    intro s
    obtain ⟨sid, q⟩ := a
    unfold addPmts
    obtain ⟨h1, h2, h3, h4⟩ := ih { print s (.service sid q) with
      demux := (print s (.service sid q)).demux.add q
      sids := sid :: (print s (.service sid q)).sids
      pmtPids := (print s (.service sid q)).pmtPids ++ [q] }
    refine ⟨h1, h2, by rw [h3]; simp [print], fun x => ?_⟩
    rw [h4]
    simp only [print, List.mem_cons, List.map_cons]
    grind

theorem printEvents_adds (l : List Event) : ∀ n s,
    Adds s (printEvents n l s) (l.mapIdx fun k ev =>
      { msg := .event (k + n) ev.eventId ev.startTime (ev.startTime + 1000 * ev.duration) (ev.duration.tdiv 60) }) := by
  induction l with
  | nil => intro n s; exact Adds.nil s
  | cons a l ih =>
    intro n s; unfold printEvents
    have := (print_adds s (.event n a.eventId a.startTime (a.startTime + a.duration * 1000) (a.duration.tdiv 60))).trans
      (ih (n + 1) _)
    rw [List.mapIdx_cons]
    rw [Int.mul_comm 1000]
    simpa [Nat.add_comm, Nat.add_left_comm, Nat.add_assoc] using this

theorem addStreams_words (q : Nat) (l : List (Nat × Stream)) : ∀ s,
    (addStreams q l s).sids = s.sids ∧
    (addStreams q l s).out = s.out ++ l.map (fun e => { msg := .stream e.1 (kind e.2) e.2.streamType }) ∧
    ((∀ pid, (s.streamMap.find? pid).isSome = (s.kinds.find? pid).isSome) →
      ∀ pid, ((addStreams q l s).streamMap.find? pid).isSome = ((addStreams q l s).kinds.find? pid).isSome) ∧
    (l.Pairwise (fun a b => a.1 < b.1) → ∀ pid, (addStreams q l s).kinds.find? pid = match l.lookup pid with
      | some st => some (kind st)
      | none => s.kinds.find? pid) := by
  induction l with
  | nil => intro s; simp [addStreams]
  | cons a l ih =>
    intro s
    obtain ⟨pid, st⟩ := a
    unfold addStreams
    obtain ⟨h1, h2, h3, h4⟩ := ih (print
      { s with streamMap := s.streamMap.set pid q, kinds := s.kinds.set pid (kindOf st) } (.stream pid (kindOf st) st.streamType))
    refine ⟨h1, by rw [h2]; simp [print, kindOf_eq], fun hs => h3 fun p => ?_, fun hl p => ?_⟩
    · simp only [print, OMap.find?_set]
      split
      · rfl
      · exact hs p
    · rw [h4 (List.pairwise_cons.1 hl).2, List.lookup_cons]
      by_cases hp : p = pid
      · subst hp
        have hn : l.lookup p = none := by
          rw [List.lookup_eq_none_iff]
          intro x hx
          have := (List.pairwise_cons.1 hl).1 x hx
          simp only at this; simp; omega
        rw [hn]
        simp [print, OMap.find?_set, kindOf_eq]
      · rw [show (p == pid) = false by simpa using hp]
        simp only
        cases l.lookup p with
        | some _ => rfl
        | none => simp [print, OMap.find?_set, hp]

theorem Words.adds {s s' : St} {l : List Table} {t : Table} {ls : List PLine} (h : Words s l) (ha : Adds s s' ls)
    (h1 : patOf t = none) (h2 : pmtOf (.tab t) = none) : Words s' (l ++ [t]) := by
  refine ⟨fun sid => ?_, fun pid => ?_, fun pid => ?_⟩
  · rw [ha.1, services_none h1]; exact h.sids sid
  · rw [ha.2.1, streamKind_none h2]; exact h.kinds pid
  · rw [ha.2.1, ha.2.2.1]; exact h.streams pid

theorem pmtOf_none_of_body {t : Table} (hb : ∀ x, t.body ≠ .pmt x) : pmtOf (.tab t) = none := by
  unfold pmtOf; split
  · next h => cases h; exact absurd rfl (hb _)
  · rfl

theorem pmtOf_none_of_invalid {t : Table} (hv : t.valid = false) : pmtOf (.tab t) = none := by
  unfold pmtOf; split
  · next h => cases h; cases hv
  · rfl

theorem pmtOf_valid {t : Table} {x : Pmt} (hv : t.valid = true) (hb : t.body = .pmt x) : pmtOf (.tab t) = some x := by
  obtain ⟨a, b, c, d⟩ := t
  simp only at hv hb
  subst hv hb
  rfl

theorem handleTable_words {s s' : St} {l : List Table} {t : Table} (h : Words s l)
    (he : handleTable s t = .ok s') : Words s' (l ++ [t]) ∧ s'.out = s.out ++ text l t := by
  cases hv : t.valid with
  | false =>
    have e : s' = s := by
      unfold handleTable at he
      split at he <;> first
        | (cases he; simp [handlePat, handleCat, handlePmt, handleEit, hv])
        | (simp only [handleTot, hv, Bool.not_false, if_true] at he; cases he; rfl)
    rw [e]
    refine ⟨h.adds (Adds.nil s) (patOf_none_of_invalid hv) (pmtOf_none_of_invalid hv), ?_⟩
    unfold text; rw [hv]; simp
  | true =>
    unfold handleTable at he
    unfold text
    rw [hv]
    split at he
    · next x hb =>
      cases he
      rw [hb]
      have hp : patOf t = some (t.sourcePid, x) := patOf_some.2 ⟨hv, hb, rfl⟩
      have hm : ∀ pid, streamKind pid (l ++ [t]) = streamKind pid l := streamKind_none (pmtOf_none_of_body (by simp [hb]))
      unfold handlePat
      simp only [hv, Bool.not_true, Bool.false_eq_true, if_false]
      split
      · next h0 =>
        have h0 : t.sourcePid = 0 := by simpa [pidPat] using h0
        obtain ⟨k1, k2, k3, k4⟩ := addPmts_words x.pmts.entries (print (resetStates s) (.pat t.version t.sourcePid))
        have w : Words (addPmts x.pmts.entries (print (resetStates s) (.pat t.version t.sourcePid))) (l ++ [t]) := by
          refine ⟨fun sid => ?_, fun pid => ?_, fun pid => ?_⟩
          · rw [k4, services_pat hp, if_pos h0]; simp [print, resetStates]
          · rw [k1, hm]; exact h.kinds pid
          · rw [k1, k2]; exact h.streams pid
        have o : (addPmts x.pmts.entries (print (resetStates s) (.pat t.version t.sourcePid))).out = s.out ++
            ({ msg := .pat t.version t.sourcePid } :: x.pmts.entries.map fun e => { msg := .service e.1 e.2 }) := by
          rw [k3]; simp [print, resetStates]
        split
        · exact ⟨⟨w.sids, w.kinds, w.streams⟩, o⟩
        · exact ⟨w, o⟩
      · next h0 =>
        have h0 : t.sourcePid ≠ 0 := by simpa [pidPat] using h0
        obtain ⟨k1, k2, k3, k4⟩ := printPmts_adds x.pmts.entries (print (resetStates s) (.pat t.version t.sourcePid))
        refine ⟨⟨fun sid => ?_, fun pid => ?_, fun pid => ?_⟩, ?_⟩
        · rw [k1, services_pat hp, if_neg h0]; simp [print, resetStates]
        · rw [k2, hm]; exact h.kinds pid
        · rw [k2, k3]; exact h.streams pid
        · rw [k4]; simp [print, resetStates]
    · next x hb =>
      cases he
      rw [hb]
      unfold handleCat
      simp only [hv, Bool.not_true, Bool.false_eq_true, if_false]
      exact ⟨h.adds (print_adds s _) (patOf_none_of_body (by simp [hb])) (pmtOf_none_of_body (by simp [hb])), rfl⟩
    · next x hb =>
      cases he
      rw [hb]
      unfold handlePmt
      simp only [hv, Bool.not_true, Bool.false_eq_true, if_false]
      have hp : patOf t = none := patOf_none_of_body (by simp [hb])
      generalize hs1 : (if (x.pcrPid != pidNull) = true then
        { print s (.pmt x.serviceId x.pcrPid t.version) with
          clockMap := (print s (.pmt x.serviceId x.pcrPid t.version)).clockMap.set x.pcrPid (({} : Clock).setPid x.pcrPid) }
        else print s (.pmt x.serviceId x.pcrPid t.version)) = s1
      have ha : Adds s s1 [{ msg := .pmt x.serviceId x.pcrPid t.version }] := by
        subst hs1; split <;> exact ⟨rfl, rfl, rfl, rfl⟩
      obtain ⟨k1, k2, k3, k4⟩ := addStreams_words x.pcrPid x.streams.entries s1
      refine ⟨⟨fun sid => ?_, fun pid => ?_, k3 fun pid => ?_⟩, ?_⟩
      · rw [k1, ha.1, services_none hp]; exact h.sids sid
      · rw [k4 x.streams.sorted, streamKind_pmt (pmtOf_valid hv hb), ha.2.1, h.kinds]
        rfl
      · rw [ha.2.1, ha.2.2.1]; exact h.streams pid
      · rw [k2, ha.2.2.2]; simp
    · next x hb =>
      cases he
      rw [hb]
      unfold handleEit
      simp only [hv, Bool.not_true, Bool.false_eq_true, if_false]
      have hp : patOf t = none := patOf_none_of_body (by simp [hb])
      have hq : pmtOf (.tab t) = none := pmtOf_none_of_body (by simp [hb])
      have hsid := h.sids x.serviceId
      by_cases hc : x.serviceId ∈ s.sids
      · rw [if_neg (by simp [hc]), if_pos (hsid.1 hc)]
        have ha := (print_adds s (.eit x.serviceId t.version)).trans (printEvents_adds x.events 0 _)
        exact ⟨h.adds ha hp hq, ha.2.2.2⟩
      · rw [if_pos (by simp [hc]), if_neg (fun k => hc (hsid.2 k))]
        exact ⟨h.adds (Adds.nil s) hp hq, by simp⟩
    · next x hb =>
      rw [hb]
      unfold handleTot at he
      simp only [hv, Bool.not_true, Bool.false_eq_true, if_false] at he
      obtain ⟨m, _, h2⟩ := bind_eq_ok he
      cases h2
      have ha : Adds s { printTime s x .tot with clockMap := m } [{ time := some x, msg := .tot }] :=
        ⟨rfl, rfl, rfl, rfl⟩
      exact ⟨h.adds ha (patOf_none_of_body (by simp [hb])) (pmtOf_none_of_body (by simp [hb])), rfl⟩
    · next h1 h2 h3 h4 h5 =>
      cases he
      refine ⟨h.adds (Adds.nil s) (patOf_none_of_body h1) (pmtOf_none_of_body h3), ?_⟩
      split
      · next hb => exact absurd hb (h1 _)
      · next hb => exact absurd hb (h2 _)
      · next hb => exact absurd hb (h3 _)
      · next hb => exact absurd hb (h4 _)
      · next hb => exact absurd hb (h5 _)
      · simp

theorem texts_snoc (ts : List Table) : ∀ l t, texts l (ts ++ [t]) = texts l ts ++ text (l ++ ts) t := by
  induction ts with
  | nil => intro l t; simp [texts]
  | cons a ts ih => intro l t; simp only [List.cons_append, texts]; rw [ih]; simp

/-- What is right in a line with a stamp. -/
def Labelled (p : Nat) (l : List Table) (ln : PLine) : Prop :=
  ln.pcr.isSome = true ∧ ln.label = if ln.msg = .pcr p then none else streamKind p l

theorem handleStamp_words {s s' : St} {l : List Table} {p : Nat} {v : Option Int} {m : Msg} (h : Words s l)
    (hm : m ≠ .pcr p) (he : handleStamp s p v m = .ok s') :
    Words s' l ∧ ∃ ls, s'.out = s.out ++ ls ∧ ∀ ln ∈ ls, Labelled p l ln := by
  unfold handleStamp at he
  split at he
  · cases he; exact ⟨h, [], by simp, by simp⟩
  · obtain ⟨_, _, he⟩ := bind_eq_ok he
    split at he
    · rw [printPcr_ok (printPcr_valid he)] at he
      cases he
      refine ⟨⟨h.sids, h.kinds, h.streams⟩, _, rfl, ?_⟩
      simp [Labelled, hm, h.kinds]
    · next hn =>
      rw [printPcr_ok (printPcr_valid he)] at he
      cases he
      refine ⟨⟨h.sids, h.kinds, h.streams⟩, _, rfl, ?_⟩
      have := h.streams p
      rw [hn, h.kinds] at this
      have : streamKind p l = none := by
        cases hk : streamKind p l with
        | none => rfl
        | some k => rw [hk] at this; cases this
      simp [Labelled, this]

theorem handlePcr_words {s s' : St} {l : List Table} {p : Packet} (h : Words s l) (he : handlePcr s p = .ok s') :
    Words s' l ∧ ∃ ls, s'.out = s.out ++ ls ∧ ∀ ln ∈ ls, Labelled p.pid l ln := by
  unfold handlePcr at he
  split at he
  · cases he; exact ⟨h, [], by simp, by simp⟩
  · split at he
    · cases he; exact ⟨h, [], by simp, by simp⟩
    · obtain ⟨_, _, he⟩ := bind_eq_ok he
      rw [printPcr_ok (printPcr_valid he)] at he
      cases he
      exact ⟨⟨h.sids, h.kinds, h.streams⟩, _, rfl, by simp [Labelled]⟩

theorem step_words {s s' : St} {l : List Table} {i : Input} {d : Did} {more : Bool} (hw : Words s l)
    (h : step s i = .ok (s', d, more)) :
    Words s' (l ++ d.tables) ∧ ∃ ls, d.lines = ls ++ texts l d.tables ∧ ∀ ln ∈ ls, Labelled i.packet.pid l ln := by
  unfold step at h
  obtain ⟨s1, h1, h⟩ := bind_eq_ok h
  obtain ⟨s2, h2, h⟩ := bind_eq_ok h
  obtain ⟨s3, h3, h⟩ := bind_eq_ok h
  obtain ⟨⟨s4, log⟩, h4, h⟩ := bind_eq_ok h
  simp only [Except.ok.injEq, Prod.mk.injEq] at h
  obtain ⟨rfl, rfl, rfl⟩ := h
  obtain ⟨w1, l1, o1, k1⟩ := handlePcr_words hw h1
  obtain ⟨w2, l2, o2, k2⟩ := handleStamp_words w1 (by simp) h2
  obtain ⟨w3, l3, o3, k3⟩ := handleStamp_words w2 (by simp) h3
  have := feedDemux_inv (watched := St.demux) (handle := handleTable) (pid := i.packet.pid)
    (fun s rs => Words s (l ++ rs) ∧ s.out = s3.out ++ texts l rs)
    (by
      rintro a t b rs ⟨j1, j2⟩ _ _ he
      obtain ⟨j3, j4⟩ := handleTable_words j1 he
      exact ⟨by simpa using j3, by rw [j4, j2, texts_snoc]; simp⟩)
    i.tables s3 s4 log [] ⟨by simpa using w3, by simp [texts]⟩ h4
  obtain ⟨w4, o4⟩ := this
  refine ⟨by simpa using w4, l1 ++ l2 ++ l3, ?_, ?_⟩
  · show s4.out.drop s.out.length = _
    rw [o4, o3, o2, o1]
    simp
  · intro ln hl
    simp only [List.mem_append] at hl
    rcases hl with (hl | hl) | hl
    · exact k1 ln hl
    · exact k2 ln hl
    · exact k3 ln hl

theorem reach_words {items : List (Line Input Did)} {s : St} (h : Reach step {} items s) : Words s (looked items) := by
  induction h with
  | nil => exact words_init
  | @snoc items s i s' a more h1 h2 h3 ih =>
    rw [looked_snoc]
    exact (step_words ih h3).1

end Mirakc.PesPrinter
