import Verif.Spec.ServiceAborts
import Verif.Proof.ServiceFilter
import Verif.Proof.Demux
/-
Exactly which streams make filter-service terminate abnormally.
-/
namespace Mirakc.ServiceFilter
open Mirakc.Spec Mirakc.Spec.ServiceFilter

/-- A table that lists the service changes the watched PIDs, no other does. -/
theorem handle_listed {o : Opt} {s s' : St} {t : Table} (h : handleTable o s t = .ok s') :
    match listed o.sid t with
    | some pid => s'.pmtPid = pid ∧
        s'.demux = (if s.pmtPid != pidNull then s.demux.remove s.pmtPid else s.demux).add pid
    | none => s'.demux = s.demux ∧ s'.pmtPid = s.pmtPid := by
  have key : usablePat t = none ∨ ∃ pat, usablePat t = some pat ∧ t.body = .pat pat ∧
      t.sourcePid = 0 ∧ t.valid = true ∧ pat.tsId ≠ 0 := by
    unfold usablePat
    split
    · next pat hb =>
      by_cases hc : t.sourcePid = 0 ∧ t.valid = true ∧ pat.tsId ≠ 0
      · exact .inr ⟨pat, by rw [if_pos hc], hb, hc⟩
      · exact .inl (by rw [if_neg hc])
    · exact .inl rfl
  rcases key with hu | ⟨pat, hu, hb, h1, h2, h3⟩
  · have hn : listed o.sid t = none := by simp [listed, hu]
    rw [hn]
    rcases handle_demux h with ⟨pat, pid, hu', _⟩ | ⟨_, h1, h2, _⟩
    · rw [hu] at hu'
      cases hu'
    · exact ⟨h1, h2⟩
  · have hl : listed o.sid t = pat.pmts.find? o.sid := by simp [listed, hu, OMap.find?]
    rw [hl]
    unfold handleTable at h
    rw [hb] at h
    simp only at h
    unfold handlePat at h
    rw [if_neg (by simp [h1, pidPat]), if_neg (by simp [h2]), if_neg (by simpa using h3)] at h
    cases hf : pat.pmts.find? o.sid with
    | none =>
      rw [hf] at h
      cases h
      exact ⟨rfl, rfl⟩
    | some pid =>
      rw [hf] at h
      obtain ⟨_, _, h⟩ := bind_eq_ok h
      obtain ⟨_, _, h⟩ := bind_eq_ok h
      cases h
      exact ⟨rfl, rfl⟩

/-- The invariant for arbitrary tables. -/
structure Full (o : Opt) (s : St) (rs : List Table) : Prop where
  inv : Inv o s rs
  pmt : s.pmtPid = (latest (listed o.sid) rs).getD 0x1FFF
  demux : ∀ pid, pid ∈ s.demux ↔ Looked o.sid o.timeLimit rs pid

theorem full_init (o : Opt) : Full o (init o) [] := by
  refine ⟨inv_init o, rfl, fun pid => ?_⟩
  cases h : o.timeLimit <;>
    simp [init, Looked, latest, h, pidTot, pidCat, pidPat] <;> omega

theorem full_table {o : Opt} {s s' : St} {t : Table} {rs : List Table} (hF : Full o s rs)
    (h : handleTable o s t = .ok s') : Full o s' (rs ++ [t]) := by
  have hl := handle_listed h
  refine ⟨handleTable_spec hF.inv h, ?_, fun pid => ?_⟩
  · cases hp : listed o.sid t with
    | none => rw [hp] at hl; rw [hl.2, hF.pmt, latest_none _ _ _ hp]
    | some p => rw [hp] at hl; rw [hl.1, latest_some _ _ _ hp]; rfl
  · cases hp : listed o.sid t with
    | none =>
      rw [hp] at hl
      rw [hl.1, hF.demux pid]
      simp only [Looked, latest_none _ _ _ hp, List.mem_append, List.mem_singleton]
      grind
    | some p =>
      rw [hp] at hl
      rw [hl.2, hF.pmt]
      simp only [Looked, latest_some _ _ _ hp, List.mem_append, List.mem_singleton, PidSet.add,
        List.mem_cons, Option.some.injEq]
      cases hla : latest (listed o.sid) rs with
      | none =>
        have hno : ∀ u ∈ rs, listed o.sid u = none := by
          intro u hu
          have : rs.filterMap (listed o.sid) = [] := by
            simpa [latest, List.getLast?_eq_none_iff] using hla
          rw [List.filterMap_eq_nil_iff] at this
          exact this u hu
        simp only [Option.getD_none, pidNull, bne_self_eq_false, Bool.false_eq_true, if_false,
          hF.demux pid, Looked, hla]
        grind
      | some q =>
        obtain ⟨u, hu, hq⟩ := latest_mem hla
        by_cases hn : q = 0x1FFF
        · subst hn
          simp only [Option.getD_some, pidNull, bne_self_eq_false, Bool.false_eq_true, if_false,
            hF.demux pid, Looked, hla]
          grind
        · have : (q != pidNull) = true := by simpa [pidNull] using hn
          simp only [Option.getD_some, this, if_true, PidSet.remove, List.mem_filter, bne_iff_ne,
            hF.demux pid, Looked, hla]
          grind

/-- A handler fails exactly on a TOT without time limit. -/
theorem handle_error {o : Opt} {s : St} {t : Table} :
    (∃ f, handleTable o s t = .error f) ↔ o.timeLimit = none ∧ validTot t ≠ none := by
  unfold handleTable
  split
  · next pat hb =>
    obtain ⟨s', h⟩ := handlePat_total o s t pat
    simp [h, validTot, hb]
  · next cat hb =>
    unfold handleCat
    split <;> simp [validTot, hb]
  · next pmt hb =>
    unfold handlePmt
    split
    · simp [validTot, hb]
    · split <;> simp [validTot, hb]
  · next time hb =>
    unfold handleTot
    cases hv : t.valid with
    | false => simp [validTot, hb, hv]
    | true =>
      cases hl : o.timeLimit with
      | none => simp [validTot, hb, hv]
      | some l =>
        simp only [validTot, hb, hv]
        by_cases h : time < l <;> simp [h]
  · next b1 b2 b3 b4 =>
    have : validTot t = none := by
      unfold validTot
      split
      · next e => exact absurd e (b4 _)
      · rfl
    simp [this]

/-- What the demultiplexer does with a packet. -/
theorem feed_exact {o : Opt} {s : St} {rs : List Table} (hF : Full o s rs) (pid : Nat) (ts : List Table) :
    ∃ log, Handed (Looked o.sid o.timeLimit) pid rs ts log ∧
      ((∃ s', feedDemux St.demux (handleTable o) pid ts s = .ok (s', log) ∧ Full o s' (rs ++ log) ∧
          ¬ (o.timeLimit = none ∧ ∃ t ∈ log, validTot t ≠ none)) ∨
       ((∃ f, feedDemux St.demux (handleTable o) pid ts s = .error f) ∧ o.timeLimit = none ∧
          ∃ t ∈ log, validTot t ≠ none)) := by
  have hs : ∀ log : List Table, Spoilt (fun _ t => o.timeLimit = none ∧ validTot t ≠ none) rs log ↔
      o.timeLimit = none ∧ ∃ t ∈ log, validTot t ≠ none := by
    intro log
    constructor
    · rintro ⟨a, t, b, rfl, h1, h2⟩
      exact ⟨h1, t, by simp, h2⟩
    · rintro ⟨h1, t, ht, h2⟩
      obtain ⟨a, b, rfl⟩ := List.append_of_mem ht
      exact ⟨a, t, b, rfl, h1, h2⟩
  obtain ⟨log, h1, h2⟩ := feedDemux_exact (watched := St.demux) (handle := handleTable o) (pid := pid)
    (W := Looked o.sid o.timeLimit) (bad := fun _ t => o.timeLimit = none ∧ validTot t ≠ none) (Full o)
    (fun s rs h => h.demux pid) (fun s t s' rs hF _ _ h => full_table hF h)
    (fun s t rs _ _ _ => handle_error) ts s rs hF
  refine ⟨log, h1, ?_⟩
  rw [hs] at h2
  exact h2

/-- A packet makes the filter fail exactly as specified. -/
theorem step_exact {o : Opt} {s : St} {rs : List Table} (hF : Full o s rs) (hd : s.done = false) (i : Input) :
    (∃ f, step o s i = .error f) ↔ Aborts o.sid o.timeLimit rs i := by
  obtain ⟨log, hl, h⟩ := feed_exact hF i.packet.pid i.tables
  have hun : ∀ log', Handed (Looked o.sid o.timeLimit) i.packet.pid rs i.tables log' → log' = log :=
    fun log' h' => h'.unique hl
  rcases h with ⟨s', h1, h2, h3⟩ | ⟨⟨f, h1⟩, h2⟩
  · unfold step
    rw [h1, ok_bind]
    simp only
    have hab : Aborts o.sid o.timeLimit rs i ↔
        ((∀ t ∈ log, ¬ Missing o.sid t ∧ ¬ OverLimit o.timeLimit t) ∧ Forward o.sid (rs ++ log) i.packet.pid ∧
          (i.packet.pid = 0x1FFF ∨ (i.packet.pid = 0x00 ∧ latest usablePat (rs ++ log) = none))) := by
      constructor
      · rintro ⟨log', hl', hc⟩
        rw [hun log' hl'] at hc
        rcases hc with hc | hc
        · exact absurd hc h3
        · exact hc
      · exact fun hc => ⟨log, hl, .inr hc⟩
    rw [hab]
    have hdone : s'.done = true ↔ ∃ t ∈ log, Missing o.sid t ∨ OverLimit o.timeLimit t := by
      rw [h2.inv.done]
      have h0 : ¬ ∃ t ∈ rs, Missing o.sid t ∨ OverLimit o.timeLimit t := by
        rw [← hF.inv.done, hd]
        simp
      constructor
      · rintro ⟨t, ht, hm⟩
        rcases List.mem_append.1 ht with ht | ht
        · exact absurd ⟨t, ht, hm⟩ h0
        · exact ⟨t, ht, hm⟩
      · rintro ⟨t, ht, hm⟩
        exact ⟨t, List.mem_append_right _ ht, hm⟩
    cases hs : s'.done with
    | true =>
      obtain ⟨t, ht, hm⟩ := hdone.1 hs
      simp only [if_true]
      constructor
      · rintro ⟨f, h⟩
        cases h
      · rintro ⟨h4, _⟩
        rcases hm with hm | hm
        · exact absurd hm (h4 t ht).1
        · exact absurd hm (h4 t ht).2
    | false =>
      have h4 : ∀ t ∈ log, ¬ Missing o.sid t ∧ ¬ OverLimit o.timeLimit t := by
        intro t ht
        refine ⟨fun hm => ?_, fun hm => ?_⟩
        · have := hdone.2 ⟨t, ht, .inl hm⟩
          rw [hs] at this
          cases this
        · have := hdone.2 ⟨t, ht, .inr hm⟩
          rw [hs] at this
          cases this
      have he : s'.error = false := by
        cases e : s'.error with
        | false => rfl
        | true =>
          obtain ⟨t, ht, hm⟩ := h2.inv.error.1 e
          have := h2.inv.done.2 ⟨t, ht, .inl hm⟩
          rw [hs] at this
          cases this
      have hc := checkFilter_spec h2.inv he i.packet.pid
      simp only [Bool.false_eq_true, if_false]
      cases hdrop : checkFilterForDrop s' i.packet.pid with
      | true =>
        simp only [if_true]
        constructor
        · rintro ⟨f, h⟩
          cases h
        · rintro ⟨_, h5, _⟩
          rw [hc.2 h5] at hdrop
          cases hdrop
      | false =>
        have hfw := hc.1 hdrop
        simp only [Bool.false_eq_true, if_false]
        have hpat := h2.inv.pat he
        by_cases hp : i.packet.pid = 0
        · have hp' : (i.packet.pid == pidPat) = true := by simp [hp, pidPat]
          simp only [hp', if_true]
          cases hla : latest usablePat (rs ++ log) with
          | none =>
            rw [hla] at hpat
            rw [hpat.2.1]
            exact ⟨fun _ => ⟨h4, hfw, .inr ⟨hp, rfl⟩⟩, fun _ => ⟨_, rfl⟩⟩
          | some pat =>
            rw [hla] at hpat
            obtain ⟨pid, _, _, h5, _⟩ := hpat
            rw [h5]
            constructor
            · rintro ⟨f, h⟩
              cases h
            · rintro ⟨_, _, h6 | h6⟩
              · rw [hp] at h6
                cases h6
              · cases h6.2
        · have hp' : (i.packet.pid == pidPat) = false := by simpa [pidPat] using hp
          simp only [hp', Bool.false_eq_true, if_false]
          by_cases hn : i.packet.pid = 0x1FFF
          · have : (i.packet.pid != pidNull) = false := by simp [hn, pidNull]
            rw [this]
            exact ⟨fun _ => ⟨h4, hfw, .inl hn⟩, fun _ => ⟨_, rfl⟩⟩
          · have : (i.packet.pid != pidNull) = true := by simpa [pidNull] using hn
            rw [this]
            constructor
            · rintro ⟨f, h⟩
              cases h
            · rintro ⟨_, _, h6 | h6⟩
              · exact absurd h6 hn
              · exact absurd h6.1 hp
  · refine ⟨fun _ => ⟨log, hl, .inl h2⟩, fun _ => ⟨f, ?_⟩⟩
    unfold step
    rw [h1]
    rfl

/-- A packet that does not stop the filter. -/
theorem step_full {o : Opt} {s s' : St} {i : Input} {rs log : List Table} {act : Act} (hF : Full o s rs)
    (h : step o s i = .ok (s', log, act)) : Full o s' (rs ++ log) ∧
      Handed (Looked o.sid o.timeLimit) i.packet.pid rs i.tables log := by
  obtain ⟨log', hl, h'⟩ := feed_exact hF i.packet.pid i.tables
  have hI := (step_spec hF.inv h).inv
  unfold step at h
  obtain ⟨⟨s1, log1⟩, hf, h⟩ := bind_eq_ok h
  rcases h' with ⟨s2, h1, h2, _⟩ | ⟨⟨f, h1⟩, _⟩
  · rw [hf] at h1
    simp only [Except.ok.injEq, Prod.mk.injEq] at h1
    obtain ⟨rfl, rfl⟩ := h1
    simp only at h
    have hs : s'.pmtPid = s1.pmtPid ∧ s'.demux = s1.demux ∧ log = log1 := by
      split at h
      · cases h; exact ⟨rfl, rfl, rfl⟩
      · split at h
        · cases h; exact ⟨rfl, rfl, rfl⟩
        · split at h
          · split at h
            · cases h
            · cases h; exact ⟨rfl, rfl, rfl⟩
          · obtain ⟨_, _, h⟩ := bind_eq_ok h
            cases h; exact ⟨rfl, rfl, rfl⟩
    obtain ⟨e1, e2, rfl⟩ := hs
    exact ⟨⟨hI, by rw [e1]; exact h2.pmt, by rw [e2]; exact h2.demux⟩, hl⟩
  · rw [hf] at h1
    cases h1

theorem run_exact {o : Opt} : ∀ (is : List Input) (s : St) (rs : List Table), Full o s rs → s.done = false →
    ((∃ f, run o s is = .error f) ↔ ∃ pre i post s' items, is = pre ++ i :: post ∧
      run o s pre = .ok (s', items) ∧ (∀ it ∈ items, it.act ≠ .stop) ∧
      Aborts o.sid o.timeLimit (rs ++ received items) i)
  | [], s, rs, _, _ => by
    constructor
    · rintro ⟨f, h⟩
      cases h
    · rintro ⟨pre, i, post, _, _, h, _⟩
      simp at h
  | i :: is, s, rs, hF, hd => by
    have hst := step_exact hF hd i
    cases h1 : step o s i with
    | error f =>
      have hab := hst.1 ⟨f, h1⟩
      refine ⟨fun _ => ⟨[], i, is, s, [], rfl, rfl, by simp, by simpa [received] using hab⟩, fun _ => ⟨f, ?_⟩⟩
      simp only [run, h1]
      rfl
    | ok r =>
      obtain ⟨s1, log, act⟩ := r
      have hna : ¬ Aborts o.sid o.timeLimit rs i := by
        intro ha
        obtain ⟨f, hf⟩ := hst.2 ha
        rw [h1] at hf
        cases hf
      obtain ⟨hF1, _⟩ := step_full hF h1
      have hsp := step_spec hF.inv h1
      by_cases ha : act = .stop
      · constructor
        · rintro ⟨f, h⟩
          simp only [run, h1, ok_bind, ha, if_true] at h
          cases h
        · rintro ⟨pre, j, post, s', items, e, hr, hns, hab⟩
          cases pre with
          | nil =>
            simp only [List.nil_append, List.cons.injEq] at e
            obtain ⟨rfl, rfl⟩ := e
            cases hr
            exact absurd (by simpa [received] using hab) hna
          | cons a pre =>
            simp only [List.cons_append, List.cons.injEq] at e
            obtain ⟨rfl, rfl⟩ := e
            simp only [run, h1, ok_bind, ha, if_true, Except.ok.injEq, Prod.mk.injEq] at hr
            obtain ⟨rfl, rfl⟩ := hr
            exact absurd rfl (hns _ (List.mem_singleton.2 rfl))
      · have hd1 : s1.done = false := by
          cases e : s1.done with
          | false => rfl
          | true => exact absurd (hsp.stop.2 (hsp.inv.done.1 e)) ha
        have ih := run_exact is s1 (rs ++ log) hF1 hd1
        have hrun : ∀ l, run o s (i :: l) = (run o s1 l).bind fun r => .ok (r.1, ⟨i.packet, log, act⟩ :: r.2) := by
          intro l
          simp only [run, h1, ok_bind, ha, if_false]
          rfl
        have hiff : (∃ f, run o s (i :: is) = .error f) ↔ ∃ f, run o s1 is = .error f := by
          rw [hrun]
          cases run o s1 is with
          | error f => exact ⟨fun _ => ⟨f, rfl⟩, fun _ => ⟨f, rfl⟩⟩
          | ok r => constructor <;> (rintro ⟨f, h⟩; cases h)
        rw [hiff, ih]
        constructor
        · rintro ⟨pre, j, post, s', items, rfl, hr, hns, hab⟩
          refine ⟨i :: pre, j, post, s', ⟨i.packet, log, act⟩ :: items, rfl, ?_, ?_, ?_⟩
          · rw [hrun, hr]
            rfl
          · intro it hit
            rcases List.mem_cons.1 hit with rfl | hit
            · exact ha
            · exact hns it hit
          · simpa [received, List.append_assoc] using hab
        · rintro ⟨pre, j, post, s', items, e, hr, hns, hab⟩
          cases pre with
          | nil =>
            simp only [List.nil_append, List.cons.injEq] at e
            obtain ⟨rfl, rfl⟩ := e
            cases hr
            exact absurd (by simpa [received] using hab) hna
          | cons a pre =>
            simp only [List.cons_append, List.cons.injEq] at e
            obtain ⟨rfl, rfl⟩ := e
            rw [hrun] at hr
            cases hp : run o s1 pre with
            | error f => rw [hp] at hr; cases hr
            | ok r =>
              rw [hp] at hr
              simp only [Except.bind, Except.ok.injEq, Prod.mk.injEq] at hr
              obtain ⟨rfl, rfl⟩ := hr
              refine ⟨pre, j, post, r.1, r.2, rfl, hp, fun it hit => hns it (List.mem_cons_of_mem _ hit), ?_⟩
              simpa [received, List.append_assoc] using hab

/-- The tables looked at, for arbitrary tables. -/
theorem run_handed {o : Opt} : ∀ (is : List Input) (s s' : St) (rs : List Table) (items : List Item),
    Full o s rs → run o s is = .ok (s', items) → ∀ pre it post, items = pre ++ it :: post →
      ∃ i, is[pre.length]? = some i ∧ i.packet = it.packet ∧
        Handed (Looked o.sid o.timeLimit) it.packet.pid (rs ++ received pre) i.tables it.handled := by
  intro is
  induction is with
  | nil =>
    intro s s' rs items _ h pre it post e
    simp only [run, Except.ok.injEq, Prod.mk.injEq] at h
    rw [← h.2] at e
    simp at e
  | cons i is ih =>
    intro s s' rs items hF h pre it post e
    obtain ⟨s1, log, act, h1, h⟩ := run_cons h
    obtain ⟨hF1, hh⟩ := step_full hF h1
    cases pre with
    | nil =>
      refine ⟨i, rfl, ?_⟩
      have : it = ⟨i.packet, log, act⟩ := by
        rcases h with ⟨_, _, rfl⟩ | ⟨_, rest, _, rfl⟩
        · simp only [List.nil_append, List.cons.injEq] at e
          exact e.1.symm
        · simp only [List.nil_append, List.cons.injEq] at e
          exact e.1.symm
      subst this
      exact ⟨rfl, by simpa [received] using hh⟩
    | cons a pre =>
      rcases h with ⟨_, _, rfl⟩ | ⟨_, rest, hr, rfl⟩
      · simp at e
      · simp only [List.cons_append, List.cons.injEq] at e
        obtain ⟨rfl, e⟩ := e
        obtain ⟨j, g1, g2, g3⟩ := ih s1 s' (rs ++ log) rest hF1 hr pre it post e
        exact ⟨j, by simpa using g1, g2, by simpa [received, List.append_assoc] using g3⟩

end Mirakc.ServiceFilter
