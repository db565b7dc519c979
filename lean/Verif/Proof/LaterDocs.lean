import Verif.Proof.Later
/-
Lemmas: the same broadcast at another time, for the commands that print documents.
-/
namespace Mirakc.Main
open Mirakc.Pipeline Mirakc.Spec Mirakc.Spec.Main Mirakc.Spec.Pipeline

section
variable {ι ι' σ σ' α α' β β' : Type} {G : ι → ι' → Prop} {R : σ → σ' → Prop}
  {step : σ → ι → Except Fault (σ × α × Bool)} {step' : σ' → ι' → Except Fault (σ' × α' × Bool)}
  {finish : σ → Except Fault σ} {finish' : σ' → Except Fault σ'} {exitCode : σ → Nat} {exitCode' : σ' → Nat}
  (view : α → List β) (view' : α' → List β') (m : β → β')

/-- Related states, and histories that show the same. -/
def Told (R : σ → σ' → Prop) (h : History ι σ α) (h' : History ι' σ' α') : Prop :=
  R h.st h'.st ∧ (h'.items.flatMap fun l => view' l.did) = (h.items.flatMap fun l => view l.did).map m

theorem history_rel
    (hs : ∀ s s' i i', R s s' → G i i' → Rel (fun a b => R a.1 b.1 ∧ view' b.2.1 = (view a.2.1).map m ∧ b.2.2 = a.2.2)
      (step s i) (step' s' i'))
    (hf : ∀ s s', R s s' → Rel R (finish s) (finish' s')) (he : ∀ s s', R s s' → exitCode' s' = exitCode s) :
    SinkRel G (Told view view' m R) (historySink step finish exitCode) (historySink step' finish' exitCode') where
  start s s' h := ⟨rfl, h⟩
  handle h h' i i' hh hg := by
    refine (hs _ _ i i' hh.1 hg).bind fun a b hab => ?_
    obtain ⟨h1, h2, h3⟩ := hab
    refine ⟨h3, h1, ?_⟩
    simp only [List.flatMap_append, List.map_append, hh.2, List.flatMap_cons, List.flatMap_nil, List.append_nil, h2]
  finish h h' hh := (hf _ _ hh.1).bind fun a b hab => ⟨hab, hh.2⟩
  exitCode h h' hh := he _ _ hh.1

end

/-- The relation between the states of filter-program-metadata. -/
def MetaLater (T : Int) (a b : ProgramMetadataFilter.St) : Prop :=
  ∃ l, b = { a with out := a.out.map l } ∧
    l = fun m => { m with events := m.events.map fun e => { e with startTime := e.startTime + T } }

/-- The relation between the states of track-airtime. -/
def AirLater (T : Int) (a b : AirtimeTracker.St) : Prop :=
  ∃ l, b = { a with out := a.out.map l } ∧ l = fun m => { m with startTime := m.startTime + T }

section
variable {w : World} {ps : List (List UInt8)} (hr : Reads w ps) (T L : Int)
include hr

theorem reads_later : Reads (later T L w) ps := hr

omit hr in
theorem packet_later (n : Nat) (q : List UInt8) : LaterInput T (packet w n q) (packet (later T L w) n q) := ⟨rfl, rfl⟩

theorem scan_later (o : ServiceScanner.Opt) :
    scanServices (later T L w) o = (scanServices w o).map (laterEnded T) := by
  have hh : ∀ s t, ServiceScanner.handleTable s (laterTable T t) = ServiceScanner.handleTable s t := by
    rintro s ⟨sp, v, body, fp, ver⟩
    cases body <;> rfl
  have h := history_rel (G := LaterInput T) (R := fun a b => b = a) (step := ServiceScanner.step)
    (step' := ServiceScanner.step) (finish := ServiceScanner.finish o) (finish' := ServiceScanner.finish o)
    (exitCode := ServiceScanner.exitCode) (exitCode' := ServiceScanner.exitCode)
    (fun _ => ([] : List Unit)) (fun _ => ([] : List Unit)) id
    (fun s s' i i' h hi => by
      subst h
      unfold ServiceScanner.step
      rw [hi.1, hi.2]
      refine (feedDemux_timeless hh _ _ _).bind fun a b hab => ?_
      obtain ⟨a, x⟩ := a
      obtain ⟨b, y⟩ := b
      cases hab
      show Rel _ (if ServiceScanner.completed a then _ else _) (if ServiceScanner.completed a then _ else _)
      cases ServiceScanner.completed a <;> exact ⟨rfl, rfl, rfl⟩)
    (fun s s' h => by subst h; exact Rel.of_eq rfl) (fun s s' h => by subst h; rfl)
  refine feed_rel hr (reads_later hr T L) h (packet_later T L) ⟨rfl, rfl⟩
    (fun r => .ok { code := r.1, docs := r.2.st.out.toList.map .services })
    (fun r => .ok { code := r.1, docs := r.2.st.out.toList.map .services }) fun n a b hab => ?_
  show _ = _
  rw [hab.1]
  simp only [laterEnded, List.map_map]
  rfl

theorem metadata_later (o : ProgramMetadataFilter.Opt) :
    filterProgramMetadata (later T L w) o = (filterProgramMetadata w o).map (laterEnded T) := by
  have h := history_rel (G := LaterInput T) (R := MetaLater T)
    (step := ProgramMetadataFilter.step o) (step' := ProgramMetadataFilter.step o) (finish := .ok) (finish' := .ok)
    (exitCode := fun _ => exitSuccess) (exitCode' := fun _ => exitSuccess) (fun d => d) (fun d => d)
    (fun m => { m with events := m.events.map fun e => { e with startTime := e.startTime + T } })
    (fun s s' i i' h hi => by
      unfold ProgramMetadataFilter.step
      rw [hi.1, hi.2]
      refine (feedDemux_rel (R := MetaLater T) (T := T) ?_ ?_ _ _ _ _ h).bind fun a b hab => ?_
      · rintro s s' ⟨l, rfl, _⟩; rfl
      · rintro s s' ⟨sp, v, body, fp, ver⟩ ⟨l, rfl, hl⟩
        cases body with
        | eit e =>
          refine ⟨l, ?_, hl⟩
          obtain ⟨sid, tsid, nid, evs⟩ := e
          show ProgramMetadataFilter.handleEit o _ ⟨sp, v, .eit ⟨sid, tsid, nid, evs.map (laterEvent T)⟩, fp, ver⟩
            ⟨sid, tsid, nid, evs.map (laterEvent T)⟩ = _
          simp only [ProgramMetadataFilter.handleEit]
          by_cases h1 : (!v) = true
          · rw [if_pos h1, if_pos h1]
          · rw [if_neg h1, if_neg h1]
            by_cases h2 : (o.sid != 0 && sid != o.sid) = true
            · rw [if_pos h2, if_pos h2]
            · rw [if_neg h2, if_neg h2, List.length_map]
              by_cases h3 : (evs.length == 0) = true
              · rw [if_pos h3, if_pos h3]
              · rw [if_neg h3, if_neg h3]
                subst hl
                simp only [ProgramMetadataFilter.writeEvents, List.map_append, List.map_cons, List.map_nil, List.map_map]
                congr 5
                funext ev
                simp only [Function.comp, ProgramMetadataFilter.makeEvent, laterEvent, jstToUnix,
                  ProgramMetadataFilter.EventJson.mk.injEq, true_and, and_true]
                omega
        | _ => exact ⟨l, rfl, hl⟩
      · obtain ⟨⟨l, h1, h2⟩, _⟩ := hab
        obtain ⟨l', h3, h4⟩ := h
        refine ⟨⟨l, h1, h2⟩, ?_, rfl⟩
        show List.drop s'.out.length b.1.out = _
        rw [h1, h3, List.length_map, ← h2]
        show List.drop _ (a.1.out.map l) = _
        exact List.map_drop.symm)
    (fun s s' h => h) (fun s s' h => rfl)
  refine feed_rel hr (reads_later hr T L) h (packet_later T L) ⟨⟨_, rfl, rfl⟩, rfl⟩
    (fun r => .ok { code := r.1, docs := (r.2.items.flatMap (·.did)).map .metadata })
    (fun r => .ok { code := r.1, docs := (r.2.items.flatMap (·.did)).map .metadata }) fun n a b hab => ?_
  show _ = _
  rw [show (b.items.flatMap fun l => l.did) = _ from hab.2]
  simp only [laterEnded, List.map_map]
  rfl

theorem airtime_later (o : AirtimeTracker.Opt) :
    trackAirtime (later T L w) o = (trackAirtime w o).map (laterEnded T) := by
  have h := history_rel (G := LaterInput T) (R := AirLater T)
    (step := AirtimeTracker.step o) (step' := AirtimeTracker.step o) (finish := .ok) (finish' := .ok)
    (exitCode := fun _ => exitSuccess) (exitCode' := fun _ => exitSuccess) (fun d => d) (fun d => d)
    (fun m => { m with startTime := m.startTime + T })
    (fun s s' i i' h hi => by
      unfold AirtimeTracker.step
      rw [hi.1, hi.2]
      refine (feedDemux_rel (R := AirLater T) (T := T) ?_ ?_ _ _ _ _ h).bind fun a b hab => ?_
      · rintro s s' ⟨l, rfl, _⟩; rfl
      · rintro s s' ⟨sp, v, body, fp, ver⟩ ⟨l, rfl, hl⟩
        have hwr : ∀ (e : Eit) (ev : Event), AirtimeTracker.writeEventInfo { s with out := s.out.map l } (laterEit T e)
            (laterEvent T ev) = { AirtimeTracker.writeEventInfo s e ev with
              out := (AirtimeTracker.writeEventInfo s e ev).out.map l } := by
          intro e ev
          subst hl
          simp only [AirtimeTracker.writeEventInfo, List.map_append, List.map_cons, List.map_nil, laterEit, laterEvent,
            jstToUnix]
          congr 4
          omega
        cases body with
        | eit e =>
          refine ⟨l, ?_, hl⟩
          show AirtimeTracker.handleEit o _ ⟨sp, v, .eit (laterEit T e), fp, ver⟩ (laterEit T e) = _
          simp only [AirtimeTracker.handleEit]
          by_cases h1 : (!v) = true
          · rw [if_pos h1, if_pos h1]
          · rw [if_neg h1, if_neg h1]
            by_cases h2 : (e.serviceId != o.sid) = true
            · rw [if_pos (show ((laterEit T e).serviceId != o.sid) = true from h2), if_pos h2]
            · rw [if_neg (show ¬ ((laterEit T e).serviceId != o.sid) = true from h2), if_neg h2]
              obtain ⟨si, ti, ni, evs⟩ := e
              cases evs with
              | nil => rfl
              | cons present rest =>
                show (if present.eventId == o.eid then _ else _) = AirtimeTracker.St.mk _ _ _
                by_cases h3 : (present.eventId == o.eid) = true
                · rw [if_pos h3]
                  simp only [if_pos h3]
                  exact hwr _ _
                · rw [if_neg h3]
                  simp only [if_neg h3]
                  cases rest with
                  | nil => rfl
                  | cons following rest =>
                    show (if following.eventId == o.eid then _ else _) = AirtimeTracker.St.mk _ _ _
                    by_cases h4 : (following.eventId == o.eid) = true
                    · rw [if_pos h4]
                      simp only [if_pos h4]
                      exact hwr _ _
                    · rw [if_neg h4]
                      simp only [if_neg h4]
        | _ => exact ⟨l, rfl, hl⟩
      · obtain ⟨⟨l, h1, h2⟩, _⟩ := hab
        obtain ⟨l', h3, h4⟩ := h
        refine ⟨⟨l, h1, h2⟩, ?_, ?_⟩
        · show List.drop s'.out.length b.1.out = _
          rw [h1, h3, List.length_map, ← h2]
          show List.drop _ (a.1.out.map l) = _
          exact List.map_drop.symm
        · show (if b.1.done then false else true) = (if a.1.done then false else true)
          rw [h1])
    (fun s s' h => h) (fun s s' h => rfl)
  refine feed_rel hr (reads_later hr T L) h (packet_later T L) ⟨⟨_, rfl, rfl⟩, rfl⟩
    (fun r => .ok { code := r.1, docs := (r.2.items.flatMap (·.did)).map .airtime })
    (fun r => .ok { code := r.1, docs := (r.2.items.flatMap (·.did)).map .airtime }) fun n a b hab => ?_
  show _ = _
  rw [show (b.items.flatMap fun l => l.did) = _ from hab.2]
  simp only [laterEnded, List.map_map]
  rfl

end
end Mirakc.Main
