import Verif.Proof.LaterDocs
/-
Lemmas: the same broadcast at another time, for sync-clocks and the collectors.
-/
namespace Mirakc.Main
open Mirakc.Pipeline Mirakc.Spec Mirakc.Spec.Main Mirakc.Spec.Pipeline

/-! sync-clocks -/

/-- The state with another time and another document. -/
def retime (t : Int) (x : Option (List PcrSynchronizer.ClockEntry)) (s : PcrSynchronizer.St) : PcrSynchronizer.St :=
  { s with time := t, out := x }

/-- The document, later. -/
def laterClocks (T : Int) (l : List PcrSynchronizer.ClockEntry) : List PcrSynchronizer.ClockEntry :=
  l.map fun c => { c with time := c.time + T }

/-- The relation between the states of sync-clocks: the time is later, or it has not been read. -/
def SyncLater (T : Int) (s s' : PcrSynchronizer.St) : Prop :=
  ∃ t, s' = retime t (s.out.map (laterClocks T)) s ∧
    (t = s.time + T ∨ s.started = false ∧ s.pcrMap.entries = [])

theorem countPmts_retime (sdt : Sdt) (t : Int) (x) : ∀ l s,
    PcrSynchronizer.countPmts sdt l (retime t x s) = retime t x (PcrSynchronizer.countPmts sdt l s)
  | [], s => rfl
  | (sid, pid) :: l, s => by
    unfold PcrSynchronizer.countPmts
    cases sdt.services.find? sid with
    | none => exact countPmts_retime sdt t x l s
    | some service =>
      by_cases h : (!isAudioVideoService service.serviceType) = true
      · simp only [if_pos h]
        exact countPmts_retime sdt t x l s
      · simp only [if_neg h]
        exact countPmts_retime sdt t x l { s with pmtCount := s.pmtCount + 1, demux := s.demux.add pid }

theorem countPmts_kept (sdt : Sdt) : ∀ l s,
    (PcrSynchronizer.countPmts sdt l s).out = s.out ∧ (PcrSynchronizer.countPmts sdt l s).time = s.time ∧
      (PcrSynchronizer.countPmts sdt l s).started = s.started ∧ (PcrSynchronizer.countPmts sdt l s).pcrMap = s.pcrMap
  | [], s => ⟨rfl, rfl, rfl, rfl⟩
  | (sid, pid) :: l, s => by
    unfold PcrSynchronizer.countPmts
    cases sdt.services.find? sid with
    | none => exact countPmts_kept sdt l s
    | some service =>
      by_cases h : (!isAudioVideoService service.serviceType) = true
      · simp only [if_pos h]
        exact countPmts_kept sdt l s
      · simp only [if_neg h]
        exact countPmts_kept sdt l _

theorem sync_handle (o : PcrSynchronizer.Opt) (T : Int) (s s' : PcrSynchronizer.St) (t : Table)
    (h : SyncLater T s s') :
    Rel (SyncLater T) (PcrSynchronizer.handleTable o s t) (PcrSynchronizer.handleTable o s' (laterTable T t)) := by
  obtain ⟨t', rfl, h'⟩ := h
  obtain ⟨sp, v, body, fp, ver⟩ := t
  cases body with
  | pat pat =>
    show SyncLater T (PcrSynchronizer.handlePat o s ⟨sp, v, .pat pat, fp, ver⟩ pat)
      (PcrSynchronizer.handlePat o (retime t' _ s) ⟨sp, v, .pat pat, fp, ver⟩ pat)
    unfold PcrSynchronizer.handlePat
    by_cases h1 : (sp != pidPat) = true
    · simp only [if_pos h1]; exact ⟨t', rfl, h'⟩
    simp only [if_neg h1]
    by_cases h2 : (!v) = true
    · simp only [if_pos h2]; exact ⟨t', rfl, h'⟩
    simp only [if_neg h2]
    by_cases h3 : (pat.tsId == 0) = true
    · simp only [if_pos h3]; exact ⟨t', rfl, h'⟩
    simp only [if_neg h3]
    by_cases h4 : (!s.pmtPids.entries.isEmpty) = true
    · have h4' : (!(retime t' (s.out.map (laterClocks T)) s).pmtPids.entries.isEmpty) = true := h4
      simp only [if_pos h4, if_pos h4']
      by_cases h5 : (pat.pmts.filter fun e => PcrSynchronizer.isSelected o e.1).entries.isEmpty = true
      · simp only [if_pos h5]
        exact ⟨t', rfl, .inr ⟨rfl, rfl⟩⟩
      · simp only [if_neg h5]
        exact ⟨t', rfl, .inr ⟨rfl, rfl⟩⟩
    · have h4' : ¬ (!(retime t' (s.out.map (laterClocks T)) s).pmtPids.entries.isEmpty) = true := h4
      simp only [if_neg h4, if_neg h4']
      by_cases h5 : (pat.pmts.filter fun e => PcrSynchronizer.isSelected o e.1).entries.isEmpty = true
      · simp only [if_pos h5]
        exact ⟨t', rfl, h'⟩
      · simp only [if_neg h5]
        exact ⟨t', rfl, h'⟩
  | sdt sdt =>
    show SyncLater T (PcrSynchronizer.handleSdt s ⟨sp, v, .sdt sdt, fp, ver⟩ sdt)
      (PcrSynchronizer.handleSdt (retime t' _ s) ⟨sp, v, .sdt sdt, fp, ver⟩ sdt)
    unfold PcrSynchronizer.handleSdt
    by_cases h2 : (!v) = true
    · simp only [if_pos h2]; exact ⟨t', rfl, h'⟩
    simp only [if_neg h2]
    have k := countPmts_kept sdt s.pmtPids.entries { s with nid := sdt.onetwId, tsid := sdt.tsId }
    refine ⟨t', ?_, ?_⟩
    · rw [k.1]
      exact countPmts_retime sdt t' _ _ { s with nid := sdt.onetwId, tsid := sdt.tsId }
    · rw [k.2.1, k.2.2.1, k.2.2.2]
      exact h'
  | pmt pmt =>
    obtain ⟨dm, pmts, nid, tsid, cnt, ppm, pps, pm, tm, st, dn, ou⟩ := s
    show SyncLater T (PcrSynchronizer.handlePmt ⟨dm, pmts, nid, tsid, cnt, ppm, pps, pm, tm, st, dn, ou⟩
        ⟨sp, v, .pmt pmt, fp, ver⟩ pmt)
      (PcrSynchronizer.handlePmt ⟨dm, pmts, nid, tsid, cnt, ppm, pps, pm, t', st, dn, ou.map (laterClocks T)⟩
        ⟨sp, v, .pmt pmt, fp, ver⟩ pmt)
    unfold PcrSynchronizer.handlePmt
    by_cases h2 : (!v) = true
    · simp only [if_pos h2]; exact ⟨t', rfl, h'⟩
    simp only [if_neg h2]
    cases pmts.find? pmt.serviceId with
    | none => exact ⟨t', rfl, h'⟩
    | some pid =>
      simp only
      by_cases h3 : (pid != sp) = true
      · simp only [if_pos h3]; exact ⟨t', rfl, h'⟩
      simp only [if_neg h3]
      by_cases h4 : (pmt.pcrPid != pidNull && !pps.contains pmt.pcrPid) = true
      · simp only [if_pos h4]
        by_cases h5 : ((ppm.set pmt.serviceId pmt.pcrPid).size == cnt) = true
        · simp only [if_pos h5]; exact ⟨t', rfl, h'⟩
        · simp only [if_neg h5]; exact ⟨t', rfl, h'⟩
      · simp only [if_neg h4]
        by_cases h5 : ((ppm.set pmt.serviceId pmt.pcrPid).size == cnt) = true
        · simp only [if_pos h5]; exact ⟨t', rfl, h'⟩
        · simp only [if_neg h5]; exact ⟨t', rfl, h'⟩
  | tot time =>
    show SyncLater T (PcrSynchronizer.handleTot s ⟨sp, v, .tot time, fp, ver⟩ time)
      (PcrSynchronizer.handleTot (retime t' _ s) ⟨sp, v, .tot (time + T), fp, ver⟩ (time + T))
    unfold PcrSynchronizer.handleTot
    by_cases h2 : (!v) = true
    · simp only [if_pos h2]; exact ⟨t', rfl, h'⟩
    · simp only [if_neg h2]; exact ⟨time + T, rfl, .inl rfl⟩
  | _ => exact ⟨t', rfl, h'⟩

theorem sync_step (o : PcrSynchronizer.Opt) (T : Int) (s s' : PcrSynchronizer.St) (i i' : Input)
    (h : SyncLater T s s') (hi : LaterInput T i i') :
    Rel (fun a b => SyncLater T a.1 b.1 ∧ b.2.2 = a.2.2) (PcrSynchronizer.step o s i) (PcrSynchronizer.step o s' i') := by
  unfold PcrSynchronizer.step
  rw [hi.1, hi.2]
  simp only
  by_cases h0 : (i.packet.pid == pidNull) = true
  · rw [if_pos h0, if_pos h0]; exact ⟨h, rfl⟩
  rw [if_neg h0, if_neg h0]
  refine (feedDemux_rel (R := SyncLater T) (T := T) (by rintro s s' ⟨t, rfl, _⟩; rfl)
    (fun s s' t hs => sync_handle o T s s' t hs) _ _ _ _ h).bind fun a b hab => ?_
  obtain ⟨s, x⟩ := a
  obtain ⟨s', y⟩ := b
  obtain ⟨⟨t, e, ht⟩, _⟩ := hab
  simp only at e ht
  subst e
  refine Rel.ite Iff.rfl (fun h1 => ⟨⟨t, rfl, ht⟩, rfl⟩) fun h1 => ?_
  refine Rel.ite Iff.rfl (fun h2 => ?_) fun h2 => ⟨⟨t, rfl, ht⟩, rfl⟩
  have hst : s.started = true := by
    simp only [Bool.and_eq_true] at h2; exact h2.1.1
  have ht' : t = s.time + T := by
    rcases ht with h | ⟨h, _⟩
    · exact h
    · rw [hst] at h; cases h
  cases i.packet.pcr with
  | none => exact ⟨⟨t, rfl, ht⟩, rfl⟩
  | some pcr =>
    refine Rel.bind_same fun _ => ?_
    exact Rel.ite Iff.rfl (fun h3 => ⟨⟨t, rfl, .inl ht'⟩, rfl⟩) fun h3 => ⟨⟨t, rfl, .inl ht'⟩, rfl⟩

theorem clocks_later (T t : Int) (x) (s : PcrSynchronizer.St)
    (h : t = s.time + T ∨ s.started = false ∧ s.pcrMap.entries = []) :
    PcrSynchronizer.clocks (retime t x s) = laterClocks T (PcrSynchronizer.clocks s) := by
  unfold PcrSynchronizer.clocks laterClocks
  rw [List.map_filterMap]
  show List.filterMap _ s.pcrPidMap.entries = _
  congr 1
  funext e
  obtain ⟨sid, pid⟩ := e
  simp only [retime]
  rcases h with rfl | ⟨_, h⟩
  · cases s.pcrMap.find? pid with
    | none => rfl
    | some pcr =>
      simp only [Option.map_some, jstToUnix, Option.some.injEq, PcrSynchronizer.ClockEntry.mk.injEq, true_and]
      omega
  · have : s.pcrMap.find? pid = none := by
      cases hh : s.pcrMap.find? pid with
      | none => rfl
      | some v => simp only [OMap.find?, h] at hh; cases hh
    rw [this]
    rfl

section
variable {w : World} {ps : List (List UInt8)} (hr : Reads w ps) (T L : Int)
include hr

theorem sync_later (o : PcrSynchronizer.Opt) :
    syncClocks (later T L w) o = (syncClocks w o).map (laterEnded T) := by
  have h := history_rel (G := LaterInput T) (R := SyncLater T)
    (step := PcrSynchronizer.step o) (step' := PcrSynchronizer.step o)
    (finish := PcrSynchronizer.finish) (finish' := PcrSynchronizer.finish)
    (exitCode := PcrSynchronizer.exitCode) (exitCode' := PcrSynchronizer.exitCode)
    (fun _ => ([] : List Unit)) (fun _ => ([] : List Unit)) id
    (fun s s' i i' h hi => (sync_step o T s s' i i' h hi).mono fun a b hab => ⟨hab.1, rfl, hab.2⟩)
    (fun s s' h => by
      obtain ⟨t, rfl, ht⟩ := h
      unfold PcrSynchronizer.finish
      show Rel (SyncLater T) _ (if (!s.done) = true then _ else _)
      by_cases h1 : (!s.done) = true
      · rw [if_pos h1, if_pos h1]; exact ⟨t, rfl, ht⟩
      · rw [if_neg h1, if_neg h1]
        refine ⟨t, ?_, ht⟩
        rw [clocks_later T t _ s ht]
        rfl)
    (fun s s' h => by obtain ⟨t, rfl, ht⟩ := h; rfl)
  refine feed_rel hr (reads_later hr T L) h (packet_later T L)
    (show Told _ _ _ _ _ _ from ⟨⟨0, rfl, .inr ⟨rfl, rfl⟩⟩, rfl⟩)
    (fun r => .ok { code := r.1, docs := r.2.st.out.toList.map .clocks })
    (fun r => .ok { code := r.1, docs := r.2.st.out.toList.map .clocks }) fun n a b hab => ?_
  obtain ⟨⟨t, e, _⟩, _⟩ := hab
  show _ = _
  rw [e]
  simp only [laterEnded, retime]
  cases a.st.out <;> rfl

theorem logos_later : collectLogos (later T L w) = (collectLogos w).map (laterEnded T) := by
  have h := history_rel (G := fun (i i' : LogoCollector.LogoInput) => i' = i) (R := fun (a b : Unit) => b = a)
    (step := LogoCollector.step w.base64) (step' := LogoCollector.step w.base64) (finish := .ok) (finish' := .ok)
    (exitCode := fun _ => exitSuccess) (exitCode' := fun _ => exitSuccess) (fun d => d) (fun d => d) id
    (fun s s' i i' h hi => by
      subst hi
      exact (Rel.of_eq rfl).mono fun a b hab => by subst hab; exact ⟨rfl, (List.map_id _).symm, rfl⟩)
    (fun s s' h => h) (fun s s' h => rfl)
  refine feed_rel hr (reads_later hr T L) h (f := fun n _ => w.logos n) (f' := fun n _ => w.logos n)
    (fun n q => rfl) (show Told _ _ _ _ _ _ from ⟨rfl, rfl⟩)
    (fun r => .ok { code := r.1, docs := (r.2.items.flatMap (·.did)).map .logo })
    (fun r => .ok { code := r.1, docs := (r.2.items.flatMap (·.did)).map .logo }) fun n a b hab => ?_
  show _ = _
  rw [show (b.items.flatMap fun l => l.did) = _ from hab.2]
  simp only [laterEnded, List.map_map, List.map_id]
  rfl

end

/-! collect-eits and collect-eitpf -/

/-- The relation between the states of collect-eits. -/
def EitsLater (T : Int) (s s' : EitCollector.St) : Prop :=
  (s.hasTimestamp = true ∧ s' = { s with timestamp := s.timestamp + T, lastUpdated := s.lastUpdated + T }) ∨
    (s.hasTimestamp = false ∧ s' = s)

/-- Packets with sections. -/
def LaterSections (T : Int) (i i' : SectionInput) : Prop :=
  i'.packet = i.packet ∧ i'.events = i.events.map (laterSection T)

theorem handedOver_later {T : Int} {i i' : SectionInput} (h : LaterSections T i i') (watched : PidSet) :
    handedOver watched i' = (handedOver watched i).map (laterSection T) := by
  unfold handedOver
  rw [h.1, h.2, List.filter_map]
  congr 2
  funext e
  cases e <;> rfl

theorem hour_later (T t : Int) (hT : T % 86400000 = 0) :
    EitCollector.TableProgress.hour (t + T) = EitCollector.TableProgress.hour t := by
  unfold EitCollector.TableProgress.hour
  omega

theorem updateUnused_later (T t : Int) (hT : T % 86400000 = 0) (p : EitCollector.Progress) :
    p.updateUnused (t + T) = p.updateUnused t := by
  simp only [EitCollector.Progress.updateUnused, EitCollector.ServiceProgress.updateUnused,
    EitCollector.GroupProgress.updateUnused, EitCollector.TableProgress.updateUnused, hour_later T t hT]

theorem eits_section (o : EitCollector.Opt) (T : Int) (s s' : EitCollector.St) (x : Section) (h : EitsLater T s s') :
    Rel (fun a b => EitsLater T a.1 b.1 ∧ b.2 = a.2) (EitCollector.handleSection o s x)
      (EitCollector.handleSection o s' x) := by
  rcases h with ⟨h, rfl⟩ | ⟨h, rfl⟩
  · unfold EitCollector.handleSection
    refine Rel.ite Iff.rfl (fun _ => ⟨.inl ⟨h, rfl⟩, rfl⟩) fun _ => ?_
    refine Rel.ite Iff.rfl (fun _ => ⟨.inl ⟨h, rfl⟩, rfl⟩) fun _ => ?_
    refine Rel.ite Iff.rfl (fun _ => ⟨.inl ⟨h, rfl⟩, rfl⟩) fun _ => ?_
    refine Rel.ite Iff.rfl (fun _ => ⟨.inl ⟨h, rfl⟩, rfl⟩) fun _ => ?_
    refine Rel.bind_same fun e => ?_
    refine Rel.ite Iff.rfl (fun _ => ⟨.inl ⟨h, rfl⟩, rfl⟩) fun _ => ?_
    refine Rel.ite Iff.rfl (fun _ => ⟨.inl ⟨h, rfl⟩, rfl⟩) fun _ => ?_
    refine Rel.ite Iff.rfl (fun _ => ⟨.inl ⟨h, rfl⟩, rfl⟩) fun _ => ?_
    exact Rel.bind_same fun _ => ⟨.inl ⟨h, rfl⟩, rfl⟩
  · have hk : ∀ a, EitCollector.handleSection o s' x = .ok a → a.1.hasTimestamp = s'.hasTimestamp := by
      intro a ha
      unfold EitCollector.handleSection at ha
      repeat first
        | (split at ha)
        | (cases ha; rfl)
      obtain ⟨e, _, ha⟩ := bind_ok_iff.mp ha
      repeat first
        | (split at ha)
        | (cases ha; rfl)
      obtain ⟨_, _, ha⟩ := bind_ok_iff.mp ha
      cases ha
      rfl
    cases hx : EitCollector.handleSection o s' x with
    | error e => exact rfl
    | ok a => exact ⟨.inr ⟨(hk a hx).trans h, rfl⟩, rfl⟩

theorem eits_table (T : Int) (hT : T % 86400000 = 0) (s s' : EitCollector.St) (t : Table) (h : EitsLater T s s') :
    EitsLater T (EitCollector.handleTable s t) (EitCollector.handleTable s' (laterTable T t)) := by
  obtain ⟨sp, v, body, fp, ver⟩ := t
  cases body with
  | tot time =>
    show EitsLater T (if v = true then _ else _) (if v = true then EitCollector.handleTime s' (time + T) else s')
    refine rel_ite (R := EitsLater T) Iff.rfl (fun _ => ?_) fun _ => h
    unfold EitCollector.handleTime
    rcases h with ⟨h, rfl⟩ | ⟨h, rfl⟩
    · simp only [h, Bool.not_true, Bool.false_eq_true, if_false]
      exact .inl ⟨rfl, by rw [updateUnused_later T time hT]⟩
    · simp only [h, Bool.not_false, if_true]
      exact .inl ⟨rfl, by rw [updateUnused_later T time hT]⟩
  | _ => exact h

theorem eits_events (o : EitCollector.Opt) (T : Int) (hT : T % 86400000 = 0) : ∀ es s s', EitsLater T s s' →
    Rel (fun a b => EitsLater T a.1 b.1 ∧ b.2.filterMap (·.out) = a.2.filterMap (·.out))
      (EitCollector.handleEvents o es s) (EitCollector.handleEvents o (es.map (laterSection T)) s')
  | [], s, s', h => ⟨h, rfl⟩
  | e :: es, s, s', h => by
    have hd : Rel (fun a b => EitsLater T a.1 b.1 ∧ b.2 = a.2) (EitCollector.handleEvent o s e)
        (EitCollector.handleEvent o s' (laterSection T e)) := by
      cases e with
      | sect x => exact eits_section o T s s' x h
      | table t => exact ⟨eits_table T hT s s' t h, rfl⟩
    refine hd.bind fun a b hab => ?_
    obtain ⟨a, x⟩ := a
    obtain ⟨b, y⟩ := b
    obtain ⟨h1, h2⟩ := hab
    cases h2
    refine (eits_events o T hT es a b h1).bind fun c d hcd => ?_
    refine ⟨hcd.1, ?_⟩
    show List.filterMap _ (_ :: d.2) = List.filterMap _ (_ :: c.2)
    rw [List.filterMap_cons, List.filterMap_cons]
    simp only [hcd.2]

theorem eits_step (o : EitCollector.Opt) (T : Int) (hT : T % 86400000 = 0) (s s' : EitCollector.St)
    (i i' : SectionInput) (h : EitsLater T s s') (hi : LaterSections T i i') :
    Rel (fun a b => EitsLater T a.1 b.1 ∧ b.2.1.filterMap (·.out) = (a.2.1.filterMap (·.out)).map id ∧ b.2.2 = a.2.2)
      (EitCollector.step o s i) (EitCollector.step o s' i') := by
  unfold EitCollector.step
  rw [handedOver_later hi]
  refine (eits_events o T hT _ s s' h).bind fun a b hab => ?_
  obtain ⟨a, x⟩ := a
  obtain ⟨b, y⟩ := b
  obtain ⟨h1, h2⟩ := hab
  refine ⟨h1, h2.trans (List.map_id _).symm, ?_⟩
  have hp : b.progress = a.progress := by
    rcases h1 with ⟨_, h⟩ | ⟨_, h⟩
    · have := congrArg EitCollector.St.progress h
      exact this
    · have := congrArg EitCollector.St.progress h
      exact this
  have ht : b.timestamp - b.lastUpdated = a.timestamp - a.lastUpdated := by
    rcases h1 with ⟨_, h⟩ | ⟨_, h⟩
    · simp only at h
      rw [h]
      show a.timestamp + T - (a.lastUpdated + T) = _
      omega
    · simp only at h
      rw [h]
  have e1 : EitCollector.isCompleted o b = EitCollector.isCompleted o a := by
    simp only [EitCollector.isCompleted, hp]
  have e2 : EitCollector.checkTimeout o b = EitCollector.checkTimeout o a := by
    unfold EitCollector.checkTimeout
    cases o.streaming
    · exact decide_eq_decide.mpr (by rw [ht])
    · rfl
  show (if EitCollector.isCompleted o b = true then false else if EitCollector.checkTimeout o b = true then false else true) = _
  rw [e1, e2]

theorem eitpf_events (o : EitpfCollector.Opt) (T : Int) : ∀ es s,
    Rel (fun a b => b.1 = a.1 ∧ b.2.filterMap (·.out) = a.2.filterMap (·.out))
      (EitpfCollector.handleEvents o es s) (EitpfCollector.handleEvents o (es.map (laterSection T)) s)
  | [], s => ⟨rfl, rfl⟩
  | e :: es, s => by
    have hd : EitpfCollector.handleEvent o s (laterSection T e) = EitpfCollector.handleEvent o s e := by
      cases e <;> rfl
    refine (Rel.of_eq hd).bind fun a b hab => ?_
    subst hab
    obtain ⟨b, y⟩ := b
    refine (eitpf_events o T es b).bind fun c d hcd => ?_
    refine ⟨hcd.1, ?_⟩
    show List.filterMap _ (_ :: d.2) = List.filterMap _ (_ :: c.2)
    rw [List.filterMap_cons, List.filterMap_cons]
    simp only [hcd.2]

theorem flatMap_outs {ι : Type} (l : List (Line ι (List EitCollector.DemuxCall))) :
    (l.flatMap (·.did)).filterMap (·.out) = l.flatMap fun x => x.did.filterMap (·.out) :=
  List.filterMap_flatMap

section
variable {w : World} {ps : List (List UInt8)} (hr : Reads w ps) (T L : Int)
include hr
omit hr in
theorem sections_later (n : Nat) (q : List UInt8) :
    LaterSections T (sections w n q) (sections (later T L w) n q) := ⟨rfl, rfl⟩

theorem eits_later (o : EitCollector.Opt) (hT : T % 86400000 = 0) :
    collectEits (later T L w) o = (collectEits w o).map (laterEnded T) := by
  have h := history_rel (G := LaterSections T) (R := EitsLater T)
    (step := EitCollector.step o) (step' := EitCollector.step o) (finish := .ok) (finish' := .ok)
    (exitCode := fun _ => exitSuccess) (exitCode' := fun _ => exitSuccess)
    (fun d => d.filterMap (·.out)) (fun d => d.filterMap (·.out)) id
    (fun s s' i i' h hi => eits_step o T hT s s' i i' h hi) (fun s s' h => h) (fun s s' h => rfl)
  have hf := feed_rel hr (reads_later hr T L) (T := T) h (sections_later (w := w) T L)
    (show Told _ _ _ _ { st := {} } { st := {} } from ⟨.inr ⟨rfl, rfl⟩, rfl⟩)
    (fun r => .ok { code := r.1, docs := eitDocs w ((r.2.items.flatMap (·.did)).filterMap (·.out)) })
    (fun r => .ok { code := r.1, docs := eitDocs w ((r.2.items.flatMap (·.did)).filterMap (·.out)) })
    fun n a b hab => by
      show _ = _
      rw [flatMap_outs, flatMap_outs, hab.2, List.map_id]
      simp only [laterEnded, eitDocs, List.map_filterMap]
      congr 2
      funext e
      cases (makeJsonEit w.mjd e).toOption <;> rfl
  unfold collectEits EitCollector.init
  cases o.collectActual || o.collectOthers
  · rfl
  · exact hf

theorem eitpf_later (o : EitpfCollector.Opt) :
    collectEitpf (later T L w) o = (collectEitpf w o).map (laterEnded T) := by
  have h := history_rel (G := LaterSections T) (R := fun a b => b = a)
    (step := EitpfCollector.step o) (step' := EitpfCollector.step o) (finish := .ok) (finish' := .ok)
    (exitCode := fun _ => exitSuccess) (exitCode' := fun _ => exitSuccess)
    (fun d => d.filterMap (·.out)) (fun d => d.filterMap (·.out)) id
    (fun s s' i i' h hi => by
      subst h
      unfold EitpfCollector.step
      rw [handedOver_later hi]
      refine (eitpf_events o T _ _).bind fun a b hab => ?_
      obtain ⟨a, x⟩ := a
      obtain ⟨b, y⟩ := b
      obtain ⟨h1, h2⟩ := hab
      cases h1
      exact Rel.bind_same fun d => ⟨rfl, h2.trans (List.map_id _).symm, rfl⟩)
    (fun s s' h => h) (fun s s' h => rfl)
  refine feed_rel hr (reads_later hr T L) h (sections_later T L) (show Told _ _ _ _ _ _ from ⟨rfl, rfl⟩)
    (fun r => .ok { code := r.1, docs := eitDocs w ((r.2.items.flatMap (·.did)).filterMap (·.out)) })
    (fun r => .ok { code := r.1, docs := eitDocs w ((r.2.items.flatMap (·.did)).filterMap (·.out)) })
    fun n a b hab => ?_
  show _ = _
  rw [flatMap_outs, flatMap_outs, hab.2, List.map_id]
  simp only [laterEnded, eitDocs, List.map_filterMap]
  congr 2
  funext e
  cases (makeJsonEit w.mjd e).toOption <;> rfl

end
end Mirakc.Main
