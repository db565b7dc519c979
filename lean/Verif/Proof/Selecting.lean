import Verif.Spec.Selecting
import Verif.Proof.PreStreaming
import Verif.Proof.OptionSets
import Verif.Proof.MainEits
/-
Lemmas: selecting options only select.
-/
namespace Mirakc
open Mirakc.Main Mirakc.Pipeline Mirakc.Spec Mirakc.Spec.Main Mirakc.Spec.Pipeline Mirakc.Spec.Selecting Mirakc.PreStreaming

theorem picked_filterMap {α β : Type} {P : β → Prop} (f : α → Option β) (p : α → Bool)
    (h : ∀ a b, f a = some b → (P b ↔ p a = true)) : ∀ l : List α,
    Picked P (l.filterMap f) ((l.filter p).filterMap f)
  | [] => .nil
  | a :: l => by
    have ih := picked_filterMap f p h l
    cases hf : f a with
    | none =>
      rw [List.filterMap_cons_none hf, List.filter_cons]
      split
      · rw [List.filterMap_cons_none hf]; exact ih
      · exact ih
    | some b =>
      rw [List.filterMap_cons_some hf, List.filter_cons]
      split
      · next hp =>
        rw [List.filterMap_cons_some hf]
        exact .keep ((h a b hf).2 hp) ih
      · next hp => exact .drop (fun hb => hp ((h a b hf).1 hb)) ih

theorem picked_docs (w : World) {P Q : Nat → Prop} (p : EitSection → Bool)
    (h : ∀ e, (P e.sid.toNat ∧ Q e.sectionNumber.toNat) ↔ p e = true) (l : List EitSection) :
    Picked (SectionDoc P Q) (eitDocs w l) (eitDocs w (l.filter p)) := by
  refine picked_filterMap _ p (fun e d hd => ?_) l
  rw [← h]
  cases hj : makeJsonEit w.mjd e with
  | error f => rw [hj] at hd; cases hd
  | ok j =>
    rw [hj] at hd
    cases hd
    obtain ⟨evs, _, hj⟩ := bind_ok_iff.1 hj
    cases hj
    constructor
    · rintro ⟨j, hj, h1, h2⟩
      cases hj
      exact ⟨h1, h2⟩
    · exact fun hh => ⟨_, rfl, hh.1, hh.2⟩

theorem eitDocs_prefix (w : World) {l l' : List EitSection} (h : l <+: l') : eitDocs w l <+: eitDocs w l' := by
  obtain ⟨r, rfl⟩ := h
  exact ⟨eitDocs w r, by unfold eitDocs; rw [List.filterMap_append]⟩

/-- The sections written. -/
def outs {ι σ : Type} (h : History ι σ (List EitCollector.DemuxCall)) : List EitSection :=
  (h.items.flatMap (·.did)).filterMap (·.out)

theorem outs_add {ι σ : Type} (s : σ) (items : List (Line ι (List EitCollector.DemuxCall))) (x : Line ι (List EitCollector.DemuxCall)) :
    outs { st := s, items := items ++ [x] } = outs (ι := ι) { st := s, items := items } ++ x.did.filterMap (·.out) := by
  simp [outs, List.flatMap_append, List.filterMap_append]

section
variable {ι σ : Type}

/-- Two collectors: whenever the first succeeds with a packet, so does the second, and writes what is selected. -/
theorem collect_sim {R : σ → σ → Prop} {p : EitSection → Bool} {step step' : σ → ι → Except Fault (σ × List EitCollector.DemuxCall × Bool)}
    (h : ∀ s s' i, R s s' → Sim (fun a b => b.2.2 = a.2.2 ∧ R a.1 b.1 ∧
      b.2.1.filterMap (·.out) = (a.2.1.filterMap (·.out)).filter p) (step s i) (step' s' i)) (c : Nat) :
    SinkSim (fun _ => True) (fun a b => R a.st b.st ∧ outs b = (outs a).filter p) (fun a b => R a.st b.st ∧ outs b = (outs a).filter p)
      (historySink step .ok fun _ => c) (historySink step' .ok fun _ => c) where
  start s s' hs := Sim.ok ⟨rfl, rfl, hs⟩
  handle s s' i _ hs := (h s.st s'.st i hs.1).bind fun a b hab => Sim.ok ⟨hab.1, hab.2.1, by
    rw [outs_add, outs_add, List.filter_append]
    exact congr (congrArg _ hs.2) hab.2.2⟩
  finish s s' hs := Sim.ok hs
  exitCode s s' _ := rfl

/-- The history only grows. -/
theorem fold_grows {step : σ → ι → Except Fault (σ × List EitCollector.DemuxCall × Bool)} {c : Nat} :
    ∀ (ps : List ι) (h r : History ι σ (List EitCollector.DemuxCall)),
      foldP (historySink step .ok fun _ => c) ps h = .ok r → outs h <+: outs r
  | [], h, r, hr => by cases hr; exact List.prefix_refl _
  | p :: ps, h, r, hr => by
    obtain ⟨⟨ok, h1⟩, k1, hr⟩ := bind_ok_iff.1 hr
    obtain ⟨⟨s, a, more⟩, k2, k1⟩ := bind_ok_iff.1 k1
    cases k1
    have hp : outs h <+: outs { st := s, items := h.items ++ [⟨p, a, ok⟩] } := by
      rw [outs_add]
      exact List.prefix_append _ _
    dsimp only at hr
    split at hr
    · exact hp.trans (fold_grows ps _ _ hr)
    · cases hr; exact hp

/-- A collector that does the same, but may stop. -/
theorem fold_stops {step step' : σ → ι → Except Fault (σ × List EitCollector.DemuxCall × Bool)} {c : Nat}
    (h1 : ∀ s i a, step s i = .ok a → a.2.2 = true)
    (h2 : ∀ s i a b, step s i = .ok a → step' s i = .ok b → b.1 = a.1 ∧ b.2.1 = a.2.1) :
    ∀ (ps : List ι) (h r h' r' : History ι σ (List EitCollector.DemuxCall)), h'.st = h.st → outs h' = outs h →
      foldP (historySink step .ok fun _ => c) ps h = .ok r →
      foldP (historySink step' .ok fun _ => c) ps h' = .ok r' → outs r' <+: outs r
  | [], h, r, h', r', _, ho, hr, hr' => by
    cases hr; cases hr'
    rw [ho]
    exact List.prefix_refl _
  | p :: ps, h, r, h', r', hs, ho, hr, hr' => by
    obtain ⟨⟨ok, x⟩, k1, hr⟩ := bind_ok_iff.1 hr
    obtain ⟨⟨s, a, more⟩, k2, k1⟩ := bind_ok_iff.1 k1
    cases k1
    obtain ⟨⟨ok, x⟩, k1, hr'⟩ := bind_ok_iff.1 hr'
    obtain ⟨⟨s', a', more'⟩, k3, k1⟩ := bind_ok_iff.1 k1
    cases k1
    rw [hs] at k3
    obtain ⟨e1, e2⟩ := h2 _ _ _ _ k2 k3
    have e3 := h1 _ _ _ k2
    dsimp only at e1 e2 e3 hr hr'
    subst e1 e2 e3
    rw [if_pos rfl] at hr
    have e4 : outs { st := s', items := h'.items ++ [⟨p, a', ok⟩] } = outs { st := s', items := h.items ++ [⟨p, a', true⟩] } := by
      rw [outs_add, outs_add]
      exact congrArg (· ++ _) ho
    split at hr'
    · exact fold_stops h1 h2 ps { st := s', items := h.items ++ [⟨p, a', true⟩] } r { st := s', items := h'.items ++ [⟨p, a', ok⟩] } r' rfl e4 hr hr'
    · cases hr'
      rw [e4]
      exact fold_grows ps _ _ hr

/-- It succeeds, if it does so with each packet. -/
theorem fold_ok {step step' : σ → ι → Except Fault (σ × List EitCollector.DemuxCall × Bool)} {c : Nat}
    (h1 : ∀ s i a, step s i = .ok a → a.2.2 = true)
    (h2 : ∀ s i a, step s i = .ok a → ∃ b, step' s i = .ok b ∧ b.1 = a.1) :
    ∀ (ps : List ι) (h r h' : History ι σ (List EitCollector.DemuxCall)), h'.st = h.st →
      foldP (historySink step .ok fun _ => c) ps h = .ok r → ∃ r', foldP (historySink step' .ok fun _ => c) ps h' = .ok r'
  | [], h, r, h', _, _ => ⟨h', rfl⟩
  | p :: ps, h, r, h', hs, hr => by
    obtain ⟨⟨ok, x⟩, k1, hr⟩ := bind_ok_iff.1 hr
    obtain ⟨⟨s, a, more⟩, k2, k1⟩ := bind_ok_iff.1 k1
    cases k1
    obtain ⟨⟨s', a', more'⟩, k3, e1⟩ := h2 _ _ _ k2
    have e3 := h1 _ _ _ k2
    dsimp only at e1 e3 hr
    subst e1 e3
    rw [if_pos rfl] at hr
    rw [← hs] at k3
    have hh : (historySink step' .ok fun _ => c).handle h' p = .ok (more', { st := s', items := h'.items ++ [⟨p, a', more'⟩] }) :=
      bind_ok_iff.2 ⟨_, k3, rfl⟩
    cases more' with
    | false => exact ⟨_, bind_ok_iff.2 ⟨_, hh, rfl⟩⟩
    | true =>
      obtain ⟨r', hr'⟩ := fold_ok h1 h2 ps { st := s', items := h.items ++ [⟨p, a, true⟩] } r { st := s', items := h'.items ++ [⟨p, a', true⟩] } rfl hr
      exact ⟨r', bind_ok_iff.2 ⟨_, hh, hr'⟩⟩

theorem around_history {step : σ → ι → Except Fault (σ × List EitCollector.DemuxCall × Bool)} {c : Nat} (ps : List ι)
    (h : History ι σ (List EitCollector.DemuxCall)) (code : Nat) (r : History ι σ (List EitCollector.DemuxCall)) :
    around (historySink step .ok fun _ => c) h (foldP (historySink step .ok fun _ => c) ps) = .ok (code, r) ↔
      code = c ∧ foldP (historySink step .ok fun _ => c) ps h = .ok r := by
  unfold around
  cases hf : foldP (historySink step .ok fun _ => c) ps h with
  | error f =>
    constructor
    · intro hh
      obtain ⟨x, hx, hh⟩ := bind_ok_iff.1 hh
      cases hx
      obtain ⟨y, hy, _⟩ := bind_ok_iff.1 hh
      rw [hf] at hy
      cases hy
    · rintro ⟨_, hh⟩; cases hh
  | ok r' =>
    constructor
    · intro hh
      obtain ⟨x, hx, hh⟩ := bind_ok_iff.1 hh
      cases hx
      obtain ⟨y, hy, hh⟩ := bind_ok_iff.1 hh
      rw [hf] at hy
      cases hy
      cases hh
      exact ⟨rfl, rfl⟩
    · rintro ⟨rfl, hh⟩
      cases hh
      refine bind_ok_iff.2 ⟨_, rfl, ?_⟩
      exact bind_ok_iff.2 ⟨_, hf, rfl⟩

end

namespace EitpfCollector
open Mirakc.EitCollector (DemuxCall)

/-- The versions of services that are asked for are the same. -/
def Same (o : Opt) (s s' : St) : Prop :=
  ∀ e : EitSection, chosen o.sids [] e.sid = true →
    s.present.lookup e.serviceTriple = s'.present.lookup e.serviceTriple ∧
    s.following.lookup e.serviceTriple = s'.following.lookup e.serviceTriple

/-- The section is asked for. -/
def picks (o : Opt) (e : EitSection) : Bool :=
  chosen o.sids [] e.sid && ((e.sectionNumber == 0 && o.present) || (e.sectionNumber == 1 && o.following))

theorem triple_sid {e e' : EitSection} (h : e.serviceTriple = e'.serviceTriple) : e.sid = e'.sid := by
  have := EitCollector.serviceTriple_eq.1 h
  simp only [Spec.EitCollector.service, Prod.mk.injEq] at this
  exact this.2.2

theorem set_same (o : Opt) {v v' : Versions} (e : EitSection)
    (h : ∀ e : EitSection, chosen o.sids [] e.sid = true → v.lookup e.serviceTriple = v'.lookup e.serviceTriple)
    (e' : EitSection) (he : chosen o.sids [] e'.sid = true) :
    (v.set e.serviceTriple e.version).lookup e'.serviceTriple = (v'.set e.serviceTriple e.version).lookup e'.serviceTriple := by
  rw [lookup_set, lookup_set, h e' he]

theorem set_other (o : Opt) {v v' : Versions} (e : EitSection) (hn : ¬ chosen o.sids [] e.sid = true)
    (h : ∀ e : EitSection, chosen o.sids [] e.sid = true → v.lookup e.serviceTriple = v'.lookup e.serviceTriple)
    (e' : EitSection) (he : chosen o.sids [] e'.sid = true) :
    (v.set e.serviceTriple e.version).lookup e'.serviceTriple = v'.lookup e'.serviceTriple := by
  rw [lookup_set, if_neg, h e' he]
  intro ht
  rw [triple_sid ht] at he
  exact hn he

theorem section_sim (o : Opt) (s s' : St) (hs : Same o s s') (x : Section) :
    Sim (fun a b => Same o a.1 b.1 ∧ b.2.toList = a.2.toList.filter (picks o))
      (handleSection { streaming := true } s x) (handleSection o s' x) := by
  intro a ha
  unfold handleSection at ha ⊢
  split at ha
  · cases ha; rw [if_pos ‹_›]; exact ⟨_, rfl, hs, rfl⟩
  · rw [if_neg ‹_›]
    split at ha
    · cases ha; rw [if_pos ‹_›]; exact ⟨_, rfl, hs, rfl⟩
    · rw [if_neg ‹_›]
      split at ha
      · cases ha; rw [if_pos ‹_›]; exact ⟨_, rfl, hs, rfl⟩
      · rw [if_neg ‹_›]
        split at ha
        · cases ha; rw [if_pos ‹_›]; exact ⟨_, rfl, hs, rfl⟩
        · rw [if_neg ‹_›]
          obtain ⟨e, he, ha⟩ := bind_ok_iff.1 ha
          suffices H : ∃ b, (if (!o.sids.isEmpty && !o.sids.contains e.sid) = true then (.ok (s', none) : Except Fault (St × Option EitSection))
              else if (e.sectionNumber == 0) = true then
                if isCollected e s'.present then .ok (s', none)
                else if o.present then do
                  let _ ← makeJsonEit (fun _ => none) e
                  .ok ({ s' with present := s'.present.set e.serviceTriple e.version }, some e)
                else .ok ({ s' with present := s'.present.set e.serviceTriple e.version }, none)
              else if (e.sectionNumber == 1) = true then
                if isCollected e s'.following then .ok (s', none)
                else if o.following then do
                  let _ ← makeJsonEit (fun _ => none) e
                  .ok ({ s' with following := s'.following.set e.serviceTriple e.version }, some e)
                else .ok ({ s' with following := s'.following.set e.serviceTriple e.version }, none)
              else .ok (s', none)) = .ok b ∧ Same o a.1 b.1 ∧ b.2.toList = a.2.toList.filter (picks o) by
            obtain ⟨b, hb, hr⟩ := H
            exact ⟨b, bind_ok_iff.2 ⟨e, he, hb⟩, hr⟩
          rw [if_neg (by simp)] at ha
          have hsel : chosen o.sids [] e.sid = !(!o.sids.isEmpty && !o.sids.contains e.sid) := by simp [chosen]
          by_cases hc : chosen o.sids [] e.sid = true
          · rw [if_neg (fun hh => by rw [hsel, hh] at hc; cases hc)]
            have hp : isCollected e s'.present = isCollected e s.present := by
              unfold isCollected; rw [(hs e hc).1]
            have hf : isCollected e s'.following = isCollected e s.following := by
              unfold isCollected; rw [(hs e hc).2]
            rw [hp, hf]
            by_cases h0 : (e.sectionNumber == 0) = true
            · rw [if_pos h0] at ha ⊢
              split at ha
              · cases ha; rw [if_pos ‹_›]; exact ⟨_, rfl, hs, rfl⟩
              · rw [if_neg ‹_›]
                rw [if_pos rfl] at ha
                obtain ⟨j, hj, ha⟩ := bind_ok_iff.1 ha
                cases ha
                have hn : Same o { s with present := s.present.set e.serviceTriple e.version } { s' with present := s'.present.set e.serviceTriple e.version } :=
                  fun e' he' => ⟨set_same o e (fun e h => (hs e h).1) e' he', (hs e' he').2⟩
                by_cases hpr : o.present = true
                · rw [if_pos hpr]
                  exact ⟨_, bind_ok_iff.2 ⟨j, hj, rfl⟩, hn, by simp [picks, hc, h0, hpr]⟩
                · rw [if_neg hpr]
                  refine ⟨_, rfl, hn, ?_⟩
                  have h1 : (e.sectionNumber == 1) = false := by
                    rw [beq_iff_eq] at h0
                    rw [h0]; rfl
                  simp [picks, h1, hpr]
            · rw [if_neg h0] at ha ⊢
              by_cases h1 : (e.sectionNumber == 1) = true
              · rw [if_pos h1] at ha ⊢
                split at ha
                · cases ha; rw [if_pos ‹_›]; exact ⟨_, rfl, hs, rfl⟩
                · rw [if_neg ‹_›]
                  rw [if_pos rfl] at ha
                  obtain ⟨j, hj, ha⟩ := bind_ok_iff.1 ha
                  cases ha
                  have hn : Same o { s with following := s.following.set e.serviceTriple e.version } { s' with following := s'.following.set e.serviceTriple e.version } :=
                    fun e' he' => ⟨(hs e' he').1, set_same o e (fun e h => (hs e h).2) e' he'⟩
                  by_cases hpr : o.following = true
                  · rw [if_pos hpr]
                    exact ⟨_, bind_ok_iff.2 ⟨j, hj, rfl⟩, hn, by simp [picks, hc, h1, hpr]⟩
                  · rw [if_neg hpr]
                    exact ⟨_, rfl, hn, by simp [picks, h0, hpr]⟩
              · rw [if_neg h1] at ha ⊢
                cases ha
                exact ⟨_, rfl, hs, rfl⟩
          · rw [if_pos (by cases hh : (!o.sids.isEmpty && !o.sids.contains e.sid) with
              | true => rfl
              | false => exact absurd (by rw [hsel, hh]; rfl) hc)]
            refine ⟨_, rfl, ?_⟩
            have hpk : picks o e = false := by simp [picks, hc]
            split at ha
            · split at ha
              · cases ha; exact ⟨hs, rfl⟩
              · rw [if_pos rfl] at ha
                obtain ⟨j, hj, ha⟩ := bind_ok_iff.1 ha
                cases ha
                exact ⟨fun e' he' => ⟨set_other o e hc (fun e h => (hs e h).1) e' he', (hs e' he').2⟩, by simp [hpk]⟩
            · split at ha
              · split at ha
                · cases ha; exact ⟨hs, rfl⟩
                · rw [if_pos rfl] at ha
                  obtain ⟨j, hj, ha⟩ := bind_ok_iff.1 ha
                  cases ha
                  exact ⟨fun e' he' => ⟨(hs e' he').1, set_other o e hc (fun e h => (hs e h).2) e' he'⟩, by simp [hpk]⟩
              · cases ha; exact ⟨hs, rfl⟩

theorem filterMap_cons_toList (ev : SectionEvent) (out : Option EitSection) (cs : List DemuxCall) :
    ((⟨ev, out⟩ : DemuxCall) :: cs).filterMap (·.out) = out.toList ++ cs.filterMap (·.out) := by
  cases out <;> rfl

theorem events_sim (o : Opt) : ∀ (evs : List SectionEvent) (s s' : St), Same o s s' →
    Sim (fun a b => Same o a.1 b.1 ∧ b.2.filterMap (·.out) = (a.2.filterMap (·.out)).filter (picks o))
      (handleEvents { streaming := true } evs s) (handleEvents o evs s')
  | [], s, s', hs => Sim.ok ⟨hs, rfl⟩
  | ev :: evs, s, s', hs => by
    have h1 : Sim (fun a b => Same o a.1 b.1 ∧ b.2.toList = a.2.toList.filter (picks o))
        (handleEvent { streaming := true } s ev) (handleEvent o s' ev) := by
      cases ev with
      | sect x => exact section_sim o s s' hs x
      | table t => exact Sim.ok ⟨hs, rfl⟩
    refine h1.bind fun a b hab => ?_
    refine (events_sim o evs _ _ hab.1).bind fun c d hcd => ?_
    refine Sim.ok ⟨hcd.1, ?_⟩
    rw [filterMap_cons_toList, filterMap_cons_toList, List.filter_append, hab.2, hcd.2]

theorem step_sim (o : Opt) (ho : o.streaming = true) (s s' : St) (i : SectionInput) (hs : Same o s s') :
    Sim (fun a b => b.2.2 = a.2.2 ∧ Same o a.1 b.1 ∧ b.2.1.filterMap (·.out) = (a.2.1.filterMap (·.out)).filter (picks o))
      (step { streaming := true } s i) (step o s' i) := by
  refine (events_sim o (handedOver watched i) s s' hs).bind fun a b hab => ?_
  have h1 : done { streaming := true } a.1 = .ok false := rfl
  have h2 : done o b.1 = .ok false := by unfold done; rw [if_pos ho]
  refine Sim.bind (R := fun x y => x = false ∧ y = false) (by rw [h1, h2]; exact Sim.ok ⟨rfl, rfl⟩) fun x y hxy => ?_
  exact Sim.ok ⟨by rw [hxy.1, hxy.2], hab⟩

theorem section_streaming (o : Opt) (b : Bool) : handleSection { o with streaming := b } = handleSection o := rfl

theorem events_streaming (o : Opt) (b : Bool) : ∀ evs s, handleEvents { o with streaming := b } evs s = handleEvents o evs s
  | [], _ => rfl
  | ev :: evs, s => by
    have h1 : handleEvent { o with streaming := b } s ev = handleEvent o s ev := by cases ev <;> rfl
    have ih : handleEvents { o with streaming := b } evs = handleEvents o evs := funext fun s => events_streaming o b evs s
    unfold handleEvents
    rw [h1, ih]

theorem step_more {o : Opt} (ho : o.streaming = true) (s : St) (i : SectionInput) (a : St × List DemuxCall × Bool)
    (h : step o s i = .ok a) : a.2.2 = true := by
  obtain ⟨x, _, h⟩ := bind_ok_iff.1 h
  obtain ⟨d, h1, h⟩ := bind_ok_iff.1 h
  cases h
  unfold done at h1
  rw [if_pos ho] at h1
  cases h1
  rfl

theorem step_same {o : Opt} (b c : Bool) (s : St) (i : SectionInput) (x y : St × List DemuxCall × Bool)
    (h : step { o with streaming := b } s i = .ok x) (h' : step { o with streaming := c } s i = .ok y) :
    y.1 = x.1 ∧ y.2.1 = x.2.1 := by
  obtain ⟨u, h1, h⟩ := bind_ok_iff.1 h
  obtain ⟨d, _, h⟩ := bind_ok_iff.1 h
  cases h
  obtain ⟨v, h2, h'⟩ := bind_ok_iff.1 h'
  obtain ⟨d', _, h'⟩ := bind_ok_iff.1 h'
  cases h'
  rw [events_streaming] at h1 h2
  rw [h1] at h2
  cases h2
  exact ⟨rfl, rfl⟩

end EitpfCollector

namespace EitCollector

theorem lookup_update (l : Services) (k : UInt64) (e : EitSection) (k' : UInt64) :
    (Services.update l k e).lookup k' = if k' = k then some (((l.lookup k).getD {}).update e) else l.lookup k' := by
  induction l with
  | nil =>
    unfold Services.update
    rw [List.lookup_cons]
    by_cases h : k' = k
    · rw [if_pos h, h, beq_self_eq_true]; rfl
    · rw [if_neg h, beq_eq_false_iff_ne.2 h]
  | cons x l ih =>
    obtain ⟨k1, s⟩ := x
    unfold Services.update
    by_cases h1 : k1 = k
    · subst h1
      rw [if_pos (beq_self_eq_true _), List.lookup_cons, List.lookup_cons, List.lookup_cons, beq_self_eq_true]
      by_cases h : k' = k1
      · rw [if_pos h, h, beq_self_eq_true]; rfl
      · rw [if_neg h, beq_eq_false_iff_ne.2 h]
    · rw [if_neg (by rw [beq_eq_false_iff_ne.2 h1]; exact Bool.false_ne_true)]
      rw [List.lookup_cons, ih, List.lookup_cons, List.lookup_cons, beq_eq_false_iff_ne.2 fun h => h1 h.symm]
      by_cases h2 : k' = k1
      · rw [h2, if_neg h1, if_neg h1, beq_self_eq_true]
      · rw [beq_eq_false_iff_ne.2 h2]

theorem lookup_unused (l : Services) (t : Int) (k : UInt64) :
    (l.map fun (k, s) => (k, s.updateUnused t)).lookup k = (l.lookup k).map (·.updateUnused t) := by
  induction l with
  | nil => rfl
  | cons x l ih =>
    obtain ⟨k1, s⟩ := x
    rw [List.map_cons, List.lookup_cons, List.lookup_cons, ih]
    cases k == k1 <;> rfl

/-- The progress of services that are asked for is the same. -/
def Same (o : Opt) (s s' : St) : Prop :=
  ∀ e : EitSection, chosen o.sids o.xsids e.sid = true →
    s.progress.services.lookup e.serviceTriple = s'.progress.services.lookup e.serviceTriple

/-- The section is asked for. -/
def picks (o : Opt) (e : EitSection) : Bool := chosen o.sids o.xsids e.sid

/-- Without the lists of ids. -/
def all (o : Opt) : Opt := { o with sids := [], xsids := [] }

theorem section_sim (o : Opt) (s s' : St) (hs : Same o s s') (x : Section) :
    Sim (fun a b => Same o a.1 b.1 ∧ b.2.toList = a.2.toList.filter (picks o))
      (handleSection (all o) s x) (handleSection o s' x) := by
  intro a ha
  unfold handleSection at ha ⊢
  rw [show (all o).collectActual = o.collectActual from rfl, show (all o).collectOthers = o.collectOthers from rfl] at ha
  split at ha
  · cases ha; rw [if_pos ‹_›]; exact ⟨_, rfl, hs, rfl⟩
  · rw [if_neg ‹_›]
    split at ha
    · next hh => cases ha; rw [if_pos hh]; exact ⟨_, rfl, hs, rfl⟩
    · next hh =>
      rw [if_neg hh]
      split at ha
      · cases ha; rw [if_pos ‹_›]; exact ⟨_, rfl, hs, rfl⟩
      · rw [if_neg ‹_›]
        split at ha
        · cases ha; rw [if_pos ‹_›]; exact ⟨_, rfl, hs, rfl⟩
        · rw [if_neg ‹_›]
          obtain ⟨e, he, ha⟩ := bind_ok_iff.1 ha
          suffices H : ∃ b, (if chosen o.sids o.xsids e.sid = true then
              (if s'.progress.checkCollected e then (.ok (s', none) : Except Fault (St × Option EitSection))
              else do
                let _ ← makeJsonEit (fun _ => none) e
                .ok ({ s' with lastUpdated := s'.timestamp, progress := s'.progress.update e }, some e))
              else .ok (s', none)) = .ok b ∧ Same o a.1 b.1 ∧ b.2.toList = a.2.toList.filter (picks o) by
            obtain ⟨b, hb, hr⟩ := H
            refine ⟨b, bind_ok_iff.2 ⟨e, he, ?_⟩, hr⟩
            rw [if_chosen]
            exact hb
          rw [if_neg (by simp [all]), if_neg (by simp [all])] at ha
          by_cases hc : chosen o.sids o.xsids e.sid = true
          · rw [if_pos hc]
            have hk : s'.progress.checkCollected e = s.progress.checkCollected e := by
              unfold Progress.checkCollected; rw [hs e hc]
            rw [hk]
            split at ha
            · cases ha; rw [if_pos ‹_›]; exact ⟨_, rfl, hs, rfl⟩
            · rw [if_neg ‹_›]
              obtain ⟨j, hj, ha⟩ := bind_ok_iff.1 ha
              cases ha
              refine ⟨_, bind_ok_iff.2 ⟨j, hj, rfl⟩, fun e' he' => ?_, by simp [picks, hc]⟩
              show (Services.update _ _ _).lookup _ = (Services.update _ _ _).lookup _
              rw [lookup_update, lookup_update, hs e hc, hs e' he']
          · rw [if_neg hc]
            refine ⟨_, rfl, ?_⟩
            split at ha
            · cases ha; exact ⟨hs, rfl⟩
            · obtain ⟨j, hj, ha⟩ := bind_ok_iff.1 ha
              cases ha
              refine ⟨fun e' he' => ?_, by simp [picks, hc]⟩
              show (Services.update _ _ _).lookup _ = _
              rw [lookup_update, if_neg, hs e' he']
              intro ht
              rw [EitpfCollector.triple_sid ht] at he'
              exact hc he'

theorem table_sim (o : Opt) (s s' : St) (hs : Same o s s') (t : Table) : Same o (handleTable s t) (handleTable s' t) := by
  unfold handleTable
  split
  · split
    · intro e he
      have h1 : ∀ (s : St) (time : Int), (handleTime s time).progress = s.progress.updateUnused time := by
        intro s time
        unfold handleTime
        dsimp only
        split <;> rfl
      rw [h1, h1]
      unfold Progress.updateUnused
      dsimp only
      rw [lookup_unused, lookup_unused, hs e he]
    · exact hs
  · exact hs

theorem events_sim (o : Opt) : ∀ (evs : List SectionEvent) (s s' : St), Same o s s' →
    Sim (fun a b => Same o a.1 b.1 ∧ b.2.filterMap (·.out) = (a.2.filterMap (·.out)).filter (picks o))
      (handleEvents (all o) evs s) (handleEvents o evs s')
  | [], s, s', hs => Sim.ok ⟨hs, rfl⟩
  | ev :: evs, s, s', hs => by
    have h1 : Sim (fun a b => Same o a.1 b.1 ∧ b.2.toList = a.2.toList.filter (picks o))
        (handleEvent (all o) s ev) (handleEvent o s' ev) := by
      cases ev with
      | sect x => exact section_sim o s s' hs x
      | table t => exact Sim.ok ⟨table_sim o s s' hs t, rfl⟩
    refine h1.bind fun a b hab => ?_
    refine (events_sim o evs _ _ hab.1).bind fun c d hcd => ?_
    refine Sim.ok ⟨hcd.1, ?_⟩
    rw [EitpfCollector.filterMap_cons_toList, EitpfCollector.filterMap_cons_toList, List.filter_append, hab.2, hcd.2]

theorem step_streaming {o : Opt} (ho : o.streaming = true) (s : St) (i : SectionInput) :
    step o s i = (do
      let (s, calls) ← handleEvents o (handedOver watched i) s
      .ok (s, calls, true)) := by
  unfold step isCompleted checkTimeout
  rw [ho]
  rfl

theorem step_sim (o : Opt) (ho : o.streaming = true) (s s' : St) (i : SectionInput) (hs : Same o s s') :
    Sim (fun a b => b.2.2 = a.2.2 ∧ Same o a.1 b.1 ∧ b.2.1.filterMap (·.out) = (a.2.1.filterMap (·.out)).filter (picks o))
      (step (all o) s i) (step o s' i) := by
  rw [step_streaming (o := all o) ho, step_streaming ho]
  exact (events_sim o (handedOver watched i) s s' hs).bind fun a b hab => Sim.ok ⟨rfl, hab⟩

theorem events_limits (o : Opt) (b : Bool) (t : Int) : ∀ evs s,
    handleEvents { o with streaming := b, timeLimit := t } evs s = handleEvents o evs s
  | [], _ => rfl
  | ev :: evs, s => by
    have h1 : handleEvent { o with streaming := b, timeLimit := t } s ev = handleEvent o s ev := by cases ev <;> rfl
    have ih : handleEvents { o with streaming := b, timeLimit := t } evs = handleEvents o evs :=
      funext fun s => events_limits o b t evs s
    unfold handleEvents
    rw [h1, ih]

theorem step_more {o : Opt} (ho : o.streaming = true) (s : St) (i : SectionInput) (a : St × List DemuxCall × Bool)
    (h : step o s i = .ok a) : a.2.2 = true := by
  rw [step_streaming ho] at h
  obtain ⟨x, _, h⟩ := bind_ok_iff.1 h
  cases h
  rfl

theorem step_same {o : Opt} (b c : Bool) (t u : Int) (s : St) (i : SectionInput) (x : St × List DemuxCall × Bool)
    (h : step { o with streaming := b, timeLimit := t } s i = .ok x) :
    ∃ m, step { o with streaming := c, timeLimit := u } s i = .ok (x.1, x.2.1, m) := by
  obtain ⟨v, h1, h⟩ := bind_ok_iff.1 h
  cases h
  rw [events_limits] at h1
  exact ⟨_, bind_ok_iff.2 ⟨v, by rw [events_limits]; exact h1, rfl⟩⟩

end EitCollector

namespace ServiceScanner

theorem loop_filter (o : Opt) (sdt : Sdt) (nit : Option Nit) : ∀ l, collectLoop o sdt nit l =
    (collectLoop {} sdt nit l).filter fun e => chosen o.sids o.xsids e.sid
  | [] => rfl
  | (sid, pid) :: l => by
    have ih := loop_filter o sdt nit l
    unfold collectLoop
    rw [if_chosen, if_chosen (sids := ({} : Opt).sids)]
    rw [if_pos (show chosen ({} : Opt).sids ({} : Opt).xsids sid = true from rfl)]
    cases hf : sdt.services.find? sid with
    | none =>
      dsimp only
      rw [ih]
      split <;> rfl
    | some service =>
      dsimp only
      by_cases ht : (!isAudioVideoService service.serviceType) = true
      · rw [if_pos ht, if_pos ht, ih]
        split <;> rfl
      · rw [if_neg ht, if_neg ht, List.filter_cons]
        dsimp only
        rw [ih]

theorem services_filter (o : Opt) (s : St) :
    collectServices o s = (collectServices {} s).filter fun e => chosen o.sids o.xsids e.sid := by
  unfold collectServices
  split
  · rfl
  · split
    · rfl
    · exact loop_filter o _ _ _

theorem table_out {s s' : St} {t : Table} (h : handleTable s t = .ok s') (ho : s.out = none) : s'.out = none := by
  unfold handleTable at h
  split at h <;> cases h
  · unfold handlePat
    split
    · exact ho
    · split
      · exact ho
      · split
        · exact ho
        · dsimp only
          split <;> exact ho
  · unfold handleNit
    split <;> exact ho
  · unfold handleSdt
    split
    · exact ho
    · split <;> exact ho
  · exact ho

theorem step_out {s : St} {i : Input} {r : St × Unit × Bool} (h : step s i = .ok r) (ho : s.out = none) : r.1.out = none := by
  obtain ⟨⟨s1, log⟩, h1, h⟩ := bind_ok_iff.1 h
  have := feedDemux_inv (fun s _ => s.out = none) (fun s t s' rs hI _ _ h => table_out h hI) _ _ _ _ [] ho h1
  dsimp only at h
  split at h <;> cases h <;> exact this

theorem scan_sim (o : Opt) : SinkSim (fun _ : Input => True) (fun a b : Hist => b = a ∧ a.st.out = none)
    (fun a b : Hist => completed a.st = completed b.st ∧
      (a.st.out = none ∧ b.st.out = none ∨
        ∃ l, a.st.out = some l ∧ b.st.out = some (l.filter fun e => chosen o.sids o.xsids e.sid)))
    (sink {}) (sink o) where
  start s s' hs := by cases hs.1; exact Sim.ok ⟨rfl, rfl, rfl, hs.2⟩
  handle s s' i _ hs := by
    cases hs.1
    intro a ha
    refine ⟨a, ha, rfl, rfl, ?_⟩
    obtain ⟨r, h1, ha⟩ := bind_ok_iff.1 ha
    cases ha
    exact step_out h1 hs.2
  finish s s' hs := by
    cases hs.1
    intro a ha
    obtain ⟨r, h1, ha⟩ := bind_ok_iff.1 ha
    cases ha
    unfold finish at h1
    split at h1
    · next hc =>
      cases h1
      refine ⟨_, bind_ok_iff.2 ⟨_, by unfold finish; rw [if_pos hc], rfl⟩, rfl, .inl ⟨hs.2, hs.2⟩⟩
    · next hc =>
      cases h1
      have hf : finish o s.st = .ok { s.st with out := some (collectServices o s.st) } := by unfold finish; rw [if_neg hc]
      refine ⟨_, bind_ok_iff.2 ⟨_, hf, rfl⟩, rfl, .inr ⟨_, rfl, ?_⟩⟩
      exact congrArg some (services_filter o s.st)
  exitCode s s' hs := by
    show (if !completed s'.st then _ else _) = _
    rw [← hs.1]
    rfl

end ServiceScanner

/-! From the command line. -/

theorem scan_select {w : World} {ps : List (List UInt8)} (hr : Reads w ps) (o : ServiceScanner.Opt) {e : Ended}
    (h : scanServices w {} = .ok e) : ∃ e', scanServices w o = .ok e' ∧ e'.code = e.code ∧
      (e.docs = [] ∧ e'.docs = [] ∨ ∃ l, e.docs = [.services l] ∧
        e'.docs = [.services (l.filter fun x => chosen o.sids o.xsids x.sid)]) := by
  have key := around_sim (ServiceScanner.scan_sim o) (ps := seen (packet w) 0 ps) (fun _ _ => trivial)
    (s := { st := {} }) (s' := { st := {} }) ⟨rfl, rfl⟩
  have hA := feed_around hr (packet w) (ServiceScanner.sink {}) { st := {} }
    (fun r => (.ok { code := r.1, docs := r.2.st.out.toList.map .services } : Except Stop Ended))
  have hB := feed_around hr (packet w) (ServiceScanner.sink o) { st := {} }
    (fun r => (.ok { code := r.1, docs := r.2.st.out.toList.map .services } : Except Stop Ended))
  change scanServices w {} = _ at hA
  change scanServices w o = _ at hB
  rw [hA] at h
  rw [hB]
  obtain ⟨⟨code, r⟩, h1, h⟩ := bind_ok_iff.1 h
  cases h
  obtain ⟨⟨code', r'⟩, h2, h3, _, h4⟩ := key.mapError _ h1
  refine ⟨_, bind_ok_iff.2 ⟨_, h2, rfl⟩, h3, ?_⟩
  rcases h4 with ⟨h4, h5⟩ | ⟨l, h4, h5⟩
  · left; dsimp only at h4 h5 ⊢; rw [h4, h5]; exact ⟨rfl, rfl⟩
  · right; dsimp only at h4 h5 ⊢; rw [h4, h5]; exact ⟨l, rfl, rfl⟩

theorem eitpf_eq {w : World} {ps : List (List UInt8)} (hr : Reads w ps) (o : EitpfCollector.Opt) (e : Ended) :
    collectEitpf w o = .ok e ↔ ∃ r, foldP (EitpfCollector.sink o) (seen (Main.sections w) 0 ps) { st := {} } = .ok r ∧
      e = { code := exitSuccess, docs := eitDocs w (outs r) } := by
  have hA := feed_around hr (Main.sections w) (EitpfCollector.sink o) { st := {} }
    (fun r => (.ok { code := r.1, docs := eitDocs w (outs r.2) } : Except Stop Ended))
  change collectEitpf w o = _ at hA
  rw [hA]
  constructor
  · intro h
    obtain ⟨⟨code, r⟩, h1, h⟩ := bind_ok_iff.1 h
    cases h
    obtain ⟨rfl, h2⟩ := (around_history _ _ _ _).1 (mapError_ok_iff.1 h1)
    exact ⟨r, h2, rfl⟩
  · rintro ⟨r, h1, rfl⟩
    exact bind_ok_iff.2 ⟨(exitSuccess, r), mapError_ok_iff.2 ((around_history _ _ _ _).2 ⟨rfl, h1⟩), rfl⟩

theorem eitpf_select {w : World} {ps : List (List UInt8)} (hr : Reads w ps) (o : EitpfCollector.Opt) {e : Ended}
    (h : collectEitpf w { streaming := true } = .ok e) :
    ∃ l, e.docs = eitDocs w l ∧ collectEitpf w { o with streaming := true } =
        .ok { code := e.code, docs := eitDocs w (l.filter (EitpfCollector.picks o)) } ∧
      ∀ e', collectEitpf w { o with streaming := false } = .ok e' → e'.code = e.code ∧
        e'.docs <+: eitDocs w (l.filter (EitpfCollector.picks o)) := by
  obtain ⟨r, h1, rfl⟩ := (eitpf_eq hr _ _).1 h
  obtain ⟨r', h2, _, h3⟩ := foldP_sim (collect_sim (fun s s' i => EitpfCollector.step_sim { o with streaming := true } rfl s s' i) exitSuccess)
    (seen (Main.sections w) 0 ps) (fun _ _ => trivial) { st := {} } { st := {} } ⟨fun _ _ => ⟨rfl, rfl⟩, rfl⟩ r h1
  refine ⟨outs r, rfl, (eitpf_eq hr _ _).2 ⟨r', h2, ?_⟩, fun e' h' => ?_⟩
  · rw [h3]; rfl
  · obtain ⟨r2, h4, rfl⟩ := (eitpf_eq hr _ _).1 h'
    refine ⟨rfl, eitDocs_prefix w ?_⟩
    have := fold_stops (EitpfCollector.step_more (o := { o with streaming := true }) rfl)
      (fun s i a b => EitpfCollector.step_same (o := o) true false s i a b)
      (seen (Main.sections w) 0 ps) { st := {} } r' { st := {} } r2 rfl rfl h2 h4
    rw [h3] at this
    exact this

theorem eits_eq {w : World} {ps : List (List UInt8)} (hr : Reads w ps) (o : EitCollector.Opt) (e : Ended) :
    collectEits w o = .ok e ↔ (o.collectActual || o.collectOthers) = true ∧
      ∃ r, foldP (EitCollector.sink o) (seen (Main.sections w) 0 ps) { st := {} } = .ok r ∧
      e = { code := exitSuccess, docs := eitDocs w (outs r) } := by
  have hA := feed_around hr (Main.sections w) (EitCollector.sink o) { st := {} }
    (fun r => (.ok { code := r.1, docs := eitDocs w (outs r.2) } : Except Stop Ended))
  have hB : collectEits w o = (EitCollector.init o).mapError .fault >>= fun h0 =>
      (feed w (via (Main.sections w) (EitCollector.sink o)) (0, h0) >>= fun r => .ok { code := r.1, docs := eitDocs w (outs r.2.2) }) := rfl
  rw [hB]
  constructor
  · intro h
    obtain ⟨h0, hi, h⟩ := bind_ok_iff.1 h
    have hi := mapError_ok_iff.1 hi
    unfold EitCollector.init at hi
    obtain ⟨_, ha, hi⟩ := bind_ok_iff.1 hi
    cases hi
    have hg : (o.collectActual || o.collectOthers) = true := by
      cases hc : (o.collectActual || o.collectOthers) with
      | true => rfl
      | false => rw [hc] at ha; cases ha
    refine ⟨hg, ?_⟩
    rw [hA] at h
    obtain ⟨⟨code, r⟩, h1, h⟩ := bind_ok_iff.1 h
    cases h
    obtain ⟨rfl, h2⟩ := (around_history _ _ _ _).1 (mapError_ok_iff.1 h1)
    exact ⟨r, h2, rfl⟩
  · rintro ⟨hg, r, h1, rfl⟩
    refine bind_ok_iff.2 ⟨{ st := {} }, ?_, ?_⟩
    · unfold EitCollector.init
      rw [hg]
      rfl
    · rw [hA]
      exact bind_ok_iff.2 ⟨(exitSuccess, r), mapError_ok_iff.2 ((around_history _ _ _ _).2 ⟨rfl, h1⟩), rfl⟩

theorem eits_select {w : World} {ps : List (List UInt8)} (hr : Reads w ps) (o : EitCollector.Opt) {t0 : Int} (t : Int) {e : Ended}
    (h : collectEits w { collectActual := o.collectActual, collectOthers := o.collectOthers, streaming := true, timeLimit := t0 } = .ok e) :
    ∃ l, e.docs = eitDocs w l ∧ collectEits w { o with streaming := true, timeLimit := t } =
        .ok { code := e.code, docs := eitDocs w (l.filter (EitCollector.picks o)) } ∧
      ∃ docs, collectEits w { o with streaming := false, timeLimit := t } = .ok { code := e.code, docs := docs } ∧
        docs <+: eitDocs w (l.filter (EitCollector.picks o)) := by
  obtain ⟨hg, r, h1, rfl⟩ := (eits_eq hr _ _).1 h
  obtain ⟨r', h2, _, h3⟩ := foldP_sim (collect_sim (fun s s' i => EitCollector.step_sim { o with streaming := true, timeLimit := t0 } rfl s s' i) exitSuccess)
    (seen (Main.sections w) 0 ps) (fun _ _ => trivial) { st := {} } { st := {} } ⟨fun _ _ => rfl, rfl⟩ r h1
  have sameStep : EitCollector.step { o with streaming := true, timeLimit := t0 } = EitCollector.step { o with streaming := true, timeLimit := t } := by
    funext s i
    rw [EitCollector.step_streaming rfl, EitCollector.step_streaming rfl, EitCollector.events_limits o true t0, EitCollector.events_limits o true t]
  rw [sameStep] at h2
  refine ⟨outs r, rfl, (eits_eq hr _ _).2 ⟨hg, r', h2, ?_⟩, ?_⟩
  · rw [h3]; rfl
  · have hm : ∀ s i a, EitCollector.step { o with streaming := true, timeLimit := t } s i = .ok a → a.2.2 = true :=
      EitCollector.step_more rfl
    obtain ⟨r2, h4⟩ := fold_ok (c := exitSuccess) hm
      (step' := EitCollector.step { o with streaming := false, timeLimit := t })
      (fun s i a ha => by
        obtain ⟨m, hm⟩ := EitCollector.step_same (o := o) true false t t s i a ha
        exact ⟨_, hm, rfl⟩)
      (seen (Main.sections w) 0 ps) { st := {} } r' { st := {} } rfl h2
    refine ⟨eitDocs w (outs r2), (eits_eq hr _ _).2 ⟨hg, r2, h4, rfl⟩, eitDocs_prefix w ?_⟩
    have := fold_stops hm
      (fun s i a b ha hb => by
        obtain ⟨m, hm⟩ := EitCollector.step_same (o := o) true false t t s i a ha
        rw [hb] at hm
        cases hm
        exact ⟨rfl, rfl⟩)
      (seen (Main.sections w) 0 ps) { st := {} } r' { st := {} } r2 rfl rfl h2 h4
    rw [h3] at this
    exact this

end Mirakc
