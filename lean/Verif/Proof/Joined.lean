import Verif.Spec.Joined
import Verif.Proof.Agree
import Verif.Props.ServiceFilter
/-
Lemmas for C147: filter-service started later.
-/
namespace Mirakc.Joined
open Mirakc.ServiceFilter Mirakc.Spec.ServiceFilter Mirakc.Spec.Joined Mirakc.Spec.Pipeline
open Mirakc.Pipeline (Codec)

theorem split {α : Type} {l : List α} {k : Nat} {a : α} (h : l[k]? = some a) :
    ∃ post, l = l.take k ++ a :: post ∧ (l.take k).length = k := by
  obtain ⟨hk, rfl⟩ := List.getElem?_eq_some_iff.1 h
  refine ⟨l.drop (k + 1), ?_, by simp; omega⟩
  rw [List.getElem_cons_drop, List.take_append_drop]

theorem latest_mem {α : Type} {f : Table → Option α} {rs : List Table} {v : α} (h : latest f rs = some v) :
    ∃ t ∈ rs, f t = some v := by
  have := List.mem_of_getLast? h
  simpa using this

theorem latest_some {α : Type} {f : Table → Option α} {rs : List Table} {t : Table} {v : α} (ht : t ∈ rs)
    (hv : f t = some v) : ∃ u, latest f rs = some u := by
  have : v ∈ rs.filterMap f := by simp; exact ⟨t, ht, hv⟩
  have hne : rs.filterMap f ≠ [] := fun e => by rw [e] at this; cases this
  exact ⟨_, List.getLast?_eq_some_getLast hne⟩

/-- With tables that always say the same the latest is the one that there is. -/
theorem latest_eq {α : Type} {f : Table → Option α} {rs : List Table} {T : Table → Prop}
    (hT : ∀ t ∈ rs, T t) (hf : ∀ t u p q, T t → T u → f t = some p → f u = some q → p = q)
    {t : Table} {v : α} (ht : t ∈ rs) (hv : f t = some v) : latest f rs = some v := by
  obtain ⟨u, hu⟩ := latest_some ht hv
  obtain ⟨t', h1, h2⟩ := latest_mem hu
  rw [hu, hf _ _ _ _ (hT _ h1) (hT _ ht) h2 hv]

section
variable {o : Opt} {T : Table → Prop} {is : List Input} {s : St} {items : List Item}

/-- What a run on a steady broadcast receives is of the broadcast. -/
theorem received_of (hT : ∀ i ∈ is, ∀ t ∈ i.tables, T t) (h : run o (init o) is = .ok (s, items)) :
    ∀ t ∈ received items, T t := by
  intro t ht
  obtain ⟨i, hi, ht⟩ := Agree.sf_handled is _ _ _ h t ht
  exact hT i hi t ht

theorem received_take {k : Nat} {it : Item} (hk : items[k]? = some it) :
    ∀ t ∈ received (items.take k) ++ it.handled, t ∈ received items := by
  obtain ⟨post, e, _⟩ := split hk
  intro t ht
  rw [e, received, List.flatMap_append, List.flatMap_cons]
  simp only [List.mem_append] at ht ⊢
  rcases ht with ht | ht
  · exact .inl ht
  · exact .inr (.inl ht)

theorem no_stop (hS : Steady o.sid T) (ho : o.timeLimit = none) (hT : ∀ i ∈ is, ∀ t ∈ i.tables, T t)
    (h : run o (init o) is = .ok (s, items)) {k : Nat} {it : Item} (hk : items[k]? = some it) : it.act ≠ .stop := by
  intro ha
  obtain ⟨post, e, _⟩ := split hk
  have h' := h
  rw [e] at h'
  obtain ⟨t, ht, hx⟩ := (Props.C23_missing_service o is s _ it _ h').2 ha
  have hTt : T t := received_of hT h t (received_take hk t (by simp [ht]))
  rcases hx with hm | ⟨l, _, hl, _⟩
  · exact hS.listed t hTt hm
  · rw [ho] at hl; cases hl

theorem full (hS : Steady o.sid T) (ho : o.timeLimit = none) (hT : ∀ i ∈ is, ∀ t ∈ i.tables, T t)
    (h : run o (init o) is = .ok (s, items)) : items.length = is.length := by
  have hs := Props.C21_intact o is s items h
  have hle : items.length ≤ is.length := by
    have := congrArg List.length hs.1
    simp at this; omega
  by_cases hlt : items.length < is.length
  · obtain ⟨pre, it, e, ha⟩ := hs.2.2.2 hlt
    have : items[pre.length]? = some it := by rw [e]; simp
    exact absurd ha (no_stop hS ho hT h this)
  · omega

/-- The packets watched hand over their tables. -/
theorem handed (hS : Steady o.sid T) (hT : ∀ i ∈ is, ∀ t ∈ i.tables, T t)
    (h : run o (init o) is = .ok (s, items)) {k : Nat} {it : Item} (hk : items[k]? = some it) {i : Input}
    (hi : is[k]? = some i) {t : Table} (ht : t ∈ i.tables) (hp : t.sourcePid = i.packet.pid)
    (hw : Watched o.sid o.timeLimit (received (items.take k)) i.packet.pid) : t ∈ it.handled := by
  obtain ⟨post, e, hl⟩ := split hk
  have h' := h
  rw [e] at h'
  obtain ⟨i', h1, h2, h3, _⟩ := Props.C20_tables o is s _ it _
    (fun i hi t ht => hS.conforming t (hT i hi t ht)) h'
  rw [hl, hi] at h1
  cases h1
  rw [h2] at hw hp
  rw [h3 hw]
  simp [ht, hp]

theorem take_mem {a b : Nat} (hab : a < b) {it : Item} (ha : items[a]? = some it) {t : Table} (ht : t ∈ it.handled) :
    t ∈ received (items.take b) := by
  have : it ∈ items.take b := List.mem_of_getElem? (i := a) (by rw [List.getElem?_take_of_lt hab]; exact ha)
  simp only [received, List.mem_flatMap]
  exact ⟨it, this, ht⟩

theorem brings_some {c : Codec} {tabs : Nat → List Table} {ps : List (List UInt8)} {n : Nat} {t : Table}
    (h : Brings c tabs ps n t) {is : List Input} (e : ∀ k b, ps[k]? = some b → is[k]? = some (arrived c tabs k b)) :
    n < ps.length ∧ ∃ i, is[n]? = some i ∧ t ∈ i.tables ∧ t.sourcePid = i.packet.pid := by
  obtain ⟨ht, b, hb, hp⟩ := h
  exact ⟨(List.getElem?_eq_some_iff.1 hb).1, _, e n b hb, ht, hp.symm⟩

/-- Once a stream has brought its tables they are the latest. -/
theorem known (hS : Steady o.sid T) (ho : o.timeLimit = none) (hT : ∀ i ∈ is, ∀ t ∈ i.tables, T t)
    (h : run o (init o) is = .ok (s, items)) {c : Codec} {tabs : Nat → List Table} {ps : List (List UInt8)}
    (e : ∀ k b, ps[k]? = some b → is[k]? = some (arrived c tabs k b))
    {hasCat : Prop} (hK : Known c tabs o.sid hasCat ps) :
    (∃ pat, latest usablePat (received (items.take ps.length)) = some pat) ∧
    (∃ pmt, latest (validPmt o.sid) (received (items.take ps.length)) = some pmt) ∧
    (hasCat → ∃ cat, latest validCat (received (items.take ps.length)) = some cat) := by
  have hlen := full hS ho hT h
  have item : ∀ {n : Nat} {i : Input}, is[n]? = some i → ∃ it, items[n]? = some it := by
    intro n i hn
    have : n < items.length := by rw [hlen]; exact (List.getElem?_eq_some_iff.1 hn).1
    exact ⟨_, List.getElem?_eq_getElem this⟩
  obtain ⟨⟨i, j, t, u, pat, pmt, hij, bt, ht, bu, hu, hm⟩, hcat⟩ := hK
  have ht0 : t.sourcePid = 0 := by
    unfold usablePat at ht
    split at ht
    · split at ht
      · next hx => exact hx.1
      · cases ht
    · cases ht
  obtain ⟨l1, x, x1, x2, x3⟩ := brings_some bt e
  obtain ⟨l2, y, y1, y2, y3⟩ := brings_some bu e
  obtain ⟨ix, hix⟩ := item x1
  obtain ⟨iy, hiy⟩ := item y1
  have m1 : t ∈ ix.handled := handed hS hT h hix x1 x2 x3 (.inl (by rw [← x3, ht0]))
  have m2 : u ∈ iy.handled := by
    refine handed hS hT h hiy y1 y2 y3 (.inr (.inr (.inr ⟨pat, ?_, by rw [← y3]; exact hm⟩)))
    refine latest_eq (T := T) (fun t ht => ?_) hS.pat (take_mem hij hix m1) ht
    exact received_of hT h t (received_take hiy t (by simp [ht]))
  refine ⟨latest_some (take_mem l1 hix m1) ht, latest_some (take_mem l2 hiy m2) hu, fun hc => ?_⟩
  obtain ⟨k, v, cat, bv, hv1, hv⟩ := hcat hc
  obtain ⟨l3, z, z1, z2, z3⟩ := brings_some bv e
  obtain ⟨iz, hiz⟩ := item z1
  have m3 : v ∈ iz.handled := handed hS hT h hiz z1 z2 z3 (.inr (.inl (by rw [← z3, hv1])))
  exact ⟨_, (latest_some (take_mem l3 hiz m3) hv).choose_spec⟩

end

/-- More tables of a steady broadcast forward more. -/
theorem forward_mono {sid : Nat} {T : Table → Prop} (hS : Steady sid T) {rs rs' : List Table} (h : ∀ t ∈ rs, T t)
    (h' : ∀ t ∈ rs', T t) (hp : ∀ p, latest usablePat rs = some p → ∃ q, latest usablePat rs' = some q)
    (hm : ∀ p, latest (validPmt sid) rs = some p → ∃ q, latest (validPmt sid) rs' = some q)
    (hc : ∀ p, latest validCat rs = some p → ∃ q, latest validCat rs' = some q) {pid : Nat}
    (hf : Forward sid rs pid) : Forward sid rs' pid := by
  have same : ∀ {α : Type} {f : Table → Option α} (hf : ∀ t u p q, T t → T u → f t = some p → f u = some q → p = q)
      {p : α}, latest f rs = some p → (∃ q, latest f rs' = some q) → latest f rs' = some p := by
    intro α f hf p h1 ⟨q, h2⟩
    obtain ⟨t, t1, t2⟩ := latest_mem h1
    obtain ⟨u, u1, u2⟩ := latest_mem h2
    rw [h2, hf _ _ _ _ (h t t1) (h' u u1) t2 u2]
  rcases hf with ⟨p, h1, h2⟩ | ⟨p, h1, h2⟩ | ⟨p, h1, h2⟩
  · exact .inl ⟨p, same hS.pat h1 (hp p h1), h2⟩
  · exact .inr (.inl ⟨p, same hS.cat h1 (hc p h1), h2⟩)
  · exact .inr (.inr ⟨p, same hS.pmt h1 (hm p h1), h2⟩)

/-- There is one restriction of a PAT to a service. -/
theorem restricted_unique {sid : Nat} {p q q' : Pat} (h : Restricted sid p q) (h' : Restricted sid p q') : q = q' := by
  obtain ⟨a1, a2, a3, x, a4, a5⟩ := h
  obtain ⟨b1, b2, b3, y, b4, b5⟩ := h'
  have hxy : x = y := by
    have hs := p.pmts.sorted
    obtain ⟨i, hi, ei⟩ := List.getElem_of_mem a4
    obtain ⟨j, hj, ej⟩ := List.getElem_of_mem b4
    rcases Nat.lt_trichotomy i j with hl | rfl | hl
    · have := List.pairwise_iff_getElem.1 hs i j hi hj hl
      rw [ei, ej] at this; exact absurd this (Nat.lt_irrefl _)
    · rw [ei] at ej; cases ej; rfl
    · have := List.pairwise_iff_getElem.1 hs j i hj hi hl
      rw [ei, ej] at this; exact absurd this (Nat.lt_irrefl _)
  subst hxy
  cases q with
  | mk q1 q2 q3 q4 =>
    cases q' with
    | mk r1 r2 r3 r4 =>
      cases q3 with
      | mk e he =>
        cases r3 with
        | mk e' he' =>
          simp only at a1 a2 a3 a5 b1 b2 b3 b5
          subst a1 a2 a3 a5 b1 b2 b3 b5
          rfl

/-- What became of one packet in the two runs. -/
inductive Both (c : Codec) (K : Prop) (b : List UInt8) : Act → Act → Prop
  | neither : Both c K b .drop .drop
  | both : (c.packet b).pid ≠ 0 → Both c K b (.send (.orig (c.packet b))) (.send (.orig (c.packet b)))
  | pats {t i j} : (c.packet b).pid = 0 → Both c K b (.send (.pat t i)) (.send (.pat t j))
  | early : ¬ K → (c.packet b).pid ≠ 0 → Both c K b (.send (.orig (c.packet b))) .drop
  | earlyPat {t i} : ¬ K → (c.packet b).pid = 0 → Both c K b (.send (.pat t i)) .drop

theorem joined {c : Codec} (hc : Faithful c) {K : Nat → Prop} : ∀ (ps : List (List UInt8)) (n : Nat)
    (as bs : List Item), (∀ b ∈ ps, b.length = 188) → as.length = ps.length → bs.length = ps.length →
    (∀ k b x y, ps[k]? = some b → as[k]? = some x → bs[k]? = some y → Both c (K (n + k)) b x.act y.act) →
    Joined c K n ps ((sent as).map (serviceBytes c)) ((sent bs).map (serviceBytes c)) := by
  intro ps
  induction ps with
  | nil =>
    intro n as bs _ ha hb _
    cases as with
    | nil =>
      cases bs with
      | nil => exact .nil
      | cons _ _ => cases hb
    | cons _ _ => cases ha
  | cons b ps IH =>
    intro n as bs h188 ha hb h
    cases as with
    | nil => cases ha
    | cons x as =>
    cases bs with
    | nil => cases hb
    | cons y bs =>
    have h0 := h 0 b x y rfl rfl rfl
    have ih := IH (n + 1) as bs (fun b hb => h188 b (List.mem_cons_of_mem _ hb))
      (by simpa using ha) (by simpa using hb) (fun k b x y e1 e2 e3 => by
        have := h (k + 1) b x y (by simpa using e1) (by simpa using e2) (by simpa using e3)
        rwa [show n + (k + 1) = n + 1 + k by omega] at this)
    have hk : c.bytes (c.packet b) = b := hc.keep b (h188 b (by simp))
    obtain ⟨px, lx, ax⟩ := x
    obtain ⟨py, ly, ay⟩ := y
    simp only [Nat.add_zero] at h0
    cases h0 with
    | neither => exact .neither ih
    | both hp =>
      have := Joined.both hp ih
      simpa [sent, sentOf, serviceBytes, hk] using this
    | pats hp =>
      rename_i t i j
      exact Joined.pats (t := t) (i := i) (j := j) hp ih
    | early hn hp =>
      have := Joined.early hn hp ih
      rw [show sent (⟨py, ly, .drop⟩ :: bs) = sent bs from rfl]
      simpa [sent, sentOf, serviceBytes, hk] using this
    | earlyPat hn hp =>
      rename_i t i
      exact Joined.earlyPat (t := t) (i := i) hn hp ih

/-- What a filter passes on for a packet. -/
theorem acts {o : Opt} {is : List Input} {s : St} {items : List Item} (h : run o (init o) is = .ok (s, items))
    {k : Nat} {it : Item} (hk : items[k]? = some it) {i : Input} (hi : is[k]? = some i) (hs : it.act ≠ .stop) :
    (it.act ≠ .drop ↔ Forward o.sid (received (items.take k) ++ it.handled) i.packet.pid) ∧
    (it.act = .drop ∨ (it.act = .send (.orig i.packet) ∧ i.packet.pid ≠ 0) ∨
      ∃ t n, it.act = .send (.pat t n) ∧ i.packet.pid = 0 ∧
        ∃ pat, latest usablePat (received (items.take k) ++ it.handled) = some pat ∧ Restricted o.sid pat t) := by
  obtain ⟨post, e, hl⟩ := split hk
  obtain ⟨s1, s2, i', h1, h2, _, _, _, h6⟩ := (run_spec is _ _ [] _ (inv_init o) h).2 _ it post e
  rw [hl, hi] at h2
  cases h2
  simp only [List.nil_append] at h6
  refine ⟨h6.drop hs, ?_⟩
  cases ha : it.act with
  | stop => exact absurd ha hs
  | drop => exact .inl rfl
  | send x =>
    cases x with
    | orig p =>
      obtain ⟨e1, e2, _⟩ := h6.orig p ha
      subst e1
      exact .inr (.inl ⟨rfl, e2⟩)
    | pat t n =>
      obtain ⟨e1, _, _, e4⟩ := h6.pat t n ha
      exact .inr (.inr ⟨t, n, rfl, e1, e4⟩)

theorem seen_get {P Q : Type} (f : Nat → Q → P) : ∀ (l : List Q) (n k : Nat) (b : Q), l[k]? = some b →
    (seen f n l)[k]? = some (f (n + k) b)
  | [], n, k, b, h => by simp at h
  | x :: l, n, 0, b, h => by simp at h; subst h; rfl
  | x :: l, n, k + 1, b, h => by
    simp only [seen, List.getElem?_cons_succ] at h ⊢
    rw [seen_get f l (n + 1) k b h, show n + 1 + k = n + (k + 1) by omega]

/-- What the two filters make of the same packet. -/
theorem both_at {c : Codec} {tabs tabs' : Nat → List Table} {sid : Nat} {T : Table → Prop}
    (hS : Steady sid T) (hT : ∀ n, ∀ t ∈ tabs n, T t) (hT' : ∀ n, ∀ t ∈ tabs' n, T t)
    (qs ps : List (List UInt8)) (f g : St) (items items' : List Item)
    (h : run { sid := sid } (init { sid := sid }) (seen (arrived c tabs) 0 (qs ++ ps)) = .ok (f, items))
    (h' : run { sid := sid } (init { sid := sid }) (seen (arrived c tabs') 0 ps) = .ok (g, items'))
    (hK : Known c tabs sid (∃ t, T t ∧ validCat t ≠ none) qs) :
    items.length = (qs ++ ps).length ∧ items'.length = ps.length ∧
    ∀ k b x y, ps[k]? = some b → (items.drop qs.length)[k]? = some x → items'[k]? = some y →
      Both c (Known c tabs' sid (∃ t, T t ∧ validCat t ≠ none) (ps.take (k + 1))) b x.act y.act := by
  have hI : ∀ i ∈ seen (arrived c tabs) 0 (qs ++ ps), ∀ t ∈ i.tables, T t := by
    intro i hi t ht
    obtain ⟨k, b, _, rfl⟩ : ∃ k b, (qs ++ ps)[k]? = some b ∧ i = arrived c tabs k b := by
      obtain ⟨k, hk, e⟩ := List.getElem_of_mem hi
      rw [Pipeline.seen_length] at hk
      have := seen_get (arrived c tabs) _ 0 k _ (List.getElem?_eq_getElem hk)
      rw [List.getElem?_eq_getElem (by rw [Pipeline.seen_length]; exact hk), e] at this
      exact ⟨k, _, List.getElem?_eq_getElem hk, by simpa using this⟩
    exact hT k t ht
  have hI' : ∀ i ∈ seen (arrived c tabs') 0 ps, ∀ t ∈ i.tables, T t := by
    intro i hi t ht
    obtain ⟨k, b, _, rfl⟩ : ∃ k b, ps[k]? = some b ∧ i = arrived c tabs' k b := by
      obtain ⟨k, hk, e⟩ := List.getElem_of_mem hi
      rw [Pipeline.seen_length] at hk
      have := seen_get (arrived c tabs') _ 0 k _ (List.getElem?_eq_getElem hk)
      rw [List.getElem?_eq_getElem (by rw [Pipeline.seen_length]; exact hk), e] at this
      exact ⟨k, _, List.getElem?_eq_getElem hk, by simpa using this⟩
    exact hT' k t ht
  have l1 : items.length = (qs ++ ps).length := by
    rw [full (o := { sid := sid }) hS rfl hI h, Pipeline.seen_length]
  have l2 : items'.length = ps.length := by
    rw [full (o := { sid := sid }) hS rfl hI' h', Pipeline.seen_length]
  refine ⟨l1, l2, ?_⟩
  intro k b x y hb hx hy
  rw [List.getElem?_drop] at hx
  have hix := seen_get (arrived c tabs) (qs ++ ps) 0 (qs.length + k) b (by
    rw [List.getElem?_append_right (by omega)]; simpa using hb)
  have hiy := seen_get (arrived c tabs') ps 0 k b hb
  simp only [Nat.zero_add] at hix hiy
  have sx := no_stop (o := { sid := sid }) hS rfl hI h hx
  have sy := no_stop (o := { sid := sid }) hS rfl hI' h' hy
  obtain ⟨fx, ax⟩ := acts h hx hix sx
  obtain ⟨fy, ay⟩ := acts h' hy hiy sy
  -- the tables received
  have rx : ∀ t ∈ received (items.take (qs.length + k)) ++ x.handled, T t := fun t ht =>
    received_of hI h t (received_take hx t ht)
  have ry : ∀ t ∈ received (items'.take k) ++ y.handled, T t := fun t ht =>
    received_of hI' h' t (received_take hy t ht)
  have up : ∀ {l : List Item} {n m : Nat} {it : Item}, n ≤ m →
      ∀ t ∈ received (l.take n), t ∈ received (l.take m) ++ it.handled := by
    intro l n m it hnm t ht
    simp only [received, List.mem_flatMap] at ht
    obtain ⟨z, hz, ht⟩ := ht
    refine List.mem_append_left _ ?_
    simp only [received, List.mem_flatMap]
    exact ⟨z, List.take_subset_take_left _ hnm hz, ht⟩
  have more : ∀ {α : Type} {f : Table → Option α} {rs rs' : List Table}, (∀ t ∈ rs, t ∈ rs') →
      (∃ p, latest f rs = some p) → ∃ p, latest f rs' = some p := by
    intro α f rs rs' hs ⟨p, hp⟩
    obtain ⟨t, t1, t2⟩ := latest_mem hp
    exact latest_some (hs t t1) t2
  obtain ⟨kp, km, kc⟩ := known (o := { sid := sid }) hS rfl hI h (c := c) (tabs := tabs) (ps := qs) (fun k b hk => by
    have := seen_get (arrived c tabs) (qs ++ ps) 0 k b (by
      rw [List.getElem?_append_left (List.getElem?_eq_some_iff.1 hk).1]; exact hk)
    simpa using this) hK
  have kp := more (up (it := x) (Nat.le_add_right qs.length k)) kp
  have km := more (up (it := x) (Nat.le_add_right qs.length k)) km
  have kc := fun hh => more (up (it := x) (Nat.le_add_right qs.length k)) (kc hh)
  have cat : ∀ {rs : List Table}, (∀ t ∈ rs, T t) → ∀ p, latest validCat rs = some p → ∃ t, T t ∧ validCat t ≠ none := by
    intro rs hr p hp
    obtain ⟨t, t1, t2⟩ := latest_mem hp
    exact ⟨t, hr t t1, by rw [t2]; simp⟩
  have mono : y.act ≠ .drop → x.act ≠ .drop := fun hd => fx.2 (forward_mono (sid := sid) hS ry rx (fun _ _ => kp)
    (fun _ _ => km) (fun p hp => kc (cat ry p hp)) (fy.1 hd))
  have back : Known c tabs' sid (∃ t, T t ∧ validCat t ≠ none) (ps.take (k + 1)) → x.act ≠ .drop → y.act ≠ .drop := by
    intro hk' hd
    have hkl : k < ps.length := (List.getElem?_eq_some_iff.1 hb).1
    obtain ⟨jp, jm, jc⟩ := known (o := { sid := sid }) hS rfl hI' h' (c := c) (tabs := tabs') (ps := ps.take (k + 1))
      (fun n b hn => by
        have hlt := (List.getElem?_eq_some_iff.1 hn).1
        rw [List.length_take] at hlt
        rw [List.getElem?_take_of_lt (by omega)] at hn
        simpa using seen_get (arrived c tabs') ps 0 n b hn) hk'
    have sub : ∀ t ∈ received (items'.take (ps.take (k + 1)).length), t ∈ received (items'.take k) ++ y.handled := by
      intro t ht
      rw [List.length_take, Nat.min_eq_left (by omega), List.take_add_one, hy] at ht
      simpa [received] using ht
    exact fy.2 (forward_mono (sid := sid) hS rx ry (fun _ _ => more sub jp) (fun _ _ => more sub jm)
      (fun p hp => more sub (jc (cat rx p hp))) (fx.1 hd))
  rcases ax with hx0 | ⟨hx1, hp⟩ | ⟨t, n, hx1, hp, pat, hpat, hres⟩
  · have hy0 : y.act = .drop := Decidable.byContradiction fun hd => mono hd hx0
    rw [hx0, hy0]; exact .neither
  · rcases ay with hy0 | ⟨hy1, _⟩ | ⟨_, _, _, hp', _⟩
    · rw [hx1, hy0]
      refine .early (fun hk' => back hk' (by rw [hx1]; simp) hy0) hp
    · rw [hx1, hy1]; exact .both hp
    · exact absurd hp' hp
  · rcases ay with hy0 | ⟨_, hp'⟩ | ⟨u, m, hy1, _, pat', hpat', hres'⟩
    · rw [hx1, hy0]
      refine .earlyPat (fun hk' => back hk' (by rw [hx1]; simp) hy0) hp
    · exact absurd hp hp'
    · obtain ⟨t1, a1, a2⟩ := latest_mem hpat
      obtain ⟨t2, b1, b2⟩ := latest_mem hpat'
      have e := hS.pat _ _ _ _ (rx t1 a1) (ry t2 b1) a2 b2
      subst e
      rw [hx1, hy1, restricted_unique hres hres']
      exact .pats hp

/-- The two runs of the filter. -/
theorem runs {c : Codec} (hc : Faithful c) {tabs tabs' : Nat → List Table} {sid : Nat} {T : Table → Prop}
    (hS : Steady sid T) (hT : ∀ n, ∀ t ∈ tabs n, T t) (hT' : ∀ n, ∀ t ∈ tabs' n, T t)
    (qs ps : List (List UInt8)) (h188 : ∀ b ∈ ps, b.length = 188) (f g : St) (items items' : List Item)
    (h : run { sid := sid } (init { sid := sid }) (seen (arrived c tabs) 0 (qs ++ ps)) = .ok (f, items))
    (h' : run { sid := sid } (init { sid := sid }) (seen (arrived c tabs') 0 ps) = .ok (g, items'))
    (hK : Known c tabs sid (∃ t, T t ∧ validCat t ≠ none) qs) :
    items.length = (qs ++ ps).length ∧ items'.length = ps.length ∧
    Joined c (fun n => Known c tabs' sid (∃ t, T t ∧ validCat t ≠ none) (ps.take (n + 1))) 0 ps
      ((sent (items.drop qs.length)).map (serviceBytes c)) ((sent items').map (serviceBytes c)) := by
  obtain ⟨l1, l2, hb⟩ := both_at hS hT hT' qs ps f g items items' h h' hK
  refine ⟨l1, l2, joined hc ps 0 _ _ h188 (by simp [l1]) l2 fun k b x y h1 h2 h3 => ?_⟩
  rw [Nat.zero_add]
  exact hb k b x y h1 h2 h3

end Mirakc.Joined
