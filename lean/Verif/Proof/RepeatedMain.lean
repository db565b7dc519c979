import Verif.Proof.Foreign
import Verif.Proof.RepeatedProgram2
import Verif.Proof.RepeatedRecorder
import Verif.Proof.ServiceRecorderEx
/-
Lemmas: repeated tables at the commands.
-/
namespace Mirakc.Main
open Mirakc.Spec.Repeated Mirakc.Spec.Main Mirakc.Spec.Pipeline Mirakc.Pipeline

theorem seen_get {P Q : Type} (f : Nat → Q → P) : ∀ (qs : List Q) (n k : Nat),
    (seen f n qs)[k]? = (qs[k]?).map (f (n + k))
  | [], _, _ => by simp [seen]
  | q :: qs, n, 0 => by simp [seen]
  | q :: qs, n, k + 1 => by
    show (seen f (n + 1) qs)[k]? = (qs[k]?).map (f (n + (k + 1)))
    rw [seen_get f qs (n + 1) k, Nat.add_right_comm, Nat.add_assoc]

theorem repeated_length {h : List Table} {tss uss : List (List Table)} (hu : Repeated h tss uss) :
    uss.length = tss.length := by
  induction hu with
  | nil => rfl
  | cons _ _ ih => simp [ih]

theorem seen_map {P Q R : Type} (f : Nat → Q → P) (f' : Nat → Q → P) (g : P → R) (hg : ∀ n q, g (f' n q) = g (f n q)) :
    ∀ (qs : List Q) (n : Nat), (seen f' n qs).map g = (seen f n qs).map g
  | [], _ => rfl
  | q :: qs, n => by
    show g (f' n q) :: (seen f' (n + 1) qs).map g = g (f n q) :: (seen f (n + 1) qs).map g
    rw [hg, seen_map f f' g hg qs (n + 1)]

theorem run_length {o : ServiceFilter.Opt} : ∀ {is : List Input} {s f : ServiceFilter.St} {items : List ServiceFilter.Item},
    ServiceFilter.run o s is = .ok (f, items) → items.length ≤ is.length
  | [], s, f, items, h => by cases h; exact Nat.le_refl _
  | i :: is, s, f, items, h => by
    unfold ServiceFilter.run at h
    obtain ⟨⟨s1, log, act⟩, _, h⟩ := bind_ok_iff.1 h
    dsimp only at h
    split at h
    · cases h; simp
    · obtain ⟨⟨s2, its⟩, h2, h⟩ := bind_ok_iff.1 h
      cases h
      have := run_length h2
      simp only [List.length_cons]
      omega

/-- The packets with the repeated tables. -/
theorem retold_input {c : Codec} {tabs tabs' : Nat → List Table} {ps : List (List UInt8)} {uss : List (List Table)}
    (hl : uss.length ≤ ps.length) (ht : ∀ k l, uss[k]? = some l → tabs' k = l) :
    Retold (seen (input c tabs) 0 ps) (seen (input c tabs') 0 ps) uss where
  packets := seen_map (input c tabs) (input c tabs') Input.packet (fun _ _ => rfl) ps 0
  tables n us hn := by
    have hk := (List.getElem?_eq_some_iff.1 hn).1
    rw [seen_get, List.getElem?_eq_getElem (by omega : n < ps.length)]
    show some (tabs' (0 + n)) = some us
    rw [Nat.zero_add, ht n us hn]

/-- The commands with the service filter in front: what comes behind gets the same packets. -/
theorem feed_repeats {w : World} {ps : List (List UInt8)} (hr : Reads w ps) {sid : Nat} {f : ServiceFilter.St}
    {items : List ServiceFilter.Item}
    (hrun : ServiceFilter.run { sid := sid } (ServiceFilter.init { sid := sid }) (seen (input w.codec w.tables) 0 ps) = .ok (f, items))
    {uss : List (List Table)} (hu : Repeated [] (items.map (·.handled)) uss) {tabs' : Nat → List Table}
    {tabs2' : Nat → ServiceFilter.Out → List Table} (ht : ∀ k l, uss[k]? = some l → tabs' k = l)
    {σ : Type} {S : σ → σ → Prop} {k k' : Sink ServiceFilter.Out σ} (H : Alike S k k') {d : σ}
    (hs : Rel (fun a b => b.1 = a.1 ∧ S a.2 b.2 ∧
      (a.1 = true → Follows S k k' (Spec.ServiceFilter.sent items) (Spec.ServiceFilter.sent items) a.2 b.2)) (k.start d) (k'.start d))
    {β : Type} {fin : Nat × σ → Except Stop β} (hf : ∀ c a b, S a b → fin (c, b) = fin (c, a)) :
    (feed { w with tables := tabs', tables2 := tabs2' } (via (input w.codec tabs') (ServiceFilter.sink { sid := sid } k'))
        (0, ServiceFilter.init { sid := sid }, d) >>= fun r => fin (r.1, r.2.2.2)) =
      (feed w (via (input w.codec w.tables) (ServiceFilter.sink { sid := sid } k))
        (0, ServiceFilter.init { sid := sid }, d) >>= fun r => fin (r.1, r.2.2.2)) := by
  have hr' : Reads { w with tables := tabs', tables2 := tabs2' } ps := hr
  have hl : uss.length ≤ ps.length := by
    have h1 := repeated_length hu
    have h2 := run_length hrun
    rw [seen_length] at h2
    rw [List.length_map] at h1
    omega
  have h1 := feed_around hr (input w.codec w.tables) (ServiceFilter.sink { sid := sid } k) (ServiceFilter.init { sid := sid }, d)
    (fun r => fin (r.1, r.2.2))
  have h2 := feed_around hr' (input w.codec tabs') (ServiceFilter.sink { sid := sid } k') (ServiceFilter.init { sid := sid }, d)
    (fun r => fin (r.1, r.2.2))
  refine h2.trans (Eq.trans ?_ h1.symm)
  have h3 := around_follows (ps := seen (input w.codec w.tables) 0 ps) (ps' := seen (input w.codec tabs') 0 ps)
    (ServiceFilter.Rep.alike_sink (o := { sid := sid }) H) (s := (ServiceFilter.init { sid := sid }, d))
    (s' := (ServiceFilter.init { sid := sid }, d)) (hs.bind fun a b hab =>
      ⟨hab.1, ⟨⟨rfl, fun _ => rfl⟩, hab.2.1⟩, fun hx => ServiceFilter.Rep.follows_repeated hrun
        (⟨rfl, fun _ => rfl⟩) (reflects_nil _ _) hu (retold_input hl ht) hab.2.1 (hab.2.2 hx)⟩)
  generalize around (ServiceFilter.sink { sid := sid } k) _ _ = x at h3 ⊢
  generalize around (ServiceFilter.sink { sid := sid } k') _ _ = y at h3 ⊢
  cases x with
  | error e => cases y with
    | error e' => have : e = e' := h3; rw [this]
    | ok b => exact h3.elim
  | ok a => cases y with
    | error e' => exact h3.elim
    | ok b =>
      obtain ⟨c, a1, a2⟩ := a
      obtain ⟨c', b1, b2⟩ := b
      obtain ⟨e, _, hS⟩ := h3
      have e : c' = c := e
      subst e
      exact hf _ _ _ hS

theorem program_length {extra : Pmt → Nat} {o : ProgramFilter.Opt} : ∀ {is : List Input} {s f : ProgramFilter.St}
    {items : List ProgramFilter.Item}, ProgramFilter.run extra o s is = .ok (f, items) → items.length ≤ is.length
  | [], s, f, items, h => by cases h; exact Nat.le_refl _
  | i :: is, s, f, items, h => by
    unfold ProgramFilter.run at h
    obtain ⟨⟨s1, log, outs, more⟩, _, h⟩ := bind_ok_iff.1 h
    dsimp only at h
    split at h
    · obtain ⟨⟨s2, its⟩, h2, h⟩ := bind_ok_iff.1 h
      cases h
      have := program_length h2
      simp only [List.length_cons]
      omega
    · cases h; simp

/-- What the program filter gets, with the repeated tables. -/
theorem retold_between {c : Codec} {tabs tabs' : Nat → ServiceFilter.Out → List Table} {xs : List ServiceFilter.Out}
    {uss : List (List Table)} (hl : uss.length ≤ xs.length)
    (ht : ∀ k x l, xs[k]? = some x → uss[k]? = some l → tabs' k x = l) :
    Retold (seen (between c tabs) 0 xs) (seen (between c tabs') 0 xs) uss where
  packets := seen_map (between c tabs) (between c tabs') Input.packet (fun _ _ => rfl) xs 0
  tables n us hn := by
    have hk := (List.getElem?_eq_some_iff.1 hn).1
    have hx : xs[n]? = some xs[n] := List.getElem?_eq_getElem (by omega)
    rw [seen_get, hx]
    show some (tabs' (0 + n) _) = some us
    rw [Nat.zero_add, ht n _ us hx hn]

/-- What the recorder gets, with the repeated tables. -/
theorem retold_rec {c : Codec} {tabs tabs' : Nat → ServiceFilter.Out → List Table} {times : Nat → Int × Int × Int}
    {xs : List ServiceFilter.Out} {uss : List (List Table)} (hl : uss.length ≤ xs.length)
    (ht : ∀ k x l, xs[k]? = some x → uss[k]? = some l → tabs' k x = l) :
    ServiceRecorder.Rep.Retold (seen (betweenRec c tabs times) 0 xs) (seen (betweenRec c tabs' times) 0 xs) uss where
  packets := seen_map (betweenRec c tabs times) (betweenRec c tabs' times)
    (fun i => { i with tables := [] : ServiceRecorder.Input }) (fun _ _ => rfl) xs 0
  tables n us hn := by
    have hk := (List.getElem?_eq_some_iff.1 hn).1
    have hx : xs[n]? = some xs[n] := List.getElem?_eq_getElem (by omega)
    rw [seen_get, hx]
    show some (tabs' (0 + n) _) = some us
    rw [Nat.zero_add, ht n _ us hx hn]

theorem recorder_length {o : ServiceRecorder.Opt} : ∀ {is : List ServiceRecorder.Input} {h h1 : ServiceRecorder.Hist},
    foldP (ServiceRecorder.sink o) is h = .ok h1 → h1.items.length ≤ h.items.length + is.length
  | [], h, h1, hf => by cases hf; exact Nat.le_refl _
  | i :: is, h, h1, hf => by
    unfold foldP at hf
    obtain ⟨⟨ok, h2⟩, hs, hf⟩ := bind_ok_iff.1 hf
    dsimp only [ServiceRecorder.sink] at hs
    obtain ⟨⟨s, it⟩, _, hs⟩ := bind_ok_iff.1 hs
    cases hs
    dsimp only at hf
    split at hf
    · have := recorder_length hf
      simp only [List.length_append, List.length_cons, List.length_nil] at this ⊢
      omega
    · cases hf
      simp

/-- filter-program. -/
theorem program_repeats {w : World} {ps : List (List UInt8)} (hr : Reads w ps) {o : ProgramFilter.Opt} {f : ServiceFilter.St}
    {items : List ServiceFilter.Item}
    (hrun : ServiceFilter.run { sid := o.sid } (ServiceFilter.init { sid := o.sid }) (seen (input w.codec w.tables) 0 ps) = .ok (f, items))
    {uss : List (List Table)} (hu : Repeated [] (items.map (·.handled)) uss) {tabs' : Nat → List Table}
    (ht : ∀ k l, uss[k]? = some l → tabs' k = l) {g : ProgramFilter.St} {items2 : List ProgramFilter.Item}
    (hrun2 : ProgramFilter.run w.extra o (ProgramFilter.init o) (seen (between w.codec w.tables2) 0 (Spec.ServiceFilter.sent items)) = .ok (g, items2))
    {uss2 : List (List Table)} (hu2 : Repeated [] (items2.map (·.handled)) uss2) {tabs2' : Nat → ServiceFilter.Out → List Table}
    (ht2 : ∀ k x l, (Spec.ServiceFilter.sent items)[k]? = some x → uss2[k]? = some l → tabs2' k x = l) :
    filterProgram { w with tables := tabs', tables2 := tabs2' } o = filterProgram w o := by
  have hl : uss2.length ≤ (Spec.ServiceFilter.sent items).length := by
    have h1 := repeated_length hu2
    have h2 := program_length hrun2
    rw [seen_length] at h2
    rw [List.length_map] at h1
    omega
  unfold filterProgram Pipeline.filterProgram
  have key := feed_repeats hr hrun hu ht (tabs2' := tabs2')
    (S := fun a b : Nat × ProgramFilter.St × Nat × StdoutSink.St =>
      b.1 = a.1 ∧ ProgramFilter.Rep.Same a.2.1 b.2.1 ∧ b.2.2 = a.2.2)
    (alike_via (f := between w.codec w.tables2) (f' := between w.codec tabs2')
      (ProgramFilter.Rep.alike_sink (extra := w.extra) (o := o) (k := via (fun _ => programBytes w.codec) StdoutSink.sink)))
    (d := (0, ProgramFilter.init o, 0, StdoutSink.init w.write))
    ⟨rfl, ⟨rfl, ⟨rfl, fun _ => rfl⟩, rfl⟩, fun _ => follows_via
      (ProgramFilter.Rep.follows_repeated hrun2 ⟨rfl, fun _ => rfl⟩ (reflects_nil _ _) hu2 (retold_between hl ht2))⟩
    (fin := fun r => Except.ok (ε := Stop) { code := r.1, bytes := r.2.2.2.2.out : Ended })
    (fun c a b hab => by dsimp only; rw [hab.2.2])
  exact key

/-- record-service. -/
theorem recorder_repeats {w : World} {ps : List (List UInt8)} (hr : Reads w ps) {o : ServiceRecorder.Opt} {f : ServiceFilter.St}
    {items : List ServiceFilter.Item}
    (hrun : ServiceFilter.run { sid := o.sid } (ServiceFilter.init { sid := o.sid }) (seen (input w.codec w.tables) 0 ps) = .ok (f, items))
    {uss : List (List Table)} (hu : Repeated [] (items.map (·.handled)) uss) {tabs' : Nat → List Table}
    (ht : ∀ k l, uss[k]? = some l → tabs' k = l) {code : Nat} {h : ServiceRecorder.Hist}
    (hrec : Spec.ServiceRecorder.Recorded o w.file (seen (betweenRec w.codec w.tables2 w.times) 0 (Spec.ServiceFilter.sent items)) code h)
    {uss2 : List (List Table)} (hu2 : Repeated [] (h.items.map (·.handled)) uss2) {tabs2' : Nat → ServiceFilter.Out → List Table}
    (ht2 : ∀ k x l, (Spec.ServiceFilter.sent items)[k]? = some x → uss2[k]? = some l → tabs2' k x = l) :
    recordService { w with tables := tabs', tables2 := tabs2' } o = recordService w o := by
  have he := Props.C37ex.recorded_iff.1 hrec
  unfold Props.C37ex.exec at he
  obtain ⟨h0, hi, he⟩ := bind_ok_iff.1 he
  rw [feedPackets_fold] at he
  have hi0 : h0.items = [] := by
    unfold ServiceRecorder.init at hi
    obtain ⟨_, _, hi⟩ := bind_ok_iff.1 hi
    cases hi
    rfl
  unfold recordService Pipeline.recordService
  dsimp only
  rw [hi]
  show (feed _ _ _ >>= _) = (feed _ _ _ >>= _)
  have hst : Rel (fun a b : Bool × Nat × ServiceRecorder.Hist => b.1 = a.1 ∧
      (b.2.1 = a.2.1 ∧ ServiceRecorder.Rep.Same a.2.2.st b.2.2.st ∧ b.2.2.trace = a.2.2.trace) ∧
      (a.1 = true → Follows (fun a b : Nat × ServiceRecorder.Hist => b.1 = a.1 ∧ ServiceRecorder.Rep.Same a.2.st b.2.st ∧ b.2.trace = a.2.trace)
        (via (betweenRec w.codec w.tables2 w.times) (ServiceRecorder.sink o))
        (via (betweenRec w.codec tabs2' w.times) (ServiceRecorder.sink o)) (Spec.ServiceFilter.sent items) (Spec.ServiceFilter.sent items) a.2 b.2))
      ((via (betweenRec w.codec w.tables2 w.times) (ServiceRecorder.sink o)).start (0, h0))
      ((via (betweenRec w.codec tabs2' w.times) (ServiceRecorder.sink o)).start (0, h0)) := by
    unfold around at he
    obtain ⟨⟨ok, g0⟩, hs, he⟩ := bind_ok_iff.1 he
    have hs' : (ServiceRecorder.sink o).start h0 = .ok (ok, g0) := hs
    show Rel _ ((ServiceRecorder.sink o).start h0 >>= _) ((ServiceRecorder.sink o).start h0 >>= _)
    rw [hs', ok_bind]
    have hn : g0.items = [] ∧ g0.st.newEit = h0.st.newEit := by
      have hs2 : ServiceRecorder.start o h0 = .ok (ok, g0) := hs
      unfold ServiceRecorder.start at hs2
      dsimp only at hs2
      split at hs2 <;>
        (obtain ⟨⟨ok1, r⟩, _, hs2⟩ := bind_ok_iff.1 hs2
         dsimp only at hs2
         split at hs2 <;> (cases hs2; exact ⟨hi0, rfl⟩))
    have hsame : ServiceRecorder.Rep.Same g0.st g0.st := ⟨rfl, fun _ => rfl, Or.inl rfl, Or.inl rfl⟩
    refine ⟨rfl, ⟨rfl, hsame, rfl⟩, fun hx => ?_⟩
    have hx : ok = true := hx
    subst hx
    obtain ⟨g1, hfold, he⟩ := bind_ok_iff.1 he
    have hgi : g1.items = h.items := by
      obtain ⟨g2, hfin, he⟩ := bind_ok_iff.1 he
      cases hfin
      cases he
      rfl
    refine follows_via (ServiceRecorder.Rep.follows_repeated hfold (by rw [hn.1, hgi, List.nil_append]) hsame rfl
      (reflects_nil _ _) hu2 (retold_rec ?_ ht2))
    have h1 := repeated_length hu2
    have h2 := recorder_length hfold
    rw [hn.1, hgi, seen_length, List.length_nil] at h2
    rw [List.length_map] at h1
    omega
  have key := feed_repeats hr hrun hu ht (tabs2' := tabs2')
    (S := fun a b : Nat × ServiceRecorder.Hist => b.1 = a.1 ∧ ServiceRecorder.Rep.Same a.2.st b.2.st ∧ b.2.trace = a.2.trace)
    (alike_via (f := betweenRec w.codec w.tables2 w.times) (f' := betweenRec w.codec tabs2' w.times)
      (ServiceRecorder.Rep.alike_sink (o := o)))
    (d := (0, h0)) hst
    (fin := fun r => Except.ok (ε := Stop)
      { code := r.1, docs := messages r.2.2.trace, ops := operations r.2.2.trace : Ended })
    (fun c a b hab => by dsimp only; rw [hab.2.2])
  exact key

theorem repeats_refl : ∀ (h ts : List Table), Repeats h ts ts
  | _, [] => .nil
  | h, t :: ts => .new (repeats_refl (h ++ [t]) ts)

theorem repeated_refl : ∀ (h : List Table) (tss : List (List Table)), Repeated h tss tss
  | _, [] => .nil
  | h, ts :: tss => .cons (repeats_refl h ts) (repeated_refl (h ++ ts) tss)

theorem given_tables {uss : List (List Table)} : ∀ (k : Nat) (l : List Table), uss[k]? = some l → (uss[k]?).getD [] = l := by
  intro k l h
  rw [h]
  rfl

/-! A computable check of the repetitions, for examples. -/

/-- The table in force about the same as `t`. -/
def ruling (h : List Table) (t : Table) : Option Table := h.reverse.find? fun u => decide (subject u = subject t)

theorem ruling_sound {h : List Table} {t u : Table} (hs : subject t ≠ none) (hr : ruling h t = some u) :
    InForce h u ∧ subject u = subject t := by
  obtain ⟨h1, a, b, h2, h3⟩ := List.find?_eq_some_iff_append.1 hr
  have h1 : subject u = subject t := of_decide_eq_true h1
  refine ⟨⟨by rw [h1]; exact hs, b.reverse, a.reverse, ?_, fun v hv => ?_⟩, h1⟩
  · have := congrArg List.reverse h2
    rw [List.reverse_reverse] at this
    rw [this]
    simp
  · have := h3 v (List.mem_reverse.1 hv)
    rw [h1]
    exact of_decide_eq_false (by simpa using this)

def repeatsCheck : List Table → List Table → List Table → Bool
  | _, [], [] => true
  | _, _ :: _, [] => false
  | h, [], u :: us => (match ruling h u with
      | some t => decide (subject u ≠ none) && decide (u = { t with firstPacket := u.firstPacket, version := u.version })
      | none => false) && repeatsCheck h [] us
  | h, t :: ts, u :: us =>
    if t = u then repeatsCheck (h ++ [t]) ts us
    else (match ruling h u with
      | some t => decide (subject u ≠ none) && decide (u = { t with firstPacket := u.firstPacket, version := u.version })
      | none => false) && repeatsCheck h (t :: ts) us

theorem repeats_again {h ts us : List Table} {u : Table} (hr : Repeats h ts us)
    (hc : (match ruling h u with
      | some t => decide (subject u ≠ none) && decide (u = { t with firstPacket := u.firstPacket, version := u.version })
      | none => false) = true) : Repeats h ts (u :: us) := by
  split at hc
  · next t ht =>
    rw [Bool.and_eq_true] at hc
    have e := of_decide_eq_true hc.2
    rw [e]
    exact .again _ _ (ruling_sound (of_decide_eq_true hc.1) ht).1 hr
  · cases hc

theorem repeatsCheck_sound : ∀ {us h ts : List Table}, repeatsCheck h ts us = true → Repeats h ts us
  | [], h, [], _ => .nil
  | [], h, t :: ts, hc => by cases hc
  | u :: us, h, [], hc => by
    rw [repeatsCheck, Bool.and_eq_true] at hc
    exact repeats_again (repeatsCheck_sound hc.2) hc.1
  | u :: us, h, t :: ts, hc => by
    rw [repeatsCheck] at hc
    split at hc
    · next e =>
      subst e
      exact .new (repeatsCheck_sound hc)
    · rw [Bool.and_eq_true] at hc
      exact repeats_again (repeatsCheck_sound hc.2) hc.1

def repeatedCheck : List Table → List (List Table) → List (List Table) → Bool
  | _, [], [] => true
  | h, ts :: tss, us :: uss => repeatsCheck h ts us && repeatedCheck (h ++ ts) tss uss
  | _, _, _ => false

theorem repeatedCheck_sound : ∀ {tss uss : List (List Table)} {h : List Table}, repeatedCheck h tss uss = true →
    Repeated h tss uss
  | [], [], h, _ => .nil
  | [], _ :: _, h, hc => by cases hc
  | _ :: _, [], h, hc => by cases hc
  | ts :: tss, us :: uss, h, hc => by
    rw [repeatedCheck, Bool.and_eq_true] at hc
    exact .cons (repeatsCheck_sound hc.1) (repeatedCheck_sound hc.2)

end Mirakc.Main
