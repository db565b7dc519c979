import Verif.Proof.ServiceScanner
/-
Properties C56, C57: scan-services.
-/
set_option linter.unusedSimpArgs false

namespace Mirakc.Props
open Mirakc.Spec Mirakc.Spec.ServiceScanner Mirakc.ServiceScanner

namespace C56ex

/-- A PAT with the services 1, 2 and 3. -/
def pat (nitPid : Nat) : Table :=
  { sourcePid := 0
    body := .pat { tsId := 7, nitPid := nitPid, pmts := ⟨[(1, 0x100), (2, 0x200), (3, 0x300)], by simp⟩ } }
/-- An SDT with the services 1, 2 and 4. -/
def sdt (tsId : Nat) : Table :=
  { sourcePid := 0x11
    body := .sdt
      { tsId := tsId, onetwId := 4
        services := ⟨[(1, ⟨0x01, "A", some (1, 9)⟩), (2, ⟨0xC0, "B", none⟩), (4, ⟨0x01, "C", none⟩)], by simp⟩ } }
/-- A NIT with one stream. -/
def nit (pid key : Nat) : Table :=
  { sourcePid := pid, body := .nit { transports := [((7, 4), [key, 8])] } }
/-- A packet that completes the table. -/
def pkt (t : Table) : Input := ⟨{ pid := t.sourcePid }, [t]⟩

/-- The tables in some order, with repetitions. -/
def input : List Input :=
  [pkt (nit 0x10 3), pkt (sdt 7), pkt (nit 0x10 5), pkt (sdt 7), pkt (pat 0x10), pkt (nit 0x10 6)]
/-- What is printed. -/
def out : List ServiceEntry := [⟨4, 7, 1, "A", 0x01, 9, some 5⟩]
theorem run_input : ∃ h, Scanned {} input 0 h ∧ h.st.out = some out ∧ h.items.length = 5 :=
  scanned_of_eval (by decide +kernel)

end C56ex

/-- **C56.**  What is printed lists, in increasing order of their ids, exactly the services
of the latest PAT that are services with audio or video in the latest SDT and are selected
by the options, with the ids of the SDT, type, name and logo of the service, and the remote
control key that the latest NIT has for the stream of the SDT. -/
theorem C56_services (o : Opt) (is : List Input) (code : Nat) (h : Hist) (es : List ServiceEntry)
    (hr : Scanned o is code h) (he : h.st.out = some es) :
    ∃ pat sdt nit, latestPat (received (consumed h)) = some pat ∧
      latestSdt (received (consumed h)) = some sdt ∧ latestNit (received (consumed h)) = some nit ∧
      es.Pairwise (fun a b => a.sid < b.sid) ∧ ∀ e, e ∈ es ↔ IsEntry o pat sdt nit e := by
  obtain ⟨s, hi, _, h3⟩ := scanned hr
  rcases h3 with ⟨_, k, _⟩ | ⟨_, k, ⟨c1, c2, c3⟩, _⟩
  · rw [k] at he; cases he
  · rw [k] at he
    cases he
    cases hp : latestPat (received (consumed h)) with
    | none => exact absurd hp c1
    | some pat =>
      cases hs : latestSdt (received (consumed h)) with
      | none => exact absurd hs c2
      | some sdt =>
        cases hn : latestNit (received (consumed h)) with
        | none => exact absurd hn c3
        | some nit =>
          have e : collectServices o s = collectLoop o sdt (some nit) pat.pmts.entries := by
            unfold collectServices
            rw [hi.pat, hp, hi.sdt, hs, hi.nit, hn]
          rw [e]
          refine ⟨pat, sdt, nit, rfl, rfl, rfl, (collect_sorted o sdt (some nit) pat.pmts.sorted).1, fun e => ?_⟩
          rw [mem_collect]
          unfold IsEntry
          simp only [OMap.find?_iff]

example : ∃ h es e, Scanned {} C56ex.input 0 h ∧ h.st.out = some es ∧ e ∈ es := by
  obtain ⟨h, h1, h2, _⟩ := C56ex.run_input
  exact ⟨h, _, _, h1, h2, List.mem_singleton.2 rfl⟩

namespace C57ex
open C56ex

/-- A PAT, its SDT, and the NIT on the PID of which the PAT says that the NIT is there. -/
def Received (l : List Table) : Prop :=
  ∃ pat ∈ l.filterMap patOf,
    (∃ t ∈ l, t.sourcePid = 0x11 ∧ ∃ sdt, sdtOf t = some sdt ∧ sdt.tsId = pat.tsId) ∧
    ∃ t ∈ l, t.sourcePid = (if MovesNit pat then pat.nitPid else 0x10) ∧ nitOf t ≠ none

/-- The SDT is that of another stream. -/
def other : List Input := [pkt (nit 0x10 5), pkt (sdt 8), pkt (pat 0x10)]
theorem run_other : ∃ h, Scanned {} other 0 h ∧
    h.st.out = some [⟨4, 8, 1, "A", 0x01, 9, none⟩] ∧ h.items.length = 3 :=
  scanned_of_eval (by decide +kernel)

/-- The NIT is on another PID, and the PAT is received again before the SDT. -/
def again : List Input := [pkt (pat 0x20), pkt (nit 0x20 5), pkt (pat 0x20), pkt (sdt 7)]
theorem run_again : ∃ h, Scanned {} again 1 h ∧ h.st.out = none ∧ h.items.length = 4 :=
  scanned_of_eval (by decide +kernel)

/-- The NIT is moved and moved back. -/
def back : List Input := [pkt (pat 0x20), pkt (pat 0x10), pkt (nit 0x10 5), pkt (sdt 7), pkt (nit 0x10 5)]
theorem run_back : ∃ h, Scanned {} back 1 h ∧ h.st.out = none ∧ h.items.length = 5 :=
  scanned_of_eval (by decide +kernel)

end C57ex

/-- **C57** does not hold as claimed: the command succeeds with an SDT of another stream
than that of the PAT. -/
theorem C57_claim_false : ¬ ∀ (o : Opt) (is : List Input) (code : Nat) (h : Hist),
    Scanned o is code h → code = 0 → C57ex.Received (received is) := by
  intro hall
  obtain ⟨h, h1, _⟩ := C57ex.run_other
  obtain ⟨pat, hp, ⟨t, ht, hpid, sdt, hs, he⟩, _⟩ := hall _ _ _ _ h1 rfl
  have e1 : (received C57ex.other).filterMap patOf = [{ tsId := 7, nitPid := 0x10, pmts :=
    ⟨[(1, 0x100), (2, 0x200), (3, 0x300)], by simp⟩ }] := by decide +kernel
  rw [e1, List.mem_singleton] at hp
  subst hp
  have e2 : ((received C57ex.other).filterMap sdtOf).map (·.tsId) = [8] := by decide +kernel
  have : sdt.tsId ∈ ((received C57ex.other).filterMap sdtOf).map (·.tsId) :=
    List.mem_map.2 ⟨sdt, List.mem_filterMap.2 ⟨t, ht, hs⟩, rfl⟩
  rw [e2, he] at this
  simp at this

/-- **C57** does not hold as claimed: the NIT is forgotten if a PAT that says that the NIT
is not on its usual PID is received (again), so that the command fails though a PAT and the
corresponding SDT and NIT have been received. -/
theorem C57_lost_nit_claim_false : ¬ ∀ (o : Opt) (is : List Input) (code : Nat) (h : Hist),
    Scanned o is code h → C57ex.Received (received is) → code = 0 := by
  intro hall
  obtain ⟨h, h1, _⟩ := C57ex.run_again
  have := hall _ _ _ _ h1 (by
    refine ⟨{ tsId := 7, nitPid := 0x20, pmts := ⟨[(1, 0x100), (2, 0x200), (3, 0x300)], by simp⟩ }, ?_, ?_, ?_⟩
    · decide +kernel
    · exact ⟨C56ex.sdt 7, by decide +kernel, rfl, _, rfl, rfl⟩
    · exact ⟨C56ex.nit 0x20 5, by decide +kernel, rfl, by decide +kernel⟩)
  cases this

/-- **C57** does not hold as claimed: once a PAT said that the NIT is on another PID, the
usual PID is never listened to again, even if a later PAT says that the NIT is there. -/
theorem C57_moved_back_claim_false : ¬ ∀ (o : Opt) (before is : List Input) (code : Nat) (h : Hist),
    Scanned o (before ++ is) code h → moves (received is) = [] → C57ex.Received (received is) → code = 0 := by
  intro hall
  obtain ⟨h, h1, _⟩ := C57ex.run_back
  have := hall {} [C56ex.pkt (C56ex.pat 0x20)] (C57ex.back.drop 1) 1 h h1 (by decide +kernel) (by
      refine ⟨{ tsId := 7, nitPid := 0x10, pmts := ⟨[(1, 0x100), (2, 0x200), (3, 0x300)], by simp⟩ }, ?_, ?_, ?_⟩
      · decide +kernel
      · exact ⟨C56ex.sdt 7, by decide +kernel, rfl, _, rfl, rfl⟩
      · exact ⟨C56ex.nit 0x10 5, by decide +kernel, rfl, by decide +kernel⟩)
  cases this

/-- **C57**, in part.  The command never aborts.  It ends with the first packet with which
all tables are there, and then succeeds and prints a document; otherwise it reads all
packets, fails and prints nothing.  All tables are there means: a usable PAT, a usable SDT
(of any stream: this is missing) and a NIT, received since a PAT said that it is not on its
usual PID (this is missing). -/
theorem C57_finish_partial (o : Opt) (is : List Input) :
    (∀ (τ : Type) (src : Source Input τ) (t : τ) (fuel : Nat), Yields src t is → is.length < fuel →
      ∃ r, feedPackets src (sink o) fuel t { st := {} } = .ok r) ∧
    ∀ (code : Nat) (h : Hist), Scanned o is code h →
      (code = 0 ∧ (∃ es, h.st.out = some es) ∧ ∃ before i after, is = before ++ i :: after ∧
        consumed h = before ++ [i] ∧ ¬ Complete (received before) ∧ Complete (received (before ++ [i]))) ∨
      (code = 1 ∧ h.st.out = none ∧ consumed h = is ∧ ¬ Complete (received is)) := by
  refine ⟨fun τ src t fuel hy hl => ?_, fun code h hr => ?_⟩
  · refine ran_total (fun _ => True) (fun s _ i _ => ?_) (fun s _ => ?_) trivial src t fuel hy hl
    · obtain ⟨s', more, h⟩ := step_total s i
      exact ⟨s', (), more, h, trivial⟩
    · unfold finish
      split <;> exact ⟨_, rfl⟩
  · obtain ⟨s, _, hpre, h3⟩ := scanned hr
    rcases h3 with ⟨h1, h2, h3, h4⟩ | ⟨h1, h2, h3, before, i, h4, h5⟩
    · exact .inr ⟨h1, h2, h3, h4⟩
    · obtain ⟨after, ha⟩ := hpre
      rw [h4] at ha h3
      exact .inl ⟨h1, ⟨_, h2⟩, before, i, after, by rw [← ha]; simp, h4, h5, h3⟩

example : ∃ h, Scanned {} C56ex.input 0 h := by
  obtain ⟨h, h1, _⟩ := C56ex.run_input
  exact ⟨h, h1⟩

/-- **C57**, in part.  If no PAT says that the NIT is not on its usual PID, and tables are
on their PIDs, the command succeeds if and only if a usable PAT, a usable SDT and a valid
NIT are received, in any order and with any repetition. -/
theorem C57_any_order_partial (o : Opt) (is : List Input) (code : Nat) (h : Hist) (hr : Scanned o is code h)
    (hm : moves (received is) = [])
    (hs : ∀ t ∈ received is, sdtOf t ≠ none → t.sourcePid = 0x11)
    (hn : ∀ t ∈ received is, nitOf t ≠ none → t.sourcePid = 0x10) :
    code = 0 ↔ (∃ t ∈ received is, patOf t ≠ none) ∧ (∃ t ∈ received is, sdtOf t ≠ none) ∧
      ∃ t ∈ received is, nitOf t ≠ none := by
  -- what completeness means then
  have look : ∀ l : List Table, moves l = [] → ∀ t, (sdtOf t ≠ none → t.sourcePid = 0x11) →
      (nitOf t ≠ none → t.sourcePid = 0x10) → (sdtOf t ≠ none ∨ nitOf t ≠ none) → Watched l t.sourcePid := by
    intro l hl t h1 h2 h3
    rcases h3 with h3 | h3
    · exact .inr (.inl (h1 h3))
    · exact .inr (.inr (.inl ⟨h2 h3, hl⟩))
  have main : ∀ l : List Table, moves l = [] → (∀ t ∈ l, sdtOf t ≠ none → t.sourcePid = 0x11) →
      (∀ t ∈ l, nitOf t ≠ none → t.sourcePid = 0x10) →
      (Complete l ↔ (∃ t ∈ l, patOf t ≠ none) ∧ (∃ t ∈ l, sdtOf t ≠ none) ∧ ∃ t ∈ l, nitOf t ≠ none) := by
    intro l hm hs hn
    have hlook : ∀ a b, a ++ b = l → (latestSdt a ≠ none ↔ ∃ t ∈ a, sdtOf t ≠ none) ∧
        (latestNit a ≠ none ↔ ∃ t ∈ a, nitOf t ≠ none) := by
      intro a
      induction a using list_snoc_rec with
      | nil => intro b _; simp [latestSdt, latestNit, looked, lookedAfter, sinceMove]
      | snoc a t ih =>
        intro b e
        obtain ⟨i1, i2⟩ := ih (t :: b) (by simpa using e)
        have hma : moves (a ++ [t]) = [] := by
          have : moves l = moves (a ++ [t]) ++ moves b := by
            rw [← e]; simp only [moves, List.filterMap_append, List.filter_append]
          rw [hm] at this
          exact (List.append_eq_nil_iff.1 this.symm).1
        rw [moves_snoc, List.append_eq_nil_iff] at hma
        have ht : t ∈ l := by rw [← e]; simp
        have hw := look a hma.1 t (hs t ht) (hn t ht)
        rw [latestSdt_snoc, latestNit_snoc _ _ hma.2]
        constructor
        · cases hst : sdtOf t with
          | none =>
            simp only [ite_self, i1, List.mem_append, List.mem_singleton]
            grind
          | some x =>
            rw [if_pos (hw (.inl (by rw [hst]; simp)))]
            simp only [ne_eq, reduceCtorEq, not_false_eq_true, List.mem_append, List.mem_singleton, true_iff]
            exact ⟨t, .inr rfl, by simp [hst]⟩
        · cases hnt : nitOf t with
          | none =>
            simp only [ite_self, i2, List.mem_append, List.mem_singleton]
            grind
          | some x =>
            rw [if_pos (hw (.inr (by rw [hnt]; simp)))]
            simp only [ne_eq, reduceCtorEq, not_false_eq_true, List.mem_append, List.mem_singleton, true_iff]
            exact ⟨t, .inr rfl, by simp [hnt]⟩
    obtain ⟨i1, i2⟩ := hlook l [] (by simp)
    unfold Complete
    rw [i1, i2]
    have : latestPat l ≠ none ↔ ∃ t ∈ l, patOf t ≠ none := by
      unfold latestPat
      rw [ne_eq, List.getLast?_eq_none_iff, List.filterMap_eq_nil_iff]
      grind
    rw [this]
  obtain ⟨s, _, hpre, h3⟩ := scanned hr
  rcases h3 with ⟨h1, _, _, h4⟩ | ⟨h1, _, h3, _⟩
  · rw [main _ hm hs hn] at h4
    rw [h1]
    exact ⟨fun h => absurd h (by decide), fun h => absurd h h4⟩
  · refine ⟨fun _ => ?_, fun _ => h1⟩
    obtain ⟨after, rfl⟩ := hpre
    have er : received (consumed h ++ after) = received (consumed h) ++ received after := by simp [received]
    rw [er] at hm hs hn
    have hmc : moves (received (consumed h)) = [] := by
      have : moves (received (consumed h) ++ received after) =
          moves (received (consumed h)) ++ moves (received after) := by
        simp [moves, List.filterMap_append, List.filter_append]
      rw [hm] at this
      exact (List.append_eq_nil_iff.1 this.symm).1
    rw [main _ hmc (fun t ht => hs t (List.mem_append.2 (.inl ht)))
      (fun t ht => hn t (List.mem_append.2 (.inl ht)))] at h3
    rw [er]
    obtain ⟨⟨t1, a1, b1⟩, ⟨t2, a2, b2⟩, ⟨t3, a3, b3⟩⟩ := h3
    exact ⟨⟨t1, List.mem_append.2 (.inl a1), b1⟩, ⟨t2, List.mem_append.2 (.inl a2), b2⟩,
      ⟨t3, List.mem_append.2 (.inl a3), b3⟩⟩

example : ∃ h, Scanned {} C56ex.input 0 h ∧ moves (received C56ex.input) = [] ∧
    (∀ t ∈ received C56ex.input, sdtOf t ≠ none → t.sourcePid = 0x11) ∧
    ∀ t ∈ received C56ex.input, nitOf t ≠ none → t.sourcePid = 0x10 := by
  obtain ⟨h, h1, _⟩ := C56ex.run_input
  exact ⟨h, h1, by decide +kernel, by decide +kernel, by decide +kernel⟩

end Mirakc.Props
