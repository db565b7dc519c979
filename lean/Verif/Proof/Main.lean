import Verif.Spec.Main
import Verif.Proof.Pipeline
import Verif.Proof.Run
import Verif.Proof.History
import Verif.Proof.Options
import Verif.Proof.PcrSynchronizer
import Verif.Proof.Pcr
/-
Lemmas about the whole program.
-/
namespace Mirakc.Main
open Mirakc.Pipeline Mirakc.Spec Mirakc.Spec.Main Mirakc.Spec.Pipeline

theorem streamOf_getD (rs : List (Option (List UInt8))) :
    streamOf (rs.map fun r => r.getD []) = upToEnd rs := by
  induction rs with
  | nil => rfl
  | cons r rs ih =>
    rcases r with _ | _ | ⟨b, bs⟩
    · rfl
    · rfl
    · simp only [List.map_cons, Option.getD_some, streamOf, upToEnd, ih]

theorem streamOf_readResults (w : World) : streamOf (readResults w) = contents w := by
  unfold readResults contents
  split
  · exact streamOf_getD _
  · rfl

theorem fits_readResults {w : World} (h : Fits w) : ∀ r ∈ readResults w, r.length ≤ 16384 := by
  intro r hr
  unfold readResults at hr
  split at hr
  · obtain ⟨o, h1, rfl⟩ := List.mem_map.1 hr
    cases o with
    | none => simp
    | some l => exact h l h1
  · cases hr

theorem streamOf_le (rs : List (List UInt8)) : (streamOf rs).length ≤ rs.flatten.length := by
  induction rs with
  | nil => simp [streamOf]
  | cons r rs ih =>
    cases r with
    | nil => simp [streamOf]
    | cons b bs => simp only [streamOf, List.flatten_cons, List.length_append]; omega

theorem reading {w : World} {ps : List (List UInt8)} (h : Reads w ps) :
    Reading (readResults w) ps ((readResults w).flatten.length + 1) where
  fits := fits_readResults h.1
  packets := by rw [streamOf_readResults]; exact h.2
  bound := Nat.lt_succ_of_le (streamOf_le _)

/-- What a command does depends only on the packets. -/
theorem feed_eq {w : World} {ps : List (List UInt8)} (h : Reads w ps) {σ : Type}
    (snk : Sink (List UInt8) σ) (s : σ) :
    feed w snk s = (feedPackets listSource snk (ps.length + 1) ps s).mapError .fault := by
  have hr := reading h
  unfold feed exec
  rw [feedPackets_list snk hr.yields _ hr.len]

theorem feed_congr {w w' : World} {ps : List (List UInt8)} (h : Reads w ps) (h' : Reads w' ps)
    {σ : Type} (snk : Sink (List UInt8) σ) (s : σ) : feed w snk s = feed w' snk s := by
  rw [feed_eq h, feed_eq h']

theorem reads_exist {w : World} (h : Fits w) : ∃ ps, Reads w ps := by
  obtain ⟨ps, hp⟩ := packets_exist (fits_readResults h)
  rw [streamOf_readResults] at hp
  exact ⟨ps, h, hp⟩

theorem bind_ok_iff {ε α β : Type} {x : Except ε α} {f : α → Except ε β} {b : β} :
    (x >>= f) = .ok b ↔ ∃ a, x = .ok a ∧ f a = .ok b := by
  cases x with
  | error e => constructor
               · intro h; cases h
               · rintro ⟨a, h, _⟩; cases h
  | ok a => constructor
            · intro h; exact ⟨a, rfl, h⟩
            · rintro ⟨_, h, h'⟩; cases h; exact h'

theorem mapError_ok_iff {ε ε' α : Type} {x : Except ε α} {f : ε → ε'} {a : α} :
    x.mapError f = .ok a ↔ x = .ok a := by
  cases x with
  | error e => constructor <;> intro h <;> cases h
  | ok b => constructor <;> intro h <;> cases h <;> rfl

theorem feed_unopened {w : World} (hw : w.opened = false) {σ : Type}
    (snk : Sink (List UInt8) σ) (s : σ) :
    feed w snk s = (feedPackets listSource snk 1 [] s).mapError .fault := by
  have hr : Reading (readResults w) [] 1 := by
    have : readResults w = [] := by simp [readResults, hw]
    rw [this]
    exact ⟨by simp, ⟨[], .done (by simp [streamOf]), rfl⟩, by simp [streamOf]⟩
  have : (readResults w).flatten.length + 1 = 1 := by simp [readResults, hw]
  unfold feed exec
  rw [this, feedPackets_list snk hr.yields 1 hr.len]
  rfl

theorem flush_empty (ws : List Int) : (StdoutSink.flush (StdoutSink.init ws)).2.out = [] := by
  cases ws <;> rfl

theorem loadRecorder_startPos {sid size num : Int} {pos : Option Nat} {o : ServiceRecorder.Opt}
    (h : Options.loadRecorder sid size num pos = .ok o) : o.startPos = pos.getD 0 := by
  unfold Options.loadRecorder at h
  dsimp only at h
  repeat' split at h
  all_goals first
    | cases h; done
    | (cases h; rfl)

theorem loadRecorder_sid {sid size num : Int} {pos : Option Nat} {o : ServiceRecorder.Opt}
    (h : Options.loadRecorder sid size num pos = .ok o) : o.sid = Options.toUint16 sid := by
  unfold Options.loadRecorder at h
  dsimp only at h
  repeat' split at h
  all_goals first
    | cases h; done
    | (cases h; rfl)

/-- A command that looks at the packets of the stream, as a run of its sink. -/
theorem ran_of_feed {P σ : Type} {w : World} {ps : List (List UInt8)} (hr : Reads w ps)
    {f : Nat → List UInt8 → P} {snk : Sink P σ} {s0 s : σ} {code n : Nat}
    (h : feed w (via f snk) (0, s0) = .ok (code, n, s)) : Ran snk s0 (seen f 0 ps) code s := by
  rw [feed_eq hr, mapError_ok_iff] at h
  apply ran_iff.2
  rcases feedPackets_cases (listSource_yields ps) (Nat.lt_succ_self _) h with ⟨h1, h2⟩ | ⟨⟨m, s1⟩, ⟨k, s2⟩, cs, h1, h2, h3, h4⟩
  · obtain ⟨⟨ok, d⟩, h3, h4⟩ := bind_ok_iff.1 h1
    cases h4
    simp only [feedPackets, h3, ok_bind, h2]
    rfl
  · obtain ⟨⟨ok, d⟩, h5, h6⟩ := bind_ok_iff.1 h1
    cases h6
    obtain ⟨d2, h7, h8⟩ := bind_ok_iff.1 h3
    cases h8
    rw [h4]
    exact feedPackets_of (listSource_yields _) (Nat.lt_succ_self _) h5 (via_consumes h2).1 h7

theorem mem_seen_lt {P Q : Type} {f : Nat → Q → P} {qs : List Q} {p : P} :
    ∀ {n : Nat}, p ∈ seen f n qs → ∃ m q, m < n + qs.length ∧ q ∈ qs ∧ p = f m q := by
  induction qs with
  | nil => intro n h; cases h
  | cons q qs ih =>
    intro n h
    rcases List.mem_cons.1 h with rfl | h
    · exact ⟨n, q, by simp, by simp, rfl⟩
    · obtain ⟨m, q', h0, h1, h2⟩ := ih h
      exact ⟨m, q', by simp only [List.length_cons]; omega, by simp [h1], h2⟩

theorem sidSet_spec {arg : Option (List (List Char))} (hn : Numbers arg) {sids : List Nat}
    (h : sidSet arg = .ok sids) : (∀ x : Nat, x ∈ sids ↔ Names arg x) ∧
      (sids = [] ↔ arg = none ∨ arg = some []) ∧ ∀ x ∈ sids, x < 65536 := by
  rw [sidSet, mapError_ok_iff] at h
  cases arg with
  | none =>
    simp only [Options.loadSidSet, Except.ok.injEq] at h
    subst h
    simp [Names]
  | some l =>
    have hn := hn l rfl
    rcases Options.addSids_spec l [] with ⟨_, t, h1, h2⟩ | ⟨_, h1⟩
    · have e : sids = t := by
        simp only [Options.loadSidSet, h1, List.nil_append, Except.ok.injEq] at h
        exact h.symm
      subst e
      have key : ∀ x : Nat, x ∈ sids ↔ ∃ s ∈ l, Spec.Options.Denotes s x := by
        intro x
        rw [h2]
        constructor
        · rintro ⟨s, hs, v, hv, hx⟩
          obtain ⟨v', hv', hb⟩ := hn s hs
          have := (Options.reads_unique hv hv').1
          subst this
          have : (x : Int) = v := by omega
          exact ⟨s, hs, this ▸ hv⟩
        · rintro ⟨s, hs, hx⟩
          obtain ⟨v', hv', hb⟩ := hn s hs
          have := (Options.reads_unique hx hv').1
          exact ⟨s, hs, x, hx, by omega⟩
      refine ⟨fun x => ?_, ?_, fun x hx => ?_⟩
      · rw [key]
        constructor
        · intro h; exact ⟨l, rfl, h⟩
        · rintro ⟨_, h, h'⟩; cases h; exact h'
      · constructor
        · intro e
          right
          cases l with
          | nil => rfl
          | cons s l =>
            exfalso
            obtain ⟨v, hv, hb⟩ := hn s List.mem_cons_self
            have : v.toNat ∈ sids := (key _).2 ⟨s, List.mem_cons_self, by
              rw [Int.toNat_of_nonneg hb.1]; exact hv⟩
            rw [e] at this; cases this
        · rintro (h | h)
          · cases h
          · cases h
            rw [List.eq_nil_iff_forall_not_mem]
            intro x hx
            obtain ⟨s, hs, _⟩ := (key x).1 hx
            cases hs
      · obtain ⟨s, hs, hx⟩ := (key x).1 hx
        obtain ⟨v', hv', hb⟩ := hn s hs
        have := (Options.reads_unique hx hv').1
        omega
    · simp only [Options.loadSidSet, h1] at h
      cases h

/-- The service ids in both representations. -/
theorem mem_ofNat {sids : List Nat} (hb : ∀ x ∈ sids, x < 65536) (x : UInt16) :
    x ∈ sids.map UInt16.ofNat ↔ x.toNat ∈ sids := by
  rw [List.mem_map]
  constructor
  · rintro ⟨y, hy, rfl⟩
    rw [UInt16.toNat_ofNat_of_lt' (hb y hy)]
    exact hy
  · intro h
    exact ⟨_, h, UInt16.ofNat_toNat⟩

theorem asked_iff {a b : Option (List (List Char))} (ha : Numbers a) (hb : Numbers b)
    {sids xsids : List Nat} (h1 : sidSet a = .ok sids) (h2 : sidSet b = .ok xsids) (sid : Nat) :
    ((sids = [] ∨ sid ∈ sids) ∧ sid ∉ xsids) ↔ Asked a b sid := by
  obtain ⟨k1, k2, _⟩ := sidSet_spec ha h1
  obtain ⟨k3, _, _⟩ := sidSet_spec hb h2
  rw [k1, k2, k3, Asked, or_assoc]

end Mirakc.Main

namespace Mirakc.PcrSynchronizer
open Mirakc.Spec Mirakc.Spec.PcrSynchronizer

/-- PCRs captured are valid. -/
def ValidPcrs (s : St) : Prop := ∀ pid v, s.pcrMap.find? pid = some v → isValidPcr v = true

theorem countPmts_pcrMap (sdt : Sdt) : ∀ (l : List (Nat × Nat)) (s : St),
    (countPmts sdt l s).pcrMap = s.pcrMap := by
  intro l
  induction l with
  | nil => intro s; rfl
  | cons x l ih =>
    intro s
    obtain ⟨sid, pid⟩ := x
    simp only [countPmts]
    split
    · exact ih s
    · split
      · exact ih s
      · exact ih _

theorem handleTable_valid {o : Opt} {s s' : St} {t : Table} (hs : ValidPcrs s)
    (h : handleTable o s t = .ok s') : ValidPcrs s' := by
  have hreset : ValidPcrs (resetStates s) := by
    intro pid v hv
    have : (OMap.empty : OMap Int).find? pid = some v := hv
    rw [OMap.find?_empty] at this; cases this
  unfold handleTable at h
  split at h <;> simp only [Except.ok.injEq] at h <;> subst h
  · unfold handlePat
    dsimp only
    split
    · exact hs
    split
    · exact hs
    split
    · exact hs
    split <;> split <;> first | exact hreset | exact hs
  · unfold handlePmt
    dsimp only
    repeat' split
    all_goals exact hs
  · unfold handleSdt
    split
    · exact hs
    · unfold ValidPcrs
      rw [countPmts_pcrMap]; exact hs
  · unfold handleTot
    split <;> exact hs
  · exact hs

theorem step_valid {o : Opt} {s s' : St} {i : Input} {did : List Table} {more : Bool}
    (hs : ValidPcrs s) (h : step o s i = .ok (s', did, more)) :
    ValidPcrs s' ∧ ∀ t ∈ did, t ∈ i.tables := by
  unfold step at h
  dsimp only at h
  split at h
  · cases h; exact ⟨hs, by simp⟩
  · obtain ⟨⟨s1, log⟩, h1, h⟩ := bind_eq_ok h
    have hv : ValidPcrs s1 := feedDemux_inv (fun s _ => ValidPcrs s)
      (fun _ _ _ _ k _ _ k' => handleTable_valid k k') _ _ _ _ [] hs h1
    have hl : ∀ t ∈ log, t ∈ i.tables := fun t ht => (feedDemux_log _ _ _ _ h1 t ht).1
    dsimp only at h
    split at h
    · cases h; exact ⟨hv, hl⟩
    · split at h
      · split at h
        · cases h; exact ⟨hv, hl⟩
        · next pcr _ =>
          obtain ⟨_, h2, h⟩ := bind_eq_ok h
          have hp : isValidPcr pcr = true := by
            unfold formatPcr at h2
            obtain ⟨_, h3, _⟩ := bind_eq_ok h2
            cases hq : isValidPcr pcr with
            | true => rfl
            | false => rw [hq] at h3; cases h3
          have hv' : ∀ pid v, (s1.pcrMap.set i.packet.pid pcr).find? pid = some v → isValidPcr v = true := by
            intro pid v hf
            rw [OMap.find?_set] at hf
            split at hf
            · cases hf; exact hp
            · exact hv pid v hf
          split at h <;> (cases h; exact ⟨hv', hl⟩)
      · cases h; exact ⟨hv, hl⟩

theorem reach_valid {o : Opt} {items : List (Line Input (List Table))} {s : St}
    (h : Reach (step o) {} items s) :
    ValidPcrs s ∧ ∀ it ∈ items, ∀ t ∈ it.did, t ∈ it.input.tables := by
  induction h with
  | nil =>
    refine ⟨?_, by simp⟩
    intro pid v hv
    have : (OMap.empty : OMap Int).find? pid = some v := hv
    rw [OMap.find?_empty] at this; cases this
  | @snoc items s i s' a more h1 h2 h3 ih =>
    obtain ⟨k1, k2⟩ := step_valid ih.1 h3
    refine ⟨k1, fun it hit => ?_⟩
    rcases List.mem_append.1 hit with hit | hit
    · exact ih.2 it hit
    · rw [List.mem_singleton] at hit; subst hit; exact k2

end Mirakc.PcrSynchronizer
