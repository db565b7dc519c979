import Verif.Proof.PesTables
import Verif.Props.PesPrinter
/-
Properties C97 and C98: the tables of print-pes.
-/
namespace Mirakc.Props
open Mirakc.Spec Mirakc.Spec.PesPrinter

/-- **C97.**  With every packet, print-pes first prints the lines with its stamps, and then,
for every table looked at, one after the other, what is in it: for a PAT its services, for a
PMT its streams and what they are, for an EIT of a service of the latest PAT its events, for a
TOT the time.  A line with a PTS or DTS says what the stream is by the latest PMT with the
stream. -/
theorem C97_lines (is : List Input) (code : Nat) (h : PesPrinter.Hist) (hr : Printed is code h)
    (a : List (Line Input PesPrinter.Did)) (x : Line Input PesPrinter.Did)
    (b : List (Line Input PesPrinter.Did)) (he : h.items = a ++ x :: b) :
    ∃ stamped, x.did.lines = stamped ++ texts (looked a) x.did.tables ∧
      ∀ ln ∈ stamped, ln.pcr.isSome = true ∧
        ln.label = if ln.msg = .pcr x.input.packet.pid then none
          else streamKind x.input.packet.pid (looked a) := by
  obtain ⟨s, h1, _⟩ := Ran.reach hr
  obtain ⟨s1, s2, k1, _, k2, _⟩ := h1.split a x b he
  obtain ⟨_, ls, j1, j2⟩ := PesPrinter.step_words (PesPrinter.reach_words k1) k2
  exact ⟨ls, j1, j2⟩

namespace C97ex

/-- An EIT of a service. -/
def eit (sid : Nat) : Table :=
  { sourcePid := 0x12, version := 9, body := .eit { serviceId := sid, events := [
    { eventId := 5, startTime := 1000, duration := 90 }, { eventId := 6, startTime := 91000, duration := 3600 }] } }
/-- A PMT with audio and subtitles. -/
def pmt : Table :=
  { sourcePid := 0x100, version := 3
    body := .pmt { serviceId := 1, pcrPid := 0x110, streams :=
      ⟨[(0x111, { isAudio := true, tag := some 0x10, streamType := 15 }),
        (0x112, { tag := some 0x30, streamType := 6 })], by decide⟩ } }
/-- Two EITs in a packet; then a packet with a PTS. -/
def input : List Input := [C60ex.tab C60ex.pat, C60ex.tab pmt, ⟨{ pid := 0x12 }, [eit 1, eit 2]⟩,
  ⟨{ pid := 0x112, pts := some 90000 }, []⟩]

end C97ex

/-- Non-trivial case for C97: the lines of a PMT, those of an EIT, but not of that of another
service, and the label of a PTS. -/
example : ∃ h, Printed C97ex.input 0 h ∧ h.items.map (·.did.lines) =
    [[{ msg := .pat 0 0 }, { msg := .service 1 0x100 }],
      [{ msg := .pmt 1 0x110 3 }, { msg := .stream 0x111 .audio 15 }, { msg := .stream 0x112 .aribSubtitle 6 }],
      [{ msg := .eit 1 9 }, { msg := .event 0 5 1000 91000 1 }, { msg := .event 1 6 91000 3691000 60 }],
      [{ pcr := some 27000000, msg := .pts 0x112, label := some .aribSubtitle }]] := by
  obtain ⟨c, h, hr, hp⟩ := ran_of_check (snk := PesPrinter.sink) (s0 := { st := {} })
    (is := C97ex.input) (P := fun c h => decide (c = 0 ∧ h.items.map (·.did.lines) =
    [[{ msg := .pat 0 0 }, { msg := .service 1 0x100 }],
      [{ msg := .pmt 1 0x110 3 }, { msg := .stream 0x111 .audio 15 }, { msg := .stream 0x112 .aribSubtitle 6 }],
      [{ msg := .eit 1 9 }, { msg := .event 0 5 1000 91000 1 }, { msg := .event 1 6 91000 3691000 60 }],
      [{ pcr := some 27000000, msg := .pts 0x112, label := some .aribSubtitle }]])) (by decide +kernel)
  obtain ⟨h1, h2⟩ := of_decide_eq_true hp
  exact ⟨h, h1 ▸ hr, h2⟩

/-- **C98.**  Whatever is received, print-pes looks at exactly the tables of the PIDs of the
PMTs of the services followed, and at those of PAT, CAT, EIT and TOT as long as these were not
PIDs of PMTs; the services followed are those of the latest PAT looked at if that was on PID 0,
otherwise none.  It goes on until the latest PAT looked at is on PID 0 and lists no services,
and then stops with the packet; otherwise it reads the whole input. -/
theorem C98_watched (is : List Input) (code : Nat) (h : PesPrinter.Hist) (hr : Printed is code h) :
    (∀ a x b, h.items = a ++ x :: b →
      Looked x.input.packet.pid (looked a) (received [x.input]) x.did.tables) ∧
    h.items.map (·.input) <+: is ∧
    (∀ a b, h.items = a ++ b → b ≠ [] → ¬ Deserted (looked a)) ∧
    (¬ Deserted (looked h.items) → h.items.map (·.input) = is) := by
  obtain ⟨s, h1, _, _, h4, h5⟩ := Ran.reach hr
  have at_ : ∀ a x b, h.items = a ++ x :: b →
      Looked x.input.packet.pid (looked a) (received [x.input]) x.did.tables ∧
      (x.more = true ↔ ¬ Deserted (looked (a ++ [x]))) := by
    intro a x b e
    obtain ⟨s1, s2, k1, _, k2, _⟩ := h1.split a x b e
    obtain ⟨j1, j2, j3⟩ := PesPrinter.step_watch (PesPrinter.reach_watch k1) k2
    refine ⟨j2, ?_⟩
    rw [PesPrinter.looked_snoc, ← j1.done, j3]
    simp
  refine ⟨fun a x b e => (at_ a x b e).1, h4, fun a b e hb hd => ?_, fun hd => ?_⟩
  · rcases List.eq_nil_or_concat a with rfl | ⟨a', x, rfl⟩
    · obtain ⟨pat, hp, _⟩ := hd
      cases hp
    · rw [List.concat_eq_append] at hd e
      have hx : x.more = true := by
        obtain ⟨y, b', rfl⟩ : ∃ y b', b = y :: b' := by
          cases b with
          | nil => exact absurd rfl hb
          | cons y b' => exact ⟨y, b', rfl⟩
        obtain ⟨_, _, _, hall, _⟩ := h1.split (a' ++ [x]) y b' e
        exact hall x (by simp)
      exact (at_ a' x b (by simpa using e)).2.1 hx hd
  · rcases h5 with ⟨h5, _⟩ | ⟨x, h5, h6⟩
    · exact h5
    · have e : h.items = h.items.dropLast ++ [x] := eq_dropLast_append h5
      have := (at_ _ x [] e).2
      rw [← e, h6] at this
      exact absurd (this.2 hd) (by simp)

namespace C98ex

/-- The PMT is on the PID for the EIT. -/
def odd : Table := { sourcePid := 0, body := .pat { tsId := 7, pmts := ⟨[(1, 0x12)], by decide⟩ } }
/-- After the odd PAT and a regular one, EITs are no longer looked at; after the strange PAT
PMTs are no longer looked at, either. -/
def input : List Input := [C60ex.tab odd, C60ex.tab (C97ex.eit 1), C60ex.tab C60ex.pat, C60ex.tab (C97ex.eit 1),
  C60ex.tab C60ex.pmt, C60ex.tab C82ex.strange, C60ex.tab C60ex.pmt, C60ex.tab C60ex.patEmpty, C60ex.tab C60ex.pat]

end C98ex

/-- Non-trivial case for C98. -/
example : ∃ h, Printed C98ex.input 0 h ∧ h.items.map (·.did.tables) =
    [[C98ex.odd], [C97ex.eit 1], [C60ex.pat], [], [C60ex.pmt], [C82ex.strange], [], [C60ex.patEmpty]] := by
  obtain ⟨c, h, hr, hp⟩ := ran_of_check (snk := PesPrinter.sink) (s0 := { st := {} })
    (is := C98ex.input) (P := fun c h => decide (c = 0 ∧ h.items.map (·.did.tables) =
    [[C98ex.odd], [C97ex.eit 1], [C60ex.pat], [], [C60ex.pmt], [C82ex.strange], [], [C60ex.patEmpty]]))
    (by decide +kernel)
  obtain ⟨h1, h2⟩ := of_decide_eq_true hp
  exact ⟨h, h1 ▸ hr, h2⟩

end Mirakc.Props
