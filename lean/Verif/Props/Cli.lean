import Verif.Proof.Cli
import Verif.Props.MainFilters
/-
C129: what is given on the command line is what is used.
-/
namespace Mirakc.Props
open Mirakc.Main Mirakc.Spec.Cli
open Mirakc.Cli (Args Reader Value Out)
open Mirakc.Options (Refusal)

theorem cli_ran (w : World) {d : Reader} {a : Args} {c : String} (hn : NoHelp a) (h : Only a c) (hi : Supplied a w) :
    Cli.main d w a = (Cli.run d w a (some c)).map .ended := by
  rw [Cli.main_run d w hn h, Cli.source_of hi]
  show (Cli.run d w a (some c) >>= fun e => .ok (Out.ended e)) = _
  cases Cli.run d w a (some c) <;> rfl

theorem cli_eits {d : Reader} {a : Args} {ss xs : Option (List (List Char))} {limit : Option Int} {st oa oo : Bool}
    (h : Given d a (.collectEits ss xs limit st oa oo)) : (Cli.eits d a).mapError .refused = loadEits ss xs limit st oa oo := by
  obtain ⟨_, h1, h2, h3, h4, h5, h6, b, h7⟩ := h
  unfold Cli.eits loadEits sidSet
  rw [Cli.sids_of h1, Cli.sids_of h2, Cli.maybeNumber_iff.2 h3, Cli.flag_iff.2 h4, Cli.flag_iff.2 h5, Cli.flag_iff.2 h6,
    Cli.flag_iff.2 h7]
  cases Options.loadSidSet ss with
  | error e => rfl
  | ok x =>
    cases Options.loadSidSet xs with
    | error e => rfl
    | ok y => rfl

theorem cli_eitpf {d : Reader} {a : Args} {ss : Option (List (List Char))} {st pr fo : Bool}
    (h : Given d a (.collectEitpf ss st pr fo)) : (Cli.eitpf a).mapError .refused = loadEitpf ss st pr fo := by
  obtain ⟨_, h1, h2, h3, h4⟩ := h
  unfold Cli.eitpf loadEitpf sidSet
  rw [Cli.sids_of h1, Cli.flag_iff.2 h2, Cli.flag_iff.2 h3, Cli.flag_iff.2 h4]
  cases Options.loadSidSet ss with
  | error e => rfl
  | ok x => rfl

theorem cli_program {d : Reader} {a : Args} {o : Options.ProgramArgs} (h : Given d a (.filterProgram o)) :
    Cli.program d a = Options.loadProgramFilter o ∧ Cli.service d a = .ok (Options.loadServiceFilter (some o.sid)) := by
  obtain ⟨_, h1, h2, h3, h4, h5, h6, h7, h8, h9, h10, h11⟩ := h
  constructor
  · unfold Cli.program Options.loadProgramFilter
    rw [Cli.number_iff.2 h1, Cli.number_iff.2 h2, Cli.number_iff.2 h3, Cli.number_iff.2 h4, Cli.number_iff.2 h5, Cli.tags_of h6,
      Cli.tags_of h7, Cli.maybeNumber_iff.2 h8, Cli.maybeNumber_iff.2 h9, Cli.maybeNumber_iff.2 h10, Cli.flag_iff.2 h11]
    show (Options.toJst o.clockTime >>= _) = _
    cases Options.toJst o.clockTime with
    | error e => rfl
    | ok t =>
      cases Options.loadComponentTags o.audioTags with
      | error e => rfl
      | ok x =>
        cases Options.loadComponentTags o.videoTags with
        | error e => rfl
        | ok y =>
          show (Options.loadWaitUntil o.waitUntil >>= _) = _
          cases Options.loadWaitUntil o.waitUntil <;> rfl
  · unfold Cli.service
    rw [show Cli.maybeNumber d.long a "--sid" = .ok (some o.sid) from Cli.maybeNumber_iff.2 h1]
    rfl

theorem cli_recorder {d : Reader} {a : Args} {sid chunk num : Int} {pos : Option Nat} (h : Given d a (.recordService sid chunk num pos)) :
    ∃ file, a "--file" = some (.str file) ∧
      Cli.recorder d a = (Options.loadRecorder sid chunk num pos).map (file, ·) ∧
      Cli.service d a = .ok (Options.loadServiceFilter (some sid)) := by
  obtain ⟨_, h1, ⟨file, h2⟩, h3, h4, h5⟩ := h
  refine ⟨file, h2, ?_, ?_⟩
  · unfold Cli.recorder Options.loadRecorder
    rw [Cli.number_iff.2 h1, Cli.number_iff.2 h3, Cli.number_iff.2 h4, show Cli.at' a "--file" = .ok (.str file) by
      rw [Cli.at', h2]]
    simp only [bind, Except.bind, Value.asString, Cli.Value.asString]
    split
    · rfl
    split
    · rfl
    split
    · rfl
    split
    · rfl
    split
    · rfl
    cases pos with
    | none =>
      rw [Cli.maybeNumber_iff.2 h5]
      rfl
    | some p =>
      rw [Cli.maybeNumber_iff.2 h5]
      dsimp only
      split
      · rfl
      split
      · rfl
      rfl
  · unfold Cli.service
    rw [show Cli.maybeNumber d.long a "--sid" = .ok (some sid) from Cli.maybeNumber_iff.2 h1]
    rfl

/-- **C129**.  The command given is run, on the file named or the standard input, with the numbers
and strings given.  (For an empty name of the file of record-service, see C146.) -/
theorem C129_args (w : World) (d : Reader) (a : Args) (cmd : Cmd) (hn : NoHelp a) (hi : Supplied a w) (hg : Given d a cmd)
    (hf : a "--file" ≠ some (.str [])) : Cli.main d w a = (Main.main w cmd).map .ended := by
  cases cmd with
  | scanServices ss xs =>
    rw [cli_ran w hn hg.1 hi]
    simp only [Cli.run, main, sidSet, Cli.sids_of hg.2.1, Cli.sids_of hg.2.2]
  | syncClocks ss xs =>
    rw [cli_ran w hn hg.1 hi]
    simp only [Cli.run, main, sidSet, Cli.sids_of hg.2.1, Cli.sids_of hg.2.2]
  | collectEits ss xs limit st oa oo =>
    rw [cli_ran w hn hg.1 hi]
    simp only [Cli.run, main, cli_eits hg]
  | collectEitpf ss st pr fo =>
    rw [cli_ran w hn hg.1 hi]
    simp only [Cli.run, main, cli_eitpf hg]
  | collectLogos =>
    rw [cli_ran w hn hg hi]
    rfl
  | filterService sid =>
    rw [cli_ran w hn hg.1 hi]
    simp only [Cli.run, main, Cli.service, Cli.maybeNumber_iff.2 hg.2]
    rfl
  | filterProgram o =>
    rw [cli_ran w hn hg.1 hi]
    simp only [Cli.run, main, (cli_program hg).1, (cli_program hg).2]
    rfl
  | filterProgramMetadata sid =>
    rw [cli_ran w hn hg.1 hi]
    simp only [Cli.run, main, Cli.metadata, Cli.maybeNumber_iff.2 hg.2]
    rfl
  | recordService sid chunk num pos =>
    rw [cli_ran w hn hg.1 hi]
    obtain ⟨file, h0, h1, h2⟩ := cli_recorder hg
    have hne : file.isEmpty = false := by
      cases file with
      | nil => exact absurd h0 hf
      | cons c file => rfl
    simp only [Cli.run, main, h1, h2]
    cases Options.loadRecorder sid chunk num pos with
    | error r => rfl
    | ok o =>
      show Except.map Out.ended (if file.isEmpty = true then StdoutRecorder.recordService w o else recordService w o) = _
      rw [hne]
      rfl
  | trackAirtime sid eid =>
    rw [cli_ran w hn hg.1 hi]
    simp only [Cli.run, main, Cli.airtime, Cli.number_iff.2 hg.2.1, Cli.number_iff.2 hg.2.2]
    rfl
  | seekStart sid d n =>
    rw [cli_ran w hn hg.1 hi]
    simp only [Cli.run, main, Cli.seeker, Cli.number_iff.2 hg.2.1, Cli.maybeNumber_iff.2 hg.2.2.1, Cli.maybeNumber_iff.2 hg.2.2.2]
    rfl
  | printPes =>
    rw [cli_ran w hn hg hi]
    rfl

/-- An error in the options ends the process. -/
theorem cli_refused {d : Reader} {a : Args} {c : String} (hn : NoHelp a) (h : Only a c)
    (hr : ∃ r, ∀ w, Cli.run d w a (some c) = .error (.refused r)) : ∃ r, ∀ w, Cli.main d w a = .error (.refused r) := by
  obtain ⟨r, hr⟩ := hr
  cases e : a "<file>" with
  | none =>
    refine ⟨.uncaught, fun w => ?_⟩
    rw [Cli.main_run d w hn h, Cli.source, Cli.at', e]
    rfl
  | some v =>
    refine ⟨r, fun w => ?_⟩
    rw [Cli.main_run d w hn h, Cli.source, Cli.at', e]
    cases v with
    | str s =>
      cases s with
      | nil =>
        show (Cli.run d { w with opened := true } a (some c) >>= _) = _
        rw [hr]
        rfl
      | cons x s =>
        show (Cli.run d w a (some c) >>= _) = _
        rw [hr]
        rfl
    | _ =>
      show (Cli.run d { w with opened := true } a (some c) >>= _) = _
      rw [hr]
      rfl

/-- A step of the option parsing: it fails, or has a value. -/
theorem step_refused {α β γ : Type} (x : Except Refusal α) (f : α → Except Refusal β) (g : World → β → Except Stop γ)
    (h : ∀ v, x = .ok v → ∃ r, ∀ w, ((f v).mapError .refused >>= g w) = .error (.refused r)) :
    ∃ r, ∀ w, ((x >>= f).mapError .refused >>= g w) = .error (.refused r) := by
  cases e : x with
  | error r => exact ⟨r, fun w => rfl⟩
  | ok v => exact h v e

theorem first_refused {α γ : Type} (x : Except Refusal α) (g : World → α → Except Stop γ)
    (h : ∀ v, x = .ok v → ∃ r, ∀ w, g w v = .error (.refused r)) :
    ∃ r, ∀ w, (x.mapError .refused >>= g w) = .error (.refused r) := by
  cases e : x with
  | error r => exact ⟨r, fun w => rfl⟩
  | ok v => exact h v e

/-- **C129**.  If the arguments are not those of any command, because something that should be a
number is not, the process ends at once, whatever there is to read. -/
theorem C129_refused (d : Reader) (a : Args) (c : String) (hn : NoHelp a) (ho : Only a c) (hg : ∀ cmd, ¬ Given d a cmd) :
    ∃ r, ∀ w, Cli.main d w a = .error (.refused r) := by
  refine cli_refused hn ho ?_
  have hc := ho.1
  simp only [names, List.mem_cons, List.not_mem_nil, or_false] at hc
  rcases hc with rfl | rfl | rfl | rfl | rfl | rfl | rfl | rfl | rfl | rfl | rfl | rfl
  · simp only [Cli.run]
    unfold Cli.eitpf
    refine step_refused _ _ _ fun _ h1 => step_refused _ _ _ fun _ h2 => step_refused _ _ _ fun _ h3 =>
      step_refused _ _ _ fun _ h4 => ?_
    obtain ⟨o, h1⟩ := Cli.words_of_sids h1
    exact absurd ⟨ho, h1, Cli.flag_iff.1 h2, Cli.flag_iff.1 h3, Cli.flag_iff.1 h4⟩ (hg (.collectEitpf o _ _ _))
  · simp only [Cli.run]
    unfold Cli.eits
    refine step_refused _ _ _ fun _ h1 => step_refused _ _ _ fun _ h2 => step_refused _ _ _ fun _ h3 =>
      step_refused _ _ _ fun _ h4 => step_refused _ _ _ fun _ h5 => step_refused _ _ _ fun _ h6 =>
      step_refused _ _ _ fun b h7 => ?_
    obtain ⟨o, h1⟩ := Cli.words_of_sids h1
    obtain ⟨o2, h2⟩ := Cli.words_of_sids h2
    exact absurd ⟨ho, h1, h2, Cli.maybeNumber_iff.1 h3, Cli.flag_iff.1 h4, Cli.flag_iff.1 h6, Cli.flag_iff.1 h5, b,
      Cli.flag_iff.1 h7⟩ (hg (.collectEits o o2 _ _ _ _))
  · exact absurd ho (hg .collectLogos)
  · simp only [Cli.run]
    refine first_refused _ _ fun v hv => ?_
    unfold Cli.program at hv
    obtain ⟨sid, h1, hv⟩ := bind_ok_iff.1 hv
    obtain ⟨eid, h2, hv⟩ := bind_ok_iff.1 hv
    obtain ⟨pid, h3, hv⟩ := bind_ok_iff.1 hv
    obtain ⟨pcr, h4, hv⟩ := bind_ok_iff.1 hv
    obtain ⟨time, h5, hv⟩ := bind_ok_iff.1 hv
    obtain ⟨_, _, hv⟩ := bind_ok_iff.1 hv
    obtain ⟨_, h6, hv⟩ := bind_ok_iff.1 hv
    obtain ⟨_, h7, hv⟩ := bind_ok_iff.1 hv
    obtain ⟨start, h8, hv⟩ := bind_ok_iff.1 hv
    obtain ⟨stop, h9, hv⟩ := bind_ok_iff.1 hv
    obtain ⟨wait, h10, hv⟩ := bind_ok_iff.1 hv
    obtain ⟨_, _, hv⟩ := bind_ok_iff.1 hv
    obtain ⟨pre, h11, hv⟩ := bind_ok_iff.1 hv
    obtain ⟨audio, h6⟩ := Cli.words_of_tags h6
    obtain ⟨video, h7⟩ := Cli.words_of_tags h7
    exact absurd ⟨ho, Cli.number_iff.1 h1, Cli.number_iff.1 h2, Cli.number_iff.1 h3, Cli.number_iff.1 h4, Cli.number_iff.1 h5, h6, h7,
      Cli.maybeNumber_iff.1 h8, Cli.maybeNumber_iff.1 h9, Cli.maybeNumber_iff.1 h10, Cli.flag_iff.1 h11⟩
      (hg (.filterProgram ⟨sid, eid, pid, pcr, time, audio, video, start, stop, wait, pre⟩))
  · simp only [Cli.run]
    unfold Cli.metadata
    refine step_refused _ _ _ fun _ h1 => ?_
    exact absurd ⟨ho, Cli.maybeNumber_iff.1 h1⟩ (hg (.filterProgramMetadata _))
  · simp only [Cli.run]
    unfold Cli.service
    refine step_refused _ _ _ fun _ h1 => ?_
    exact absurd ⟨ho, Cli.maybeNumber_iff.1 h1⟩ (hg (.filterService _))
  · exact absurd ho (hg .printPes)
  · simp only [Cli.run]
    refine first_refused _ _ fun v hv => ?_
    unfold Cli.recorder at hv
    obtain ⟨sid, h1, hv⟩ := bind_ok_iff.1 hv
    obtain ⟨f, h2, hv⟩ := bind_ok_iff.1 hv
    obtain ⟨file, h3, hv⟩ := bind_ok_iff.1 hv
    obtain ⟨chunk, h4, hv⟩ := bind_ok_iff.1 hv
    dsimp only at hv
    split at hv
    · cases hv
    split at hv
    · cases hv
    split at hv
    · cases hv
    obtain ⟨num, h5, hv⟩ := bind_ok_iff.1 hv
    split at hv
    · cases hv
    split at hv
    · cases hv
    obtain ⟨p, h6, hv⟩ := bind_ok_iff.1 hv
    have hw : Word a "--file" := by
      cases f with
      | str s =>
        refine ⟨s, ?_⟩
        unfold Cli.at' at h2
        cases e : a "--file" with
        | none => rw [e] at h2; cases h2
        | some x => rw [e] at h2; cases h2; rfl
      | _ => cases h3
    exact absurd ⟨ho, Cli.number_iff.1 h1, hw, Cli.number_iff.1 h4, Cli.number_iff.1 h5,
      Cli.maybeNumber_iff.1 h6⟩ (hg (.recordService _ _ _ p))
  · simp only [Cli.run]
    refine first_refused _ _ fun _ h1 => first_refused _ _ fun _ h2 => ?_
    obtain ⟨o, h1⟩ := Cli.words_of_sids h1
    obtain ⟨o2, h2⟩ := Cli.words_of_sids h2
    exact absurd ⟨ho, h1, h2⟩ (hg (.scanServices o o2))
  · simp only [Cli.run]
    unfold Cli.seeker
    refine step_refused _ _ _ fun _ h1 => step_refused _ _ _ fun _ h2 => step_refused _ _ _ fun _ h3 => ?_
    exact absurd ⟨ho, Cli.number_iff.1 h1, Cli.maybeNumber_iff.1 h2, Cli.maybeNumber_iff.1 h3⟩ (hg (.seekStart _ _ _))
  · simp only [Cli.run]
    refine first_refused _ _ fun _ h1 => first_refused _ _ fun _ h2 => ?_
    obtain ⟨o, h1⟩ := Cli.words_of_sids h1
    obtain ⟨o2, h2⟩ := Cli.words_of_sids h2
    exact absurd ⟨ho, h1, h2⟩ (hg (.syncClocks o o2))
  · simp only [Cli.run]
    unfold Cli.airtime
    refine step_refused _ _ _ fun _ h1 => step_refused _ _ _ fun _ h2 => ?_
    exact absurd ⟨ho, Cli.number_iff.1 h1, Cli.number_iff.1 h2⟩ (hg (.trackAirtime _ _))

/-- **C129**, help: asked for help on a command, the process shows that help, and reads nothing. -/
theorem C129_help (d : Reader) (a : Args) (c : String) (hh : a "-h" = some (.bool true) ∨
    (a "-h" = some (.bool false) ∧ a "--help" = some (.bool true))) (ho : Only a c) (w : World) :
    Cli.main d w a = .ok (.help (some c)) := by
  unfold Cli.main
  rcases hh with h | ⟨h, h'⟩
  · rw [show Cli.flag a "-h" = .ok true from Cli.flag_iff.2 h, Cli.command_of ho]
    rfl
  · rw [show Cli.flag a "-h" = .ok false from Cli.flag_iff.2 h,
      show Cli.flag a "--help" = .ok true from Cli.flag_iff.2 h', Cli.command_of ho]
    rfl

namespace C129ex
/-- Decimal and hexadecimal numbers. -/
def read (s : List Char) : Option Int :=
  if s = "0x1".toList then some 1
  else match Options.strtol s with
    | some (v, n) => if n = s.length then some v else none
    | none => none
def reader : Reader := ⟨read, read, fun s => (read s).map Int.toNat⟩
/-- filter-service --sid=`sid` -/
def args (sid : List Char) : Args := fun k =>
  if k = "--sid" then some (.str sid)
  else if k = "<file>" then some .empty
  else if k = "--file" then some .empty
  else if k ∈ names then some (.bool (decide (k = "filter-service")))
  else if k = "-h" ∨ k = "--help" then some (.bool false)
  else none
theorem only (sid : List Char) : Only (args sid) "filter-service" := by
  refine ⟨by decide, fun x hx => ?_⟩
  unfold args
  rw [if_neg, if_neg, if_neg, if_pos hx]
  · rintro rfl; exact absurd hx (by decide)
  · rintro rfl; exact absurd hx (by decide)
  · rintro rfl; exact absurd hx (by decide)
theorem noHelp (sid : List Char) : NoHelp (args sid) := ⟨rfl, rfl⟩
theorem input (sid : List Char) : Supplied (args sid) C95ex.world := .inr ⟨.inl rfl, rfl⟩
theorem given : Given reader (args "0x1".toList) (.filterService (some 1)) :=
  ⟨only _, "0x1".toList, rfl, by decide +kernel⟩
/-- 1a is no number. -/
theorem bad (cmd : Cmd) : ¬ Given reader (args ['1', 'a']) cmd := by
  have h : ∀ v, ¬ Number reader.long (args ['1', 'a']) "--sid" v := by
    rintro v ⟨s, e, h⟩
    cases e
    exact absurd h (by rw [show reader.long ['1', 'a'] = none by decide +kernel]; intro h; cases h)
  have ho : ∀ c, Only (args ['1', 'a']) c → c = "filter-service" := by
    intro c hc
    have := hc.2 "filter-service" (by decide)
    rw [(only ['1', 'a']).2 "filter-service" (by decide)] at this
    simp only [Option.some.injEq, Cli.Value.bool.injEq, decide_true] at this
    exact (of_decide_eq_true this.symm).symm
  intro hg
  cases cmd with
  | filterService sid =>
    cases sid with
    | none => have := hg.2; cases this
    | some v => exact h v hg.2
  | collectLogos => exact absurd (ho _ hg) (by decide)
  | printPes => exact absurd (ho _ hg) (by decide)
  | _ => exact absurd (ho _ hg.1) (by decide)
end C129ex

example : NoHelp (C129ex.args "0x1".toList) ∧ Given C129ex.reader (C129ex.args "0x1".toList) (.filterService (some 1)) ∧
    ∃ e, Cli.main C129ex.reader C95ex.world (C129ex.args "0x1".toList) = .ok (.ended e) ∧ e.bytes.length = 188 * 8 := by
  refine ⟨C129ex.noHelp _, C129ex.given, ?_⟩
  rw [C129_args _ _ _ _ (C129ex.noHelp _) (C129ex.input _) C129ex.given (by decide)]
  obtain ⟨e, h1, h2⟩ := C95ex.check (r := main C95ex.world (.filterService (some 1)))
    (P := fun e => decide (e.bytes.length = 188 * 8)) (by decide +kernel)
  rw [h1]
  exact ⟨e, rfl, of_decide_eq_true h2⟩

example : ∃ r, ∀ w, Cli.main C129ex.reader w (C129ex.args ['1', 'a']) = .error (.refused r) :=
  C129_refused _ _ _ (C129ex.noHelp _) (C129ex.only _) C129ex.bad

end Mirakc.Props
