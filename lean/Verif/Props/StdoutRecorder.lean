import Verif.Proof.StdoutRecorder
import Verif.Props.Cli
import Verif.Props.Geometry
/-
C146: recording to the standard output.
-/
namespace Mirakc.Props
open Mirakc.Main Mirakc.Spec Mirakc.Spec.Main Mirakc.Spec.Cli
open Mirakc.Spec.Geometry (printed)
open Mirakc.Cli (Args Reader Value Out)
open Mirakc.Options (Refusal)

theorem stdout_chunk {sid chunk num : Int} {pos : Option Nat} {o : ServiceRecorder.Opt} (hk : -2 ^ 63 ≤ chunk ∧ chunk < 2 ^ 63)
    (h : Options.loadRecorder sid chunk num pos = .ok o) : (o.chunkSize : Int) = chunk ∧ o.startPos = pos.getD 0 := by
  unfold Options.loadRecorder at h
  dsimp only at h
  split at h
  · cases h
  split at h
  · cases h
  split at h
  · cases h
  next hmax =>
  have hc : ((Options.toSize chunk : Nat) : Int) = chunk := by
    unfold Options.toSize at hmax ⊢
    have e : RingFileSink.maxChunkSize = 2147475456 := by decide
    rw [e] at hmax
    omega
  split at h
  · cases h
  split at h
  · cases h
  cases pos with
  | none => cases h; exact ⟨hc, rfl⟩
  | some p =>
    dsimp only at h
    split at h
    · cases h
    split at h
    · cases h
    cases h
    exact ⟨hc, rfl⟩

/-- **C146**.  record-service with an empty --file records to the standard output.  What it refuses is the same as with a
file.  Otherwise it does exactly what it would do with a file, if the recording starts at position 0 and fewer bytes than a
chunk are written; if not, it aborts.  It never ends normally in another way. -/
theorem C146_stdout (w : World) (ps : List (List UInt8)) (hr : Reads w ps) (d : Reader) (a : Args) (hn : NoHelp a)
    (hi : Supplied a w) (sid chunk num : Int) (pos : Option Nat) (hk : -2 ^ 63 ≤ chunk ∧ chunk < 2 ^ 63)
    (hg : Given d a (.recordService sid chunk num pos)) (hf : a "--file" = some (.str [])) :
    (∀ r, main w (.recordService sid chunk num pos) = .error (.refused r) → Cli.main d w a = .error (.refused r)) ∧
    (∀ e, main w (.recordService sid chunk num pos) = .ok e →
      Cli.main d w a = if pos.getD 0 = 0 ∧ ((written e.ops).length : Int) < chunk then .ok (.ended e)
        else .error (.fault .assertFail)) ∧
    (∀ x, Cli.main d w a = .ok x → ∃ e, main w (.recordService sid chunk num pos) = .ok e ∧ x = .ended e) := by
  obtain ⟨file, h0, h1, h2⟩ := cli_recorder hg
  rw [hf] at h0
  cases h0
  have hC := cli_ran (d := d) w hn hg.1 hi
  cases ho : Options.loadRecorder sid chunk num pos with
  | error r =>
    have e1 : main w (.recordService sid chunk num pos) = .error (.refused r) := by
      rw [main, ho]
      rfl
    have e2 : Cli.main d w a = .error (.refused r) := by
      rw [hC]
      simp only [Cli.run, h1, ho]
      rfl
    rw [e1, e2]
    exact ⟨(fun r' h => by cases h; rfl), (fun e h => by cases h), fun x h => by cases h⟩
  | ok o =>
    obtain ⟨hc, hp⟩ := stdout_chunk hk ho
    have e1 : main w (.recordService sid chunk num pos) = Main.recordService w o := by
      rw [main, ho]
      rfl
    have e2 : Cli.main d w a = (StdoutRecorder.recordService w o).map Out.ended := by
      rw [hC]
      simp only [Cli.run, h1, ho, h2]
      rfl
    rw [e1, e2]
    rw [← hp, ← hc]
    refine ⟨fun r h => absurd h (StdoutRecorder.not_refused hr), fun e h => ?_, fun x hx => ?_⟩
    · by_cases hz : o.startPos = 0
      · rcases StdoutRecorder.record_zero hr hz with ⟨k1, k2⟩ | ⟨k1, k2⟩
        · rw [k1, h, if_pos ⟨hz, by have := k2 e h; omega⟩]
          rfl
        · rw [k1, if_neg (fun k => by have := k2 e h; omega)]
          rfl
      · rw [StdoutRecorder.record_later hr hz, if_neg (fun k => hz k.1)]
        rfl
    · by_cases hz : o.startPos = 0
      · rcases StdoutRecorder.record_zero hr hz with ⟨k1, _⟩ | ⟨k1, _⟩
        · rw [k1] at hx
          cases h : Main.recordService w o with
          | error s => rw [h] at hx; cases hx
          | ok e => rw [h] at hx; cases hx; exact ⟨e, rfl, rfl⟩
        · rw [k1] at hx; cases hx
      · rw [StdoutRecorder.record_later hr hz] at hx; cases hx

namespace C146ex
/-- record-service --sid=1 --file= --chunk-size=8192 --num-chunks=2 [--start-pos=`pos`] -/
def args (pos : Option (List Char)) : Args := fun k =>
  if k = "--sid" then some (.str "0x1".toList)
  else if k = "<file>" then some .empty
  else if k = "--file" then some (.str [])
  else if k = "--chunk-size" then some (.str "8192".toList)
  else if k = "--num-chunks" then some (.str "2".toList)
  else if k = "--start-pos" then some (match pos with | none => .empty | some s => .str s)
  else if k ∈ names then some (.bool (decide (k = "record-service")))
  else if k = "-h" ∨ k = "--help" then some (.bool false)
  else none
theorem noHelp (pos : Option (List Char)) : NoHelp (args pos) := by
  constructor <;> rfl
theorem only (pos : Option (List Char)) : Only (args pos) "record-service" := by
  refine ⟨by decide, fun x hx => ?_⟩
  unfold args
  rw [if_neg, if_neg, if_neg, if_neg, if_neg, if_neg, if_pos hx]
  all_goals rintro rfl; exact absurd hx (by decide)
theorem given : Given C129ex.reader (args none) (.recordService 1 8192 2 none) :=
  ⟨only _, ⟨_, rfl, by decide +kernel⟩, ⟨_, rfl⟩, ⟨_, rfl, by decide +kernel⟩, ⟨_, rfl, by decide +kernel⟩, rfl⟩
theorem given' : Given C129ex.reader (args (some "8192".toList)) (.recordService 1 8192 2 (some 8192)) :=
  ⟨only _, ⟨_, rfl, by decide +kernel⟩, ⟨_, rfl⟩, ⟨_, rfl, by decide +kernel⟩, ⟨_, rfl, by decide +kernel⟩,
    ⟨_, rfl, by decide +kernel⟩⟩
end C146ex

/-- A short recording. -/
example : ∃ e, Cli.main C129ex.reader C137ex.world (C146ex.args none) = .ok (.ended e) ∧ e.code = 0 ∧ (printed e.docs).length = 6 := by
  obtain ⟨e, h1, h2⟩ := C95ex.check (r := main C137ex.world (.recordService 1 8192 2 none))
    (P := fun e => decide ((written e.ops).length < 8192 ∧ e.code = 0 ∧ (printed e.docs).length = 6)) (by decide +kernel)
  obtain ⟨h2, h3, h4⟩ := of_decide_eq_true h2
  refine ⟨e, ?_, h3, h4⟩
  rw [(C146_stdout _ _ C137ex.reads _ _ (C146ex.noHelp _) (.inr ⟨.inl rfl, rfl⟩) 1 8192 2 none (by decide) C146ex.given rfl).2.1 e h1]
  exact if_pos ⟨rfl, by omega⟩

/-- A start position. -/
example : (∃ e, main C137ex.world (.recordService 1 8192 2 (some 8192)) = .ok e) ∧
    Cli.main C129ex.reader C137ex.world (C146ex.args (some "8192".toList)) = .error (.fault .assertFail) := by
  obtain ⟨e, h1, _⟩ := C95ex.check (r := main C137ex.world (.recordService 1 8192 2 (some 8192)))
    (P := fun _ => true) (by decide +kernel)
  refine ⟨⟨e, h1⟩, ?_⟩
  rw [(C146_stdout _ _ C137ex.reads _ _ (C146ex.noHelp _) (.inr ⟨.inl rfl, rfl⟩) 1 8192 2 (some 8192) (by decide) C146ex.given' rfl).2.1 e h1]
  exact if_neg fun k => by cases k.1

end Mirakc.Props
