import Verif.Spec.ServiceRecorder
/-
Specification vocabulary for recordings that are interrupted and resumed.
-/
namespace Mirakc.Spec.Resume
open Mirakc.ServiceRecorder (Msg Tr Opt Hist)
open Mirakc.RingFileSink (Op)
open Mirakc.Spec.ServiceRecorder

/-- The offset was written after the last successful fsync. -/
def Unsynced (f : RingFile) (ops : List Op) (i : Nat) : Prop :=
  ∃ a bs b, ops = a ++ .write bs :: b ∧ .sync ∉ b ∧ (f.run a).off ≤ i ∧ i < (f.run a).off + bs.length

/-- `f'` is what may be left of the file after the operations, when the system fails: what was written after
the last successful fsync may be anything.  It is opened again at offset 0. -/
def Left (f : RingFile) (ops : List Op) (f' : RingFile) : Prop :=
  f'.off = 0 ∧ ∀ i < (f.run ops).size, ¬ Unsynced f ops i → i < f'.size ∧ f'.content i = (f.run ops).content i

/-- The position in the last chunk message, or the given one without any. -/
def lastChunk (pos : Nat) (ms : List Msg) : Nat := ((chunkRecords ms).getLast?.map (·.2)).getD pos

/-- Recordings one after the other into the same ring of `n` chunks, beginning at the position `start` in the
file `f0`.  Each may be interrupted at any moment, when the part `seen` of what it does was done; the next one is
started at the position in the last chunk message seen.  The list is the recorded data up to the chunk messages,
then come that position and the file. -/
inductive Sessions (chunk n start : Nat) (f0 : RingFile) : List UInt8 → Nat → RingFile → Prop
  | none : Sessions chunk n start f0 [] start f0
  | next {data pos f o results is code h seen f'} : Sessions chunk n start f0 data pos f →
      o.chunkSize = chunk → o.numChunks = n → o.startPos = pos →
      (∀ i ∈ is, i.bytes.length = 188) → Recorded o results is code h → seen <+: h.trace →
      Left f (fileOps seen) f' →
      Sessions chunk n start f0 (data ++ (stored h.items).flatten.take ((chunks (messages seen) - 1) * chunk))
        (lastChunk pos (messages seen)) f'

end Mirakc.Spec.Resume
