import Verif.Model.RingFileSink
/-
Specification vocabulary for the ring file: what the file operations issued by
the sink do to a POSIX file, and what can be read off a log of operations.
-/
namespace Mirakc.Spec
open RingFileSink (Op)

/-- The permitted values of `--chunk-size`, `--num-chunks` and `--start-pos`
(see the help text of `record-service`): the chunk size is a positive multiple of
8192 not above 8192 * 0x3FFFF, there are 1 to 0x7FFFFFFF chunks, and the start
position is a multiple of the chunk size below the ring size. -/
structure Permitted (chunkSize numChunks startPos : Nat) : Prop where
  chunkPos : 0 < chunkSize
  chunkMul : chunkSize % 8192 = 0
  chunkMax : chunkSize ≤ 8192 * 0x3FFFF
  numPos : 0 < numChunks
  numMax : numChunks ≤ 0x7FFFFFFF
  startMul : startPos % chunkSize = 0
  startMax : startPos < chunkSize * numChunks

/-- A file with a file offset. -/
structure RingFile where
  content : Nat → UInt8
  size : Nat
  off : Nat

/-- Effect of one operation on the file: `write` stores the bytes at the file
offset and advances it, `trunc` sets the size (dropping what lies beyond),
`seek` sets the offset; failed calls and notifications have no effect. -/
def RingFile.apply (f : RingFile) : Op → RingFile
  | .write bs =>
    { content := fun i => if f.off ≤ i then (bs[i - f.off]?).getD (f.content i) else f.content i
      size := max f.size (f.off + bs.length)
      off := f.off + bs.length }
  | .trunc n => { f with content := fun i => if i < n then f.content i else 0, size := n }
  | .seek n => { f with off := n }
  | .sync => f
  | .notify _ => f
  | .failed => f

/-- Effect of a sequence of operations. -/
def RingFile.run (f : RingFile) (log : List Op) : RingFile := log.foldl RingFile.apply f

/-- The bytes written by a sequence of operations, in order. -/
def written (log : List Op) : List UInt8 :=
  log.flatMap fun | .write bs => bs | _ => []

/-- The positions announced by a sequence of operations, in order. -/
def announced (log : List Op) : List Nat :=
  log.filterMap fun | .notify pos => some pos | _ => none

end Mirakc.Spec
