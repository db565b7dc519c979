/-
Specification of transport stream framing, independent of the implementation:
how a byte string is cut into packets.
-/
namespace Mirakc.Spec

/-- Offset `p` of `bs` looks like the start of four consecutive packets: there
is a sync byte 0x47 at `p`, `p+188`, `p+376` and `p+564`. -/
def ResyncPoint (bs : List UInt8) (p : Nat) : Prop :=
  ∀ k < 4, bs[p + 188 * k]? = some 0x47

/-- `Frames bs o offs`: scanning `bs` from offset `o`, the packets start at the
offsets `offs`. -/
inductive Frames (bs : List UInt8) : Nat → List Nat → Prop
  /-- fewer than 188 bytes are left: end of stream -/
  | done {o} : bs.length < o + 188 → Frames bs o []
  /-- in sync: the next packet starts right here -/
  | packet {o os} : o + 188 ≤ bs.length → bs[o]? = some 0x47 →
      Frames bs (o + 188) os → Frames bs o (o :: os)
  /-- out of sync near the end of the stream: give up -/
  | short {o} : o + 188 ≤ bs.length → bs[o]? ≠ some 0x47 → bs.length < o + 940 →
      Frames bs o []
  /-- out of sync and no resync point within 376 bytes: give up -/
  | lost {o} : o + 940 ≤ bs.length → bs[o]? ≠ some 0x47 →
      (∀ i < 376, ¬ ResyncPoint bs (o + i)) → Frames bs o []
  /-- out of sync: continue at the first resync point within 376 bytes -/
  | skip {o os} (i : Nat) : o + 940 ≤ bs.length → bs[o]? ≠ some 0x47 → i < 376 →
      ResyncPoint bs (o + i) → (∀ j < i, ¬ ResyncPoint bs (o + j)) →
      Frames bs (o + i + 188) os → Frames bs o ((o + i) :: os)

/-- The 188 bytes of `bs` starting at offset `o`. -/
def slice (bs : List UInt8) (o : Nat) : List UInt8 := (bs.drop o).take 188

/-- The byte string delivered by a sequence of read results: everything up to
the first empty result (EOF or error). -/
def streamOf : List (List UInt8) → List UInt8
  | [] => []
  | [] :: _ => []
  | c :: cs => c ++ streamOf cs

end Mirakc.Spec
