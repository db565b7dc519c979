import Verif.Model.ExtendedEvent
/-
Specification vocabulary for extended event descriptors (ARIB STD-B10 part 2, 6.2.7).
-/
namespace Mirakc.Spec.ExtendedEvent
open Mirakc.ExtendedEvent (ExtDesc Item)

/-- An entry of a descriptor: length and bytes of a description, which may be empty, length and
bytes of a text. -/
def code (p : Item) : List UInt8 :=
  UInt8.ofNat p.1.length :: (p.1 ++ UInt8.ofNat p.2.length :: p.2)

/-- The bytes have these entries.  The last entry may be cut: the length of its description or of its text
may announce more bytes than follow, and one byte left over is no entry. -/
inductive Read : List UInt8 → List Item → Prop
  | nil : Read [] []
  | one (b : UInt8) : Read [b] []
  | desc {b : UInt8} {d : List UInt8} : d ≠ [] → d.length ≤ b.toNat → Read (b :: d) [(d, [])]
  | text {b c : UInt8} {d t : List UInt8} : d.length = b.toNat → t.length < c.toNat →
      Read (b :: (d ++ c :: t)) [(d, t)]
  | more {b c : UInt8} {d t rest : List UInt8} {ps : List Item} : d.length = b.toNat → t.length = c.toNat →
      Read rest ps → Read (b :: (d ++ c :: (t ++ rest))) ((d, t) :: ps)

/-- An extended event descriptor with these entries: number and language, the number of bytes of
the entries, the entries, and something else.  If the descriptor has one byte less than it announces the
entries must not be cut. -/
def Carries (d : ExtDesc) (ps : List Item) : Prop :=
  d.valid = true ∧ d.tag = 0x4E ∧ ∃ (head : List UInt8) (n : UInt8), head.length = 4 ∧
    ((∃ data rest, d.payload = head ++ n :: (data ++ rest) ∧ data.length = n.toNat ∧ Read data ps) ∨
     (d.payload = head ++ n :: ps.flatMap code ∧ (ps.flatMap code).length + 1 = n.toNat))

/-- Not an extended event descriptor. -/
def Ignored (d : ExtDesc) : Prop := d.valid = false ∨ d.tag ≠ 0x4E ∨ d.payload.length < 5

/-- The entries of all extended event descriptors, in order. -/
inductive Entries : List ExtDesc → List Item → Prop
  | nil : Entries [] []
  | skip {d ds ps} : Ignored d → Entries ds ps → Entries (d :: ds) ps
  | more {d ds ps qs} : Carries d ps → Entries ds qs → Entries (d :: ds) (ps ++ qs)

/-- The entry begins the item, and the texts of the following ones, without description, continue it. -/
def Begins (i : Item) (ps : List Item) : Prop :=
  i.1 ≠ [] ∧ ∃ (t : List UInt8) (ts : List (List UInt8)), ps = (i.1, t) :: ts.map (([], ·)) ∧ i.2 = t ++ ts.flatten

/-- The items told by the entries. -/
inductive Told : List Item → List Item → Prop
  | nil : Told [] []
  | cons {i is ps qs} : Begins i ps → Told is qs → Told (i :: is) (ps ++ qs)

/-- The bytes announced as entries are there. -/
def Complete (d : ExtDesc) : Prop := 5 + (d.payload.getD 4 0).toNat ≤ d.payload.length

end Mirakc.Spec.ExtendedEvent
