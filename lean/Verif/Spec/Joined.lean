import Verif.Spec.ServiceFilter
import Verif.Spec.Pipeline
/-
Specification vocabulary for C147: filter-service started later on the same broadcast.
-/
namespace Mirakc.Spec.Joined
open Mirakc.Spec.ServiceFilter Mirakc.Pipeline

/-- A broadcast that does not change: the tables that concern the service are as the standard demands and always say
the same, and the PATs list the service. -/
structure Steady (sid : Nat) (T : Table → Prop) : Prop where
  conforming : ∀ t, T t → Conforming sid t
  pat : ∀ t u p q, T t → T u → usablePat t = some p → usablePat u = some q → p = q
  cat : ∀ t u p q, T t → T u → validCat t = some p → validCat u = some q → p = q
  pmt : ∀ t u p q, T t → T u → validPmt sid t = some p → validPmt sid u = some q → p = q
  listed : ∀ t, T t → ¬ Missing sid t

/-- The packet number `n` of the stream completes the table. -/
def Brings (c : Codec) (tabs : Nat → List Table) (ps : List (List UInt8)) (n : Nat) (t : Table) : Prop :=
  t ∈ tabs n ∧ ∃ b, ps[n]? = some b ∧ (c.packet b).pid = t.sourcePid

/-- The stream has brought the tables that concern the service: a PAT, after it a PMT on the PID that the PAT says,
and a CAT if the broadcast has any. -/
def Known (c : Codec) (tabs : Nat → List Table) (sid : Nat) (hasCat : Prop) (ps : List (List UInt8)) : Prop :=
  (∃ i j t u pat pmt, i < j ∧ Brings c tabs ps i t ∧ usablePat t = some pat ∧
    Brings c tabs ps j u ∧ validPmt sid u = some pmt ∧ (sid, u.sourcePid) ∈ pat.pmts.entries) ∧
  (hasCat → ∃ k t cat, Brings c tabs ps k t ∧ t.sourcePid = 0x01 ∧ validCat t = some cat)

/-- `Joined c K n ps xs ys`: of the packets `ps`, the first of which has the number `n`, one filter made `xs` and
another, started later, `ys`.  Both leave out a packet, or both write it, or both write a packet of the same PAT in its
place; but where `K` does not hold the later one may lack what the other writes. -/
inductive Joined (c : Codec) (K : Nat → Prop) :
    Nat → List (List UInt8) → List (List UInt8) → List (List UInt8) → Prop
  | nil {n} : Joined c K n [] [] []
  | neither {n b ps xs ys} : Joined c K (n + 1) ps xs ys → Joined c K n (b :: ps) xs ys
  | both {n b ps xs ys} : (c.packet b).pid ≠ 0 → Joined c K (n + 1) ps xs ys →
      Joined c K n (b :: ps) (b :: xs) (b :: ys)
  | pats {n b ps t i j xs ys} : (c.packet b).pid = 0 → Joined c K (n + 1) ps xs ys →
      Joined c K n (b :: ps) (c.patBytes t i :: xs) (c.patBytes t j :: ys)
  | early {n b ps xs ys} : ¬ K n → (c.packet b).pid ≠ 0 → Joined c K (n + 1) ps xs ys →
      Joined c K n (b :: ps) (b :: xs) ys
  | earlyPat {n b ps t i xs ys} : ¬ K n → (c.packet b).pid = 0 → Joined c K (n + 1) ps xs ys →
      Joined c K n (b :: ps) (c.patBytes t i :: xs) ys

end Mirakc.Spec.Joined
