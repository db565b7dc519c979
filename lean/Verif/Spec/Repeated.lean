import Verif.Model.Table
/-
Specification vocabulary: tables that are repeated.
-/
namespace Mirakc.Spec.Repeated

/-- What a table is about.  A table replaces the earlier ones about the same. -/
inductive Subject where
  | pat
  | cat
  | pmt (sid : Nat)
  | eit (sid : Nat)
deriving DecidableEq

/-- What a table is about: the PAT of the stream, the CAT, the PMT of a service, the present and following event of
a service.  Broken tables, PATs on other PIDs and PATs of transport stream 0 are about nothing, and so are the tables
that cannot be repeated (TOT). -/
def subject (t : Table) : Option Subject :=
  if t.valid = true then
    match t.body with
    | .pat p => if t.sourcePid = 0 ∧ p.tsId ≠ 0 then some .pat else none
    | .cat _ => some .cat
    | .pmt p => some (.pmt p.serviceId)
    | .eit e => some (.eit e.serviceId)
    | _ => none
  else none

/-- After the tables `h` were received, `t` is the last one about its subject. -/
def InForce (h : List Table) (t : Table) : Prop :=
  subject t ≠ none ∧ ∃ a b, h = a ++ t :: b ∧ ∀ u ∈ b, subject u ≠ subject t

/-- `Repeats h ts us`: after the tables `h`, `us` are the tables `ts` with repetitions of tables in force.  A repeated
table is found elsewhere in the stream, and its version may have changed. -/
inductive Repeats : List Table → List Table → List Table → Prop
  | nil {h} : Repeats h [] []
  | new {h t ts us} : Repeats (h ++ [t]) ts us → Repeats h (t :: ts) (t :: us)
  | again {h t ts us} (place version : Nat) : InForce h t → Repeats h ts us →
    Repeats h ts ({ t with firstPacket := place, version := version } :: us)

/-- The same for the tables received with one packet after the other. -/
inductive Repeated : List Table → List (List Table) → List (List Table) → Prop
  | nil {h} : Repeated h [] []
  | cons {h ts us tss uss} : Repeats h ts us → Repeated (h ++ ts) tss uss → Repeated h (ts :: tss) (us :: uss)

end Mirakc.Spec.Repeated
