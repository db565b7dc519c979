import Verif.Spec.ServiceScanner
/-
Specification vocabulary for C148: scan-services at different times on the same broadcast.
-/
namespace Mirakc.Spec.Rescan
open Mirakc.Spec.ServiceScanner

/-- The tables that scan-services uses always say the same. -/
structure Steady (T : Table → Prop) : Prop where
  pat : ∀ t u p q, T t → T u → patOf t = some p → patOf u = some q → p = q
  sdt : ∀ t u p q, T t → T u → sdtOf t = some p → sdtOf u = some q → p = q
  nit : ∀ t u p q, T t → T u → nitOf t = some p → nitOf u = some q → p = q

end Mirakc.Spec.Rescan
