/-
Specification vocabulary for standard output.
-/
namespace Mirakc.Spec.StdoutSink

/-- How many of `n` bytes are written by calls of `write` with the given results until
everything is written or a call fails (a negative result); a call takes no more than
what is left, and the calls after the list take everything. -/
def taken : Nat → List Int → Nat
  | n, [] => n
  | n, w :: ws => if w < 0 then 0 else min w.toNat n + taken (n - min w.toNat n) ws

end Mirakc.Spec.StdoutSink
