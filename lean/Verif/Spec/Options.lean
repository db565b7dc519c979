/-
Specification vocabulary for option values: decimal numbers.
-/
namespace Mirakc.Spec.Options

/-- Blank, tab, line feed, vertical tab, form feed, carriage return. -/
def Blank (c : Char) : Prop := c.toNat = 32 ∨ (9 ≤ c.toNat ∧ c.toNat ≤ 13)

/-- A decimal digit. -/
def Digit (c : Char) : Prop := 48 ≤ c.toNat ∧ c.toNat ≤ 57

/-- The number written with the digits. -/
def decimal : List Char → Nat
  | [] => 0
  | c :: cs => (c.toNat - 48) * 10 ^ cs.length + decimal cs

/-- An optional sign and the factor it stands for. -/
inductive Sign : List Char → Int → Prop
  | none : Sign [] 1
  | plus : Sign ['+'] 1
  | minus : Sign ['-'] (-1)

/-- The string starts with the number `v` (maybe after blanks, maybe with a sign), followed by
`rest`, which does not start with a digit. -/
def Reads (s : List Char) (v : Int) (rest : List Char) : Prop :=
  ∃ ws sg ds k, s = ws ++ sg ++ ds ++ rest ∧ (∀ c ∈ ws, Blank c) ∧ Sign sg k ∧ ds ≠ [] ∧
    (∀ c ∈ ds, Digit c) ∧ (∀ c, rest.head? = some c → ¬ Digit c) ∧ v = k * decimal ds

/-- The string is the number `v`, maybe after blanks, maybe with a sign. -/
def Denotes (s : List Char) (v : Int) : Prop := Reads s v []

/-- The number fits into an `int` of 32 bits. -/
def Fits (v : Int) : Prop := -2 ^ 31 ≤ v ∧ v < 2 ^ 31

/-- A service is selected by the list of an option: it is listed, or the list is empty
(cf. `Spec.ServiceScanner.Selected`). -/
def Chosen (sids : List Nat) (sid : Nat) : Prop := sids = [] ∨ sid ∈ sids

end Mirakc.Spec.Options
