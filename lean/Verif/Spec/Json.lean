import Verif.Model.Json
/-
A reader of JSON documents, one per line: what a consumer of the output does.  It reads the
part of RFC 8259 that has integers only and escapes of ASCII characters only, and refuses
everything else.
-/
namespace Mirakc.Spec.Json

/-- White space. -/
def isSpace (c : UInt8) : Bool := c == 0x20 || c == 0x09 || c == 0x0A || c == 0x0D

/-- White space left out. -/
def skip : List UInt8 → List UInt8
  | [] => []
  | c :: r => if isSpace c then skip r else c :: r

/-- The character after a backslash stands for itself or a control character. -/
def short (c : UInt8) : Option UInt8 :=
  if c = 0x22 then some 0x22        -- "
  else if c = 0x5C then some 0x5C   -- \
  else if c = 0x2F then some 0x2F   -- /
  else if c = 0x62 then some 0x08   -- b
  else if c = 0x66 then some 0x0C   -- f
  else if c = 0x6E then some 0x0A   -- n
  else if c = 0x72 then some 0x0D   -- r
  else if c = 0x74 then some 0x09   -- t
  else none

/-- The value of a hexadecimal digit. -/
def hex (c : UInt8) : Option Nat :=
  if 0x30 ≤ c ∧ c ≤ 0x39 then some (c.toNat - 48)
  else if 0x41 ≤ c ∧ c ≤ 0x46 then some (c.toNat - 55)
  else if 0x61 ≤ c ∧ c ≤ 0x66 then some (c.toNat - 87)
  else none

/-- What follows a backslash: the character meant, and the rest. -/
def escaped : List UInt8 → Option (UInt8 × List UInt8)
  | [] => none
  | c :: r =>
    if c = 0x75 then
      match r with
      | a :: b :: c :: d :: r =>
        match hex a, hex b, hex c, hex d with
        | some 0, some 0, some c, some d => if c < 8 then some (UInt8.ofNat (16 * c + d), r) else none
        | _, _, _, _ => none
      | _ => none
    else (short c).map fun x => (x, r)

/-- A string after its opening quote: the characters, and what follows the closing one. -/
def chars : Nat → List UInt8 → Option (List UInt8 × List UInt8)
  | 0, _ => none
  | _ + 1, [] => none
  | fuel + 1, c :: r =>
    if c = 0x22 then some ([], r)
    else if c = 0x5C then
      match escaped r with
      | none => none
      | some (x, r) => (chars fuel r).map fun (s, r) => (x :: s, r)
    else if c < 0x20 then none
    else (chars fuel r).map fun (s, r) => (c :: s, r)

/-- A decimal digit. -/
def isDigit (c : UInt8) : Bool := 0x30 ≤ c && c ≤ 0x39

/-- The digits at the beginning, appended to a number. -/
def decimals (n : Nat) : List UInt8 → Nat × List UInt8
  | [] => (n, [])
  | c :: r => if isDigit c then decimals (10 * n + (c.toNat - 48)) r else (n, c :: r)

/-- A number without sign; leading zeros are refused. -/
def natural : List UInt8 → Option (Nat × List UInt8)
  | [] => none
  | c :: r => if c = 0x30 then some (0, r) else if isDigit c then some (decimals 0 (c :: r)) else none

/-- An integer. -/
def integer : List UInt8 → Option (Int × List UInt8)
  | [] => none
  | c :: r =>
    if c = 0x2D then (natural r).map fun (n, r) => (-(n : Int), r)
    else (natural (c :: r)).map fun (n, r) => ((n : Int), r)

/-- The number ends here: no digit, fraction or exponent follows. -/
def ends : List UInt8 → Bool
  | [] => true
  | c :: _ => !(isDigit c || c == 0x2E || c == 0x45 || c == 0x65)

/-- The bytes begin with a word: what follows it. -/
def after : List UInt8 → List UInt8 → Option (List UInt8)
  | [], r => some r
  | _ :: _, [] => none
  | c :: w, d :: r => if c = d then after w r else none

mutual
/-- A value: what it is, and what follows it. -/
def value : Nat → List UInt8 → Option (Json × List UInt8)
  | 0, _ => none
  | fuel + 1, bs =>
    match skip bs with
    | [] => none
    | c :: r =>
      if c = 0x6E then (after [0x75, 0x6C, 0x6C] r).map fun r => (.null, r)
      else if c = 0x74 then (after [0x72, 0x75, 0x65] r).map fun r => (.bool true, r)
      else if c = 0x66 then (after [0x61, 0x6C, 0x73, 0x65] r).map fun r => (.bool false, r)
      else if c = 0x22 then (chars fuel r).map fun (s, r) => (.str s, r)
      else if c = 0x5B then
        match skip r with
        | [] => none
        | c :: r' =>
          if c = 0x5D then some (.arr [], r')
          else (items fuel r).map fun (l, r) => (.arr l, r)
      else if c = 0x7B then
        match skip r with
        | [] => none
        | c :: r' =>
          if c = 0x7D then some (.obj [], r')
          else (members fuel r).map fun (l, r) => (.obj l, r)
      else
        match integer (c :: r) with
        | none => none
        | some (n, r) => if ends r then some (.num n, r) else none
/-- The elements of an array, at least one, up to its end. -/
def items : Nat → List UInt8 → Option (List Json × List UInt8)
  | 0, _ => none
  | fuel + 1, bs =>
    match value fuel bs with
    | none => none
    | some (x, r) =>
      match skip r with
      | [] => none
      | c :: r =>
        if c = 0x5D then some ([x], r)
        else if c = 0x2C then (items fuel r).map fun (l, r) => (x :: l, r)
        else none
/-- The members of an object, at least one, up to its end. -/
def members : Nat → List UInt8 → Option (List (List UInt8 × Json) × List UInt8)
  | 0, _ => none
  | fuel + 1, bs =>
    match skip bs with
    | [] => none
    | c :: r =>
      if c = 0x22 then
        match chars fuel r with
        | none => none
        | some (k, r) =>
          match skip r with
          | [] => none
          | c :: r =>
            if c = 0x3A then
              match value fuel r with
              | none => none
              | some (x, r) =>
                match skip r with
                | [] => none
                | c :: r =>
                  if c = 0x7D then some ([(k, x)], r)
                  else if c = 0x2C then (members fuel r).map fun (l, r) => ((k, x) :: l, r)
                  else none
            else none
      else none
end

/-- A document: a value with nothing but white space after it. -/
def read (bs : List UInt8) : Option Json :=
  match value (2 * bs.length + 2) bs with
  | some (j, r) => if skip r = [] then some j else none
  | none => none

/-- The lines of a text; every line ends with a newline, which is not part of it, but the
last, which is left out if it is empty. -/
def lines : List UInt8 → List (List UInt8)
  | [] => []
  | c :: r =>
    if c = 0x0A then [] :: lines r
    else
      match lines r with
      | [] => [[c]]
      | l :: ls => (c :: l) :: ls

/-- The documents that a consumer gets: one per line. -/
def documents (bs : List UInt8) : List (Option Json) := (lines bs).map read

/-- A continuation byte. -/
def Tail (b : UInt8) : Prop := 0x80 ≤ b.toNat ∧ b.toNat ≤ 0xBF

/-- UTF-8 (RFC 3629). -/
inductive Utf8 : List UInt8 → Prop
  | nil : Utf8 []
  | one {a r} : a.toNat ≤ 0x7F → Utf8 r → Utf8 (a :: r)
  | two {a b r} : 0xC2 ≤ a.toNat → a.toNat ≤ 0xDF → Tail b → Utf8 r → Utf8 (a :: b :: r)
  | three {a b c r} : 0xE0 ≤ a.toNat → a.toNat ≤ 0xEF → Tail b → Tail c →
      (a.toNat = 0xE0 → 0xA0 ≤ b.toNat) → (a.toNat = 0xED → b.toNat ≤ 0x9F) → Utf8 r →
      Utf8 (a :: b :: c :: r)
  | four {a b c d r} : 0xF0 ≤ a.toNat → a.toNat ≤ 0xF4 → Tail b → Tail c → Tail d →
      (a.toNat = 0xF0 → 0x90 ≤ b.toNat) → (a.toNat = 0xF4 → b.toNat ≤ 0x8F) → Utf8 r →
      Utf8 (a :: b :: c :: d :: r)

mutual
/-- All strings and names of a document are UTF-8. -/
def Text : Json → Prop
  | .str s => Utf8 s
  | .arr l => TextItems l
  | .obj l => TextMembers l
  | _ => True
/-- The same for the elements of an array. -/
def TextItems : List Json → Prop
  | [] => True
  | x :: l => Text x ∧ TextItems l
/-- The same for the members of an object. -/
def TextMembers : List (List UInt8 × Json) → Prop
  | [] => True
  | (k, x) :: l => Utf8 k ∧ Text x ∧ TextMembers l
end

end Mirakc.Spec.Json
