/-
JSON documents, and how they are printed: `StdoutJsonlSink`, src/jsonl_sink.hh:20-32.

The writer is `rapidjson::Writer` with its default flags, which is not part of the
repository; it is modelled as documented: no white space, `"`, `\` and control characters
escaped, all other bytes of strings copied.  All numbers in the program are integers.
Writes to standard output succeed.
-/
namespace Mirakc

/-- `rapidjson::Value`.  Strings are byte strings. -/
inductive Json where
  | null
  | bool (b : Bool)
  | num (n : Int)
  | str (s : List UInt8)
  | arr (l : List Json)
  | obj (l : List (List UInt8 × Json))

namespace Json

/-- An ASCII literal. -/
def ascii (s : String) : List UInt8 := s.toList.map fun c => UInt8.ofNat c.toNat

/-- Decimal digits of a number, in at most `fuel` places. -/
def digits : Nat → Nat → List UInt8
  | 0, _ => []
  | fuel + 1, n =>
    if n < 10 then [UInt8.ofNat (48 + n)] else digits fuel (n / 10) ++ [UInt8.ofNat (48 + n % 10)]

/-- `Writer::WriteInt64`, `Writer::WriteUint64` (rapidjson). -/
def writeInt : Int → List UInt8
  | .ofNat n => digits (n + 1) n
  | .negSucc n => 0x2D :: digits (n + 2) (n + 1)

/-- A hexadecimal digit, upper case. -/
def hexDigit (n : Nat) : UInt8 := UInt8.ofNat (if n < 10 then 48 + n else 55 + n)

/-- One byte of a string, the table `escape` of `Writer::WriteString` (rapidjson). -/
def writeByte (b : UInt8) : List UInt8 :=
  if b = 0x22 then [0x5C, 0x22]
  else if b = 0x5C then [0x5C, 0x5C]
  else if b = 0x08 then [0x5C, 0x62]
  else if b = 0x09 then [0x5C, 0x74]
  else if b = 0x0A then [0x5C, 0x6E]
  else if b = 0x0C then [0x5C, 0x66]
  else if b = 0x0D then [0x5C, 0x72]
  else if b < 0x20 then [0x5C, 0x75, 0x30, 0x30, hexDigit (b.toNat / 16), hexDigit (b.toNat % 16)]
  else [b]

/-- `Writer::WriteString` (rapidjson). -/
def writeStr (s : List UInt8) : List UInt8 := 0x22 :: (s.flatMap writeByte ++ [0x22])

mutual
/-- `Document::Accept(writer)` (rapidjson). -/
def write : Json → List UInt8
  | .null => [0x6E, 0x75, 0x6C, 0x6C]
  | .bool true => [0x74, 0x72, 0x75, 0x65]
  | .bool false => [0x66, 0x61, 0x6C, 0x73, 0x65]
  | .num n => writeInt n
  | .str s => writeStr s
  | .arr [] => [0x5B, 0x5D]
  | .arr (x :: l) => 0x5B :: (write x ++ writeItems l)
  | .obj [] => [0x7B, 0x7D]
  | .obj ((k, x) :: l) => 0x7B :: (writeStr k ++ 0x3A :: (write x ++ writeMembers l))
/-- The elements of an array after the first, and its end. -/
def writeItems : List Json → List UInt8
  | [] => [0x5D]
  | x :: l => 0x2C :: (write x ++ writeItems l)
/-- The members of an object after the first, and its end. -/
def writeMembers : List (List UInt8 × Json) → List UInt8
  | [] => [0x7D]
  | (k, x) :: l => 0x2C :: (writeStr k ++ 0x3A :: (write x ++ writeMembers l))
end

/-- `StdoutJsonlSink::HandleDocument`, src/jsonl_sink.hh:25-31, for documents one after the
other: each followed by a newline (`std::endl`). -/
def jsonl (docs : List Json) : List UInt8 := docs.flatMap fun d => write d ++ [0x0A]

end Json
end Mirakc
