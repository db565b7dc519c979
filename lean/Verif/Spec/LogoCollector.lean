import Verif.Model.LogoCollector
import Verif.Spec.History
/-
Specification of logos: the PNG file format (RFC 2083), as far as it matters.
-/
namespace Mirakc.Spec.Logo
open Mirakc.LogoCollector

/-- Eight steps of the CRC of PNG. -/
def crcBits : Nat → Nat → Nat
  | 0, c => c
  | n + 1, c => crcBits n (if c % 2 = 1 then 0xEDB88320 ^^^ (c / 2) else c / 2)

/-- The CRC-32 of PNG. -/
def crc32 (l : List UInt8) : Nat :=
  (l.foldl (fun c b => crcBits 8 (c ^^^ b.toNat)) 0xFFFFFFFF) ^^^ 0xFFFFFFFF

/-- A 32 bit number, most significant byte first. -/
def be32 (n : Nat) : List UInt8 :=
  [UInt8.ofNat (n / 2 ^ 24), UInt8.ofNat (n / 2 ^ 16), UInt8.ofNat (n / 2 ^ 8), UInt8.ofNat n]

/-- A chunk. -/
structure Chunk where
  type : String
  data : List UInt8
deriving DecidableEq

/-- The four bytes of a type. -/
def typeBytes (t : String) : List UInt8 := t.toList.map fun c => UInt8.ofNat c.toNat

/-- A chunk in the file: length, type, data, CRC of type and data. -/
def Chunk.bytes (c : Chunk) : List UInt8 :=
  be32 c.data.length ++ typeBytes c.type ++ c.data ++ be32 (crc32 (typeBytes c.type ++ c.data))

/-- A PNG file. -/
def file (cs : List Chunk) : List UInt8 :=
  [0x89, 0x50, 0x4E, 0x47, 0x0D, 0x0A, 0x1A, 0x0A] ++ cs.flatMap Chunk.bytes

/-- A palette with transparency: up to 256 colours of three bytes, and up to as many
degrees of opacity. -/
structure Palette (plte trns : Chunk) : Prop where
  colours : plte.type = "PLTE" ∧ plte.data.length % 3 = 0 ∧ 3 ≤ plte.data.length ∧ plte.data.length ≤ 3 * 256
  opacity : trns.type = "tRNS" ∧ 3 * trns.data.length ≤ plte.data.length

/-- Red, green, blue and opacity of an index. -/
def colour (plte trns : Chunk) (i : Nat) : List (Option UInt8) :=
  [plte.data[3 * i]?, plte.data[3 * i + 1]?, plte.data[3 * i + 2]?, trns.data[i]?]

/-- The file shown for a logo. -/
def painted (plte trns : Chunk) (data : List UInt8) : List UInt8 :=
  data.take 33 ++ plte.bytes ++ trns.bytes ++ data.drop 33

/-- The document for a logo. -/
def doc (base64 : List UInt8 → String) (plte trns : Chunk) (l : Logo) : Doc :=
  { type := l.type, id := l.id, version := l.version
    data := "data:image/png;base64," ++ base64 (painted plte trns l.data)
    nid := l.nid
    services := match l.services with
      | [] => none
      | ss => some ss }

/-- collect-logos, offered the packets, ended with the exit code. -/
def Collected (base64 : List UInt8 → String) (is : List LogoInput) (code : Nat) (h : Hist) : Prop :=
  Ran (sink base64) { st := () } is code h

end Mirakc.Spec.Logo
