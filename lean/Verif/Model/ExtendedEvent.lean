import Verif.Model.Base
import Verif.Model.Documents
/-
The items of the extended event descriptors of an event, src/tsduck_helper.hh:296-384.  (The
commands use LibISDB for this, lines 386-405; this function is part of the header only.)
-/
namespace Mirakc.ExtendedEvent

/-- `ts::Descriptor`: `isValid()`, `tag()`, `payload()`. -/
structure ExtDesc where
  valid : Bool := true
  tag : Nat := 0x4E
  payload : List UInt8
  deriving DecidableEq, Repr

/-- A description and a text. -/
abbrev Item := List UInt8 × List UInt8

/-- `eed_desc`, `eed_item` and `items`, src/tsduck_helper.hh:321-324. -/
structure St where
  desc : List UInt8 := []
  item : List UInt8 := []
  items : List Item := []
  deriving DecidableEq, Repr

/-- `data[0]; data += 1`, which may be outside of the payload. -/
def byte : List UInt8 → Except Fault (Nat × List UInt8)
  | [] => .error .oob
  | b :: bs => .ok (b.toNat, bs)

/-- `append(data, n); data += n`, which may be outside of the payload. -/
def bytes (n : Nat) (data : List UInt8) : Except Fault (List UInt8 × List UInt8) :=
  if n ≤ data.length then .ok (data.take n, data.drop n) else .error .oob

/-- The item is added unless its description is empty, src/tsduck_helper.hh:351-356 and 375-378. -/
def flush (s : St) : St :=
  if s.desc = [] then s else { desc := [], item := [], items := s.items ++ [(s.desc, s.item)] }

/-- The loop over the items of a descriptor, src/tsduck_helper.hh:346-372; `fuel` is at least the
number of bytes remaining. -/
def loop : (fuel remaining : Nat) → List UInt8 → St → Except Fault St
  | 0, _, _, s => .ok s
  | fuel + 1, remaining, data, s =>
    if remaining < 2 then .ok s
    else do
      let (b, data) ← byte data
      let n := min b (remaining - 1)
      let remaining := remaining - 1
      let (desc, data) ← bytes n data
      let s := if 0 < n then { flush s with desc := (flush s).desc ++ desc } else s
      let remaining := remaining - n
      if remaining = 0 then .ok s
      else do
        let (b, data) ← byte data
        let m := min b (remaining - 1)
        let (item, data) ← bytes m data
        loop fuel (remaining - 1 - m) data { s with item := s.item ++ item }

/-- A descriptor, src/tsduck_helper.hh:326-373. -/
def step (s : St) (d : ExtDesc) : Except Fault St :=
  if !d.valid then .ok s
  else if d.tag != 0x4E then .ok s
  else if d.payload.length < 5 then .ok s
  else
    let remaining := (d.payload.getD 4 0).toNat
    loop remaining remaining (d.payload.drop 5) s

/-- All descriptors. -/
def run : List ExtDesc → St → Except Fault St
  | [], s => .ok s
  | d :: ds, s => do
    let s ← step s d
    run ds s

/-- The items, src/tsduck_helper.hh:319-378. -/
def items (ds : List ExtDesc) : Except Fault (List Item) := do
  let s ← run ds {}
  .ok (flush s).items

/-- `MakeExtendedEventJsonValue`, src/tsduck_helper.hh:319-384, with `MakeJsonValue` of lines
296-313; `decode` is `DecodeAribString`. -/
def json (decode : List UInt8 → List UInt8) (ds : List ExtDesc) : Except Fault Json := do
  let l ← items ds
  .ok (Documents.extendedJson (l.map fun i => (decode i.1, decode i.2)))

end Mirakc.ExtendedEvent
