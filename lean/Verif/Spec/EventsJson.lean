import Verif.Model.EventsJson
/-
The event loop of an EIT section (ETSI EN 300 468), as written by a broadcaster.
-/
namespace Mirakc.Spec.EventsJson

/-- An event as broadcast.  The duration is given by its three BCD bytes, or by others
if it is undefined. -/
structure BroadcastEvent where
  id : UInt16
  /-- five bytes: MJD and BCD time -/
  start : Fin 5 → UInt8
  duration : Fin 3 → UInt8
  running : Fin 8
  scrambled : Bool
  descriptors : List UInt8

/-- The two bytes of a number below 65536, high byte first. -/
def be16 (n : Nat) : List UInt8 := [UInt8.ofNat (n / 256), UInt8.ofNat n]

/-- The bytes of an event; the length of the descriptors must be less than 4096. -/
def BroadcastEvent.bytes (ev : BroadcastEvent) : List UInt8 :=
  be16 ev.id.toNat ++ [ev.start 0, ev.start 1, ev.start 2, ev.start 3, ev.start 4] ++
  [ev.duration 0, ev.duration 1, ev.duration 2] ++
  be16 (8192 * ev.running.val + (if ev.scrambled then 4096 else 0) + ev.descriptors.length) ++
  ev.descriptors

/-- The bytes of an event loop. -/
def encode (evs : List BroadcastEvent) : List UInt8 := evs.flatMap BroadcastEvent.bytes

/-- The byte is made of two decimal digits, and has that value. -/
def Bcd (b : UInt8) (n : Int) : Prop :=
  ∃ d1 d0 : Nat, d1 < 10 ∧ d0 < 10 ∧ b.toNat = 16 * d1 + d0 ∧ n = 10 * d1 + d0

/-- The duration shown: milliseconds, or undefined. -/
def DurationShown (d : Fin 3 → UInt8) (r : Option Int) : Prop :=
  match r with
  | some ms => ∃ h m s, Bcd (d 0) h ∧ Bcd (d 1) m ∧ Bcd (d 2) s ∧ ms = ((h * 60 + m) * 60 + s) * 1000
  | none => ∃ i, ∀ n, ¬ Bcd (d i) n

/-- The JSON event shows the event: start times are JST, nine hours ahead of UTC. -/
structure Shown (mjd : List UInt8 → Option Int) (ev : BroadcastEvent) (j : JsonEvent) : Prop where
  id : j.eventId = ev.id
  start : j.startTime =
    (mjd [ev.start 0, ev.start 1, ev.start 2, ev.start 3, ev.start 4]).map (· - 9 * 3600 * 1000)
  duration : DurationShown ev.duration j.duration
  scrambled : j.scrambled = ev.scrambled
  descriptors : j.descriptors = ev.descriptors

/-- The bytes are an event loop, followed by less than an event. -/
def WellFormed (data : List UInt8) : Prop :=
  ∃ evs tail, (∀ ev ∈ evs, ev.descriptors.length < 4096) ∧ data = encode evs ++ tail ∧ tail.length < 12

/-- The lists correspond, element by element. -/
inductive Pairwise₂ {α β : Type} (R : α → β → Prop) : List α → List β → Prop
  | nil : Pairwise₂ R [] []
  | cons {a b as bs} : R a b → Pairwise₂ R as bs → Pairwise₂ R (a :: as) (b :: bs)

end Mirakc.Spec.EventsJson
