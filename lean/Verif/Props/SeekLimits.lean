import Verif.Proof.SeekLimits
import Verif.Props.MainFilters
/-
Property C139: what the limits of seek-start change.
-/
namespace Mirakc.Props
open Mirakc.Main Mirakc.Spec.Main Mirakc.Spec.Pipeline

private theorem ended {w : World} (hc : Faithful w.codec) {ps : List (List UInt8)} (hr : Reads w ps)
    (hw : ∀ x ∈ w.write, 0 ≤ x) {o : StartSeeker.Opt} {e : Ended} (h : Main.seekStart w o = .ok e) :
    e.code = 0 ∧ ∃ s items, StartSeeker.run o StartSeeker.init (seen (arrived w.codec w.tables) 0 ps) = .ok (s, items) ∧
      e.bytes = ((Spec.StartSeeker.sent items ++ s.packets).map w.codec.bytes).flatten := by
  obtain ⟨k1, k2⟩ := C88_seek_start w.codec hc w.tables o _ ps _ (reading hr) w.write hw
  unfold Main.seekStart at h
  obtain ⟨r, h1, h⟩ := bind_ok_iff.1 h
  obtain ⟨⟨s, items⟩, hrun⟩ := k1.1 ⟨r, feed_exec.1 h1⟩
  obtain ⟨n, s', m, d, h2, h3⟩ := k2 s items hrun
  have h4 := feed_exec.1 h1
  rw [h2] at h4
  cases h4
  cases h
  exact ⟨rfl, s, items, hrun, h3⟩

private theorem everything {w : World} (hc : Faithful w.codec) {ps : List (List UInt8)} (hr : Reads w ps) :
    (((seen (arrived w.codec w.tables) 0 ps).map (·.packet)).map w.codec.bytes).flatten = ps.flatten := by
  have h188 := Mirakc.Pipeline.packets_188 hr.2
  have : (seen (arrived w.codec w.tables) 0 ps).map (·.packet) = ps.map w.codec.packet :=
    Mirakc.Pipeline.seen_input w.codec w.tables ps 0
  rw [this, List.map_map]
  congr 1
  conv => rhs; rw [← List.map_id ps]
  exact List.map_congr_left (fun b hb => hc.keep b (h188 b hb))

private theorem loaded {sid : Int} {dur pkts : Option Int} {o : StartSeeker.Opt}
    (h : Options.loadSeeker sid dur pkts = .ok o) :
    o.sid = Options.toUint16 sid ∧ o.maxDuration = dur.getD 0 ∧
      o.maxPackets = (pkts.map fun v => Options.toSize v % 4294967296).getD 0 := by
  have key : ∀ k : Nat, (if dur.getD 0 == 0 && k == 0 then .error (.exit 1)
      else .ok { sid := Options.toUint16 sid, maxDuration := dur.getD 0, maxPackets := k } :
        Except Options.Refusal StartSeeker.Opt) = .ok o →
      o.sid = Options.toUint16 sid ∧ o.maxDuration = dur.getD 0 ∧ o.maxPackets = k := by
    intro k hk
    split at hk
    · cases hk
    · cases hk; exact ⟨rfl, rfl, rfl⟩
  cases pkts with
  | none => exact key 0 h
  | some v => exact key _ h

/-- **C139**, any limits.  If no write fails and seek-start ends normally on a stream with two sets of limits, it ends
with 0 and writes the same with both; or, with one of them, the whole stream unchanged. -/
theorem C139_limits (w : World) (hc : Faithful w.codec) (ps : List (List UInt8)) (hr : Reads w ps)
    (hw : ∀ x ∈ w.write, 0 ≤ x) (sid : Int) (dur dur' pkts pkts' : Option Int) (e e' : Ended)
    (h : main w (.seekStart sid dur pkts) = .ok e) (h' : main w (.seekStart sid dur' pkts') = .ok e') :
    e.code = 0 ∧ e'.code = 0 ∧ (e'.bytes = e.bytes ∨ e.bytes = ps.flatten ∨ e'.bytes = ps.flatten) := by
  obtain ⟨o, ho, h⟩ := bind_ok_iff.1 h
  obtain ⟨o', ho', h'⟩ := bind_ok_iff.1 h'
  rw [mapError_ok_iff] at ho ho'
  have hs : o'.sid = o.sid := (loaded ho').1.trans (loaded ho).1.symm
  obtain ⟨c1, s, items, r1, b1⟩ := ended hc hr hw h
  obtain ⟨c2, s', items', r2, b2⟩ := ended hc hr hw h'
  refine ⟨c1, c2, ?_⟩
  have hx := everything hc hr
  rcases SeekLimits.twins hs _ StartSeeker.init s s' (-1) items items' rfl r1 r2 with k | k | k
  · left; rw [b1, b2, k]
  · right; left
    rw [b1, k, ← hx]
    rfl
  · right; right
    rw [b2, k, ← hx]
    rfl

/-- **C139**, more packets.  A higher number of packets (or none), with the same duration, changes nothing unless the
whole stream was written with the lower one. -/
theorem C139_more_packets (w : World) (hc : Faithful w.codec) (ps : List (List UInt8)) (hr : Reads w ps)
    (hw : ∀ x ∈ w.write, 0 ≤ x) (sid : Int) (dur : Option Int) (n : Nat) (hn : 0 < n) (more : Option Nat)
    (hm : ∀ m, more = some m → n ≤ m ∧ m < 2 ^ 32) (hn' : n < 2 ^ 32) (e e' : Ended)
    (h : main w (.seekStart sid dur (some n)) = .ok e)
    (h' : main w (.seekStart sid dur (more.map fun v : Nat => (v : Int))) = .ok e') :
    e'.bytes = e.bytes ∨ e.bytes = ps.flatten := by
  obtain ⟨o, ho, h⟩ := bind_ok_iff.1 h
  obtain ⟨o', ho', h'⟩ := bind_ok_iff.1 h'
  rw [mapError_ok_iff] at ho ho'
  have size : ∀ v : Nat, v < 2 ^ 32 → Options.toSize (v : Int) % 4294967296 = v := by
    intro v hv
    unfold Options.toSize
    omega
  obtain ⟨l1, l2, l3⟩ := loaded ho
  obtain ⟨l1', l2', l3'⟩ := loaded ho'
  have hs : o'.sid = o.sid ∧ o'.maxDuration = o.maxDuration ∧ o.maxPackets = n ∧
      (o'.maxPackets = 0 ∨ n ≤ o'.maxPackets) := by
    refine ⟨l1'.trans l1.symm, l2'.trans l2.symm, l3.trans (size n hn'), ?_⟩
    cases more with
    | none => exact Or.inl l3'
    | some m =>
      right
      obtain ⟨h1, h2⟩ := hm m rfl
      rw [l3']
      show n ≤ Options.toSize (m : Int) % 4294967296
      rw [size m h2]
      exact h1
  obtain ⟨k1, k2, k3, k4⟩ := hs
  obtain ⟨c1, s, items, r1, b1⟩ := ended hc hr hw h
  obtain ⟨c2, s', items', r2, b2⟩ := ended hc hr hw h'
  have hx := everything hc hr
  rcases SeekLimits.more k1 k2 (by omega) (by omega) _ StartSeeker.init s s' items items' rfl r1 r2 with k | k
  · left; rw [b1, b2, k]
  · right
    rw [b1, k, ← hx]
    rfl

namespace C139ex

/-- A stream in which the service gets a second audio stream. -/
def ps : List (List UInt8) :=
  [C68ex.raw 0 0 1, C68ex.raw 0x100 0 2, C68ex.clk 0x1ff 100, C68ex.raw 0 1 1, C68ex.raw 0x100 1 3, C68ex.clk 0x1ff 200]
/-- The tables completed by its packets. -/
def tabs : Nat → List Table
  | 0 => [C34ex.pat 0]
  | 1 => [C34ex.pmt C34ex.pmt0 1]
  | 3 => [C34ex.pat 3]
  | 4 => [C34ex.pmt C34ex.pmt1 4]
  | _ => []
def world : World := { C95ex.world with tables := tabs, read := ps.map some }
theorem reads : Reads world ps := by
  refine ⟨fun r hr => ?_, ?_⟩
  · have : ∀ r ∈ world.read, (r.getD []).length ≤ 16384 := by decide +kernel
    exact this _ hr
  · have : contents world = ps.flatten := by decide +kernel
    rw [this]
    exact Mirakc.Pipeline.packets_flatten (by decide +kernel)

end C139ex

/-- With at most 3 packets everything is written, with 5 or more the PAT and the last two packets. -/
example : Faithful C139ex.world.codec ∧ Reads C139ex.world C139ex.ps ∧ (∀ x ∈ C139ex.world.write, 0 ≤ x) ∧
    (∃ e, main C139ex.world (.seekStart 1 (some 1000) (some (3 : Nat))) = .ok e ∧
      (decide (e.bytes = C139ex.ps.flatten)) = true) ∧
    (∃ e, main C139ex.world (.seekStart 1 (some 1000) (some (5 : Nat))) = .ok e ∧
      (decide (e.bytes = (C139ex.ps.drop 3).flatten)) = true) ∧
    (∃ e, main C139ex.world (.seekStart 1 (some 1000) none) = .ok e ∧
      (decide (e.bytes = (C139ex.ps.drop 3).flatten)) = true) :=
  ⟨C68ex.faithful, C139ex.reads, C95ex.writes, C95ex.check (by decide +kernel), C95ex.check (by decide +kernel),
    C95ex.check (by decide +kernel)⟩

end Mirakc.Props
