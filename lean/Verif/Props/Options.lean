import Verif.Proof.Options
import Verif.Proof.RingFileSink
import Verif.Spec.RingFile
/-
Properties C65, C66, C83, C84, C85: options.
-/
namespace Mirakc.Props
open Mirakc.Options Mirakc.Spec Mirakc.Spec.Options

/-- **C65.**  A list of component tags is accepted exactly if every string denotes a number
from 0 to 255; then the tags stored are exactly these numbers.  Otherwise the command ends
before anything is processed.  A string denotes at most one number. -/
theorem C65_tags (l : List (List Char)) :
    ((∀ s ∈ l, ∃ v, Denotes s v ∧ 0 ≤ v ∧ v < 256) →
      ∃ tags, loadComponentTags (some l) = .ok tags ∧ ∀ x : Nat, x ∈ tags ↔ ∃ s ∈ l, Denotes s x) ∧
    ((∃ s ∈ l, ¬ ∃ v, Denotes s v ∧ 0 ≤ v ∧ v < 256) → ∃ r, loadComponentTags (some l) = .error r) ∧
    (∀ s v w, Denotes s v → Denotes s w → v = w) ∧ loadComponentTags none = .ok [] := by
  refine ⟨fun h => ?_, fun ⟨s, hs, hn⟩ => ?_, fun s v w h1 h2 => (reads_unique h1 h2).1, rfl⟩
  · rcases addTags_spec l [] with ⟨_, t, h1, h2⟩ | ⟨⟨s, hs, hn⟩, _⟩
    · exact ⟨t, by simpa [loadComponentTags] using h1, h2⟩
    · exact absurd (h s hs) hn
  · rcases addTags_spec l [] with ⟨h, _⟩ | ⟨_, h⟩
    · exact absurd (h s hs) hn
    · exact h

/-- Non-trivial case for C65: leading blanks, a sign and leading zeros are allowed. -/
example : loadComponentTags (some ["16".toList, " +0255".toList, "-0".toList]) = .ok [16, 255, 0] ∧
    Denotes " +0255".toList 255 ∧ loadComponentTags (some ["16".toList, "256".toList]) = .error .abort ∧
    loadComponentTags (some ["0x10".toList]) = .error .abort ∧
    loadComponentTags (some ["-1".toList]) = .error .abort ∧
    loadComponentTags (some ["".toList]) = .error .uncaught ∧
    loadComponentTags (some ["4294967312".toList]) = .error .uncaught := by
  refine ⟨by decide +kernel, ⟨[' '], ['+'], "0255".toList, 1, by decide +kernel, ?_, .plus, by decide +kernel, ?_, by simp,
    by decide +kernel⟩, by decide +kernel, by decide +kernel, by decide +kernel, by decide +kernel, by decide +kernel⟩
  · intro c hc; simp at hc; subst hc; exact .inl rfl
  · intro c hc
    have : c ∈ ['0', '2', '5', '5'] := hc
    simp only [List.mem_cons, List.not_mem_nil, or_false] at this
    unfold Digit
    rcases this with rfl | rfl | rfl | rfl <;> decide

/-- The full claim of C66: if the list is accepted, only services are selected whose ids
were given. -/
def C66_claim : Prop := ∀ (l : List (List Char)) (sids : List Nat), l ≠ [] →
  loadSidSet (some l) = .ok sids → ∀ sid : Nat, Chosen sids sid → ∃ s ∈ l, Denotes s sid

/-- **C66** is false: 65537 selects the service 1, -1 the service 65535, and a number in
hexadecimal notation is dropped, with the effect that all services are selected. -/
theorem C66_claim_false : ¬ C66_claim ∧
    loadSidSet (some ["65537".toList]) = .ok [1] ∧ loadSidSet (some ["-1".toList]) = .ok [65535] ∧
    loadSidSet (some ["0x0400".toList]) = .ok [] ∧ (∀ sid, Chosen [] sid) ∧
    ¬ ∃ v, Denotes "0x0400".toList v := by
  have h1 : loadSidSet (some ["0x0400".toList]) = .ok [] := by decide +kernel
  have h2 : ¬ ∃ v, Denotes "0x0400".toList v := by
    rintro ⟨v, hv⟩
    have := strtol_of_reads hv
    have e : strtol "0x0400".toList = some (0, 1) := by decide +kernel
    rw [e] at this
    simp only [Option.some.injEq, Prod.mk.injEq] at this
    exact absurd this.2 (by decide +kernel)
  refine ⟨fun h => ?_, by decide +kernel, by decide +kernel, h1, fun sid => .inl rfl, h2⟩
  obtain ⟨s, hs, hd⟩ := h ["0x0400".toList] [] (by simp) h1 5 (.inl rfl)
  simp only [List.mem_singleton] at hs
  subst hs
  exact h2 ⟨_, hd⟩

/-- **C66**, what holds.  If every string denotes a number from 0 to 65535, exactly these
are stored.  In general the list is accepted exactly if every string starts with a number of
32 bits; then strings which do not end with the number are ignored, and the others are stored
modulo 65536. -/
theorem C66_sids_partial (l : List (List Char)) :
    ((∀ s ∈ l, ∃ v, Denotes s v ∧ 0 ≤ v ∧ v < 65536) → ∃ sids, loadSidSet (some l) = .ok sids ∧
      ∀ x : Nat, x ∈ sids ↔ ∃ s ∈ l, Denotes s x) ∧
    ((∀ s ∈ l, ∃ v rest, Reads s v rest ∧ Fits v) → ∃ sids, loadSidSet (some l) = .ok sids ∧
      ∀ x : Nat, x ∈ sids ↔ ∃ s ∈ l, ∃ v, Denotes s v ∧ (x : Int) = v % 65536) ∧
    ((∃ s ∈ l, ¬ ∃ v rest, Reads s v rest ∧ Fits v) → ∃ r, loadSidSet (some l) = .error r) ∧
    loadSidSet none = .ok [] := by
  have key : (∀ s ∈ l, ∃ v rest, Reads s v rest ∧ Fits v) → ∃ sids, loadSidSet (some l) = .ok sids ∧
      ∀ x : Nat, x ∈ sids ↔ ∃ s ∈ l, ∃ v, Denotes s v ∧ (x : Int) = v % 65536 := by
    intro h
    rcases addSids_spec l [] with ⟨_, t, h1, h2⟩ | ⟨⟨s, hs, hn⟩, _⟩
    · exact ⟨t, by simpa [loadSidSet] using h1, h2⟩
    · exact absurd (h s hs) hn
  refine ⟨fun h => ?_, key, fun ⟨s, hs, hn⟩ => ?_, rfl⟩
  · obtain ⟨sids, h1, h2⟩ := key fun s hs => by
      obtain ⟨v, hv, hb⟩ := h s hs
      exact ⟨v, [], hv, by unfold Fits; omega⟩
    refine ⟨sids, h1, fun x => ?_⟩
    rw [h2]
    constructor
    · rintro ⟨s, hs, v, hv, hx⟩
      obtain ⟨w, hw, hb⟩ := h s hs
      have := (reads_unique hv hw).1
      subst this
      have : (x : Int) = v := by omega
      exact ⟨s, hs, this ▸ hv⟩
    · rintro ⟨s, hs, hx⟩
      obtain ⟨w, hw, hb⟩ := h s hs
      have := (reads_unique hx hw).1
      exact ⟨s, hs, x, hx, by omega⟩
  · rcases addSids_spec l [] with ⟨h, _⟩ | ⟨_, h⟩
    · exact absurd (h s hs) hn
    · exact ⟨_, h⟩

/-- Non-trivial case for C66. -/
example : loadSidSet (some ["101".toList, "102 ".toList, "1024".toList]) = .ok [101, 1024] ∧
    loadSidSet (some ["101".toList, "all".toList]) = .error .uncaught := by
  exact ⟨by decide +kernel, by decide +kernel⟩

/-- **C83.**  With any numbers as arguments (64 bits), record-service is started exactly if
chunk size, number of chunks and start position are permitted; then the values are used as
given, and neither the construction nor the start of the recorder fails an assertion.
Otherwise the command aborts before the file is opened. -/
theorem C83_recorder_options (sid chunk num : Int) (start : Option Nat)
    (hc : -2 ^ 63 ≤ chunk ∧ chunk < 2 ^ 63) (hn : -2 ^ 63 ≤ num ∧ num < 2 ^ 63) :
    ((0 ≤ chunk ∧ 0 ≤ num ∧ Permitted chunk.toNat num.toNat (start.getD 0)) →
      ∃ o, loadRecorder sid chunk num start = .ok o ∧
        (o.chunkSize : Int) = chunk ∧ (o.numChunks : Int) = num ∧ o.startPos = start.getD 0 ∧
        ∀ results, ∃ h, ServiceRecorder.init o results = .ok h ∧ ∃ r, ServiceRecorder.start o h = .ok r) ∧
    (¬ (0 ≤ chunk ∧ 0 ≤ num ∧ Permitted chunk.toNat num.toNat (start.getD 0)) →
      loadRecorder sid chunk num start = .error .abort) := by
  have hB : RingFileSink.bufferSize = 8192 := rfl
  have hlim : RingFileSink.maxChunkSize = 8192 * 0x3FFFF := rfl
  have hlim2 : RingFileSink.maxNumChunks = 0x7FFFFFFF := rfl
  refine ⟨fun ⟨h1, h2, hp⟩ => ?_, fun hnot => ?_⟩
  · have e1 : toSize chunk = chunk.toNat := by unfold toSize; omega
    have e2 : toSize num = num.toNat := by unfold toSize; omega
    have hacc := (RingFileSink.accept_iff _ _ _).2 hp
    have hprod : (chunk.toNat * num.toNat) % 18446744073709551616 = chunk.toNat * num.toNat := by
      apply Nat.mod_eq_of_lt
      have : chunk.toNat * num.toNat ≤ (8192 * 0x3FFFF) * 0x7FFFFFFF := Nat.mul_le_mul hp.chunkMax hp.numMax
      omega
    obtain ⟨hp1, hp2, hp3, hp4, hp5, hp6, hp7⟩ := hp
    have hload : loadRecorder sid chunk num start = .ok
        { sid := toUint16 sid, chunkSize := chunk.toNat, numChunks := num.toNat, startPos := start.getD 0 } := by
      unfold loadRecorder
      simp only [e1, e2, hB, hlim, hlim2]
      rw [if_neg (by simp; omega), if_neg (by simp [hp2]), if_neg (by omega), if_neg (by simp; omega),
        if_neg (by omega)]
      cases start with
      | none => rfl
      | some pos =>
        simp only [Option.getD_some] at hp6 hp7 ⊢
        rw [if_neg (by simp [hp6]), if_neg (by rw [hprod]; omega)]
    refine ⟨_, hload, by simp; omega, by simp; omega, rfl, fun results => ?_⟩
    obtain ⟨g⟩ := RingFileSink.geom_of_accept hacc
    have hopen : ∃ r, RingFileSink.openAt chunk.toNat num.toNat (start.getD 0) results = .ok r := by
      rcases RingFileSink.open_spec hacc results g with ⟨s, h, _⟩ | ⟨s, h, _⟩ <;> exact ⟨_, h⟩
    obtain ⟨r, hr⟩ := hopen
    unfold RingFileSink.openAt at hr
    simp only [ServiceRecorder.init]
    cases hnew : RingFileSink.new chunk.toNat num.toNat results with
    | error e => rw [hnew] at hr; cases hr
    | ok s0 =>
      rw [hnew] at hr
      refine ⟨_, rfl, ?_⟩
      simp only [ServiceRecorder.start]
      by_cases h0 : start.getD 0 = 0
      · simp only [h0, ne_eq, not_true_eq_false, if_false]
        exact ⟨_, rfl⟩
      · simp only [h0, ne_eq, not_false_eq_true, if_true, Mirakc.ok_bind] at hr ⊢
        rw [hr]
        obtain ⟨b, s1⟩ := r
        cases b <;> exact ⟨_, rfl⟩
  · unfold loadRecorder
    simp only [hB, hlim, hlim2]
    by_cases k1 : toSize chunk = 0
    · rw [if_pos (by simpa using k1)]
    rw [if_neg (by simpa using k1)]
    by_cases k2 : toSize chunk % 8192 = 0
    case neg => rw [if_pos (by simpa using k2)]
    rw [if_neg (by simpa using k2)]
    by_cases k3 : toSize chunk > 8192 * 0x3FFFF
    · rw [if_pos k3]
    rw [if_neg k3]
    by_cases k4 : toSize num = 0
    · rw [if_pos (by simpa using k4)]
    rw [if_neg (by simpa using k4)]
    by_cases k5 : toSize num > 0x7FFFFFFF
    · rw [if_pos k5]
    rw [if_neg k5]
    have e1 : toSize chunk = chunk.toNat ∧ 0 ≤ chunk := by unfold toSize at k3 ⊢; omega
    have e2 : toSize num = num.toNat ∧ 0 ≤ num := by unfold toSize at k5 ⊢; omega
    have hprod : (chunk.toNat * num.toNat) % 18446744073709551616 = chunk.toNat * num.toNat := by
      apply Nat.mod_eq_of_lt
      have : chunk.toNat * num.toNat ≤ (8192 * 0x3FFFF) * 0x7FFFFFFF :=
        Nat.mul_le_mul (by omega) (by omega)
      omega
    cases start with
    | none =>
      exfalso
      refine hnot ⟨e1.2, e2.2, by omega, by omega, by omega, by omega, by omega, by simp, ?_⟩
      simp only [Option.getD_none]
      exact Nat.mul_pos (by omega) (by omega)
    | some pos =>
      by_cases k6 : pos % toSize chunk = 0
      case neg => simp only; rw [if_pos (by simpa using k6)]
      simp only
      rw [if_neg (by simpa using k6), e1.1, e2.1, hprod]
      by_cases k7 : pos < chunk.toNat * num.toNat
      · exfalso
        refine hnot ⟨e1.2, e2.2, by omega, by omega, by omega, by omega, by omega, ?_, k7⟩
        rw [← e1.1]; exact k6
      · rw [if_pos (by omega)]

/-- Non-trivial case for C83. -/
example : loadRecorder 101 16384 100 (some 32768) =
      .ok { sid := 101, chunkSize := 16384, numChunks := 100, startPos := 32768 } ∧
    loadRecorder 101 (-8192) 100 none = .error .abort ∧
    loadRecorder 101 16384 2 (some 32768) = .error .abort := by
  exact ⟨by decide +kernel, by decide +kernel, by decide +kernel⟩

/-- The full claim of C84: the service id used is the one given. -/
def C84_claim : Prop := ∀ sid : Int, ((loadServiceFilter (some sid)).sid : Int) = sid

/-- **C84** is false: 65537 is taken for the service 1. -/
theorem C84_claim_false : ¬ C84_claim ∧ (loadServiceFilter (some 65537)).sid = 1 := by
  refine ⟨fun h => ?_, rfl⟩
  have := h 65537
  revert this
  decide

/-- **C84**, what holds.  Numbers from 0 to 65535 given as service id, event id or PID are
used unchanged by all commands; so are PCR, margins and tags of filter-program, and the
times are converted from Unix time to JST. -/
theorem C84_ids_partial (sid : Int) (h : 0 ≤ sid ∧ sid < 65536) :
    ((loadServiceFilter (some sid)).sid : Int) = sid ∧ (loadServiceFilter (some sid)).timeLimit = none ∧
    (∀ chunk num start o, loadRecorder sid chunk num start = .ok o → (o.sid : Int) = sid) ∧
    (∀ dur pkts o, loadSeeker sid dur pkts = .ok o → (o.sid : Int) = sid) ∧
    ∀ a : ProgramArgs, a.sid = sid → 0 ≤ a.eid ∧ a.eid < 65536 → 0 ≤ a.clockPid ∧ a.clockPid < 65536 →
      ∀ o, loadProgramFilter a = .ok o →
        (o.sid : Int) = sid ∧ (o.eid : Int) = a.eid ∧ (o.clockPid : Int) = a.clockPid ∧
        o.clockPcr = a.clockPcr ∧ o.clockTime = a.clockTime + 9 * 3600 * 1000 ∧
        loadComponentTags a.audioTags = .ok o.audioTags ∧
        loadComponentTags a.videoTags = .ok o.videoTags ∧
        o.startMargin = a.startMargin.getD 0 ∧ o.endMargin = a.endMargin.getD 0 ∧
        o.waitUntil = a.waitUntil.map (· + 9 * 3600 * 1000) ∧ o.preStreaming = a.preStreaming := by
  have hu : (toUint16 sid : Int) = sid := by unfold toUint16; omega
  refine ⟨hu, rfl, fun chunk num start o ho => ?_, fun dur pkts o ho => ?_, fun a ha he hc o ho => ?_⟩
  · unfold loadRecorder at ho
    simp only at ho
    repeat' split at ho
    all_goals first | cases ho | skip
    all_goals exact hu
  · unfold loadSeeker at ho
    simp only at ho
    repeat' split at ho
    all_goals first | (cases ho; done) | (cases ho; exact hu)
  · unfold loadProgramFilter at ho
    simp only [bind_ok] at ho
    obtain ⟨_, h1, _, h2, _, h3, _, h4, ho⟩ := ho
    obtain ⟨rfl, _⟩ := toJst_ok h1
    cases ho
    have e1 : (toUint16 a.eid : Int) = a.eid := by unfold toUint16; omega
    have e2 : (toUint16 a.clockPid : Int) = a.clockPid := by unfold toUint16; omega
    refine ⟨by rw [ha]; exact hu, e1, e2, rfl, ?_, h2, h3, rfl, rfl, ?_, rfl⟩
    · show unixToJst a.clockTime = _
      unfold unixToJst jstTzOffset; omega
    · show _ = a.waitUntil.map _
      cases hw : a.waitUntil with
      | none => rw [hw] at h4; cases h4; rfl
      | some w =>
        rw [hw] at h4
        simp only [loadWaitUntil, bind_ok] at h4
        obtain ⟨_, h5, h6⟩ := h4
        obtain ⟨rfl, _⟩ := toJst_ok h5
        cases h6
        simp only [Option.map_some, Option.some.injEq]; unfold unixToJst jstTzOffset; omega

/-- Non-trivial case for C84. -/
example : loadProgramFilter { sid := 101, eid := 2000, clockPid := 0x0901, clockPcr := 5, clockTime := 0
                              audioTags := some ["16".toList], waitUntil := some 7 } =
    .ok { sid := 101, eid := 2000, clockPid := 0x0901, clockPcr := 5, clockTime := 32400000
          audioTags := [16], waitUntil := some 32400007 } := by
  decide +kernel

/-- A Unix time whose JST time is a number of 64 bits. -/
def Convertible (t : Int) : Prop := -2 ^ 63 ≤ t + 9 * 3600 * 1000 ∧ t + 9 * 3600 * 1000 < 2 ^ 63

/-- **C84**, all numbers.  Ids are taken modulo 65536 by every command.  filter-program takes its arguments exactly
if it takes the tags (C65) and the JST time of --clock-time and --wait-until is a number of 64
bits. -/
theorem C84_any (sid : Int) :
    ((loadServiceFilter (some sid)).sid : Int) = sid % 65536 ∧
    (∀ chunk num start o, loadRecorder sid chunk num start = .ok o → (o.sid : Int) = sid % 65536) ∧
    (∀ dur pkts o, loadSeeker sid dur pkts = .ok o → (o.sid : Int) = sid % 65536) ∧
    ∀ a : ProgramArgs,
      (∀ o, loadProgramFilter a = .ok o →
        (o.sid : Int) = a.sid % 65536 ∧ (o.eid : Int) = a.eid % 65536 ∧ (o.clockPid : Int) = a.clockPid % 65536) ∧
      ((∃ o, loadProgramFilter a = .ok o) ↔
        (∃ l, loadComponentTags a.audioTags = .ok l) ∧ (∃ l, loadComponentTags a.videoTags = .ok l) ∧
        Convertible a.clockTime ∧ ∀ t, a.waitUntil = some t → Convertible t) := by
  have hu : ∀ v, (toUint16 v : Int) = v % 65536 := by intro v; unfold toUint16; omega
  refine ⟨hu sid, fun chunk num start o ho => ?_, fun dur pkts o ho => ?_, fun a => ⟨fun o ho => ?_, ?_⟩⟩
  · unfold loadRecorder at ho
    simp only at ho
    repeat' split at ho
    all_goals first | cases ho | skip
    all_goals exact hu sid
  · unfold loadSeeker at ho
    simp only at ho
    repeat' split at ho
    all_goals first | (cases ho; done) | (cases ho; exact hu sid)
  · unfold loadProgramFilter at ho
    simp only [bind_ok] at ho
    obtain ⟨_, _, _, _, _, _, _, _, ho⟩ := ho
    cases ho
    exact ⟨hu _, hu _, hu _⟩
  · unfold loadProgramFilter
    simp only [bind_ok]
    constructor
    · rintro ⟨o, _, h1, _, h2, _, h3, _, h4, _⟩
      refine ⟨⟨_, h2⟩, ⟨_, h3⟩, toJst_iff.1 ⟨_, h1⟩, fun t ht => ?_⟩
      rw [ht] at h4
      simp only [loadWaitUntil, bind_ok] at h4
      obtain ⟨_, h5, _⟩ := h4
      exact toJst_iff.1 ⟨_, h5⟩
    · rintro ⟨⟨_, h2⟩, ⟨_, h3⟩, h1, h4⟩
      obtain ⟨_, h1⟩ := toJst_iff.2 h1
      have : ∃ w, loadWaitUntil a.waitUntil = .ok w := by
        cases hw : a.waitUntil with
        | none => exact ⟨_, rfl⟩
        | some t =>
          obtain ⟨v, hv⟩ := toJst_iff.2 (h4 t hw)
          exact ⟨some v, bind_ok.2 ⟨v, hv, rfl⟩⟩
      obtain ⟨_, h5⟩ := this
      exact ⟨_, _, h1, _, h2, _, h3, _, h5, rfl⟩

/-- Non-trivial case for C84: 65636 is service 100; a clock time just below 2^63 is refused. -/
example : ((loadServiceFilter (some 65636)).sid : Int) = 100 ∧
    loadProgramFilter { sid := 65636, eid := -1, clockPid := 0x0901, clockPcr := 5, clockTime := -9223372036854775808 } =
      .ok { sid := 100, eid := 65535, clockPid := 0x0901, clockPcr := 5, clockTime := -9223372036822375808 } ∧
    loadProgramFilter { sid := 100, eid := 1, clockPid := 0x0901, clockPcr := 5, clockTime := 9223372036854775807 } =
      .error .overflow := by
  decide +kernel

/-- The full claim of C85: seek-start runs exactly if a positive limit is given, and
uses the limits as given. -/
def C85_claim : Prop := ∀ (sid : Int) (dur pkts : Option Int),
  ((0 < dur.getD 0 ∨ 0 < pkts.getD 0) →
    ∃ o, loadSeeker sid dur pkts = .ok o ∧ o.maxDuration = dur.getD 0 ∧ (o.maxPackets : Int) = pkts.getD 0) ∧
  (¬ (0 < dur.getD 0 ∨ 0 < pkts.getD 0) → ∃ r, loadSeeker sid dur pkts = .error r)

/-- **C85** is false: the number of packets is cut to 32 bits, so 2^32 + 1 means one packet
and 2^32 means no limit (and is refused without another limit); -1 means 2^32 - 1; a negative
duration is accepted. -/
theorem C85_claim_false : ¬ C85_claim ∧
    loadSeeker 1 none (some 4294967297) = .ok { sid := 1, maxDuration := 0, maxPackets := 1 } ∧
    loadSeeker 1 none (some 4294967296) = .error (.exit 1) ∧
    loadSeeker 1 none (some (-1)) = .ok { sid := 1, maxDuration := 0, maxPackets := 4294967295 } ∧
    loadSeeker 1 (some (-1)) none = .ok { sid := 1, maxDuration := -1, maxPackets := 0 } := by
  refine ⟨fun h => ?_, by decide +kernel, by decide +kernel, by decide +kernel, by decide +kernel⟩
  obtain ⟨o, ho, _⟩ := (h 1 none (some 4294967296)).1 (by decide)
  have e : loadSeeker 1 none (some 4294967296) = .error (.exit 1) := by decide +kernel
  rw [e] at ho
  cases ho

/-- **C85**, what holds: for limits that are not negative and a number of packets below
2^32. -/
theorem C85_seeker_options_partial (sid : Int) (dur pkts : Option Int)
    (hd : ∀ d, dur = some d → 0 ≤ d) (hp : ∀ p, pkts = some p → 0 ≤ p ∧ p < 2 ^ 32) :
    ((0 < dur.getD 0 ∨ 0 < pkts.getD 0) →
      ∃ o, loadSeeker sid dur pkts = .ok o ∧ o.maxDuration = dur.getD 0 ∧ (o.maxPackets : Int) = pkts.getD 0) ∧
    (¬ (0 < dur.getD 0 ∨ 0 < pkts.getD 0) → loadSeeker sid dur pkts = .error (.exit 1)) := by
  have e : ∀ p : Int, 0 ≤ p → p < 2 ^ 32 → ((toSize p % 4294967296 : Nat) : Int) = p := by
    intro p h0 h1; unfold toSize; omega
  unfold loadSeeker
  cases dur with
  | none =>
    cases pkts with
    | none => simp
    | some p =>
      have := hp p rfl
      have := e p this.1 this.2
      simp only [Option.getD_none, Option.getD_some, beq_self_eq_true, Bool.true_and]
      refine ⟨fun h => ?_, fun h => ?_⟩
      · rw [if_neg (by simp; omega)]; exact ⟨_, rfl, rfl, this⟩
      · rw [if_pos (by simp; omega)]
  | some d =>
    have hd := hd d rfl
    cases pkts with
    | none =>
      simp only [Option.getD_none, Option.getD_some, beq_self_eq_true, Bool.and_true]
      refine ⟨fun h => ?_, fun h => ?_⟩
      · rw [if_neg (by simp; omega)]; exact ⟨_, rfl, rfl, rfl⟩
      · rw [if_pos (by simp; omega)]
    | some p =>
      have := hp p rfl
      have := e p this.1 this.2
      simp only [Option.getD_some]
      refine ⟨fun h => ?_, fun h => ?_⟩
      · rw [if_neg (by simp; omega)]; exact ⟨_, rfl, rfl, this⟩
      · rw [if_pos (by simp; omega)]

/-- **C85**, all numbers: the number of packets is taken modulo 2^32, the duration as it is; seek-start runs
exactly if one of them is not 0. -/
theorem C85_any (sid : Int) (dur pkts : Option Int) :
    ((dur.getD 0 ≠ 0 ∨ pkts.getD 0 % 2 ^ 32 ≠ 0) →
      ∃ o, loadSeeker sid dur pkts = .ok o ∧ (o.sid : Int) = sid % 65536 ∧ o.maxDuration = dur.getD 0 ∧
        (o.maxPackets : Int) = pkts.getD 0 % 2 ^ 32) ∧
    (dur.getD 0 = 0 → pkts.getD 0 % 2 ^ 32 = 0 → loadSeeker sid dur pkts = .error (.exit 1)) := by
  have hu : (toUint16 sid : Int) = sid % 65536 := by unfold toUint16; omega
  have e : ∀ p : Int, ((toSize p % 4294967296 : Nat) : Int) = p % 2 ^ 32 := by
    intro p; unfold toSize; omega
  unfold loadSeeker
  cases pkts with
  | none =>
    simp only [Option.getD_none, beq_self_eq_true, Bool.and_true]
    refine ⟨fun h => ?_, fun h _ => ?_⟩
    · rw [if_neg (by simp; omega)]; exact ⟨_, rfl, hu, rfl, rfl⟩
    · rw [if_pos (by simp; omega)]
  | some p =>
    have := e p
    simp only [Option.getD_some]
    refine ⟨fun h => ?_, fun h h' => ?_⟩
    · rw [if_neg (by simp; omega)]; exact ⟨_, rfl, hu, rfl, this⟩
    · rw [if_pos (by simp; omega)]

/-- Non-trivial case for C85. -/
example : loadSeeker 101 (some 5000) (some 300) = .ok { sid := 101, maxDuration := 5000, maxPackets := 300 } := by
  decide +kernel

end Mirakc.Props
